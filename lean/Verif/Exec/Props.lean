import Verif.Exec.Options
/-
C117 to C119: the command of pam_exec, what it is told, and what is left behind.
-/
namespace Pam.Exec
open Pam Spec

/-! ### lemmas -/

theorem prefix_options {os os' : List Str} {cmd : Str} {args rest' : List Str} (h : os ++ cmd :: args = os' ++ rest')
    (h2 : ∀ x ∈ os', IsOption x) (hc : ¬ IsOption cmd) : os' <+: os := by
  rcases List.append_eq_append_iff.1 h with ⟨a, rfl, hx⟩ | ⟨a, rfl, h⟩
  · cases a with
    | nil => simp
    | cons x a =>
      rw [List.cons_append, List.cons.injEq] at hx
      obtain ⟨rfl, -⟩ := hx
      exact absurd (h2 _ (by simp)) hc
  · exact ⟨a, rfl⟩

/-- the options of a line -/
theorem options_line {type : Str} {argv os : List Str} {cmd : Str} {args : List Str} (hl : Line argv os cmd args) (hf : ForType type os) :
    ∃ o, options type .zero argv = .done o (cmd :: args) ∧ (o.stdout = true ↔ Has "stdout" os) ∧ (o.seteuid = true ↔ Has "seteuid" os) ∧
      (o.quiet = true ↔ Has "quiet" os) ∧ (o.expose = true ↔ Has "expose_authtok" os) ∧ (∀ f, o.log = some f ↔ LogFile os f) := by
  obtain ⟨rfl, h1, h2⟩ := hl
  cases h : options type .zero (os ++ cmd :: args) with
  | ignore =>
    obtain ⟨os', rest', he, h3, h4⟩ := options_ignore type _ _ h
    have hp := prefix_options he h3 h2
    exact absurd (fun x hx => hf x (hp.subset hx)) h4
  | done o rest =>
    obtain ⟨os', he, h3, -, h5, h6, h7, h8, h9, h10⟩ := options_done type _ _ _ _ h
    obtain ⟨rfl, rfl⟩ := split_unique he h1 h3 (fun c hc => by cases hc; exact h2) h5
    refine ⟨o, rfl, by simpa [Opts.zero] using h6, by simpa [Opts.zero] using h7, by simpa [Opts.zero] using h8, by simpa [Opts.zero] using h9, ?_⟩
    intro f
    rw [h10]
    simp [Opts.zero]

/-- what the password for the command is, if there is one: PAM_AUTHTOK, or what the user is asked for -/
def World.password (w : World) : Option Str :=
  match w.tok with
  | .error _ => none
  | .ok (some p) => some p
  | .ok none => if w.prompt.1 = PAM_SUCCESS then some (w.prompt.2.getD []) else none

/-- the child of `spawn` -/
def childOf (w : World) (o : Opts) (user type : Str) (pass : Option Str) (cmd : Str) (args : List Str) : Child :=
  ⟨cmd :: args, environment w user type, pass.getD [], output o, o.seteuid⟩

/-- what is shown after it -/
def shownOf (w : World) (o : Opts) (c : Child) (cmd : Str) : List Msg :=
  (if o.stdout then (Config.physLines (w.run c).2).map fun l => Msg.info (shownLine l) else []) ++
    if (w.run c).1 = .lost ∨ (w.run c).1 = .exited 0 ∨ o.quiet then [] else [.failed cmd (w.run c).1]

theorem spawn_cases (w : World) (o : Opts) (user type : Str) (pass set : Option Str) (rest : List Str) :
    ((spawn w o user type pass set rest).child = none ∧ (spawn w o user type pass set rest).code ≠ PAM_SUCCESS ∧ (spawn w o user type pass set rest).shown = [] ∧
      (rest = [] ∨ (o.stdout = true ∧ w.pipe2 = false) ∨ (o.stdout = true ∧ w.fdopen = false) ∨ w.sigaction = false ∨ w.fork = false)) ∨
    ∃ cmd args, rest = cmd :: args ∧ (spawn w o user type pass set rest).child = some (childOf w o user type pass cmd args) ∧
      (spawn w o user type pass set rest).code = (if (w.run (childOf w o user type pass cmd args)).1 = .exited 0 then PAM_SUCCESS else PAM_SYSTEM_ERR) ∧
      (spawn w o user type pass set rest).handler = false ∧ (spawn w o user type pass set rest).fds = 0 ∧
      (spawn w o user type pass set rest).shown = shownOf w o (childOf w o user type pass cmd args) cmd := by
  unfold spawn
  dsimp only
  split
  · next h => exact Or.inl ⟨rfl, (by decide : PAM_SYSTEM_ERR ≠ PAM_SUCCESS), rfl, Or.inr (Or.inl ⟨h.1, by simpa using h.2⟩)⟩
  split
  · next h => exact Or.inl ⟨rfl, (by decide : PAM_SYSTEM_ERR ≠ PAM_SUCCESS), rfl, Or.inr (Or.inr (Or.inl ⟨h.1, by simpa using h.2⟩))⟩
  cases rest with
  | nil => exact Or.inl ⟨rfl, (by decide : PAM_SERVICE_ERR ≠ PAM_SUCCESS), rfl, Or.inl rfl⟩
  | cons cmd args =>
    dsimp only
    split
    · next h => exact Or.inl ⟨rfl, (by decide : PAM_SYSTEM_ERR ≠ PAM_SUCCESS), rfl, Or.inr (Or.inr (Or.inr (Or.inl (by simpa using h))))⟩
    split
    · next h => exact Or.inl ⟨rfl, (by decide : PAM_SYSTEM_ERR ≠ PAM_SUCCESS), rfl, Or.inr (Or.inr (Or.inr (Or.inr (by simpa using h))))⟩
    right
    refine ⟨cmd, args, rfl, ?_⟩
    have hc' : (⟨cmd :: args, environment w user type, pass.getD [], output o, o.seteuid⟩ : Child) = childOf w o user type pass cmd args := rfl
    rw [hc']
    generalize childOf w o user type pass cmd args = c
    unfold shownOf
    rcases hr : w.run c with ⟨e, out⟩
    cases e with
    | exited n =>
      cases n with
      | zero => simp
      | succ n => simp
    | signaled n => simp
    | other => simp
    | lost => simp

/-- the cases of `call_exec` -/
theorem callExec_cases (type : Str) (argv : List Str) (w : World) (os : List Str) (cmd : Str) (args : List Str) (hl : Line argv os cmd args) (hf : ForType type os) :
    ∃ o, (o.stdout = true ↔ Has "stdout" os) ∧ (o.seteuid = true ↔ Has "seteuid" os) ∧ (o.quiet = true ↔ Has "quiet" os) ∧ (∀ f, o.log = some f ↔ LogFile os f) ∧
      ((∃ e, w.user = .error e ∧ (callExec type argv w).child = none ∧ (callExec type argv w).code = (if e = PAM_CONV_AGAIN then PAM_INCOMPLETE else e)) ∨
       ∃ user, w.user = .ok user ∧
        ((¬ (Has "expose_authtok" os ∧ (type = "auth".toList ∨ type = "password".toList)) ∧ ∃ set, callExec type argv w = spawn w o user type none set (cmd :: args)) ∨
         ((Has "expose_authtok" os ∧ (type = "auth".toList ∨ type = "password".toList)) ∧
          ((w.password = none ∧ (callExec type argv w).child = none ∧ ((∃ e, w.tok = .error e ∧ (callExec type argv w).code = e) ∨
              (w.prompt.1 ≠ PAM_SUCCESS ∧ (callExec type argv w).code ≠ PAM_SUCCESS))) ∨
           (w.pipe1 = false ∧ (callExec type argv w).child = none ∧ (callExec type argv w).code = PAM_SYSTEM_ERR) ∨
           ∃ p set, w.password = some p ∧ callExec type argv w = spawn w o user type (some (p.take (maxResp - 1))) set (cmd :: args))))) := by
  obtain ⟨o, h0, h1, h2, h3, h4, h5⟩ := options_line hl hf
  refine ⟨o, h1, h2, h3, h5, ?_⟩
  have hne : argv ≠ [] := by rw [hl.1]; simp
  unfold callExec
  rw [if_neg hne, h0]
  dsimp only
  cases hu : w.user with
  | error e => exact Or.inl ⟨e, rfl, rfl, rfl⟩
  | ok user =>
    right
    refine ⟨user, rfl, ?_⟩
    dsimp only
    rw [← h4]
    by_cases he : o.expose = true ∧ (type = "auth".toList ∨ type = "password".toList)
    · right
      refine ⟨he, ?_⟩
      rw [if_pos he]
      unfold World.password
      cases ht : w.tok with
      | error e => exact Or.inl ⟨rfl, rfl, Or.inl ⟨e, rfl, rfl⟩⟩
      | ok t =>
        cases t with
        | some p =>
          dsimp only
          by_cases hp : w.pipe1 = true
          · rw [if_neg (by simp [hp])]
            exact Or.inr (Or.inr ⟨p, none, rfl, rfl⟩)
          · rw [if_pos hp]
            exact Or.inr (Or.inl ⟨by simpa using hp, rfl, rfl⟩)
        | none =>
          dsimp only
          by_cases hc : w.prompt.1 = PAM_SUCCESS
          · rw [if_neg (not_not_intro hc), if_pos hc]
            by_cases hp : w.pipe1 = true
            · rw [if_neg (by simp [hp])]
              exact Or.inr (Or.inr ⟨_, _, rfl, rfl⟩)
            · rw [if_pos hp]
              exact Or.inr (Or.inl ⟨by simpa using hp, rfl, rfl⟩)
          · rw [if_pos hc, if_neg hc]
            refine Or.inl ⟨rfl, rfl, Or.inr ⟨hc, ?_⟩⟩
            show (if w.prompt.1 = PAM_CONV_AGAIN then PAM_INCOMPLETE else w.prompt.1) ≠ PAM_SUCCESS
            split
            · decide
            · exact hc
    · left
      refine ⟨he, none, ?_⟩
      rw [if_neg he]

/-- without a command, or for another type, nothing is run -/
theorem no_line (type : Str) (argv : List Str) (w : World) (h : ∀ os cmd args, Line argv os cmd args → ForType type os → False) :
    (callExec type argv w).child = none := by
  unfold callExec
  split
  · rfl
  cases ho : options type .zero argv with
  | ignore => rfl
  | done o rest =>
    obtain ⟨os, rfl, h1, h2, h3, -⟩ := options_done type _ _ _ _ ho
    have hr : rest = [] := by
      cases rest with
      | nil => rfl
      | cons c r => exact (h os c r ⟨rfl, h1, h3 c rfl⟩ h2).elim
    subst hr
    have hs : ∀ user pass set, (spawn w o user type pass set []).child = none := by
      intro user pass set
      rcases spawn_cases w o user type pass set [] with ⟨h, -⟩ | ⟨_, _, h, -⟩
      · exact h
      · cases h
    dsimp only
    cases w.user with
    | error e => rfl
    | ok user =>
      dsimp only
      split
      · cases w.tok with
        | error e => rfl
        | ok t =>
          cases t with
          | some p => dsimp only; split
                      · rfl
                      · exact hs _ _ _
          | none => dsimp only; split
                    · rfl
                    · split
                      · rfl
                      · exact hs _ _ _
      · exact hs _ _ _

/-! ### C117: the command -/

/-- codes of errors are not PAM_SUCCESS -/
def World.Sane (w : World) : Prop := w.user ≠ .error PAM_SUCCESS ∧ w.tok ≠ .error PAM_SUCCESS

/-- what all children are -/
theorem child_spec {type : Str} {argv : List Str} {w : World} {c : Child} (h : (callExec type argv w).child = some c) :
    ∃ os cmd args user o, Line argv os cmd args ∧ ForType type os ∧ w.user = .ok user ∧
      ((o.stdout = true ↔ Has "stdout" os) ∧ (o.seteuid = true ↔ Has "seteuid" os) ∧ (o.quiet = true ↔ Has "quiet" os) ∧ (∀ f, o.log = some f ↔ LogFile os f)) ∧
      (∃ pass set, callExec type argv w = spawn w o user type pass set (cmd :: args) ∧ c = childOf w o user type pass cmd args ∧
        ((¬ (Has "expose_authtok" os ∧ (type = "auth".toList ∨ type = "password".toList)) ∧ pass = none) ∨
         ((Has "expose_authtok" os ∧ (type = "auth".toList ∨ type = "password".toList)) ∧ ∃ p, w.password = some p ∧ pass = some (p.take (maxResp - 1))))) := by
  by_cases hl : ∃ os cmd args, Line argv os cmd args ∧ ForType type os
  · obtain ⟨os, cmd, args, hl, hf⟩ := hl
    obtain ⟨o, h1, h2, h3, h4, h5⟩ := callExec_cases type argv w os cmd args hl hf
    have key : ∀ user pass set, callExec type argv w = spawn w o user type pass set (cmd :: args) → c = childOf w o user type pass cmd args := by
      intro user pass set he
      rw [he] at h
      rcases spawn_cases w o user type pass set (cmd :: args) with ⟨hn, -⟩ | ⟨cmd', args', hr, hc, -⟩
      · rw [hn] at h; cases h
      · rw [hc] at h; cases hr; cases h; rfl
    rcases h5 with ⟨e, hu, hn, -⟩ | ⟨user, hu, h5⟩
    · rw [hn] at h; cases h
    · refine ⟨os, cmd, args, user, o, hl, hf, hu, ⟨h1, h2, h3, h4⟩, ?_⟩
      rcases h5 with ⟨hx, set, he⟩ | ⟨hx, ⟨-, hn, -⟩ | ⟨-, hn, -⟩ | ⟨p, set, hp, he⟩⟩
      · exact ⟨none, set, he, key _ _ _ he, Or.inl ⟨hx, rfl⟩⟩
      · rw [hn] at h; cases h
      · rw [hn] at h; cases h
      · exact ⟨_, set, he, key _ _ _ he, Or.inr ⟨hx, p, hp, rfl⟩⟩
  · rw [no_line type argv w fun os cmd args hl' hf => hl ⟨os, cmd, args, hl', hf⟩] at h
    cases h

/-- What is run is the first argument that is no option, with the arguments that follow, for the type that type= asks for; its output goes where the options say, and seteuid
is obeyed. -/
theorem C117_command {type : Str} {argv : List Str} {w : World} {c : Child} (h : (callExec type argv w).child = some c) :
    ∃ os cmd args, Line argv os cmd args ∧ ForType type os ∧ c.argv = cmd :: args ∧ (c.seteuid = true ↔ Has "seteuid" os) ∧ (c.out = .pipe ↔ Has "stdout" os) ∧
      (∀ f, c.out = .file f ↔ ¬ Has "stdout" os ∧ LogFile os f) := by
  obtain ⟨os, cmd, args, user, o, hl, hf, -, ⟨h1, h2, -, h4⟩, pass, set, -, rfl, -⟩ := child_spec h
  refine ⟨os, cmd, args, hl, hf, rfl, h2, ?_, ?_⟩
  · rw [← h1]
    show output o = .pipe ↔ _
    unfold output
    split
    · next h => simp [h]
    · next h =>
      cases o.log <;> simp [h]
  · intro f
    rw [← h1, ← h4]
    show output o = .file f ↔ _
    unfold output
    split
    · next h => simp [h]
    · next h =>
      cases o.log <;> simp [h]

/-- With a command, and no option that asks for another type, it is run, if the user is known, the password can be had when it is asked for, and the system calls succeed. -/
theorem C117_runs {type : Str} {argv os : List Str} {cmd : Str} {args : List Str} {w : World} {user : Str} (hl : Line argv os cmd args) (hf : ForType type os)
    (hu : w.user = .ok user) (hp : w.password ≠ none) (hs : w.pipe1 = true ∧ w.pipe2 = true ∧ w.fdopen = true ∧ w.sigaction = true ∧ w.fork = true) :
    ∃ c, (callExec type argv w).child = some c := by
  obtain ⟨o, -, -, -, -, h5⟩ := callExec_cases type argv w os cmd args hl hf
  have key : ∀ user pass set, callExec type argv w = spawn w o user type pass set (cmd :: args) → ∃ c, (callExec type argv w).child = some c := by
    intro user pass set he
    rcases spawn_cases w o user type pass set (cmd :: args) with ⟨-, -, -, hn⟩ | ⟨cmd', args', hr, hc, -⟩
    · simp [hs] at hn
    · exact ⟨_, by rw [he]; exact hc⟩
  rcases h5 with ⟨e, hu', -⟩ | ⟨user', -, h5⟩
  · rw [hu] at hu'; cases hu'
  · rcases h5 with ⟨-, set, he⟩ | ⟨-, ⟨hn, -⟩ | ⟨hn, -⟩ | ⟨p, set, -, he⟩⟩
    · exact key _ _ _ he
    · exact absurd hn hp
    · rw [hs.1] at hn; cases hn
    · exact key _ _ _ he

/-- If an option asks for another type, nothing is run and the module is ignored. -/
theorem C117_ignored {type : Str} {os rest : List Str} (w : World) (h : ∀ x ∈ os, IsOption x) (hf : ¬ ForType type os) :
    (callExec type (os ++ rest) w).code = PAM_IGNORE ∧ (callExec type (os ++ rest) w).child = none := by
  have hne : os ++ rest ≠ [] := by
    rintro he
    rw [List.append_eq_nil_iff.1 he |>.1] at hf
    exact hf (by intro x hx; cases hx)
  unfold callExec
  rw [if_neg hne, ignore_of type .zero h hf]
  exact ⟨rfl, rfl⟩

/-- The module succeeds if, and only if, the command was run and ended with status 0. -/
theorem C117_success {type : Str} {argv : List Str} {w : World} (hw : w.Sane) :
    (callExec type argv w).code = PAM_SUCCESS ↔ ∃ c, (callExec type argv w).child = some c ∧ (w.run c).1 = .exited 0 := by
  by_cases hl : ∃ os cmd args, Line argv os cmd args ∧ ForType type os
  · obtain ⟨os, cmd, args, hl, hf⟩ := hl
    obtain ⟨o, -, -, -, -, h5⟩ := callExec_cases type argv w os cmd args hl hf
    have none_case : (callExec type argv w).child = none → (callExec type argv w).code ≠ PAM_SUCCESS →
        ((callExec type argv w).code = PAM_SUCCESS ↔ ∃ c, (callExec type argv w).child = some c ∧ (w.run c).1 = .exited 0) := by
      intro h1 h2
      rw [h1]
      exact ⟨fun h => absurd h h2, fun ⟨c, h, _⟩ => by cases h⟩
    have key : ∀ user pass set, callExec type argv w = spawn w o user type pass set (cmd :: args) →
        ((callExec type argv w).code = PAM_SUCCESS ↔ ∃ c, (callExec type argv w).child = some c ∧ (w.run c).1 = .exited 0) := by
      intro user pass set he
      rcases spawn_cases w o user type pass set (cmd :: args) with ⟨hn, hc, -⟩ | ⟨cmd', args', hr, hc, hcode, -⟩
      · exact none_case (by rw [he]; exact hn) (by rw [he]; exact hc)
      · cases hr
        rw [he, hc, hcode]
        constructor
        · intro h
          split at h
          · next h' => exact ⟨_, rfl, h'⟩
          · exact absurd h (by decide)
        · rintro ⟨c, h, h'⟩
          cases h
          rw [if_pos h']
    rcases h5 with ⟨e, hu, hn, hc⟩ | ⟨user, -, h5⟩
    · refine none_case hn ?_
      rw [hc]
      split
      · decide
      · intro h; exact hw.1 (by rw [hu, h])
    · rcases h5 with ⟨-, set, he⟩ | ⟨-, ⟨-, hn, hc⟩ | ⟨-, hn, hc⟩ | ⟨p, set, -, he⟩⟩
      · exact key _ _ _ he
      · refine none_case hn ?_
        rcases hc with ⟨e, ht, hc⟩ | ⟨-, hc⟩
        · rw [hc]; intro h; exact hw.2 (by rw [ht, h])
        · exact hc
      · exact none_case hn (by rw [hc]; decide)
      · exact key _ _ _ he
  · rw [no_line type argv w fun os cmd args hl' hf => hl ⟨os, cmd, args, hl', hf⟩]
    refine ⟨fun h => ?_, fun ⟨c, h, _⟩ => by cases h⟩
    exfalso
    revert h
    unfold callExec
    split
    · decide
    cases ho : options type .zero argv with
    | ignore => exact (by decide : PAM_IGNORE ≠ PAM_SUCCESS)
    | done o rest =>
      obtain ⟨os, rfl, h1, h2, h3, -⟩ := options_done type _ _ _ _ ho
      have hr : rest = [] := by
        cases rest with
        | nil => rfl
        | cons c r => exact (hl ⟨os, c, r, ⟨rfl, h1, h3 c rfl⟩, h2⟩).elim
      subst hr
      have hs : ∀ user pass set, (spawn w o user type pass set []).code ≠ PAM_SUCCESS := by
        intro user pass set
        rcases spawn_cases w o user type pass set [] with ⟨-, h, -⟩ | ⟨_, _, h, -⟩
        · exact h
        · cases h
      dsimp only
      cases hu : w.user with
      | error e =>
        show (if e = PAM_CONV_AGAIN then PAM_INCOMPLETE else e) ≠ PAM_SUCCESS
        split
        · decide
        · intro h; exact hw.1 (by rw [hu, h])
      | ok user =>
        dsimp only
        split
        · cases ht : w.tok with
          | error e => intro h; exact hw.2 (by rw [ht]; exact congrArg Except.error h)
          | ok t =>
            cases t with
            | some p => dsimp only; split
                        · exact (by decide : PAM_SYSTEM_ERR ≠ PAM_SUCCESS)
                        · exact hs _ _ _
            | none => dsimp only; split
                      · next hp =>
                        show (if w.prompt.1 = PAM_CONV_AGAIN then PAM_INCOMPLETE else w.prompt.1) ≠ PAM_SUCCESS
                        split
                        · decide
                        · exact hp
                      · split
                        · exact (by decide : PAM_SYSTEM_ERR ≠ PAM_SUCCESS)
                        · exact hs _ _ _
        · exact hs _ _ _

theorem shownLine_eq {l : Str} (h : '\n' ∉ l ∧ NUL ∉ l) (r : Str) : shownLine (l ++ '\n' :: r) = l ∧ shownLine l = l := by
  have ha : ∀ x ∈ l, decide (x ≠ '\n' ∧ x ≠ NUL) = true := fun x hx => by
    have h1 : x ≠ '\n' := by rintro rfl; exact h.1 hx
    have h2 : x ≠ NUL := by rintro rfl; exact h.2 hx
    simp [h1, h2]
  unfold shownLine
  have h2 : ∀ r, (l ++ r).takeWhile (fun c => c ≠ '\n' ∧ c ≠ NUL) = l ++ r.takeWhile (fun c => c ≠ '\n' ∧ c ≠ NUL) := fun r => List.takeWhile_append_of_pos ha
  refine ⟨by rw [h2]; simp, ?_⟩
  have := h2 []
  simpa using this

theorem lines_shown (ls : List Str) (last : Str) (h : ∀ l ∈ ls, '\n' ∉ l ∧ NUL ∉ l) (hl : '\n' ∉ last ∧ NUL ∉ last) :
    (Config.physLines ((ls.map (· ++ ['\n'])).flatten ++ last)).map shownLine = ls ++ (if last = [] then [] else [last]) := by
  induction ls with
  | nil =>
    by_cases he : last = []
    · subst he; rfl
    · rw [if_neg he]
      show (Config.physLines last).map shownLine = [last]
      rw [Small.physLines_only last hl.1 he]
      show [shownLine last] = _
      rw [(shownLine_eq hl []).2]
  | cons l ls ih =>
    have := ih (fun x hx => h x (by simp [hx]))
    rw [List.map_cons, List.flatten_cons, show l ++ ['\n'] ++ (ls.map (· ++ ['\n'])).flatten ++ last = l ++ '\n' :: ((ls.map (· ++ ['\n'])).flatten ++ last) by simp,
      Config.physLines_line _ _ (h l (by simp)).1, List.map_cons, this, (shownLine_eq (h l (by simp)) []).1]
    rfl

/-- With stdout each line of the output is shown, in its order; without it nothing of it.  After them the user is told that the command failed, unless quiet is given. -/
theorem C117_shown {type : Str} {argv os : List Str} {cmd : Str} {args : List Str} {w : World} {c : Child} (h : (callExec type argv w).child = some c)
    (hl : Line argv os cmd args) (hw : (w.run c).1 ≠ .lost) (ls : List Str) (last : Str) (hls : ∀ l ∈ last :: ls, '\n' ∉ l ∧ NUL ∉ l)
    (ho : (w.run c).2 = (ls.map (· ++ ['\n'])).flatten ++ last) :
    ∃ shown failed, (callExec type argv w).shown = shown ++ failed ∧
      (Has "stdout" os → shown = (ls ++ if last = [] then [] else [last]).map .info) ∧ (¬ Has "stdout" os → shown = []) ∧
      ((w.run c).1 = .exited 0 ∨ Has "quiet" os → failed = []) ∧ ((w.run c).1 ≠ .exited 0 ∧ ¬ Has "quiet" os → failed = [.failed cmd (w.run c).1]) := by
  obtain ⟨os', cmd', args', user, o, hl', hf, -, ⟨h1, -, h3, -⟩, pass, set, he, hc, -⟩ := child_spec h
  obtain ⟨rfl, hr⟩ := split_unique (hl.1.symm.trans hl'.1) hl.2.1 hl'.2.1 (fun c hc => by cases hc; exact hl.2.2) (fun c hc => by cases hc; exact hl'.2.2)
  cases hr
  rcases spawn_cases w o user type pass set (cmd :: args) with ⟨hn, -⟩ | ⟨cmd', args', hr, -, -, -, -, hs⟩
  · rw [he, hn] at h; cases h
  cases hr
  rw [← hc] at hs
  rw [he, hs]
  refine ⟨_, _, rfl, ?_, ?_, ?_, ?_⟩
  · intro hh
    rw [if_pos (h1.2 hh), ho, ← lines_shown ls last (fun l hx => hls l (by simp [hx])) (hls last (by simp)), List.map_map]
    rfl
  · intro hh
    rw [if_neg (fun h => hh (h1.1 h))]
  · rintro (hh | hh)
    · rw [if_pos (Or.inr (Or.inl hh))]
    · rw [if_pos (Or.inr (Or.inr (h3.2 hh)))]
  · rintro ⟨ha, hb⟩
    rw [if_neg]
    rintro (h | h | h)
    · exact hw h
    · exact ha h
    · exact hb (h3.1 h)

/-- A change of credentials, and the first round of a change of the password, run nothing. -/
theorem C117_functions (argv : List Str) (w : World) : (call .setcred argv w).child = none ∧ (call .setcred argv w).code = PAM_IGNORE ∧
    (call (.password true) argv w).child = none ∧ (call (.password true) argv w).code = PAM_SUCCESS ∧
    call .auth argv w = callExec "auth".toList argv w ∧ call (.password false) argv w = callExec "password".toList argv w ∧
    call .account argv w = callExec "account".toList argv w ∧ call .openSession argv w = callExec "open_session".toList argv w ∧
    call .closeSession argv w = callExec "close_session".toList argv w := ⟨rfl, rfl, rfl, rfl, rfl, rfl, rfl, rfl, rfl⟩

/-! ### C118: what the command is told -/

/-- The command can read the password of the user if, and only if, expose_authtok is given and the function is one that has to do with passwords.  What it reads is at most 511
bytes of it: the claim is that it is the password. -/
theorem C118_password_partial {type : Str} {argv os : List Str} {cmd : Str} {args : List Str} {w : World} {c : Child} (h : (callExec type argv w).child = some c)
    (hl : Line argv os cmd args) :
    (Has "expose_authtok" os ∧ (type = "auth".toList ∨ type = "password".toList) → ∃ p, w.password = some p ∧ (p.length < 512 → c.stdin = p) ∧ c.stdin = p.take 511) ∧
    (¬ (Has "expose_authtok" os ∧ (type = "auth".toList ∨ type = "password".toList)) → c.stdin = []) := by
  obtain ⟨os', cmd', args', user, o, hl', hf, -, -, pass, set, he, hc, hp⟩ := child_spec h
  obtain ⟨rfl, hr⟩ := split_unique (hl.1.symm.trans hl'.1) hl.2.1 hl'.2.1 (fun c hc => by cases hc; exact hl.2.2) (fun c hc => by cases hc; exact hl'.2.2)
  subst hc
  rcases hp with ⟨hx, rfl⟩ | ⟨hx, p, hp, rfl⟩
  · exact ⟨fun h => absurd h hx, fun _ => rfl⟩
  · refine ⟨fun _ => ⟨p, hp, fun hlen => ?_, rfl⟩, fun h => absurd hx h⟩
    show p.take (maxResp - 1) = p
    rw [List.take_of_length_le]
    show p.length ≤ 512 - 1
    omega

theorem getenv_append_right {e e' : List Str} {n v : Str} (h : NoEnv e n) : Getenv (e ++ e') n v ↔ Getenv e' n v := by
  constructor
  · rintro ⟨a, b, he, ha⟩
    rcases List.append_eq_append_iff.1 he with ⟨x, rfl, rfl⟩ | ⟨x, rfl, hx⟩
    · exact ⟨x, b, rfl, fun y hy => ha y (by simp [hy])⟩
    · cases x with
      | nil => exact ⟨[], b, by simpa using hx.symm, nofun⟩
      | cons y x =>
        rw [List.cons_append, List.cons.injEq] at hx
        refine absurd ⟨v, ?_⟩ (h y (by simp))
        rw [← hx.1]; simp
  · rintro ⟨a, b, rfl, ha⟩
    refine ⟨e ++ a, b, by simp, fun y hy => ?_⟩
    rcases List.mem_append.1 hy with hy | hy
    · exact h y hy
    · exact ha y hy

theorem getenv_append_left {e e' : List Str} {n v : Str} (h : NoEnv e' n) : Getenv (e ++ e') n v ↔ Getenv e n v := by
  constructor
  · rintro ⟨a, b, he, ha⟩
    rcases List.append_eq_append_iff.1 he with ⟨x, rfl, rfl⟩ | ⟨x, rfl, hx⟩
    · exact absurd ⟨v, by simp⟩ (h (n ++ '=' :: v) (by simp))
    · cases x with
      | nil => exact absurd ⟨v, by simp⟩ (h (n ++ '=' :: v) (by rw [show e' = _ by simpa using hx.symm]; simp))
      | cons y x =>
        rw [List.cons_append, List.cons.injEq] at hx
        obtain ⟨rfl, -⟩ := hx
        exact ⟨a, x, rfl, ha⟩
  · rintro ⟨a, b, rfl, ha⟩
    exact ⟨a, b ++ e', by simp, ha⟩

theorem getenv_item (name : String) (v' : Option Str) (v : Str) : Getenv (item name v') name.toList v ↔ v' = some v := by
  cases v' with
  | none => exact ⟨fun ⟨a, b, h, _⟩ => by simp [item] at h, nofun⟩
  | some x =>
    constructor
    · rintro ⟨a, b, h, ha⟩
      cases a with
      | nil =>
        simp only [item, List.nil_append, List.cons.injEq] at h
        have := List.append_cancel_left h.1
        cases this; rfl
      | cons y a => simp [item] at h
    · intro h
      cases h
      exact ⟨[], [], rfl, nofun⟩

theorem noEnv_item {name : String} {n : Str} (h1 : '=' ∉ name.toList) (h2 : '=' ∉ n) (h : name.toList ≠ n) (v : Option Str) : NoEnv (item name v) n := by
  cases v with
  | none => nofun
  | some v =>
    intro x hx
    simp only [item, List.mem_singleton] at hx
    subst hx
    rintro ⟨t, ht⟩
    have key : ∀ (a b x y : Str), '=' ∉ a → '=' ∉ b → a ++ '=' :: x = b ++ '=' :: y → a = b := by
      intro a
      induction a with
      | nil =>
        intro b x y _ hb he
        cases b with
        | nil => rfl
        | cons c b => cases he; exact absurd (by simp) hb
      | cons c a ih =>
        intro b x y ha hb he
        cases b with
        | nil => cases he; exact absurd (by simp) ha
        | cons d b =>
          rw [List.cons_append, List.cons_append, List.cons.injEq] at he
          rw [he.1, ih b x y (fun h => ha (by simp [h])) (fun h => hb (by simp [h])) he.2]
    exact h (key _ _ _ _ h2 h1 (by simpa using ht)).symm

/-- the names of the six variables -/
def names : List String := ["PAM_SERVICE", "PAM_USER", "PAM_TTY", "PAM_RHOST", "PAM_RUSER", "PAM_TYPE"]

/-- The command finds the service, the user, the terminal, the remote host and user, and the type in its environment, and all other variables as the handle has them.
This is proved for a handle whose own environment has none of the six variables. -/
theorem C118_environment_partial {type : Str} {argv : List Str} {w : World} {c : Child} {user : Str} (h : (callExec type argv w).child = some c) (hu : w.user = .ok user)
    (he : ∀ n ∈ names, NoEnv w.env n.toList) (v : Str) :
    (Getenv c.env "PAM_SERVICE".toList v ↔ w.service = some v) ∧ (Getenv c.env "PAM_USER".toList v ↔ v = user) ∧
    (Getenv c.env "PAM_TTY".toList v ↔ w.tty = some v) ∧ (Getenv c.env "PAM_RHOST".toList v ↔ w.rhost = some v) ∧ (Getenv c.env "PAM_RUSER".toList v ↔ w.ruser = some v) ∧
    (Getenv c.env "PAM_TYPE".toList v ↔ v = type) := by
  obtain ⟨os', cmd', args', user', o, -, -, hu', -, pass, set, -, rfl, -⟩ := child_spec h
  rw [hu] at hu'
  cases hu'
  have e1 : (childOf w o user type pass cmd' args').env = w.env ++ (item "PAM_SERVICE" w.service ++ (item "PAM_USER" (some user) ++ (item "PAM_TTY" w.tty ++
      (item "PAM_RHOST" w.rhost ++ (item "PAM_RUSER" w.ruser ++ item "PAM_TYPE" (some type)))))) := by
    show environment w user type = _
    simp [environment, item]
  rw [e1]
  have no : ∀ (a b : String) (v : Option Str), (a ∈ names ∧ b ∈ names ∧ a ≠ b) → NoEnv (item a v) b.toList := by
    intro a b v ⟨ha, hb, hab⟩
    have hd : ∀ a ∈ names, '=' ∉ a.toList := by decide
    exact noEnv_item (hd a ha) (hd b hb) (fun h => hab (String.toList_inj.1 h)) v
  have app : ∀ (e e' : List Str) (n : Str), NoEnv e n → NoEnv e' n → NoEnv (e ++ e') n := by
    intro e e' n h1 h2 x hx
    rcases List.mem_append.1 hx with hx | hx
    · exact h1 x hx
    · exact h2 x hx
  refine ⟨?_, ?_, ?_, ?_, ?_, ?_⟩
  · rw [getenv_append_right (he _ (by decide)), getenv_append_left, getenv_item]
    exact app _ _ _ (no _ _ _ (by decide)) (app _ _ _ (no _ _ _ (by decide)) (app _ _ _ (no _ _ _ (by decide)) (app _ _ _ (no _ _ _ (by decide)) (no _ _ _ (by decide)))))
  · rw [getenv_append_right (he _ (by decide)), getenv_append_right (no _ _ _ (by decide)), getenv_append_left, getenv_item]
    · simp [eq_comm]
    exact (app _ _ _ (no _ _ _ (by decide)) (app _ _ _ (no _ _ _ (by decide)) (app _ _ _ (no _ _ _ (by decide)) (no _ _ _ (by decide)))))
  · rw [getenv_append_right (he _ (by decide)), getenv_append_right (no _ _ _ (by decide)), getenv_append_right (no _ _ _ (by decide)), getenv_append_left, getenv_item]
    exact ((app _ _ _ (no _ _ _ (by decide)) (app _ _ _ (no _ _ _ (by decide)) (no _ _ _ (by decide)))))
  · rw [getenv_append_right (he _ (by decide)), getenv_append_right (no _ _ _ (by decide)), getenv_append_right (no _ _ _ (by decide)), getenv_append_right (no _ _ _ (by decide)),
      getenv_append_left, getenv_item]
    exact (app _ _ _ (no _ _ _ (by decide)) (no _ _ _ (by decide)))
  · rw [getenv_append_right (he _ (by decide)), getenv_append_right (no _ _ _ (by decide)), getenv_append_right (no _ _ _ (by decide)), getenv_append_right (no _ _ _ (by decide)),
      getenv_append_right (no _ _ _ (by decide)), getenv_append_left, getenv_item]
    exact no _ _ _ (by decide)
  · rw [getenv_append_right (he _ (by decide)), getenv_append_right (no _ _ _ (by decide)), getenv_append_right (no _ _ _ (by decide)), getenv_append_right (no _ _ _ (by decide)),
      getenv_append_right (no _ _ _ (by decide)), getenv_append_right (no _ _ _ (by decide)), getenv_item]
    simp [eq_comm]

/-- All other variables are those of the handle. -/
theorem C118_other {type : Str} {argv : List Str} {w : World} {c : Child} (h : (callExec type argv w).child = some c) {n : Str} (hn : '=' ∉ n)
    (ho : ∀ m ∈ names, n ≠ m.toList) (v : Str) : Getenv c.env n v ↔ Getenv w.env n v := by
  obtain ⟨os', cmd', args', user, o, -, -, -, -, pass, set, -, rfl, -⟩ := child_spec h
  have e1 : (childOf w o user type pass cmd' args').env = w.env ++ (item "PAM_SERVICE" w.service ++ (item "PAM_USER" (some user) ++ (item "PAM_TTY" w.tty ++
      (item "PAM_RHOST" w.rhost ++ (item "PAM_RUSER" w.ruser ++ item "PAM_TYPE" (some type)))))) := by
    show environment w user type = _
    simp [environment, item]
  rw [e1]
  have no : ∀ (a : String) (v : Option Str), a ∈ names → NoEnv (item a v) n := by
    intro a v ha
    have hd : ∀ a ∈ names, '=' ∉ a.toList := by decide
    exact noEnv_item (hd a ha) hn (fun h => ho a ha h.symm) v
  have app : ∀ (e e' : List Str), NoEnv e n → NoEnv e' n → NoEnv (e ++ e') n := by
    intro e e' h1 h2 x hx
    rcases List.mem_append.1 hx with hx | hx
    · exact h1 x hx
    · exact h2 x hx
  exact getenv_append_left (app _ _ (no _ _ (by decide)) (app _ _ (no _ _ (by decide)) (app _ _ (no _ _ (by decide)) (app _ _ (no _ _ (by decide))
    (app _ _ (no _ _ (by decide)) (no _ _ (by decide)))))))

/-- a system in which all succeeds; the command ends with status 0 if the first user it finds is "root", and writes a line -/
def demo : World where
  user := .ok "tux".toList
  tok := .ok (some "secret".toList)
  prompt := (PAM_CONV_ERR, none)
  service := some "login".toList
  tty := none
  rhost := none
  ruser := none
  env := ["LANG=C".toList]
  pipe1 := true
  pipe2 := true
  fdopen := true
  sigaction := true
  fork := true
  run := fun c => (if c.stdin = "secret".toList then .exited 0 else .exited 1, "hello\nworld".toList)

example : (callExec "auth".toList ["expose_authtok".toList, "STDOUT".toList, "type=auth".toList, "/bin/x".toList, "quiet".toList] demo).child =
    some ⟨["/bin/x".toList, "quiet".toList], ["LANG=C".toList, "PAM_SERVICE=login".toList, "PAM_USER=tux".toList, "PAM_TYPE=auth".toList], "secret".toList, .pipe, false⟩ := by
  decide +kernel
example : (callExec "auth".toList ["expose_authtok".toList, "STDOUT".toList, "/bin/x".toList] demo).code = PAM_SUCCESS ∧
    (callExec "auth".toList ["expose_authtok".toList, "STDOUT".toList, "/bin/x".toList] demo).shown = [.info "hello".toList, .info "world".toList] := by decide +kernel
example : (callExec "account".toList ["expose_authtok".toList, "/bin/x".toList] demo).code = PAM_SYSTEM_ERR ∧
    (callExec "account".toList ["expose_authtok".toList, "/bin/x".toList] demo).shown = [.failed "/bin/x".toList (.exited 1)] := by decide +kernel
example : Line ["Expose_authtok".toList, "log=/x".toList, "/bin/x".toList, "quiet".toList] ["Expose_authtok".toList, "log=/x".toList] "/bin/x".toList ["quiet".toList] := by
  refine ⟨rfl, ?_, ?_⟩
  · intro o ho
    simp only [List.mem_cons, List.not_mem_nil, or_false] at ho
    rcases ho with rfl | rfl
    · exact Or.inl ⟨"expose_authtok", by simp, (by decide +kernel : List.map lower "Expose_authtok".toList = "expose_authtok".toList)⟩
    · exact Or.inr ⟨"/x".toList, Or.inl ⟨"log".toList, by decide, by decide⟩⟩
  · intro h
    rcases kind_cases "/bin/x".toList with ⟨-, h'⟩ | h'
    · exact h' h
    · have : kind "/bin/x".toList = .cmd := by decide +kernel
      simp only [this, reduceCtorEq, false_and, exists_false, or_false] at h'
example : (callExec "session".toList ["type=auth".toList, "/bin/x".toList] demo).code = PAM_IGNORE := by decide +kernel
example : demo.Sane ∧ (∀ n ∈ names, NoEnv demo.env n.toList) := by
  refine ⟨⟨nofun, nofun⟩, ?_⟩
  intro n hn x hx
  simp only [demo, List.mem_singleton] at hx
  subst hx
  have : ∀ n ∈ names, (n.toList ++ ['=']).isPrefixOf "LANG=C".toList = false := by decide +kernel
  intro hp
  have h2 := List.isPrefixOf_iff_prefix.2 hp
  rw [this n hn] at h2
  cases h2

/-- A password of 512 bytes is cut. -/
theorem C118_password_counterexample : ∃ (w : World) (p : Str) (argv os : List Str) (cmd : Str) (c : Child), w.password = some p ∧ Line argv os cmd [] ∧
    Has "expose_authtok" os ∧ (callExec "auth".toList argv w).child = some c ∧ c.stdin ≠ p := by
  refine ⟨{ demo with tok := .ok (some (List.replicate 512 'a')) }, List.replicate 512 'a', ["expose_authtok".toList, "/bin/x".toList], ["expose_authtok".toList], "/bin/x".toList,
    ⟨["/bin/x".toList], ["LANG=C".toList, "PAM_SERVICE=login".toList, "PAM_USER=tux".toList, "PAM_TYPE=auth".toList], List.replicate 511 'a', .null, false⟩, rfl, ⟨rfl, ?_, ?_⟩,
    ⟨_, List.mem_singleton.2 rfl, (by decide +kernel : List.map lower "expose_authtok".toList = "expose_authtok".toList)⟩, by decide +kernel, by decide +kernel⟩
  · intro o ho
    rw [List.mem_singleton.1 ho]
    exact Or.inl ⟨"expose_authtok", by simp, (by decide +kernel : List.map lower "expose_authtok".toList = "expose_authtok".toList)⟩
  · intro h
    rcases kind_cases "/bin/x".toList with ⟨-, h'⟩ | h'
    · exact h' h
    · have : kind "/bin/x".toList = .cmd := by decide +kernel
      simp only [this, reduceCtorEq, false_and, exists_false, or_false] at h'

/-- If the environment of the handle has PAM_USER, the command is told that and not the user. -/
theorem C118_environment_counterexample : ∃ (w : World) (c : Child), w.user = .ok "tux".toList ∧ (callExec "auth".toList ["/bin/x".toList] w).child = some c ∧
    Getenv c.env "PAM_USER".toList "root".toList :=
  ⟨{ demo with env := ["PAM_USER=root".toList] },
    ⟨["/bin/x".toList], ["PAM_USER=root".toList, "PAM_SERVICE=login".toList, "PAM_USER=tux".toList, "PAM_TYPE=auth".toList], [], .null, false⟩, rfl, by decide +kernel,
    [], _, rfl, nofun⟩

/-! ### C119: what is left behind -/

/-- If a command is run, then afterwards the handler of SIGCHLD is the one before, and no descriptor is left open, whatever the command does. -/
theorem C119_restored_partial {type : Str} {argv : List Str} {w : World} {c : Child} (h : (callExec type argv w).child = some c) :
    (callExec type argv w).handler = false ∧ (callExec type argv w).fds = 0 := by
  obtain ⟨os, cmd, args, user, o, -, -, -, -, pass, set, he, -, -⟩ := child_spec h
  rcases spawn_cases w o user type pass set (cmd :: args) with ⟨hn, -⟩ | ⟨_, _, -, -, -, h1, h2, -⟩
  · rw [he, hn] at h; cases h
  · rw [he]; exact ⟨h1, h2⟩

/-- If `fork` fails, the handler of SIGCHLD stays changed. -/
theorem C119_fork_counterexample : ∃ w : World, (callExec "auth".toList ["/bin/x".toList] w).handler = true := ⟨{ demo with fork := false }, by decide +kernel⟩

/-- Without a command, the pipe for its output is left open. -/
theorem C119_pipe_counterexample : (callExec "auth".toList ["stdout".toList] demo).fds = 2 := by decide +kernel

end Pam.Exec
