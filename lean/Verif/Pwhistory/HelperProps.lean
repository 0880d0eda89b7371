import Verif.Pwhistory.Helper
import Verif.Pwhistory.History
import Verif.Unix.HelperProps
import Verif.Unix.UpdProps
/-
C158: with SELinux, where a program does the work, pam_pwhistory decides the same.
-/
namespace Pam.Pwh
open Pam Pam.Util Pam.Util.Spec

/-- the helper can be run, and reading the password does not fail -/
structure HRun.Fine (r : HRun) : Prop where
  pipe : r.pipe = true
  fork : r.fork = true
  dup : r.dup = true
  sanitize : r.sanitize = true
  exec : r.exec = true
  write : r.write = true
  wait : r.wait = true
  exits : r.exits = true
  tty : r.tty = false
  sched : Ev.err ∉ r.sched
  buf : r.buf.length = 513

theorem showInt_atoi (n : Int) (h0 : 0 < n) (h1 : n < 2 ^ 31) : atoi (showInt n) = n := by
  unfold atoi showInt
  rw [if_neg (by omega)]
  obtain ⟨d1, d2, d3, _⟩ := toDigits_spec n.toNat
  have := (strtoInt_base 10 (by decide) (by decide) (by decide) (Nat.toDigits 10 n.toNat) (n.toNat : Int)).mpr
    ⟨[], Nat.toDigits 10 n.toNat, n.toNat, by simp, ⟨d1, d2, d3.symm⟩, Or.inl ⟨rfl, rfl⟩⟩
  unfold strtol toInt
  rw [this.1]
  simp only
  omega

theorem saveOld_code (sys : Sys) (n : Int) (u : Str) (main : Option Str) : status (saveOld sys n u main).1 = (saveOld sys n u main).1 := by
  unfold saveOld
  repeat' split
  all_goals first | rfl | (simp only; repeat' split) <;> rfl

theorem checkOld_code (crypt : Str → Str → Option Str) (file : Option Str) (u p : Str) : status (checkOld crypt file u p) = checkOld crypt file u p := by
  unfold checkOld
  repeat' split
  all_goals rfl

theorem runSave_fine (crypt : Str → Str → Option Str) (sys : Sys) (file main : Option Str → Option Str) (r : HRun) (hr : r.Fine) (user : Str) (n : Int)
    (h0 : 0 < n) (h1 : n < 2 ^ 31) (filename : Option Str) (hf : filename ≠ some []) :
    runSave crypt sys file main r user n filename = some (saveOld sys n user (main filename)) := by
  have hname : (if filename.getD [] = [] then none else some (filename.getD [])) = filename := by
    cases filename with
    | none => rfl
    | some f => rw [if_neg (by intro e; exact hf (by rw [show f = [] from e]))]; rfl
  unfold runSave helperMain
  simp only [hr.fork, hr.sanitize, hr.exec, hr.wait, hr.exits, hr.tty, Bool.not_true, Bool.false_eq_true, if_false, if_true, hname, showInt_atoi n h0 h1,
    Option.map_some, saveOld_code]

theorem strings_one (p : Str) (hp : NUL ∉ p) : strings (p ++ [NUL]) = [p] := by
  induction p with
  | nil => rfl
  | cons c r ih =>
    have hc : c ≠ NUL := fun e => hp (by rw [e]; exact List.mem_cons_self)
    rw [List.cons_append, strings, if_neg hc, ih (fun h => hp (List.mem_cons_of_mem _ h))]

theorem runCheck_fine (crypt : Str → Str → Option Str) (sys : Sys) (file main : Option Str → Option Str) (r : HRun) (hr : r.Fine) (user p : Str)
    (hp : NUL ∉ p) (hl : p.length ≤ 512) (filename : Option Str) (hf : filename ≠ some []) :
    runCheck crypt sys file main r user p filename = none ∨
    runCheck crypt sys file main r user p filename = some (checkOld crypt (file filename) user p) := by
  have hname : (if filename.getD [] = [] then none else some (filename.getD [])) = filename := by
    cases filename with
    | none => rfl
    | some f => rw [if_neg (by intro e; exact hf (by rw [show f = [] from e]))]; rfl
  have hrec : received 512 1 (p ++ [NUL]) = [p] := by
    unfold received
    rw [strings_one p hp]
    simp [hl]
  unfold runCheck helperMain
  simp only [hr.pipe, hr.fork, hr.dup, hr.sanitize, hr.exec, hr.write, hr.wait, hr.exits, hr.tty, Bool.not_true, Bool.false_eq_true, if_false, if_true, hname]
  unfold checkHistory
  rcases C29_independent_of_chunking [r.buf] 1 (by simpa using hr.buf) (by simp) (p ++ [NUL]) r.sched hr.sched with ⟨h, -⟩ | ⟨slots, rest, h, hj⟩
  · left; rw [h]; rfl
  · right
    rw [hrec] at h hj
    obtain ⟨b, hb, hh⟩ := hj 0 p r.buf rfl rfl
    cases slots with
    | nil => cases hb
    | cons b' bs =>
      cases hb
      rw [h]
      have : cstr b = p := by
        obtain ⟨rest, rfl, -⟩ := hh
        exact Unix.cstr_nul hp
      simp only [List.length_singleton, ne_eq, not_true, if_false, this, Option.map_some, checkOld_code]

theorem askLoopSe_same (c : Call) (enforce : Bool) (check : Nat → Str → Option Int) (look : Nat → Str → Int)
    (h : ∀ i p, c.answers i = .got p → check i p = none ∨ check i p = some (look i p)) : ∀ (left i : Nat),
    askLoopSe c enforce check left i = none ∨ askLoopSe c enforce check left i = some (askLoop c enforce look left i)
  | 0, i => Or.inr rfl
  | left + 1, i => by
    have ih := askLoopSe_same c enforce check look h left (i + 1)
    rw [askLoopSe, askLoop]
    cases ha : c.answers i with
    | code k =>
      simp only
      split
      · exact Or.inr rfl
      · exact ih
    | got p =>
      rcases h i p ha with e | e
      · left; simp only [e]
      · simp only [e]
        split
        · split
          · exact ih
          · exact Or.inr rfl
        · exact Or.inr rfl

/-- **C158** With SELinux, unless it still waits for the helper, a call does what it does without: same answer, same password, same number of
questions, same history - for any number to remember, users, files, and passwords of at most 512 characters, if the helper can be run. -/
theorem C158_same (crypt : Str → Str → Option Str) (sys : Sys) (o : Options) (c : Call) (fsOf : Option Str → Fs) (save : HRun) (check : Nat → HRun)
    (hs : save.Fine) (hc : ∀ i, (check i).Fine) (hn : o.remember < 2 ^ 31) (hf : o.filename ≠ some [])
    (hp : ∀ i p, c.answers i = .got p → NUL ∉ p ∧ p.length ≤ 512) :
    chauthtokSe crypt sys o c fsOf save check = none ∨
    chauthtokSe crypt sys o c fsOf save check = some (chauthtok crypt sys o c (fsOf o.filename)) := by
  unfold chauthtokSe chauthtok
  by_cases h0 : o.remember = 0
  · rw [if_pos h0, if_pos h0]; exact Or.inr rfl
  rw [if_neg h0, if_neg h0]
  cases hu : c.user with
  | error k => exact Or.inr rfl
  | ok user =>
    simp only
    cases hpre : c.prelim with
    | true => exact Or.inr rfl
    | false =>
      simp only [Bool.false_eq_true, if_false]
      have hsave : saveSe crypt sys o fsOf save user = some (saveOld sys o.remember user (fsOf o.filename).main) := by
        unfold saveSe
        cases hw : sys.pw user with
        | none => simp only [saveOld, hw]
        | some pw =>
          simp only
          split
          · rename_i hle; simp only [saveOld, hw]; rw [if_pos hle]
          · exact runSave_fine crypt sys _ _ save hs user o.remember (by omega) hn o.filename hf
      rw [hsave]
      simp only
      split
      · exact Or.inr rfl
      · rcases askLoopSe_same c o.enforceForRoot _ (fun i p => checkOld crypt (if sys.opensAgain i then
            ((saveOld sys o.remember user (fsOf o.filename).main).2.foldl Op.apply (fsOf o.filename)).main else none) user p)
            (fun i p ha => by
              obtain ⟨hp1, hp2⟩ := hp i p ha
              have := runCheck_fine crypt sys (fun n => if sys.opensAgain i then (fun n => if n = o.filename then
                ((saveOld sys o.remember user (fsOf o.filename).main).2.foldl Op.apply (fsOf n)).main else (fsOf n).main) n else none)
                (fun n => if n = o.filename then
                ((saveOld sys o.remember user (fsOf o.filename).main).2.foldl Op.apply (fsOf n)).main else (fsOf n).main) (check i) (hc i) user p hp1 hp2 o.filename hf
              simp only [if_true] at this
              exact this) o.tries.toNat 0 with e | e
        · left; simp only [e]; rfl
        · right; simp only [e]; rfl

theorem helper_tty (crypt : Str → Str → Option Str) (sys : Sys) (file main : Option Str → Option Str) (r : HRun) (h : r.tty = true) (stdin : List Char)
    (args : List Str) : helperMain crypt sys file main r stdin args = some (PAM_SYSTEM_ERR, []) := by
  unfold helperMain; rw [if_pos h]

/-- **C158** If the helper cannot be run for the check, or does not get the password, or does not end by itself, the password is not
accepted: the check does not say PAM_SUCCESS. -/
theorem C158_check_fails (crypt : Str → Str → Option Str) (sys : Sys) (file main : Option Str → Option Str) (r : HRun) (hb : r.buf.length = 513)
    (user p : Str) (filename : Option Str)
    (h : r.pipe = false ∨ r.fork = false ∨ r.dup = false ∨ r.sanitize = false ∨ r.exec = false ∨ r.write = false ∨ r.wait = false ∨ r.exits = false ∨ r.tty = true) :
    runCheck crypt sys file main r user p filename ≠ some PAM_SUCCESS := by
  unfold runCheck
  cases h1 : r.pipe with
  | false => simp; decide
  | true =>
  cases h2 : r.fork with
  | false => simp; decide
  | true =>
  simp only [Bool.not_true, Bool.false_eq_true, if_false]
  cases h7 : r.wait with
  | false =>
    simp only [Bool.not_false, if_true]
    intro e
    rw [Option.map_eq_some_iff] at e
    obtain ⟨_, _, e⟩ := e
    revert e; decide
  | true =>
  cases h8 : r.exits with
  | false =>
    simp only [Bool.not_true, Bool.false_eq_true, if_false, Bool.not_false, if_true]
    intro e
    rw [Option.map_eq_some_iff] at e
    obtain ⟨_, _, e⟩ := e
    revert e; decide
  | true =>
  simp only [Bool.not_true, Bool.false_eq_true, if_false]
  cases h3 : r.dup with
  | false => simp; decide
  | true =>
  cases h4 : r.sanitize with
  | false => simp; decide
  | true =>
  cases h5 : r.exec with
  | false => simp; decide
  | true =>
  simp only [Bool.not_true, Bool.false_eq_true, if_false]
  cases h9 : r.tty with
  | true => rw [helper_tty _ _ _ _ _ h9]; simp; decide
  | false =>
  cases h6 : r.write with
  | true => simp [h1, h2, h3, h4, h5, h6, h7, h8, h9] at h
  | false =>
    simp only [Bool.false_eq_true, if_false]
    unfold helperMain
    simp only [h9, Bool.false_eq_true, if_false, if_true]
    unfold checkHistory
    rcases C29_passwords [r.buf] 1 (by simpa using hb) (by simp) [] r.sched with e | ⟨got, rest, k, slots, e, hg, hk, hl, _⟩
    · rw [e]; simp
    · have : got = [] := (List.append_eq_nil_iff.mp hg.symm).1
      subst this
      rw [show (received 512 1 ([] : List Char)).length = 0 from rfl] at hk
      subst hk
      rw [e]
      cases slots with
      | nil => simp
      | cons b bs => simp; decide

/-- **C158** If the helper cannot be run for saving the old password, the call fails with PAM_SYSTEM_ERR; the history stays as it was, and no
password is asked for. -/
theorem C158_save_fails (crypt : Str → Str → Option Str) (sys : Sys) (o : Options) (c : Call) (fsOf : Option Str → Fs) (save : HRun) (check : Nat → HRun)
    (u : Str) (pw : Passwd) (hu : c.user = .ok u) (hpre : c.prelim = false) (hpw : sys.pw u = some pw) (hn : 0 < o.remember)
    (h : save.fork = false ∨ save.sanitize = false ∨ save.exec = false ∨ save.tty = true) :
    chauthtokSe crypt sys o c fsOf save check = some ⟨PAM_SYSTEM_ERR, none, 0, []⟩ := by
  have hrun : ∀ file main n f, runSave crypt sys file main save u n f = some (PAM_SYSTEM_ERR, []) := by
    intro file main n f
    unfold runSave
    have hst : status PAM_SYSTEM_ERR = PAM_SYSTEM_ERR := rfl
    cases h1 : save.fork with
    | false => rfl
    | true =>
    cases h2 : save.sanitize with
    | false => simp [hst]
    | true =>
    cases h3 : save.exec with
    | false => simp [hst]
    | true =>
    cases h4 : save.tty with
    | true => simp [helper_tty _ _ _ _ _ h4, hst]
    | false => simp [h1, h2, h3, h4] at h
  have hse : saveSe crypt sys o fsOf save u = some (PAM_SYSTEM_ERR, []) := by
    unfold saveSe
    rw [hpw]
    simp only
    rw [if_neg (by omega), hrun]
  unfold chauthtokSe
  rw [if_neg (by omega), hu]
  simp only [hpre, hse, Bool.false_eq_true, if_false]
  rfl

/-- **C158** A longer password is refused whatever the history says: the helper does not take it. -/
theorem C158_long (crypt : Str → Str → Option Str) (sys : Sys) (file main : Option Str → Option Str) (r : HRun) (hr : r.Fine) (user p : Str)
    (hp : NUL ∉ p) (hl : 512 < p.length) (filename : Option Str) :
    runCheck crypt sys file main r user p filename = none ∨ runCheck crypt sys file main r user p filename = some PAM_AUTHTOK_ERR := by
  have hrec : received 512 1 (p ++ [NUL]) = [] := by
    unfold received
    rw [strings_one p hp]
    simp [hl]
  unfold runCheck helperMain
  simp only [hr.pipe, hr.fork, hr.dup, hr.sanitize, hr.exec, hr.write, hr.wait, hr.exits, hr.tty, Bool.not_true, Bool.false_eq_true, if_false, if_true]
  unfold checkHistory
  rcases C29_independent_of_chunking [r.buf] 1 (by simpa using hr.buf) (by simp) (p ++ [NUL]) r.sched hr.sched with ⟨h, -⟩ | ⟨slots, rest, h, -⟩
  · left; rw [h]; rfl
  · rw [hrec] at h
    rw [h]
    cases slots with
    | nil => left; rfl
    | cons b bs => right; rfl

/-- a helper that runs, with the password read in two parts -/
def exRun : HRun := { sched := [.upto 3, .intr, .upto 600], buf := List.replicate 513 'x' }

theorem exRun_fine : exRun.Fine := ⟨rfl, rfl, rfl, rfl, rfl, rfl, rfl, rfl, rfl, by decide, List.length_replicate⟩

example : (chauthtokSe exCrypt exSys2 defaults (exCall ["three".toList, "four".toList]) (fun _ => ⟨none, none, none⟩) exRun (fun _ => exRun)).isSome = true := by
  decide +kernel
example : (chauthtokSe exCrypt exSys2 { defaults with tries := 2 } (exCall ["three".toList, "four".toList]) (fun _ => ⟨none, none, none⟩) exRun (fun _ => exRun)).map
    (fun r => (r.code, r.newpass, r.asked)) = some (PAM_SUCCESS, some "four".toList, 2) := by decide +kernel

/-- **C158** Passwords of any length do not fare alike: one of 513 characters is taken without SELinux, and refused as already used with it,
with no history at all. -/
theorem C158_long_counterexample :
    let p := List.replicate 513 'a'
    let fs : Fs := ⟨none, none, none⟩
    let r : HRun := { sched := List.replicate 20 (.upto 600), buf := List.replicate 513 'x' }
    (chauthtok exCrypt exSys2 defaults (exCall [p]) fs).newpass = some p ∧
    (chauthtokSe exCrypt exSys2 defaults (exCall [p]) (fun _ => fs) r (fun _ => r)).map (fun x => (x.code, x.newpass)) = some (PAM_MAXTRIES, none) := by
  decide +kernel

/-- the ways in which the helper is not run are met -/
example : chauthtokSe exCrypt exSys2 defaults (exCall ["four".toList]) (fun _ => ⟨none, none, none⟩) { exRun with exec := false } (fun _ => exRun) =
    some ⟨PAM_SYSTEM_ERR, none, 0, []⟩ :=
  C158_save_fails _ _ _ _ _ _ _ "ann".toList ⟨"ann".toList, "x".toList, 1000⟩ rfl rfl (by decide) (by decide) (Or.inr (Or.inr (Or.inl rfl)))
example : runCheck exCrypt exSys2 (fun _ => none) (fun _ => none) { exRun with write := false } "ann".toList "four".toList none ≠ some PAM_SUCCESS :=
  C158_check_fails _ _ _ _ _ List.length_replicate _ _ _ (by decide)

end Pam.Pwh
