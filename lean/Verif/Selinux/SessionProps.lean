import Verif.Selinux.Props
/-
C160: what pam_selinux sets at the beginning of a session, and puts back at the end.
-/
namespace Pam.Selinux
open Pam Pam.Small Spec

/-- **C160** If SELinux is off, opening a session for the first time changes nothing. -/
theorem C160_off (w : World) (n : Nat) (argv : List Str) (st : State) (h : w.enabled = false) (hd : st.data = none) :
    openSession w n argv st = .done PAM_SUCCESS st := by
  unfold openSession
  simp only
  split
  · rfl
  split
  · unfold restoreContext; rw [hd]; rfl
  · rw [hd]; simp only; unfold createContext; rw [if_pos h]

theorem arg_close (a : Args) (s : Str) : (arg a s).close = (a.close || decide (s = "close".toList)) := by
  unfold arg
  by_cases h : s = "close".toList
  · subst h
    rw [if_neg (by decide), if_neg (by decide), if_neg (by decide), if_neg (by decide), if_pos rfl]
    simp
  · rw [decide_eq_false h, Bool.or_false]
    repeat' split
    all_goals first | rfl | contradiction

theorem arg_open (a : Args) (s : Str) : (arg a s).open_ = (a.open_ || decide (s = "open".toList)) := by
  unfold arg
  by_cases h : s = "open".toList
  · subst h
    rw [if_neg (by decide), if_neg (by decide), if_neg (by decide), if_neg (by decide), if_neg (by decide), if_neg (by decide), if_pos rfl]
    simp
  · rw [decide_eq_false h, Bool.or_false]
    repeat' split
    all_goals first | rfl | contradiction

theorem args_close (argv : List Str) (a : Args) : (argv.foldl arg a).close = true ↔ a.close = true ∨ "close".toList ∈ argv := by
  induction argv generalizing a with
  | nil => simp
  | cons s r ih =>
    rw [List.foldl_cons, ih, arg_close, Bool.or_eq_true, decide_eq_true_iff, List.mem_cons, or_assoc, eq_comm (a := s)]

theorem args_open (argv : List Str) (a : Args) : (argv.foldl arg a).open_ = true ↔ a.open_ = true ∨ "open".toList ∈ argv := by
  induction argv generalizing a with
  | nil => simp
  | cons s r ih =>
    rw [List.foldl_cons, ih, arg_open, Bool.or_eq_true, decide_eq_true_iff, List.mem_cons, or_assoc, eq_comm (a := s)]

/-- **C160** With the argument "close" opening does nothing, with the argument "open" closing does nothing. -/
theorem C160_only (w : World) (n : Nat) (argv : List Str) (st : State) :
    ("close".toList ∈ argv → openSession w n argv st = .done PAM_SUCCESS st) ∧
    ("open".toList ∈ argv → closeSession w argv st = .done PAM_SUCCESS st) := by
  constructor
  · intro h
    unfold openSession args
    simp only
    rw [if_pos ((args_close argv {}).mpr (Or.inr h))]
  · intro h
    unfold closeSession args
    simp only
    rw [if_pos ((args_open argv {}).mpr (Or.inr h))]

theorem filled_some {o : Option Str} {n : Str} : filled o = some n ↔ o = some n ∧ n ≠ [] := by
  rcases o with _ | (_ | ⟨c, t⟩)
  · simp [filled]
  · simp only [filled]; constructor
    · nofun
    · rintro ⟨h, h2⟩; cases h; exact absurd rfl h2
  · simp only [filled]; constructor
    · intro h; cases h; exact ⟨rfl, nofun⟩
    · exact fun h => h.1

theorem filled_none {o : Option Str} : filled o = none ↔ Nothing o := by
  rcases o with _ | (_ | ⟨c, t⟩) <;> simp [filled, Nothing]

theorem skip_isSome {s pre : Str} : (skipPrefix s pre).isSome = true ↔ pre <+: s := by
  cases h : skipPrefix s pre with
  | none => simpa using skipPrefix_none.mp h
  | some r => simpa using ⟨r, (skipPrefix_some.mp h).symm⟩

/-- the name PAM_TTY gives -/
def itemName (w : World) : Option Str :=
  match filled w.tty with
  | some t => if t = "ssh".toList ∨ (skipPrefix t "NODEV".toList).isSome then none else some t
  | none => none

theorem itemName_some {w : World} {n : Str} : itemName w = some n ↔ Usable w.tty n := by
  unfold itemName Usable
  generalize "ssh".toList = A
  generalize "NODEV".toList = B
  cases h : filled w.tty with
  | none =>
    simp only
    constructor
    · nofun
    · rintro ⟨h1, h2, -⟩
      rw [filled_some.mpr ⟨h1, h2⟩] at h; cases h
  | some t =>
    obtain ⟨h1, h2⟩ := filled_some.mp h
    simp only [h1, skip_isSome]
    constructor
    · intro hi
      split at hi
      · cases hi
      · rename_i hn
        cases hi
        exact ⟨rfl, h2, fun e => hn (Or.inl e), fun e => hn (Or.inr e)⟩
    · rintro ⟨e, -, h3, h4⟩
      cases e
      rw [if_neg (fun h => h.elim h3 h4)]

/-- the path `ttyPath` gives is that of the user's terminal -/
theorem ttyPath_iff {w : World} {path : Str} : ttyPath w = some path ↔ Terminal w path := by
  have hn : ∀ n, (match itemName w with
      | some t => some t
      | none =>
        match filled w.stdin with
        | some t => some t
        | none =>
          match filled w.stdout with
          | some t => some t
          | none => filled w.stderr) = some n ↔ Named w n := by
    intro n
    unfold Named
    cases h0 : itemName w with
    | some t =>
      have ht := itemName_some.mp h0
      constructor
      · intro e; cases e; exact Or.inl ht
      · rintro (h | ⟨h, -⟩)
        · rw [itemName_some.mpr h] at h0; exact h0.symm
        · exact absurd ht (h t)
    | none =>
      have hno : ∀ x, ¬ Usable w.tty x := fun x hx => by rw [itemName_some.mpr hx] at h0; cases h0
      have e1 : ∀ P : Prop, (Usable w.tty n ∨ ((∀ x, ¬ Usable w.tty x) ∧ P)) ↔ P := fun P =>
        ⟨fun h => h.elim (fun h => absurd h (hno n)) (·.2), fun h => Or.inr ⟨hno, h⟩⟩
      rw [e1]
      have step : ∀ (o : Option Str) (r : Option Str) (P : Prop), (r = some n ↔ P) →
          ((match filled o with
            | some t => some t
            | none => r) = some n ↔ (o = some n ∧ n ≠ []) ∨ (Nothing o ∧ P)) := by
        intro o r P hP
        cases hf : filled o with
        | some t =>
          have h1 := filled_some.mp hf
          constructor
          · intro e; cases e; exact Or.inl h1
          · rintro (h | ⟨h, -⟩)
            · rw [filled_some.mpr h] at hf; exact hf.symm
            · rw [filled_none.mpr h] at hf; cases hf
        | none =>
          constructor
          · intro e; exact Or.inr ⟨filled_none.mp hf, hP.mp e⟩
          · rintro (h | ⟨-, h⟩)
            · rw [filled_some.mpr h] at hf; cases hf
            · exact hP.mpr h
      exact step _ _ _ (step _ _ _ filled_some)
  unfold ttyPath Terminal
  rw [Option.map_eq_some_iff]
  constructor
  · rintro ⟨n, h1, h2⟩
    refine ⟨n, (hn n).mp h1, ?_⟩
    generalize "/dev/".toList = A at h2 ⊢
    split at h2
    · rename_i hp; exact Or.inl ⟨skip_isSome.mp hp, h2.symm⟩
    · rename_i hp; exact Or.inr ⟨fun h => hp (skip_isSome.mpr h), h2.symm⟩
  · rintro ⟨n, h1, h2⟩
    refine ⟨n, (hn n).mpr h1, ?_⟩
    generalize "/dev/".toList = A at h2 ⊢
    rcases h2 with ⟨h, e⟩ | ⟨h, e⟩
    · rw [if_pos (skip_isSome.mpr h), e]
    · rw [if_neg (fun h2 => h (skip_isSome.mp h2)), e]

/-- the terminal that is found, and can be given a label, gets it: its path, its label and the new one -/
def Labelled (w : World) (exec : Str) (file : Str → Str) (path new : Str) : Prop :=
  Terminal w path ∧ w.getfile path = .ok ∧ w.tclass = true ∧ w.relabel exec (file path) = some new

theorem setFile_file {w : World} {c p : Option Str} {st st' : State} {ok : Bool} (h : setFileContext w c p st = some (ok, st')) :
    st'.exec = st.exec ∧ st'.key = st.key ∧ st'.data = st.data ∧ st'.sent = st.sent ∧ (∀ x, p ≠ some x → st'.file x = st.file x) ∧
    (ok = true → w.setfile = .ok → ∀ f, p = some f → ∃ l, c = some l ∧ st'.file f = l) ∧
    (ok = true → ∀ f, p = some f → w.setfile ≠ .fail) := by
  unfold setFileContext at h
  cases p with
  | none => cases h; exact ⟨rfl, rfl, rfl, rfl, fun _ _ => rfl, nofun, nofun⟩
  | some f =>
    cases c with
    | none => cases h
    | some c =>
      simp only at h
      cases hs : w.setfile with
      | ok =>
        rw [hs] at h
        cases h
        refine ⟨rfl, rfl, rfl, rfl, ?_, ?_, nofun⟩
        · intro x hx
          simp only
          rw [if_neg (fun e => hx (by rw [e]))]
        · intro _ _ f' e
          cases e
          exact ⟨c, rfl, by simp⟩
      | enoent =>
        rw [hs] at h
        cases h
        exact ⟨rfl, rfl, rfl, rfl, fun _ _ => rfl, nofun, nofun⟩
      | fail =>
        rw [hs] at h
        cases h
        exact ⟨rfl, rfl, rfl, rfl, fun _ _ => rfl, nofun, nofun⟩

theorem refuse_enforcing {w : World} (h : w.enforcing = true) : w.refuse = PAM_SESSION_ERR := by
  unfold World.refuse; rw [if_pos h]

theorem setContext_success {w : World} {d : Data} {st st' : State} (he : w.enforcing = true) (h : setContext w d st = some (PAM_SUCCESS, st')) :
    st'.exec = some d.exec ∧ st'.key = some d.exec ∧ st'.data = st.data ∧ st'.sent = st.sent ++ [⟨true, some d.default, some d.exec⟩] ∧
    (∀ x, d.ttyPath ≠ some x → st'.file x = st.file x) ∧
    (w.setfile = .ok → ∀ f, d.ttyPath = some f → ∃ l, d.ttyContext = some l ∧ st'.file f = l) := by
  unfold setContext at h
  cases hf : setFileContext w d.ttyContext d.ttyPath st with
  | none => rw [hf] at h; cases h
  | some r =>
    obtain ⟨ok, s1⟩ := r
    rw [hf] at h
    simp only at h
    have hcode := congrArg Prod.fst (Option.some.inj h)
    have hst := congrArg Prod.snd (Option.some.inj h)
    simp only at hcode hst
    cases hb : (ok && w.setexec && w.setkey) with
    | false => rw [hb, if_pos rfl, refuse_enforcing he] at hcode; exact absurd hcode (by decide)
    | true =>
      simp only [Bool.and_eq_true] at hb
      obtain ⟨⟨h1, h2⟩, h3⟩ := hb
      obtain ⟨g1, g2, g3, g4, g5, g6, -⟩ := setFile_file hf
      rw [h2, h3] at hst
      subst hst
      simp only [if_true]
      exact ⟨trivial, trivial, g3, by rw [g4], g5, g6 h1⟩

/-- **C160** While SELinux is enforcing, the first successful opening of a session has done all: programs and keys of the session get the chosen context, which is told to the
audit system, and the terminal the label that the policy has for it; no other label is touched. -/
theorem C160_opened (w : World) (n : Nat) (argv : List Str) (st st' : State) (he : w.enforcing = true) (hon : w.enabled = true) (hd : st.data = none)
    (hclose : "close".toList ∉ argv) (hrest : (args argv).restore = false) (h : openSession w n argv st = .done PAM_SUCCESS st') :
    ∃ user service default exec sent, w.user = some user ∧ w.service = some service ∧ w.contexts ((w.pwname user).getD user) service = some default ∧
      choose w n (args argv) default = some (some exec, sent) ∧
      st'.exec = some exec ∧ st'.key = some exec ∧ st'.sent = st.sent ++ sent ++ [⟨true, some default, some exec⟩] ∧
      (w.setfile = .ok → ∀ f new, (args argv).ttys = true → Labelled w exec st.file f new → st'.file f = new) ∧
      (∀ x, ¬ ((args argv).ttys = true ∧ ∃ new, Labelled w exec st.file x new) → st'.file x = st.file x) := by
  unfold openSession at h
  simp only at h
  have hc : (args argv).close = false := by
    cases hcl : (args argv).close with
    | false => rfl
    | true => rcases (args_close argv {}).mp hcl with h | h
              · cases h
              · exact absurd h hclose
  rw [hc, hrest, hd] at h
  simp only [Bool.false_eq_true, if_false] at h
  unfold createContext at h
  rw [if_neg (by rw [hon]; decide)] at h
  cases hu : w.user with
  | none => rw [hu] at h; exact absurd (Out.done.inj h).1 (by decide)
  | some user =>
    rw [hu] at h
    simp only at h
    cases hs : w.service with
    | none => rw [hs] at h; exact absurd (Out.done.inj h).1 (by decide)
    | some service =>
      rw [hs] at h
      simp only at h
      cases hx : w.contexts ((w.pwname user).getD user) service with
      | none => rw [hx] at h; simp only [refuse_enforcing he] at h; exact absurd (Out.done.inj h).1 (by decide)
      | some default =>
        rw [hx] at h
        simp only at h
        cases hch : choose w n (args argv) default with
        | none => rw [hch] at h; cases h
        | some r =>
          obtain ⟨exec, sent⟩ := r
          rw [hch] at h
          cases exec with
          | none => simp only [refuse_enforcing he] at h; exact absurd (Out.done.inj h).1 (by decide)
          | some exec =>
            simp only at h
            unfold createFrom at h
            simp only at h
            generalize ht : (if (args argv).ttys then computeTty w { st with sent := st.sent ++ sent } exec else (PAM_SUCCESS, none, none, none)) = t at h
            by_cases ht1 : t.1 ≠ PAM_SUCCESS
            · rw [if_pos ht1] at h; exact absurd (Out.done.inj h).1 ht1
            rw [if_neg ht1] at h
            by_cases hsv : w.save = false
            · rw [if_pos hsv] at h; exact absurd (Out.done.inj h).1 (by decide)
            rw [if_neg hsv] at h
            generalize hset : setContext w ⟨exec, if w.getexec then st.exec else none, default, t.2.2.2, t.2.2.1, t.2.1⟩
              { exec := st.exec, key := st.key, file := st.file, data := some ⟨exec, if w.getexec then st.exec else none, default, t.2.2.2, t.2.2.1, t.2.1⟩,
                sent := st.sent ++ sent } = o at h
            cases o with
            | none => cases h
            | some r =>
              obtain ⟨k, s2⟩ := r
              cases h
              obtain ⟨g1, g2, g3, g4, g5, g6⟩ := setContext_success he hset
              have hlab : (∀ f new, (args argv).ttys = true → Labelled w exec st.file f new → t = (PAM_SUCCESS, some f, some (st.file f), some new)) ∧
                  (∀ f, t.2.1 = some f → (args argv).ttys = true ∧ ∃ new, Labelled w exec st.file f new) := by
                cases htt : (args argv).ttys with
                | false =>
                  rw [htt] at ht
                  simp only [Bool.false_eq_true, if_false] at ht
                  subst ht
                  exact ⟨nofun, nofun⟩
                | true =>
                  rw [htt] at ht
                  simp only [if_true] at ht
                  unfold computeTty at ht
                  constructor
                  · rintro f new - ⟨l1, l2, l3, l4⟩
                    rw [ttyPath_iff.mpr l1] at ht
                    simp only [l2, l3, l4, Bool.true_eq_false, if_false] at ht
                    exact ht.symm
                  · intro f hf
                    cases hp : ttyPath w with
                    | none => rw [hp] at ht; subst ht; cases hf
                    | some path =>
                      rw [hp] at ht
                      simp only at ht
                      cases hg : w.getfile path with
                      | enoent => rw [hg] at ht; subst ht; cases hf
                      | fail => rw [hg] at ht; subst ht; simp only [refuse_enforcing he] at ht1; exact absurd (by decide) ht1
                      | ok =>
                        rw [hg] at ht
                        simp only at ht
                        cases hcl : w.tclass with
                        | false => rw [hcl] at ht; simp only [if_true] at ht; subst ht; cases hf
                        | true =>
                          rw [hcl] at ht
                          simp only [Bool.true_eq_false, if_false] at ht
                          cases hr : w.relabel exec (st.file path) with
                          | none => rw [hr] at ht; subst ht; cases hf
                          | some new =>
                            rw [hr] at ht
                            subst ht
                            cases hf
                            exact ⟨rfl, new, ttyPath_iff.mp hp, hg, hcl, hr⟩
              refine ⟨user, service, default, exec, sent, rfl, rfl, hx, hch, g1, g2, g4, ?_, ?_⟩
              · intro hok f new htt hl
                have e := hlab.1 f new htt hl
                obtain ⟨l, e1, e2⟩ := g6 hok f (by rw [e])
                rw [e] at e1
                cases e1
                exact e2
              · intro x hx
                exact g5 x (fun e => hx (hlab.2 x e))

/-- **C160** While SELinux is not enforcing, opening a session for a known user, with a place to keep the data, never fails. -/
theorem C160_permissive (w : World) (n : Nat) (argv : List Str) (st st' : State) (k : Int) (he : w.enforcing = false) (hu : w.user ≠ none) (hs : w.service ≠ none)
    (hsave : w.save = true) (h : openSession w n argv st = .done k st') : k = PAM_SUCCESS := by
  have hr : w.refuse = PAM_SUCCESS := by unfold World.refuse; rw [he]; rfl
  have hset : ∀ d s, Out.of (setContext w d s) = .done k st' → k = PAM_SUCCESS := by
    intro d s h
    unfold setContext at h
    cases hf : setFileContext w d.ttyContext d.ttyPath s with
    | none => rw [hf] at h; cases h
    | some r =>
      rw [hf] at h
      simp only [Out.of] at h
      have := (Out.done.inj h).1
      rw [hr, ite_self] at this
      exact this.symm
  unfold openSession at h
  simp only at h
  split at h
  · exact (Out.done.inj h).1.symm
  split at h
  · unfold restoreContext at h
    cases hd : st.data with
    | none => rw [hd] at h; exact (Out.done.inj h).1.symm
    | some d =>
      rw [hd] at h
      simp only at h
      cases hf : setFileContext w d.prevTty d.ttyPath st with
      | none => rw [hf] at h; cases h
      | some r =>
        rw [hf] at h
        simp only [Out.of] at h
        have := (Out.done.inj h).1
        rw [hr, ite_self] at this
        exact this.symm
  · split at h
    · exact hset _ _ h
    · unfold createContext at h
      split at h
      · exact (Out.done.inj h).1.symm
      cases hu' : w.user with
      | none => exact absurd hu' hu
      | some user =>
        rw [hu'] at h
        simp only at h
        cases hs' : w.service with
        | none => exact absurd hs' hs
        | some service =>
          rw [hs'] at h
          simp only at h
          cases hx : w.contexts ((w.pwname user).getD user) service with
          | none => rw [hx] at h; simp only [hr] at h; exact (Out.done.inj h).1.symm
          | some default =>
            rw [hx] at h
            simp only at h
            cases hch : choose w n (args argv) default with
            | none => rw [hch] at h; cases h
            | some r =>
              obtain ⟨exec, sent⟩ := r
              rw [hch] at h
              cases exec with
              | none => simp only [hr] at h; exact (Out.done.inj h).1.symm
              | some exec =>
                simp only at h
                unfold createFrom at h
                simp only at h
                have ht : (if (args argv).ttys then computeTty w { st with sent := st.sent ++ sent } exec else (PAM_SUCCESS, none, none, none)).1 = PAM_SUCCESS := by
                  split
                  · unfold computeTty
                    cases ttyPath w with
                    | none => rfl
                    | some path =>
                      simp only
                      cases w.getfile path with
                      | enoent => rfl
                      | fail => exact hr
                      | ok =>
                        simp only
                        cases w.tclass with
                        | false => exact hr
                        | true =>
                          simp only [Bool.true_eq_false, if_false]
                          cases w.relabel exec (st.file path) with
                          | none => exact hr
                          | some _ => rfl
                  · rfl
                rw [if_neg (fun hne => hne ht), if_neg (by rw [hsave]; decide)] at h
                exact hset _ _ h

/-- what holds between calls: as long as nothing is kept nothing has been changed, and what is kept is what was there at first -/
def Kept (s0 st : State) : Prop :=
  match st.data with
  | none => st.exec = s0.exec ∧ st.key = s0.key ∧ st.file = s0.file
  | some d => d.prevExec = s0.exec ∧ (∀ f, d.ttyPath = some f → d.prevTty = none ∨ d.prevTty = some (s0.file f)) ∧ ∀ x, d.ttyPath ≠ some x → st.file x = s0.file x

def Call.world : Call → World
  | .opening w _ _ => w
  | .closing w _ => w

theorem setContext_kept {w : World} {d : Data} {s0 st st' : State} {k : Int} (hd : st.data = some d) (h : Kept s0 st)
    (hs : setContext w d st = some (k, st')) : Kept s0 st' := by
  unfold setContext at hs
  cases hf : setFileContext w d.ttyContext d.ttyPath st with
  | none => rw [hf] at hs; cases hs
  | some r =>
    obtain ⟨ok, s1⟩ := r
    rw [hf] at hs
    simp only at hs
    have hst := congrArg Prod.snd (Option.some.inj hs)
    simp only at hst
    obtain ⟨g1, g2, g3, g4, g5, g6, -⟩ := setFile_file hf
    subst hst
    unfold Kept at *
    simp only [g3, hd] at h ⊢
    exact ⟨h.1, h.2.1, fun x hx => (g5 x hx).trans (h.2.2 x hx)⟩

theorem restore_kept {w : World} {s0 st st' : State} {k : Int} (h : Kept s0 st) (hs : restoreContext w st = some (k, st')) : Kept s0 st' := by
  unfold restoreContext at hs
  cases hd : st.data with
  | none => rw [hd] at hs; cases hs; exact h
  | some d =>
    rw [hd] at hs
    simp only at hs
    cases hf : setFileContext w d.prevTty d.ttyPath st with
    | none => rw [hf] at hs; cases hs
    | some r =>
      obtain ⟨ok, s1⟩ := r
      rw [hf] at hs
      simp only at hs
      have hst := congrArg Prod.snd (Option.some.inj hs)
      simp only at hst
      obtain ⟨g1, g2, g3, g4, g5, g6, -⟩ := setFile_file hf
      subst hst
      unfold Kept at *
      simp only [g3, hd] at h ⊢
      exact ⟨h.1, h.2.1, fun x hx => (g5 x hx).trans (h.2.2 x hx)⟩

theorem of_done {o : Option (Int × State)} {k : Int} {st : State} (h : Out.of o = .done k st) : o = some (k, st) := by
  cases o with
  | none => cases h
  | some r => obtain ⟨a, b⟩ := r; cases h; rfl

theorem call_kept {s0 st st' : State} {k : Int} (c : Call) (hg : c.world.getexec = true) (h : Kept s0 st) (hc : call st c = .done k st') : Kept s0 st' := by
  cases c with
  | closing w argv =>
    simp only [call, closeSession] at hc
    split at hc
    · cases hc; exact h
    · exact restore_kept h (of_done hc)
  | opening w n argv =>
    simp only [Call.world] at hg
    simp only [call, openSession] at hc
    split at hc
    · cases hc; exact h
    split at hc
    · exact restore_kept h (of_done hc)
    cases hd : st.data with
    | some d => rw [hd] at hc; exact setContext_kept hd h (of_done hc)
    | none =>
      rw [hd] at hc
      simp only at hc
      have h0 := h
      unfold Kept at h0
      rw [hd] at h0
      obtain ⟨x1, x2, x3⟩ := h0
      have hmore : ∀ sent, Kept s0 { st with sent := st.sent ++ sent } := by
        intro sent; unfold Kept; simp only [hd]; exact ⟨x1, x2, x3⟩
      unfold createContext at hc
      split at hc
      · cases hc; exact h
      split at hc
      · cases hc; exact h
      simp only at hc
      split at hc
      · cases hc; exact h
      split at hc
      · cases hc; exact h
      split at hc
      · cases hc
      · cases hc; exact hmore _
      · rename_i default _ _ exec sent _
        unfold createFrom at hc
        simp only at hc
        generalize ht : (if (args argv).ttys then computeTty w { st with sent := st.sent ++ sent } exec else (PAM_SUCCESS, none, none, none)) = t at hc
        split at hc
        · cases hc; exact hmore _
        split at hc
        · cases hc; exact hmore _
        · refine setContext_kept (d := ⟨exec, st.exec, default, t.2.2.2, t.2.2.1, t.2.1⟩) rfl ?_ (of_done hc)
          unfold Kept
          simp only
          refine ⟨x1, ?_, fun x _ => by rw [x3]⟩
          intro f hf
          subst ht
          revert hf
          split
          · unfold computeTty
            cases ttyPath w with
            | none => nofun
            | some path =>
              simp only
              cases w.getfile path with
              | enoent => nofun
              | fail => exact fun _ => Or.inl rfl
              | ok =>
                simp only
                cases w.tclass with
                | false => nofun
                | true =>
                  simp only [Bool.true_eq_false, if_false]
                  cases w.relabel exec (st.file path) with
                  | none => nofun
                  | some _ => intro e; cases e; rw [x3]; exact Or.inr rfl
          · nofun

theorem run_kept {s0 : State} (cs : List Call) : ∀ {st st' : State} {k : Int}, (∀ c ∈ cs, c.world.getexec = true) → Kept s0 st → run cs st = .done k st' → Kept s0 st' := by
  induction cs with
  | nil => intro st st' k _ h hr; cases hr; exact h
  | cons c cs ih =>
    intro st st' k hg h hr
    rw [run] at hr
    cases hc : call st c with
    | null => rw [hc] at hr; cases hr
    | asking => rw [hc] at hr; cases hr
    | done k1 s1 =>
      rw [hc] at hr
      exact ih (fun c hc => hg c (List.mem_cons_of_mem _ hc)) (call_kept c (hg c List.mem_cons_self) h hc) hr

/-- **C160** Whatever was opened and closed with a handle, with any arguments, choices and failures: after a closing that is not left out by its argument, and whose
system calls work, the context for programs and the labels of all files are those from before the first call. -/
theorem C160_restored (s0 st st' : State) (cs : List Call) (w : World) (argv : List Str) (k k' : Int) (h0 : s0.data = none)
    (hg : ∀ c ∈ cs, c.world.getexec = true) (hr : run cs s0 = .done k st) (hopen : "open".toList ∉ argv) (h1 : w.setexec = true) (h2 : w.setfile = .ok)
    (hc : closeSession w argv st = .done k' st') : k' = PAM_SUCCESS ∧ st'.exec = s0.exec ∧ st'.file = s0.file := by
  have hk : Kept s0 st := run_kept cs hg (by unfold Kept; rw [h0]; exact ⟨rfl, rfl, rfl⟩) hr
  unfold closeSession at hc
  have ho : (args argv).open_ = false := by
    cases hcl : (args argv).open_ with
    | false => rfl
    | true => rcases (args_open argv {}).mp hcl with h | h
              · cases h
              · exact absurd h hopen
  simp only [ho, Bool.false_eq_true, if_false] at hc
  have hs := of_done hc
  unfold restoreContext at hs
  unfold Kept at hk
  cases hd : st.data with
  | none =>
    rw [hd] at hs hk
    cases hs
    exact ⟨rfl, hk.1, hk.2.2⟩
  | some d =>
    rw [hd] at hs hk
    simp only at hs hk
    cases hf : setFileContext w d.prevTty d.ttyPath st with
    | none => rw [hf] at hs; cases hs
    | some r =>
      obtain ⟨ok, s1⟩ := r
      rw [hf] at hs
      simp only at hs
      have hok : ok = true := by
        unfold setFileContext at hf
        cases hp : d.ttyPath with
        | none => rw [hp] at hf; cases hf; rfl
        | some f =>
          rw [hp] at hf
          cases hq : d.prevTty with
          | none => rw [hq] at hf; cases hf
          | some c => rw [hq, h2] at hf; cases hf; rfl
      obtain ⟨g1, g2, g3, g4, g5, g6, -⟩ := setFile_file hf
      have hcode := congrArg Prod.fst (Option.some.inj hs)
      have hst := congrArg Prod.snd (Option.some.inj hs)
      simp only [hok, h1, Bool.and_self, Bool.true_eq_false, if_false, if_true] at hcode hst
      subst hst
      refine ⟨hcode.symm, hk.1, ?_⟩
      funext x
      by_cases hx : d.ttyPath = some x
      · obtain ⟨l, e1, e2⟩ := g6 hok h2 x hx
        rcases hk.2.1 x hx with e | e
        · rw [e] at e1; cases e1
        · rw [e] at e1; cases e1; exact e2
      · exact (g5 x hx).trans (hk.2.2 x hx)

/-- what is kept has labels, if SELinux was enforcing when it was made -/
def Safe (st : State) : Prop := ∀ d, st.data = some d → d.ttyPath ≠ none → d.prevTty ≠ none ∧ d.ttyContext ≠ none

theorem setContext_safe {w : World} {d : Data} {st : State} (hd : st.data = some d) (h : Safe st) :
    ∃ k st', setContext w d st = some (k, st') ∧ Safe st' := by
  unfold setContext
  cases hf : setFileContext w d.ttyContext d.ttyPath st with
  | none =>
    exfalso
    unfold setFileContext at hf
    cases hp : d.ttyPath with
    | none => rw [hp] at hf; cases hf
    | some f =>
      cases hc : d.ttyContext with
      | none => exact (h d hd (by rw [hp]; nofun)).2 hc
      | some c => rw [hp, hc] at hf; simp only at hf; split at hf <;> cases hf
  | some r =>
    obtain ⟨ok, s1⟩ := r
    refine ⟨_, _, rfl, ?_⟩
    obtain ⟨-, -, g3, -⟩ := setFile_file hf
    intro d' hd'
    exact h d' (by rw [← g3]; exact hd')

theorem restore_safe {w : World} {st : State} (h : Safe st) : ∃ k st', restoreContext w st = some (k, st') ∧ Safe st' := by
  unfold restoreContext
  cases hd : st.data with
  | none => exact ⟨_, _, rfl, h⟩
  | some d =>
    simp only
    cases hf : setFileContext w d.prevTty d.ttyPath st with
    | none =>
      exfalso
      unfold setFileContext at hf
      cases hp : d.ttyPath with
      | none => rw [hp] at hf; cases hf
      | some f =>
        cases hc : d.prevTty with
        | none => exact (h d hd (by rw [hp]; nofun)).1 hc
        | some c => rw [hp, hc] at hf; simp only at hf; split at hf <;> cases hf
    | some r =>
      obtain ⟨ok, s1⟩ := r
      refine ⟨_, _, rfl, ?_⟩
      obtain ⟨-, -, g3, -⟩ := setFile_file hf
      intro d' hd'
      exact h d' (by rw [← g3]; exact hd')

theorem call_safe {st : State} (c : Call) (he : c.world.enforcing = true) (h : Safe st) :
    call st c = .asking ∨ ∃ k st', call st c = .done k st' ∧ Safe st' := by
  cases c with
  | closing w argv =>
    simp only [call, closeSession]
    split
    · exact Or.inr ⟨_, _, rfl, h⟩
    · obtain ⟨k, s, e, hs⟩ := restore_safe (w := w) h
      rw [e]; exact Or.inr ⟨k, s, rfl, hs⟩
  | opening w n argv =>
    simp only [Call.world] at he
    simp only [call, openSession]
    split
    · exact Or.inr ⟨_, _, rfl, h⟩
    split
    · obtain ⟨k, s, e, hs⟩ := restore_safe (w := w) h
      rw [e]; exact Or.inr ⟨k, s, rfl, hs⟩
    cases hd : st.data with
    | some d =>
      simp only
      obtain ⟨k, s, e, hs⟩ := setContext_safe (w := w) hd h
      rw [e]; exact Or.inr ⟨k, s, rfl, hs⟩
    | none =>
      simp only
      have hmore : ∀ sent, Safe { st with sent := st.sent ++ sent } := by
        intro sent d e; simp only [hd] at e; cases e
      unfold createContext
      split
      · exact Or.inr ⟨_, _, rfl, h⟩
      split
      · exact Or.inr ⟨_, _, rfl, h⟩
      simp only
      split
      · exact Or.inr ⟨_, _, rfl, h⟩
      split
      · exact Or.inr ⟨_, _, rfl, h⟩
      split
      · exact Or.inl rfl
      · exact Or.inr ⟨_, _, rfl, hmore _⟩
      · rename_i default _ _ exec sent _
        unfold createFrom
        simp only
        generalize ht : (if (args argv).ttys then computeTty w { st with sent := st.sent ++ sent } exec else (PAM_SUCCESS, none, none, none)) = t
        by_cases ht1 : t.1 ≠ PAM_SUCCESS
        · rw [if_pos ht1]; exact Or.inr ⟨_, _, rfl, hmore _⟩
        rw [if_neg ht1]
        split
        · exact Or.inr ⟨_, _, rfl, hmore _⟩
        · obtain ⟨k, s, e, hs⟩ := setContext_safe (w := w) (d := ⟨exec, if w.getexec then st.exec else none, default, t.2.2.2, t.2.2.1, t.2.1⟩)
            (st := { exec := st.exec, key := st.key, file := st.file, sent := st.sent ++ sent,
                     data := some ⟨exec, if w.getexec then st.exec else none, default, t.2.2.2, t.2.2.1, t.2.1⟩ }) rfl (by
              intro d' e
              cases e
              simp only
              intro hne
              subst ht
              revert hne ht1
              split
              · unfold computeTty
                cases ttyPath w with
                | none => intro _ h; exact absurd rfl h
                | some path =>
                  simp only
                  cases w.getfile path with
                  | enoent => intro _ h; exact absurd rfl h
                  | fail => intro h1; simp only [refuse_enforcing he] at h1; exact absurd (by decide) h1
                  | ok =>
                    simp only
                    cases w.tclass with
                    | false => intro _ h; exact absurd rfl h
                    | true =>
                      simp only [Bool.true_eq_false, if_false]
                      cases w.relabel exec (st.file path) with
                      | none => intro _ h; exact absurd rfl h
                      | some _ => intro _ _; exact ⟨nofun, nofun⟩
              · intro _ h; exact absurd rfl h)
          rw [e]; exact Or.inr ⟨k, s, rfl, hs⟩

/-- **C160** While SELinux is enforcing a terminal is never given a label that is NULL. -/
theorem C160_labels (s0 : State) (h0 : s0.data = none) (cs : List Call) (he : ∀ c ∈ cs, c.world.enforcing = true) : run cs s0 ≠ .null := by
  have key : ∀ (cs : List Call) (st : State), (∀ c ∈ cs, c.world.enforcing = true) → Safe st → run cs st ≠ .null := by
    intro cs
    induction cs with
    | nil => intro st _ _; nofun
    | cons c cs ih =>
      intro st he h
      rw [run]
      rcases call_safe c (he c List.mem_cons_self) h with e | ⟨k, s, e, hs⟩
      · rw [e]; nofun
      · rw [e]; exact ih s (fun c hc => he c (List.mem_cons_of_mem _ hc)) hs
  exact key cs s0 he (fun d e => by rw [h0] at e; cases e)

/-! ### a system -/

/-- contexts of the form user:role:type:level, with one letter for each -/
def exPolicy : Policy where
  contextNew s := match s with
    | [u, ':', r, ':', t, ':', l] => some ⟨[u], [r], [t], some [l]⟩
    | _ => none
  contextStr c := c.user ++ ':' :: c.role ++ ':' :: c.type ++ ':' :: c.range.getD []
  roleOk _ := true
  typeOk _ := true
  rangeOk _ := true
  defaultType r := if r = ['s'] then some ['x'] else none
  mls := true
  valid s := s.length == 7
  contains _ n := n.getLast? != some '9'
  getcon := some "u:r:t:5".toList

def exWorld : World where
  policy := exPolicy
  enabled := true
  enforcing := true
  user := some "ann".toList
  service := some "login".toList
  tty := some "tty1".toList
  stdin := none
  stdout := none
  stderr := none
  pwname _ := none
  contexts _ _ := some "u:r:t:0".toList
  env _ := none
  ask _ := none
  getexec := true
  getfile _ := .ok
  tclass := true
  relabel e _ := some ('L' :: e)
  setfile := .ok
  setexec := true
  setkey := true
  save := true

def exState : State := ⟨none, none, fun _ => "old".toList, none, []⟩

/-- the answers: yes, a role without a type; yes, a role, a level -/
def exAsk (i : Nat) : Option Str := ["y".toList, "q".toList, "Yes".toList, "s".toList, "3".toList][i]?

/-- the context of the session, for the examples -/
def Out.view : Out → Option (Int × Option Str × Option Str × Str × Str)
  | .done k st => some (k, st.exec, st.key, st.file "/dev/tty1".toList, st.file "/dev/tty2".toList)
  | _ => none

example : configContext exPolicy "u:r:t:0".toList false exAsk 2 0 = some (some "u:s:x:3".toList, []) := by decide +kernel
example : configContext exPolicy "u:r:t:0".toList true exAsk 2 0 = some (some "u:s:x:5".toList, []) := by decide +kernel
/-- a level beyond the default is refused, and told -/
example : configContext exPolicy "u:r:t:0".toList false (fun i => if i = 2 then some "9".toList else if i = 1 then some [] else some "y".toList) 5 0 =
    some (none, [⟨false, some "u:r:t:0".toList, some "u:r:t:9".toList⟩]) := by decide +kernel
example : contextFromEnv exPolicy "u:r:t:0".toList true false (fun v => if v = "SELINUX_ROLE_REQUESTED".toList then some "s".toList else none) =
    (some "u:s:x:0".toList, []) := by decide +kernel
example : (openSession exWorld 1 [] exState).view =
    some (PAM_SUCCESS, some "u:r:t:0".toList, some "u:r:t:0".toList, "Lu:r:t:0".toList, "old".toList) := by decide +kernel
example : (run [.opening exWorld 1 [], .opening exWorld 1 [], .closing exWorld []] exState).view =
    some (PAM_SUCCESS, none, some "u:r:t:0".toList, "old".toList, "old".toList) := by decide +kernel
example : Labelled exWorld "u:r:t:0".toList exState.file "/dev/tty1".toList "Lu:r:t:0".toList := ⟨ttyPath_iff.mp (by decide), rfl, rfl, rfl⟩

/-- **C160** The context for new keys is not put back: after opening and closing, where all works, it is still that of the user. -/
theorem C160_key_counterexample :
    (run [.opening exWorld 1 [], .closing exWorld []] exState).view = some (PAM_SUCCESS, none, some "u:r:t:0".toList, "old".toList, "old".toList) ∧
    exState.key = none := by
  decide +kernel

/-- **C160** While SELinux is not enforcing, a terminal whose label cannot be read is given a label that is NULL. -/
theorem C160_label_counterexample :
    run [.opening { exWorld with enforcing := false, getfile := fun _ => .fail } 1 []] exState = .null := rfl

/-- **C160** A failure can leave the session half done: the opening fails, but the context for programs is set and the terminal has its label. -/
theorem C160_half_counterexample :
    (openSession { exWorld with setkey := false } 1 [] exState).view =
      some (PAM_SESSION_ERR, some "u:r:t:0".toList, none, "Lu:r:t:0".toList, "old".toList) := by
  decide +kernel

end Pam.Selinux
