import Verif.Simple.Stress
/-
C200: pam_stress does what its options say.
-/
namespace Pam.Stress
open Pam

/-- an option is among the arguments -/
def Given (o : String) (argv : List Str) : Prop := o.toList ∈ argv

instance (o : String) (argv : List Str) : Decidable (Given o argv) := inferInstanceAs (Decidable (_ ∈ _))

theorem drop_ne {s a : Str} {P : Prop} (h : ¬ a = s) : (s = a ∨ P) = P := propext ⟨fun x => x.elim (fun e => absurd e.symm h) id, .inr⟩

theorem fold_options : ∀ (argv : List Str) (c : Ctrl),
    ((argv.foldl parseArg c).noWarn = true ↔ c.noWarn = true ∨ Given "no_warn" argv) ∧
    ((argv.foldl parseArg c).useFirst = true ↔ c.useFirst = true ∨ Given "use_first_pass" argv) ∧
    ((argv.foldl parseArg c).tryFirst = true ↔ c.tryFirst = true ∨ Given "try_first_pass" argv) ∧
    ((argv.foldl parseArg c).rootok = true ↔ c.rootok = true ∨ Given "rootok" argv) ∧
    ((argv.foldl parseArg c).expired = true ↔ c.expired = true ∨ Given "expired" argv) ∧
    ((argv.foldl parseArg c).fail1 = true ↔ c.fail1 = true ∨ Given "fail_1" argv) ∧
    ((argv.foldl parseArg c).fail2 = true ↔ c.fail2 = true ∨ Given "fail_2" argv) ∧
    ((argv.foldl parseArg c).prelim = true ↔ c.prelim = true ∨ Given "prelim" argv) ∧
    ((argv.foldl parseArg c).required = true ↔ c.required = true ∨ Given "required" argv)
  | [], c => by simp [Given]
  | a :: argv, c => by
    rw [List.foldl_cons]
    have ih := fold_options argv (parseArg c a)
    obtain ⟨h1, h2, h3, h4, h5, h6, h7, h8, h9⟩ := ih
    rw [h1, h2, h3, h4, h5, h6, h7, h8, h9]
    clear h1 h2 h3 h4 h5 h6 h7 h8 h9
    unfold Given
    simp only [List.mem_cons]
    unfold parseArg
    repeat' split
    all_goals first
      | (subst_vars; simp; done)
      | (rename_i g1 g2 g3 g4 g5 g6 g7 g8 g9 g10
         simp only [drop_ne g2, drop_ne g3, drop_ne g4, drop_ne g5, drop_ne g6, drop_ne g7, drop_ne g8, drop_ne g9, drop_ne g10, iff_self, and_self])

theorem options (argv : List Str) :
    ((parse argv).noWarn = true ↔ Given "no_warn" argv) ∧ ((parse argv).useFirst = true ↔ Given "use_first_pass" argv) ∧
    ((parse argv).tryFirst = true ↔ Given "try_first_pass" argv) ∧ ((parse argv).rootok = true ↔ Given "rootok" argv) ∧
    ((parse argv).expired = true ↔ Given "expired" argv) ∧ ((parse argv).fail1 = true ↔ Given "fail_1" argv) ∧
    ((parse argv).fail2 = true ↔ Given "fail_2" argv) ∧ ((parse argv).prelim = true ↔ Given "prelim" argv) ∧
    ((parse argv).required = true ↔ Given "required" argv) := by
  have h := fold_options argv {}
  simpa [parse] using h

/-- C200.  The simple calls: `fail_1` makes account checks and the opening of sessions fail, `fail_2` the setting of credentials and the closing of sessions, `expired` asks for a new
    password and notes that; sessions also fail without a user or a service.  Nothing else fails. -/
theorem C200_calls (argv : List Str) (h : H) :
    setcred argv = (if Given "fail_2" argv then 17 else 0) ∧
    acct argv h = (if Given "fail_1" argv then (6, h) else if Given "expired" argv then (12, { h with newPwd := some "yes".toList }) else (0, h)) ∧
    openSession argv h = (if h.user ≠ none ∧ h.service ≠ none ∧ ¬ Given "fail_1" argv then 0 else 14) ∧
    closeSession argv h = (if h.user ≠ none ∧ h.service ≠ none ∧ ¬ Given "fail_2" argv then 0 else 14) := by
  obtain ⟨_, _, _, _, he, h1, h2, _, _⟩ := options argv
  refine ⟨?_, ?_, ?_, ?_⟩
  · unfold setcred; simp only [h2]
  · unfold acct; simp only [h1, he]
  · unfold openSession; simp only [h1]
    by_cases a : h.user = none <;> by_cases b : h.service = none <;> by_cases c : Given "fail_1" argv <;> simp [a, b, c]
  · unfold closeSession; simp only [h2]
    by_cases a : h.user = none <;> by_cases b : h.service = none <;> by_cases c : Given "fail_2" argv <;> simp [a, b, c]

/-- the code of an authentication that got a password -/
def verdict (argv : List Str) : Int := if Given "fail_1" argv then 6 else 0

/-- C200.  With `use_first_pass` or `try_first_pass` and a password that is there, the user is not asked, and the password stays. -/
theorem C200_forwarded (conv : Conv) (argv : List Str) (k : Call) (s : St) (hu : k.getUser = 0) (hf : Given "use_first_pass" argv ∨ Given "try_first_pass" argv) (t : Str)
    (ht : s.h.authtok = some t) : authenticate conv argv k s = some (verdict argv, s) := by
  obtain ⟨_, h2, h3, _, _, h1, _⟩ := options argv
  unfold authenticate getPassword verdict
  simp only [hu, h2, h3, h1, ht]
  rw [if_neg (by decide), if_pos ⟨hf.symm, by simp⟩]
  simp only [ne_eq, not_true_eq_false, if_false]
  rw [← ht]

/-- C200.  With `use_first_pass` and no password, the user is not asked, and access is denied. -/
theorem C200_none_forwarded (conv : Conv) (argv : List Str) (k : Call) (s : St) (hu : k.getUser = 0) (hf : Given "use_first_pass" argv) (ht : s.h.authtok = none) :
    authenticate conv argv k s = some (6, s) := by
  obtain ⟨_, h2, h3, _, _, h1, _⟩ := options argv
  unfold authenticate getPassword
  simp only [hu, h2, h3, ht]
  rw [if_neg (by decide), if_neg (by simp), if_pos hf]
  rfl

/-- C200.  Otherwise the user is asked once, and what they answer is the password from then on, unless the conversation fails, or there is no answer where one is needed. -/
theorem C200_asked (f : List (List Msg) → List Msg → Int × Option (List (Option Str))) (argv : List Str) (k : Call) (s : St) (hu : k.getUser = 0)
    (hf : ¬ Given "use_first_pass" argv) (ht : Given "try_first_pass" argv → s.h.authtok = none) (r : Int) (a : Option Str) (rest : List (Option Str))
    (ha : f s.asked [.secret "STRESS Password: ".toList] = (r, some (a :: rest))) :
    authenticate (some f) argv k s = some (
      if r ≠ 0 then (r, ⟨s.h, s.asked ++ [[.secret "STRESS Password: ".toList]]⟩)
      else if k.disallowNull = true ∧ a = none then (7, ⟨s.h, s.asked ++ [[.secret "STRESS Password: ".toList]]⟩)
      else (verdict argv, ⟨{ s.h with authtok := a }, s.asked ++ [[.secret "STRESS Password: ".toList]]⟩)) := by
  obtain ⟨_, h2, h3, _, _, h1, _⟩ := options argv
  unfold authenticate getPassword converse verdict
  simp only [hu, h2, h3, h1, ha]
  rw [if_neg (by decide), if_neg (by rintro ⟨h | h, hn⟩; exact hn (ht h); exact hf h), if_neg hf]
  by_cases hr : r = 0
  · subst hr
    by_cases hn : k.disallowNull = true ∧ a = none
    · simp [hn, PAM_AUTH_ERR, PAM_SUCCESS]
    · simp [hn]
  · simp [hr]

theorem oldPassword_keeps {conv : Conv} {c : Ctrl} {k : Call} {s s' : St} {r : Int} (h : oldPassword conv c k s = some (r, s')) : s'.h.authtok = s.h.authtok := by
  unfold oldPassword at h
  split at h
  · have hg : ∀ r p s1, getPassword conv c k s = some (r, p, s1) → s1.h = s.h := by
      intro r p s1 hg
      unfold getPassword at hg
      split at hg
      · cases hg; rfl
      · split at hg
        · cases hg; rfl
        · have hc : (converse conv [.secret "STRESS Password: ".toList] s).2.2.h = s.h := by unfold converse; split <;> rfl
          generalize converse conv [.secret "STRESS Password: ".toList] s = x at hg hc
          obtain ⟨x1, x2, x3⟩ := x
          simp only at hg hc
          split at hg
          · cases hg; exact hc
          · split at hg
            · cases hg; exact hc
            · cases hg
            · split at hg <;> (cases hg; exact hc)
    split at h
    · cases h
    · rename_i he
      have := hg _ _ _ he
      split at h
      · cases h; rw [this]
      · cases h; simp only; rw [this]
  · cases h; rfl

theorem converse_keeps (conv : Conv) (msgs : List Msg) (s : St) : (converse conv msgs s).2.2.h = s.h := by unfold converse; split <;> rfl

/-- C200.  A change that does not succeed leaves the password as it was. -/
theorem C200_unchanged (conv : Conv) (argv : List Str) (k : Call) (s s' : St) (r : Int) (h : chauthtok conv argv k s = some (r, s')) (hr : r ≠ 0) :
    s'.h.authtok = s.h.authtok := by
  unfold chauthtok at h
  simp only at h
  split at h
  · cases h; rfl
  split at h
  · split at h
    · cases h; rfl
    split at h
    · cases h; rfl
    split at h
    · cases h
    · rename_i ho
      have hk := oldPassword_keeps ho
      split at h
      · cases h; exact hk
      split at h
      · cases h; exact hk
      rename_i s1 _ _
      have hc := converse_keeps conv (questions k (s1.h.user.getD [])) s1
      generalize converse conv (questions k (s1.h.user.getD [])) s1 = x at h hc
      obtain ⟨x1, x2, x3⟩ := x
      simp only at h hc
      split at h
      · cases h; rw [hc]; exact hk
      · split at h
        · cases h; rw [hc]; exact hk
        · unfold store at h
          split at h
          · split at h
            · split at h
              · split at h
                · cases h; rw [converse_keeps, hc]; exact hk
                · cases h; rw [hc]; exact hk
              · cases h; exact absurd rfl hr
            · cases h; rw [hc]; exact hk
          · cases h
  · cases h; rfl

/-- the two questions for a new password -/
def ask2 : List Msg := [.secret "Enter new STRESS password: ".toList, .secret "Retype new STRESS password: ".toList]

/-- C200.  A change with PAM_SILENT asks for the new password twice.  If both answers are the same, it is the password from then on, and the one before is kept as the old one; otherwise
    the change fails. -/
theorem C200_change_partial (f : List (List Msg) → List Msg → Int × Option (List (Option Str))) (argv : List Str) (k : Call) (s : St) (hs : k.silent = true)
    (hp : k.prelimCheck = false) (hu : k.update = true) (h1 : ¬ Given "fail_1" argv) (hreq : ¬ Given "required" argv ∨ (k.root = true ∧ Given "rootok" argv))
    (he : k.changeExpired = true → Given "expired" argv ∨ s.h.newPwd = some "yes".toList) (a b : Option Str) (ha : f s.asked ask2 = (0, some [a, b])) :
    chauthtok (some f) argv k s = some (
      if a = none ∨ b = none then (4, ⟨s.h, s.asked ++ [ask2]⟩)
      else if a = b then (0, ⟨{ s.h with oldauthtok := s.h.authtok, authtok := a }, s.asked ++ [ask2]⟩)
      else (20, ⟨s.h, s.asked ++ [ask2]⟩)) := by
  obtain ⟨_, _, _, o4, o5, o1, _, _, o9⟩ := options argv
  have hq : ∀ u, questions k u = ask2 := by intro u; unfold questions; rw [hs]; rfl
  unfold chauthtok oldPassword
  simp only [hp, hu, o1, o4, o5, o9, hs, hq]
  rw [if_neg (by decide), if_pos trivial, if_neg h1, if_neg (by rintro ⟨x, y, z⟩; rcases he y with w | w; exact x w; exact z w), if_neg (fun x => hreq.elim (fun y => y x.1) (fun y => x.2 y))]
  simp only [ne_eq, not_true_eq_false, if_false, false_and, converse, ha]
  show store (some f) (parse argv) k 2 [a, b] _ = _
  unfold store
  simp only [Nat.sub_self, List.getElem?_cons_zero, List.getElem?_cons_succ, Nat.add_one_sub_one, hs]
  cases a with
  | none => simp
  | some a =>
    cases b with
    | none => simp
    | some b =>
      by_cases e : a = b
      · subst e; simp
      · simp [e]

/-- C200.  The first of the two calls for a change says "try again" exactly with `prelim`; the second fails as "busy" with `fail_1`, and, if only expired passwords are to be changed, does
    nothing for one that is not; a call that is neither is an error.  In none of these cases is the user asked, and nothing changes. -/
theorem C200_phases (conv : Conv) (argv : List Str) (k : Call) (s : St) :
    (k.prelimCheck = true → chauthtok conv argv k s = some (if Given "prelim" argv then 24 else 0, s)) ∧
    (k.prelimCheck = false → k.update = false → chauthtok conv argv k s = some (4, s)) ∧
    (k.prelimCheck = false → k.update = true → Given "fail_1" argv → chauthtok conv argv k s = some (22, s)) ∧
    (k.prelimCheck = false → k.update = true → ¬ Given "fail_1" argv → k.changeExpired = true → ¬ Given "expired" argv → s.h.newPwd ≠ some "yes".toList →
      chauthtok conv argv k s = some (0, s)) := by
  obtain ⟨_, _, _, _, o5, o1, _, o8, _⟩ := options argv
  refine ⟨fun h => ?_, fun h g => ?_, fun h g a => ?_, fun h g a b c d => ?_⟩
  · unfold chauthtok; simp only [h, o8, if_true]
  · unfold chauthtok; simp only [h, g]; rfl
  · unfold chauthtok; simp only [h, g, o1, if_pos a]; rfl
  · unfold chauthtok; simp only [h, g, o1, o5, if_neg a, b]
    rw [if_neg (by decide), if_pos trivial, if_pos ⟨c, trivial, d⟩]

/-- C200.  With `required`, unless it is root and `rootok` is given, the old password is asked for first, and the change ends with the code of the conversation if that fails. -/
theorem C200_old_first (f : List (List Msg) → List Msg → Int × Option (List (Option Str))) (argv : List Str) (k : Call) (s : St)
    (hp : k.prelimCheck = false) (hu : k.update = true) (h1 : ¬ Given "fail_1" argv) (hreq : Given "required" argv) (hroot : ¬ (k.root = true ∧ Given "rootok" argv))
    (he : k.changeExpired = true → Given "expired" argv ∨ s.h.newPwd = some "yes".toList) (hf : ¬ Given "use_first_pass" argv)
    (ht : Given "try_first_pass" argv → s.h.authtok = none) (hr : (f s.asked [.secret "STRESS Password: ".toList]).1 ≠ 0) :
    chauthtok (some f) argv k s = some ((f s.asked [.secret "STRESS Password: ".toList]).1, ⟨s.h, s.asked ++ [[.secret "STRESS Password: ".toList]]⟩) := by
  obtain ⟨_, h2, h3, o4, o5, o1, _, _, o9⟩ := options argv
  have hg : getPassword (some f) (parse argv) k s = some ((f s.asked [.secret "STRESS Password: ".toList]).1, none, ⟨s.h, s.asked ++ [[.secret "STRESS Password: ".toList]]⟩) := by
    unfold getPassword converse
    simp only [h2, h3]
    rw [if_neg (by rintro ⟨h | h, hn⟩; exact hn (ht h); exact hf h), if_neg hf, if_pos hr]
  unfold chauthtok oldPassword
  simp only [hp, hu, o1, o4, o5, o9, hg]
  rw [if_neg (by decide), if_pos trivial, if_neg h1, if_neg (by rintro ⟨x, y, z⟩; rcases he y with w | w; exact x w; exact z w), if_pos ⟨hreq, hroot⟩, if_pos hr]
  simp only
  rw [if_pos hr]

/-- an application that answers with this list -/
def answers (l : List (List (Option Str))) : Conv := some (fun before _ => (0, some (l.getD before.length [])))

/-- ann, who has no password yet -/
def exH : H := ⟨some "ann".toList, some "test".toList, none, none, none⟩

/-- C200, in full, is false: without PAM_SILENT a message comes first, and it is the answer to that message, which is NULL, that becomes the password. -/
theorem C200_change_counterexample : (chauthtok (answers [[none, some "new".toList, some "new".toList]]) [] { update := true } ⟨exH, []⟩).map (fun x => (x.1, x.2.h.authtok)) =
    some (0, none) := by decide +kernel

/-- C200: that the old password is kept is false.  With `required` it is asked for, and lost when the new one is stored. -/
theorem C200_old_counterexample : (chauthtok (answers [[some "old".toList], [some "new".toList, some "new".toList]]) ["required".toList] { update := true, silent := true } ⟨exH, []⟩).map
    (fun x => (x.1, x.2.h.oldauthtok)) = some (0, none) := by decide +kernel

/-! The hypotheses are met. -/

example : (chauthtok (some (fun _ _ => (19, none))) ["required".toList, "rootok".toList] { update := true } ⟨exH, []⟩).map (fun x => (x.1, x.2.asked)) =
    some (19, [[.secret "STRESS Password: ".toList]]) := by decide +kernel

example : (chauthtok (answers [[some "new".toList, some "new".toList]]) [] { update := true, silent := true } ⟨exH, []⟩).map (fun x => (x.1, x.2.h.authtok)) = some (0, some "new".toList) := by
  decide +kernel
example : (chauthtok (answers [[some "new".toList, some "nwe".toList]]) [] { update := true, silent := true } ⟨exH, []⟩).map (fun x => (x.1, x.2.h.authtok)) = some (20, none) := by
  decide +kernel
example : (authenticate (answers [[some "pw".toList]]) ["try_first_pass".toList] {} ⟨exH, []⟩).map (fun x => (x.1, x.2.h.authtok)) = some (0, some "pw".toList) := by decide +kernel
example : (authenticate none ["use_first_pass".toList, "fail_1".toList] {} ⟨{ exH with authtok := some "pw".toList }, []⟩).map (fun x => (x.1, x.2.h.authtok)) = some (6, some "pw".toList) := by
  decide +kernel

end Pam.Stress
