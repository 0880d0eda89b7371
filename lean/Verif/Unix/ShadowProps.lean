import Verif.Unix.Shadow
/-
Property theorems C71: password aging.
-/
namespace Pam.Unix
open Pam

/-- numbers of a shadow line -/
def Aging.Ok (e : Aging) : Prop :=
  ∀ v ∈ [e.lstchg, e.min, e.max, e.warn, e.inact, e.expire], -LMAX - 1 ≤ v ∧ v ≤ LMAX

/-- a day a clock can show: seconds fit 63 bits -/
def Day (d : Int) : Prop := 0 ≤ d ∧ d ≤ LMAX / 86400

/-- the account is closed on that day -/
def Closed (e : Aging) (d : Int) : Prop := 0 ≤ e.expire ∧ e.expire ≤ d

/-- aging applies: there is a day of the last change, and it is not in the future -/
def Counting (e : Aging) (d : Int) : Prop := 0 < e.lstchg ∧ e.lstchg ≤ d

/-- the password is older than it may be -/
def Old (e : Aging) (d : Int) : Prop := 0 ≤ e.max ∧ e.lstchg + e.max ≤ d

/-- and so old that it cannot even be changed any more -/
def Dead (e : Aging) (d : Int) : Prop := 0 ≤ e.max ∧ 0 ≤ e.inact ∧ e.lstchg + e.max + e.inact ≤ d

/-- the password is too young to be changed -/
def Young (e : Aging) (d : Int) : Prop := 0 < e.min ∧ d < e.lstchg + e.min

/-- days to warn in: the last `warn` days before the password is too old -/
def WarnTime (e : Aging) (d : Int) : Prop := 0 ≤ e.max ∧ 0 < e.warn ∧ e.lstchg + e.max - e.warn ≤ d

theorem long_some {v : Int} (h1 : -LMAX - 1 ≤ v) (h2 : v ≤ LMAX) : long v = some v := by
  rw [long, if_pos ⟨h1, h2⟩]

theorem inactive_spec {e : Aging} {passed : Int} (ok : e.Ok) (hm : 0 ≤ e.max) (h0 : 0 ≤ passed) (h1 : passed ≤ LMAX / 86400) :
    inactive e passed = some (if 0 ≤ e.inact ∧ e.max + e.inact ≤ passed then some (e.max + e.inact - passed) else none) := by
  have hi := ok e.inact (by simp)
  have hx := ok e.max (by simp)
  unfold LMAX at *
  unfold inactive
  by_cases h : e.inact ≥ 0
  · rw [if_pos h, long_some (by unfold LMAX; omega) (by unfold LMAX; omega)]
    simp only [Option.bind_eq_bind, Option.bind_some]
    by_cases hr : e.max < LMAX - e.inact
    · unfold LMAX at hr
      rw [if_pos (by unfold LMAX; omega), long_some (by unfold LMAX; omega) (by unfold LMAX; omega)]
      simp only [Option.bind_some]
      by_cases hp : passed ≥ e.max + e.inact
      · rw [if_pos hp, long_some (by unfold LMAX; omega) (by unfold LMAX; omega), if_pos ⟨h, hp⟩]; rfl
      · rw [if_neg hp, if_neg (fun x => hp x.2)]
    · unfold LMAX at hr
      rw [if_neg (by unfold LMAX; omega)]
      show (if passed ≥ LMAX then _ else some none) = _
      rw [if_neg (by unfold LMAX; omega), if_neg (by omega)]
  · rw [if_neg h, if_neg (fun x => h x.1)]

theorem warning_spec {e : Aging} {passed : Int} (ok : e.Ok) (h0 : 0 ≤ passed) (h1 : passed < e.max) :
    warning e passed = some (if 0 < e.warn ∧ e.max - e.warn ≤ passed then e.max - passed else -1) := by
  have hw := ok e.warn (by simp)
  have hx := ok e.max (by simp)
  unfold LMAX at hw hx
  unfold warning
  by_cases h : e.warn > 0
  · rw [if_pos h]
    by_cases hr : e.warn > e.max
    · rw [if_pos hr]
      simp only [Option.bind_eq_bind, Option.bind_some]
      rw [if_pos (by omega), if_pos (by omega), long_some (by unfold LMAX; omega) (by unfold LMAX; omega)]
    · rw [if_neg hr, long_some (by unfold LMAX; omega) (by unfold LMAX; omega)]
      simp only [Option.bind_eq_bind, Option.bind_some]
      by_cases hp : passed ≥ e.max - e.warn
      · rw [if_pos hp, if_pos ⟨h, hp⟩, long_some (by unfold LMAX; omega) (by unfold LMAX; omega)]
      · rw [if_neg hp, if_neg (fun x => hp x.2)]
  · rw [if_neg h, if_neg (fun x => h x.1)]

/-- C71: what is answered on every day, in full: no arithmetic overflows, and the answer depends on the days of the entry as documented. -/
theorem C71_answer (e : Aging) (d : Int) (ok : e.Ok) (hd : Day d) :
    ∃ code left, checkExpiry e d = some (code, left) ∧
      (code = PAM_ACCT_EXPIRED ↔ Closed e d) ∧
      (code = PAM_AUTHTOK_EXPIRED ↔ ¬ Closed e d ∧ Counting e d ∧ Dead e d) ∧
      (code = PAM_NEW_AUTHTOK_REQD ↔ ¬ Closed e d ∧ (e.lstchg = 0 ∨ Counting e d ∧ Old e d ∧ ¬ Dead e d)) ∧
      (code = PAM_AUTHTOK_ERR ↔ ¬ Closed e d ∧ Counting e d ∧ ¬ Old e d ∧ Young e d) ∧
      (code = PAM_SUCCESS ↔ ¬ Closed e d ∧ e.lstchg ≠ 0 ∧ (Counting e d → ¬ Old e d ∧ ¬ Young e d)) ∧
      (code = PAM_AUTHTOK_EXPIRED → left = e.lstchg + e.max + e.inact - d) ∧
      (code = PAM_SUCCESS ∨ code = PAM_AUTHTOK_ERR → Counting e d ∧ WarnTime e d → left = e.lstchg + e.max - d) ∧
      (code = PAM_SUCCESS ∨ code = PAM_AUTHTOK_ERR → ¬ (Counting e d ∧ WarnTime e d) → left = -1) := by
  have hl := ok e.lstchg (by simp)
  unfold Day at hd
  unfold LMAX at hl hd
  unfold checkExpiry Closed Counting Dead Old Young WarnTime
  by_cases h1 : e.expire ≥ 0 ∧ d ≥ e.expire
  · rw [if_pos h1]
    refine ⟨_, _, rfl, ?_⟩
    simp only [PAM_ACCT_EXPIRED, PAM_AUTHTOK_EXPIRED, PAM_NEW_AUTHTOK_REQD, PAM_AUTHTOK_ERR, PAM_SUCCESS]
    (refine ⟨?_, ?_, ?_, ?_, ?_, ?_, ?_, ?_⟩ <;> intros <;> (try simp only [true_iff]) <;> first | trivial | omega)
  rw [if_neg h1]
  by_cases h2 : e.lstchg = 0
  · rw [if_pos h2]
    refine ⟨_, _, rfl, ?_⟩
    simp only [PAM_ACCT_EXPIRED, PAM_AUTHTOK_EXPIRED, PAM_NEW_AUTHTOK_REQD, PAM_AUTHTOK_ERR, PAM_SUCCESS]
    (refine ⟨?_, ?_, ?_, ?_, ?_, ?_, ?_, ?_⟩ <;> intros <;> (try simp only [true_iff]) <;> first | trivial | omega)
  rw [if_neg h2]
  by_cases h3 : e.lstchg < 0
  · rw [if_pos h3]
    refine ⟨_, _, rfl, ?_⟩
    simp only [PAM_ACCT_EXPIRED, PAM_AUTHTOK_EXPIRED, PAM_NEW_AUTHTOK_REQD, PAM_AUTHTOK_ERR, PAM_SUCCESS]
    (refine ⟨?_, ?_, ?_, ?_, ?_, ?_, ?_, ?_⟩ <;> intros <;> (try simp only [true_iff]) <;> first | trivial | omega)
  rw [if_neg h3]
  by_cases h4 : d < e.lstchg
  · rw [if_pos h4]
    refine ⟨_, _, rfl, ?_⟩
    simp only [PAM_ACCT_EXPIRED, PAM_AUTHTOK_EXPIRED, PAM_NEW_AUTHTOK_REQD, PAM_AUTHTOK_ERR, PAM_SUCCESS]
    (refine ⟨?_, ?_, ?_, ?_, ?_, ?_, ?_, ?_⟩ <;> intros <;> (try simp only [true_iff]) <;> first | trivial | omega)
  rw [if_neg h4, long_some (by unfold LMAX; omega) (by unfold LMAX; omega)]
  simp only [Option.bind_eq_bind, Option.bind_some]
  unfold aged tooYoung
  by_cases h5 : e.max ≥ 0
  · rw [if_pos h5, inactive_spec ok h5 (by omega) (by unfold LMAX; omega)]
    simp only [Option.bind_eq_bind, Option.bind_some]
    by_cases h6 : 0 ≤ e.inact ∧ e.max + e.inact ≤ d - e.lstchg
    · rw [if_pos h6]
      refine ⟨_, _, rfl, ?_⟩
      simp only [PAM_ACCT_EXPIRED, PAM_AUTHTOK_EXPIRED, PAM_NEW_AUTHTOK_REQD, PAM_AUTHTOK_ERR, PAM_SUCCESS]
      (refine ⟨?_, ?_, ?_, ?_, ?_, ?_, ?_, ?_⟩ <;> intros <;> (try simp only [true_iff]) <;> first | trivial | omega)
    rw [if_neg h6]
    simp only
    by_cases h7 : d - e.lstchg ≥ e.max
    · rw [if_pos h7]
      refine ⟨_, _, rfl, ?_⟩
      simp only [PAM_ACCT_EXPIRED, PAM_AUTHTOK_EXPIRED, PAM_NEW_AUTHTOK_REQD, PAM_AUTHTOK_ERR, PAM_SUCCESS]
      (refine ⟨?_, ?_, ?_, ?_, ?_, ?_, ?_, ?_⟩ <;> intros <;> (try simp only [true_iff]) <;> first | trivial | omega)
    rw [if_neg h7, warning_spec ok (by omega) (by omega)]
    simp only [Option.bind_some]
    by_cases h8 : e.min > 0 ∧ d - e.lstchg < e.min
    · rw [if_pos h8]
      refine ⟨_, _, rfl, ?_⟩
      simp only [PAM_ACCT_EXPIRED, PAM_AUTHTOK_EXPIRED, PAM_NEW_AUTHTOK_REQD, PAM_AUTHTOK_ERR, PAM_SUCCESS]
      split <;> (refine ⟨?_, ?_, ?_, ?_, ?_, ?_, ?_, ?_⟩ <;> intros <;> (try simp only [true_iff]) <;> first | trivial | omega)
    · rw [if_neg h8]
      refine ⟨_, _, rfl, ?_⟩
      simp only [PAM_ACCT_EXPIRED, PAM_AUTHTOK_EXPIRED, PAM_NEW_AUTHTOK_REQD, PAM_AUTHTOK_ERR, PAM_SUCCESS]
      split <;> (refine ⟨?_, ?_, ?_, ?_, ?_, ?_, ?_, ?_⟩ <;> intros <;> (try simp only [true_iff]) <;> first | trivial | omega)
  · rw [if_neg h5]
    by_cases h8 : e.min > 0 ∧ d - e.lstchg < e.min
    · rw [if_pos h8]
      refine ⟨_, _, rfl, ?_⟩
      simp only [PAM_ACCT_EXPIRED, PAM_AUTHTOK_EXPIRED, PAM_NEW_AUTHTOK_REQD, PAM_AUTHTOK_ERR, PAM_SUCCESS]
      (refine ⟨?_, ?_, ?_, ?_, ?_, ?_, ?_, ?_⟩ <;> intros <;> (try simp only [true_iff]) <;> first | trivial | omega)
    · rw [if_neg h8]
      refine ⟨_, _, rfl, ?_⟩
      simp only [PAM_ACCT_EXPIRED, PAM_AUTHTOK_EXPIRED, PAM_NEW_AUTHTOK_REQD, PAM_AUTHTOK_ERR, PAM_SUCCESS]
      (refine ⟨?_, ?_, ?_, ?_, ?_, ?_, ?_, ?_⟩ <;> intros <;> (try simp only [true_iff]) <;> first | trivial | omega)

/-- how bad an answer is -/
def rank (code : Int) : Nat :=
  if code = PAM_ACCT_EXPIRED then 3 else if code = PAM_AUTHTOK_EXPIRED then 2 else if code = PAM_NEW_AUTHTOK_REQD then 1 else 0

/-- C71: while the entry stays the same, time never makes an answer better: an expired account or password stays expired. -/
theorem C71_monotone (e : Aging) (d d' : Int) (ok : e.Ok) (hd : Day d) (hd' : Day d') (hle : d ≤ d') :
    ∃ a a', (checkExpiry e d).map (·.1) = some a ∧ (checkExpiry e d').map (·.1) = some a' ∧ rank a ≤ rank a' := by
  obtain ⟨a, l, h, h1, h2, h3, h4, h5, -⟩ := C71_answer e d ok hd
  obtain ⟨a', l', h', h1', h2', h3', h4', h5', -⟩ := C71_answer e d' ok hd'
  refine ⟨a, a', by rw [h]; rfl, by rw [h']; rfl, ?_⟩
  clear h h' h4 h5 h4' h5' ok hd hd'
  have m1 : Closed e d → Closed e d' := by unfold Closed; omega
  have m2 : Counting e d → Counting e d' := by unfold Counting; omega
  have m3 : Old e d → Old e d' := by unfold Old; omega
  have m4 : Dead e d → Dead e d' := by unfold Dead; omega
  unfold rank
  by_cases c1 : Closed e d
  · rw [if_pos (h1.mpr c1), if_pos (h1'.mpr (m1 c1))]; exact Nat.le_refl 3
  · rw [if_neg (fun x => c1 (h1.mp x))]
    by_cases c1' : Closed e d'
    · rw [if_pos (h1'.mpr c1')]; repeat' split
      all_goals decide
    · rw [if_neg (fun x => c1' (h1'.mp x))]
      by_cases c2 : Counting e d ∧ Dead e d
      · rw [if_pos (h2.mpr ⟨c1, c2⟩), if_pos (h2'.mpr ⟨c1', m2 c2.1, m4 c2.2⟩)]; exact Nat.le_refl 2
      · rw [if_neg (fun x => c2 (h2.mp x).2)]
        by_cases c2' : Counting e d' ∧ Dead e d'
        · rw [if_pos (h2'.mpr ⟨c1', c2'⟩)]; split <;> decide
        · rw [if_neg (fun x => c2' (h2'.mp x).2)]
          by_cases c3 : a = PAM_NEW_AUTHTOK_REQD
          · obtain ⟨-, c⟩ := h3.mp c3
            rw [if_pos c3, if_pos (h3'.mpr ⟨c1', ?_⟩)]
            · exact Nat.le_refl 1
            · rcases c with c | ⟨c, c', -⟩
              · exact Or.inl c
              · exact Or.inr ⟨m2 c, m3 c', fun x => c2' ⟨m2 c, x⟩⟩
          · rw [if_neg c3]; split <;> decide

/-- an entry with everything: changed on day 20000, to be kept a day, ninety days valid, a week of warning, a month to change it -/
def demoAging : Aging := ⟨20000, 1, 90, 7, 30, 21000⟩
example : demoAging.Ok := by unfold demoAging Aging.Ok LMAX; decide
example : Day 20085 := by unfold Day LMAX; omega
example : checkExpiry demoAging 20000 = some (PAM_AUTHTOK_ERR, -1) ∧ checkExpiry demoAging 20005 = some (PAM_SUCCESS, -1) ∧
    checkExpiry demoAging 20085 = some (PAM_SUCCESS, 5) ∧ checkExpiry demoAging 20090 = some (PAM_NEW_AUTHTOK_REQD, -1) ∧
    checkExpiry demoAging 20125 = some (PAM_AUTHTOK_EXPIRED, -5) ∧ checkExpiry demoAging 21000 = some (PAM_ACCT_EXPIRED, -1) := by decide
example : Old demoAging 20090 ∧ ¬ Dead demoAging 20090 ∧ WarnTime demoAging 20085 ∧ Young demoAging 20000 ∧ Counting demoAging 20000 ∧
    ¬ Closed demoAging 20999 ∧ Dead demoAging 20120 := by
  unfold Old Dead WarnTime Young Counting Closed demoAging; decide

end Pam.Unix
