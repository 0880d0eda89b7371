import Verif.Unix.AuthProps
import Verif.Unix.CtrlProps
/-
Property theorems C76 (account management) and C77 (authentication).
-/
namespace Pam.Unix
open Pam Util Util.Spec

/-- the password has to be changed now -/
def MustChange (e : Aging) (d : Int) : Prop := ¬ Closed e d ∧ (e.lstchg = 0 ∨ Counting e d ∧ Old e d ∧ ¬ Dead e d)

/-- it is too late to change it -/
def TooLate (e : Aging) (d : Int) : Prop := ¬ Closed e d ∧ Counting e d ∧ Dead e d

/-- aging is not enforced: `no_pass_expiry` is given and this module has not let the user in -/
def Waived (ctrl : Ctrl) (saved : Option Int) : Prop := on UNIX_NO_PASS_EXPIRY ctrl = true ∧ saved ≠ some PAM_SUCCESS

/-! ### helper lemmas -/

theorem enforced_left {e : Aging} {d left : Int} (h : checkExpiry e d = some (PAM_NEW_AUTHTOK_REQD, left)) : left = 0 ↔ e.lstchg = 0 := by
  unfold checkExpiry at h
  split at h
  · cases h
  split at h
  · next h0 => cases h; exact ⟨fun _ => h0, fun _ => rfl⟩
  next h0 =>
  have : left = -1 := by
    split at h
    · cases h
    split at h
    · cases h
    cases hl : long (d - e.lstchg) with
    | none => rw [hl] at h; cases h
    | some passed =>
      rw [hl] at h
      simp only [Option.bind_eq_bind, Option.bind_some] at h
      have young : ∀ x, tooYoung e passed x ≠ (PAM_NEW_AUTHTOK_REQD, left) := by
        intro x hx
        unfold tooYoung at hx
        split at hx <;> cases hx
      unfold aged at h
      split at h
      · cases hi : inactive e passed with
        | none => rw [hi] at h; cases h
        | some r =>
          rw [hi] at h
          simp only [Option.bind_eq_bind, Option.bind_some] at h
          cases r with
          | some v => cases h
          | none =>
            simp only at h
            split at h
            · cases h; rfl
            · cases hw : warning e passed with
              | none => rw [hw] at h; cases h
              | some x => rw [hw] at h; exact absurd (Option.some.inj h) (young x)
      · exact absurd (Option.some.inj h) (young _)
  rw [this]
  exact ⟨fun x => absurd x (by decide), fun x => absurd x h0⟩

/-- what the module learns about the age of a password when nothing goes wrong -/
theorem verifyUser_fine {s : Sys} {b : Bin} {l : Luck} (hl : l.Fine) {p : Proc} {name : Str} (ht : Trusted s b p name)
    {shadow : Str → Option Sp} (hr : s.RootReads shadow) (ctrl : Ctrl) :
    (s.pwnam name = none → verifyUser s b l p ctrl name = some (PAM_USER_UNKNOWN, none)) ∧
    (∀ pw, s.pwnam name = some pw →
      (¬ pw.Shadowed → verifyUser s b l p ctrl name = some (PAM_SUCCESS, none)) ∧
      (pw.Shadowed → shadow name = none →
        verifyUser s b l p ctrl name = some (if on UNIX_BROKEN_SHADOW ctrl then PAM_SUCCESS else PAM_AUTHINFO_UNAVAIL, some (-1))) ∧
      (pw.Shadowed → ∀ sp code days, shadow name = some sp → checkExpiry sp.aging s.today = some (code, days) → code ≠ PAM_AUTHINFO_UNAVAIL →
        verifyUser s b l p ctrl name = some (code, some days))) := by
  have hrun : ∀ pw e d, s.pwnam name = some pw → pw.Shadowed → (∀ q, Sees s q name q → q.Started → q.euid = 0 →
      chkpwd s q ⟨[], l.sched, l.buf, l.noG, l.noU⟩ false [name, "chkexpiry".toList] = some ⟨e, some d⟩) →
      verifyUser s b l p ctrl name = some (if e = PAM_AUTHINFO_UNAVAIL ∧ on UNIX_BROKEN_SHADOW ctrl then PAM_SUCCESS else e, some d) := by
    intro pw e d hpw hs hc
    unfold verifyUser moduleHash
    rw [hpw]
    simp only [if_pos (shadowed_iff.mpr hs)]
    rw [if_neg (by decide), if_neg (by decide)]
    unfold runVerify
    rw [hl.pipe, hl.fork, hl.wait, hl.exited, hl.read]
    simp only [Bool.not_true, Bool.false_eq_true, if_false]
    rcases child_cases s b l p [] [name, "chkexpiry".toList] (some (-1)) with ⟨o, -, -, hbad⟩ | ⟨q, hq, hrun⟩
    · rw [hl.child, hl.setuid, hl.exec] at hbad
      rcases hbad with h | h | h <;> cases h
    · obtain ⟨h1, h2⟩ := trusted_sees ht hl.setuid hq
      rw [hrun, hc q h1 (helper_started hq) h2]
  refine ⟨fun h => ?_, fun pw hpw => ⟨fun hs => ?_, fun hs hn => ?_, fun hs sp code days hsp hce hne => ?_⟩⟩
  · unfold verifyUser moduleHash
    rw [h]
    simp only [if_true]
  · unfold verifyUser moduleHash
    rw [hpw]
    have : ¬ isShadowed pw = true := fun x => hs (shadowed_iff.mp x)
    simp only [if_neg this]
    rw [if_neg (by decide), if_pos trivial]
  · rw [hrun pw PAM_AUTHINFO_UNAVAIL (-1) hpw hs (fun q h1 h2 h3 =>
      ((C73_expiry s q q h2 _ hl.noG hl.noU name h1).2 pw hpw).2.1 hs (by rw [hr q h3]; exact hn))]
    simp only [true_and]
  · rw [hrun pw code days hpw hs (fun q h1 h2 h3 =>
      ((C73_expiry s q q h2 _ hl.noG hl.noU name h1).2 pw hpw).2.2 hs sp code days (by rw [hr q h3]; exact hsp) hce)]
    rw [if_neg (fun x => hne x.1)]

theorem waived_iff {ctrl : Ctrl} {saved : Option Int} :
    (on UNIX_NO_PASS_EXPIRY ctrl = true ∧ saved.getD PAM_AUTHINFO_UNAVAIL ≠ PAM_SUCCESS) ↔ Waived ctrl saved := by
  unfold Waived
  cases saved with
  | none => simp [show PAM_AUTHINFO_UNAVAIL ≠ PAM_SUCCESS from by decide]
  | some v => simp

/-- C76: an account that may be used: the answer and what the user is told follow from the shadow entry as documented; without one the
account is open, and an entry that cannot be read is an error unless `broken_shadow` is given. -/
theorem C76_answer (s : Sys) (b : Bin) (l : Luck) (hl : l.Fine) (p : Proc) (ctrl : Ctrl) (saved : Option Int) (name : Str)
    (shadow : Str → Option Sp) (hr : s.RootReads shadow) (ht : Trusted s b p name) (hd : Day s.today) :
    (s.pwnam name = none → acctMgmt s b l p ctrl saved (some name) = some (PAM_USER_UNKNOWN, none)) ∧
    (∀ pw, s.pwnam name = some pw →
      (¬ pw.Shadowed → acctMgmt s b l p ctrl saved (some name) = some (PAM_SUCCESS, none)) ∧
      (pw.Shadowed → shadow name = none →
        acctMgmt s b l p ctrl saved (some name) = some (if on UNIX_BROKEN_SHADOW ctrl then PAM_SUCCESS else PAM_AUTHINFO_UNAVAIL, none)) ∧
      (pw.Shadowed → ∀ sp, shadow name = some sp → sp.aging.Ok →
        ∃ code msg, acctMgmt s b l p ctrl saved (some name) = some (code, msg) ∧
          (code = PAM_ACCT_EXPIRED ↔ Closed sp.aging s.today) ∧
          (code = PAM_AUTHTOK_EXPIRED ↔ TooLate sp.aging s.today ∧ ¬ Waived ctrl saved) ∧
          (code = PAM_NEW_AUTHTOK_REQD ↔ MustChange sp.aging s.today ∧ ¬ Waived ctrl saved) ∧
          (code = PAM_SUCCESS ↔ ¬ Closed sp.aging s.today ∧ ((¬ TooLate sp.aging s.today ∧ ¬ MustChange sp.aging s.today) ∨ Waived ctrl saved)) ∧
          (on UNIX__QUIET ctrl = true → msg = none) ∧
          (off UNIX__QUIET ctrl = true →
            (code = PAM_ACCT_EXPIRED ∨ code = PAM_AUTHTOK_EXPIRED → msg = some .accountExpired) ∧
            (code = PAM_NEW_AUTHTOK_REQD → msg = some (if sp.aging.lstchg = 0 then .enforced else .aged)) ∧
            (¬ Closed sp.aging s.today → ¬ TooLate sp.aging s.today → ¬ MustChange sp.aging s.today →
              (Counting sp.aging s.today ∧ WarnTime sp.aging s.today →
                msg = some (.warn (sp.aging.lstchg + sp.aging.max - s.today))) ∧
              (¬ (Counting sp.aging s.today ∧ WarnTime sp.aging s.today) → msg = none))))) := by
  obtain ⟨v1, v2⟩ := verifyUser_fine hl ht hr ctrl
  have plain : ∀ d : Option Int, d.getD (-1) = -1 → (if on UNIX_NO_PASS_EXPIRY ctrl = true ∧ saved.getD PAM_AUTHINFO_UNAVAIL ≠ PAM_SUCCESS ∧
      (PAM_SUCCESS = PAM_NEW_AUTHTOK_REQD ∨ PAM_SUCCESS = PAM_AUTHTOK_EXPIRED) then PAM_SUCCESS else PAM_SUCCESS) = PAM_SUCCESS := by
    intro d _; split <;> rfl
  have rep0 : report ctrl PAM_SUCCESS (-1) = (PAM_SUCCESS, none) := rfl
  refine ⟨fun h => ?_, fun pw hpw => ⟨fun hs => ?_, fun hs hn => ?_, fun hs sp hsp hok => ?_⟩⟩
  · unfold acctMgmt
    simp only [v1 h]
    rw [if_neg (by rintro ⟨-, -, h | h⟩ <;> exact absurd h (by decide))]
    rfl
  · unfold acctMgmt
    simp only [(v2 pw hpw).1 hs]
    rw [ite_self]
    rfl
  · unfold acctMgmt
    simp only [(v2 pw hpw).2.1 hs hn]
    cases on UNIX_BROKEN_SHADOW ctrl
    · simp only [Bool.false_eq_true, if_false]
      rw [if_neg (by rintro ⟨-, -, h | h⟩ <;> exact absurd h (by decide))]
      rfl
    · simp only [if_true]
      rw [ite_self]
      rfl
  · obtain ⟨code, left, hce, h1, h2, h3, h4, h5, h6, h7, h8⟩ := C71_answer sp.aging s.today hok hd
    have hleft := fun (h : code = PAM_NEW_AUTHTOK_REQD) => enforced_left (h ▸ hce)
    have hcodes : code = PAM_ACCT_EXPIRED ∨ code = PAM_AUTHTOK_EXPIRED ∨ code = PAM_NEW_AUTHTOK_REQD ∨ code = PAM_AUTHTOK_ERR ∨ code = PAM_SUCCESS := by
      rw [h1, h2, h3, h4, h5]
      by_cases a : Closed sp.aging s.today
      · exact Or.inl a
      · by_cases b1 : sp.aging.lstchg = 0
        · exact Or.inr (Or.inr (Or.inl ⟨a, Or.inl b1⟩))
        · by_cases c : Counting sp.aging s.today
          · by_cases d : Dead sp.aging s.today
            · exact Or.inr (Or.inl ⟨a, c, d⟩)
            · by_cases o : Old sp.aging s.today
              · exact Or.inr (Or.inr (Or.inl ⟨a, Or.inr ⟨c, o, d⟩⟩))
              · by_cases y : Young sp.aging s.today
                · exact Or.inr (Or.inr (Or.inr (Or.inl ⟨a, c, o, y⟩)))
                · exact Or.inr (Or.inr (Or.inr (Or.inr ⟨a, b1, fun _ => ⟨o, y⟩⟩)))
          · exact Or.inr (Or.inr (Or.inr (Or.inr ⟨a, b1, fun x => absurd x c⟩)))
    have hne : code ≠ PAM_AUTHINFO_UNAVAIL := by
      rcases hcodes with h | h | h | h | h <;> rw [h] <;> decide
    have hv := (v2 pw hpw).2.2 hs sp code left hsp hce hne
    unfold acctMgmt
    simp only [hv, Option.getD_some]
    have hW : (on UNIX_NO_PASS_EXPIRY ctrl = true ∧ saved.getD PAM_AUTHINFO_UNAVAIL ≠ PAM_SUCCESS ∧
        (code = PAM_NEW_AUTHTOK_REQD ∨ code = PAM_AUTHTOK_EXPIRED)) ↔ Waived ctrl saved ∧ (code = PAM_NEW_AUTHTOK_REQD ∨ code = PAM_AUTHTOK_EXPIRED) := by
      rw [← waived_iff, and_assoc]
    have hT : code = PAM_AUTHTOK_EXPIRED ↔ TooLate sp.aging s.today := h2
    have hM : code = PAM_NEW_AUTHTOK_REQD ↔ MustChange sp.aging s.today := h3
    rw [← hT, ← hM, ← h1]
    generalize Waived ctrl saved = W at *
    have hq : ∀ r, (on UNIX__QUIET ctrl = true → remark ctrl r = none) ∧ (off UNIX__QUIET ctrl = true → remark ctrl r = some r) := by
      intro r
      unfold remark off
      cases on UNIX__QUIET ctrl <;> simp
    have hwl : (code = PAM_SUCCESS ∨ code = PAM_AUTHTOK_ERR) → (left ≥ 0 ↔ Counting sp.aging s.today ∧ WarnTime sp.aging s.today) := by
      intro hc
      by_cases hx : Counting sp.aging s.today ∧ WarnTime sp.aging s.today
      · have e := h7 hc hx
        refine ⟨fun _ => hx, fun _ => ?_⟩
        have hnold : ¬ Old sp.aging s.today := by
          rcases hc with hc | hc
          · exact ((h5.mp hc).2.2 hx.1).1
          · exact (h4.mp hc).2.2.1
        have hmax := hx.2.1
        unfold Old at hnold
        rw [e]
        by_cases hlt : sp.aging.lstchg + sp.aging.max ≤ s.today
        · exact absurd ⟨hmax, hlt⟩ hnold
        · omega
      · have e := h8 hc hx
        refine ⟨fun hge => ?_, fun h => absurd h hx⟩
        rw [e] at hge
        exact absurd hge (by decide)
    clear v1 v2 hv hce h1 h2 h3 h4 h5 h6 h8 hne hd hr ht hl rep0 plain hT hM
    rcases hcodes with rfl | rfl | rfl | rfl | rfl
    · rw [if_neg (by rw [hW]; rintro ⟨-, h | h⟩ <;> exact absurd h (by decide))]
      refine ⟨PAM_ACCT_EXPIRED, remark ctrl .accountExpired, rfl, ?_, ?_, ?_, ?_, (hq _).1, fun hoff => ⟨fun _ => (hq _).2 hoff, ?_, ?_⟩⟩
      · simp
      · simp [show PAM_ACCT_EXPIRED ≠ PAM_AUTHTOK_EXPIRED from by decide]
      · simp [show PAM_ACCT_EXPIRED ≠ PAM_NEW_AUTHTOK_REQD from by decide]
      · simp [show PAM_ACCT_EXPIRED ≠ PAM_SUCCESS from by decide]
      · intro h; exact absurd h (by decide)
      · intro h; exact absurd rfl h
    · by_cases w : W
      · rw [if_pos (hW.mpr ⟨w, Or.inr rfl⟩)]
        refine ⟨PAM_SUCCESS, if left ≥ 0 then remark ctrl (.warn left) else none, rfl, ?_, ?_, ?_, ?_, ?_, fun hoff => ⟨?_, ?_, ?_⟩⟩
        · simp [show PAM_SUCCESS ≠ PAM_ACCT_EXPIRED from by decide, show PAM_AUTHTOK_EXPIRED ≠ PAM_ACCT_EXPIRED from by decide]
        · simp [show PAM_SUCCESS ≠ PAM_AUTHTOK_EXPIRED from by decide, w]
        · simp [show PAM_SUCCESS ≠ PAM_NEW_AUTHTOK_REQD from by decide, show PAM_AUTHTOK_EXPIRED ≠ PAM_NEW_AUTHTOK_REQD from by decide]
        · simp [w, show PAM_AUTHTOK_EXPIRED ≠ PAM_ACCT_EXPIRED from by decide]
        · intro h
          split
          · exact (hq _).1 h
          · rfl
        · intro h; rcases h with h | h <;> exact absurd h (by decide)
        · intro h; exact absurd h (by decide)
        · intro _ h; exact absurd rfl h
      · rw [if_neg (fun x => w (hW.mp x).1)]
        refine ⟨PAM_AUTHTOK_EXPIRED, remark ctrl .accountExpired, rfl, ?_, ?_, ?_, ?_, (hq _).1, fun hoff => ⟨fun _ => (hq _).2 hoff, ?_, ?_⟩⟩
        · simp
        · simp [w]
        · simp [show PAM_AUTHTOK_EXPIRED ≠ PAM_NEW_AUTHTOK_REQD from by decide]
        · simp [show PAM_AUTHTOK_EXPIRED ≠ PAM_SUCCESS from by decide, w]
        · intro h; exact absurd h (by decide)
        · intro _ h; exact absurd rfl h
    · by_cases w : W
      · rw [if_pos (hW.mpr ⟨w, Or.inl rfl⟩)]
        refine ⟨PAM_SUCCESS, if left ≥ 0 then remark ctrl (.warn left) else none, rfl, ?_, ?_, ?_, ?_, ?_, fun hoff => ⟨?_, ?_, ?_⟩⟩
        · simp [show PAM_SUCCESS ≠ PAM_ACCT_EXPIRED from by decide, show PAM_NEW_AUTHTOK_REQD ≠ PAM_ACCT_EXPIRED from by decide]
        · simp [show PAM_SUCCESS ≠ PAM_AUTHTOK_EXPIRED from by decide, w]
        · simp [show PAM_SUCCESS ≠ PAM_NEW_AUTHTOK_REQD from by decide, w]
        · simp [w, show PAM_NEW_AUTHTOK_REQD ≠ PAM_ACCT_EXPIRED from by decide]
        · intro h
          split
          · exact (hq _).1 h
          · rfl
        · intro h; rcases h with h | h <;> exact absurd h (by decide)
        · intro h; exact absurd h (by decide)
        · intro _ _ h; exact absurd rfl h
      · rw [if_neg (fun x => w (hW.mp x).1)]
        refine ⟨PAM_NEW_AUTHTOK_REQD, remark ctrl (if left = 0 then .enforced else .aged), rfl, ?_, ?_, ?_, ?_, (hq _).1, fun hoff => ⟨?_, fun _ => ?_, ?_⟩⟩
        · simp
        · simp [show PAM_NEW_AUTHTOK_REQD ≠ PAM_AUTHTOK_EXPIRED from by decide]
        · simp [w]
        · simp [show PAM_NEW_AUTHTOK_REQD ≠ PAM_SUCCESS from by decide, w]
        · intro h; rcases h with h | h <;> exact absurd h (by decide)
        · rw [(hq _).2 hoff]
          simp only [hleft rfl]
        · intro _ _ h; exact absurd rfl h
    · rw [if_neg (by rw [hW]; rintro ⟨-, h | h⟩ <;> exact absurd h (by decide))]
      refine ⟨PAM_SUCCESS, if left ≥ 0 then remark ctrl (.warn left) else none, rfl, ?_, ?_, ?_, ?_, ?_, fun hoff => ⟨?_, ?_, ?_⟩⟩
      · simp [show PAM_SUCCESS ≠ PAM_ACCT_EXPIRED from by decide, show PAM_AUTHTOK_ERR ≠ PAM_ACCT_EXPIRED from by decide]
      · simp [show PAM_SUCCESS ≠ PAM_AUTHTOK_EXPIRED from by decide, show PAM_AUTHTOK_ERR ≠ PAM_AUTHTOK_EXPIRED from by decide]
      · simp [show PAM_SUCCESS ≠ PAM_NEW_AUTHTOK_REQD from by decide, show PAM_AUTHTOK_ERR ≠ PAM_NEW_AUTHTOK_REQD from by decide]
      · simp [show PAM_AUTHTOK_ERR ≠ PAM_ACCT_EXPIRED from by decide, show PAM_AUTHTOK_ERR ≠ PAM_AUTHTOK_EXPIRED from by decide,
          show PAM_AUTHTOK_ERR ≠ PAM_NEW_AUTHTOK_REQD from by decide]
      · intro h
        split
        · exact (hq _).1 h
        · rfl
      · intro h; rcases h with h | h <;> exact absurd h (by decide)
      · intro h; exact absurd h (by decide)
      · intro _ _ _
        refine ⟨fun hx => ?_, fun hx => ?_⟩
        · rw [if_pos ((hwl (Or.inr rfl)).mpr hx), (hq _).2 hoff, h7 (Or.inr rfl) hx]
        · rw [if_neg (fun y => hx ((hwl (Or.inr rfl)).mp y))]
    · rw [if_neg (by rw [hW]; rintro ⟨-, h | h⟩ <;> exact absurd h (by decide))]
      refine ⟨PAM_SUCCESS, if left ≥ 0 then remark ctrl (.warn left) else none, rfl, ?_, ?_, ?_, ?_, ?_, fun hoff => ⟨?_, ?_, ?_⟩⟩
      · simp
      · simp [show PAM_SUCCESS ≠ PAM_AUTHTOK_EXPIRED from by decide]
      · simp [show PAM_SUCCESS ≠ PAM_NEW_AUTHTOK_REQD from by decide]
      · simp [show PAM_SUCCESS ≠ PAM_ACCT_EXPIRED from by decide, show PAM_SUCCESS ≠ PAM_AUTHTOK_EXPIRED from by decide,
          show PAM_SUCCESS ≠ PAM_NEW_AUTHTOK_REQD from by decide]
      · intro h
        split
        · exact (hq _).1 h
        · rfl
      · intro h; rcases h with h | h <;> exact absurd h (by decide)
      · intro h; exact absurd h (by decide)
      · intro _ _ _
        refine ⟨fun hx => ?_, fun hx => ?_⟩
        · rw [if_pos ((hwl (Or.inl rfl)).mpr hx), (hq _).2 hoff, h7 (Or.inl rfl) hx]
        · rw [if_neg (fun y => hx ((hwl (Or.inl rfl)).mp y))]

/-- what the helper's answer about the age of a password rests on, whatever goes wrong -/
theorem runVerify_sound {s : Sys} {b : Bin} {l : Luck} {p : Proc} {name : Str} {pw : Pw} (hpw : s.pwnam name = some pw) (hs : pw.Shadowed)
    {code : Int} {d : Option Int} (h : runVerify s b l p name = some (code, d)) :
    code = PAM_AUTH_ERR ∨ code = PAM_AUTHINFO_UNAVAIL ∨
      ∃ q q' sp days, Helper b l p q ∧ Sees s q name q' ∧ s.spnam q' name = some sp ∧ checkExpiry sp.aging s.today = some (code, days) := by
  unfold runVerify at h
  cases hpi : l.pipe with
  | false => rw [hpi] at h; cases h; exact Or.inl rfl
  | true =>
    rw [hpi] at h
    cases hfo : l.fork with
    | false => rw [hfo] at h; cases h; exact Or.inl rfl
    | true =>
      rw [hfo] at h
      simp only [Bool.not_true, Bool.false_eq_true, if_false] at h
      cases hc : childRun s b l p [] [name, "chkexpiry".toList] (some (-1)) with
      | none => rw [hc] at h; cases h
      | some e =>
        rw [hc] at h
        simp only [Option.some.injEq] at h
        by_cases hx : code = PAM_AUTH_ERR
        · exact Or.inl hx
        right
        have hcode : code = e.code := by
          split at h
          · cases h; exact absurd rfl hx
          split at h
          · cases h; exact absurd rfl hx
          split at h
          · cases h; exact absurd rfl hx
          split at h
          · cases h; exact absurd rfl hx
          · cases h; rfl
        clear h
        subst hcode
        rcases child_cases s b l p [] [name, "chkexpiry".toList] (some (-1)) with ⟨o, h1, -, -⟩ | ⟨q, hq, h1⟩
        · rw [hc] at h1; cases h1; exact Or.inl rfl
        · rw [hc] at h1
          have fin : ∀ q', Sees s q name q' → checkExpiryOf s q' name = some e → e.code = PAM_AUTHINFO_UNAVAIL ∨
              ∃ q q' sp days, Helper b l p q ∧ Sees s q name q' ∧ s.spnam q' name = some sp ∧ checkExpiry sp.aging s.today = some (e.code, days) := by
            intro q' hse hce
            unfold checkExpiryOf accountInfo at hce
            rw [hpw] at hce
            simp only [if_pos (shadowed_iff.mpr hs)] at hce
            cases hsp : s.spnam q' name with
            | none =>
              rw [hsp] at hce
              simp only at hce
              rw [if_pos (by decide)] at hce
              cases hce; exact Or.inl rfl
            | some sp =>
              rw [hsp] at hce
              simp only at hce
              rw [if_neg (by decide)] at hce
              obtain ⟨r, hr, rfl⟩ := Option.map_eq_some_iff.mp hce
              exact Or.inr ⟨q, q', sp, r.2, hq, hse, hsp, hr⟩
          have e0 : ∀ q i, chkpwdAs s q i name "chkexpiry".toList = checkExpiryOf s q name := by
            intro q i; unfold chkpwdAs; rw [if_pos rfl]
          rcases chkpwd_as (s := s) (helper_started hq) ⟨[], l.sched, l.buf, l.noG, l.noU⟩ name "chkexpiry".toList with ⟨h, e1⟩ | ⟨h, e1 | ⟨-, e1⟩⟩
          · rw [e1, e0] at h1; exact fin q (Or.inl ⟨h, rfl⟩) h1.symm
          · rw [e1, e0] at h1; exact fin q.self (Or.inr ⟨h, rfl⟩) h1.symm
          · rw [e1] at h1; cases h1; exact absurd rfl hx

/-- C76: whatever goes wrong, without `broken_shadow` an account in the shadow database is let in only on the strength of an entry that was
read: the account is not closed and, unless that is waived, its password need not be changed. -/
theorem C76_sound (s : Sys) (b : Bin) (l : Luck) (p : Proc) (ctrl : Ctrl) (hbs : on UNIX_BROKEN_SHADOW ctrl = false) (saved : Option Int)
    (user : Option Str) (msg : Option Remark) (hd : Day s.today) (h : acctMgmt s b l p ctrl saved user = some (PAM_SUCCESS, msg)) :
    ∃ name pw, user = some name ∧ s.pwnam name = some pw ∧ (pw.Shadowed → ∃ q q' sp, Helper b l p q ∧ Sees s q name q' ∧ s.spnam q' name = some sp ∧
      (sp.aging.Ok → ¬ Closed sp.aging s.today ∧ ((¬ TooLate sp.aging s.today ∧ ¬ MustChange sp.aging s.today) ∨ Waived ctrl saved))) := by
  unfold acctMgmt at h
  cases user with
  | none => cases h
  | some name =>
    simp only at h
    cases hv : verifyUser s b l p ctrl name with
    | none => rw [hv] at h; cases h
    | some r =>
      obtain ⟨rv, d⟩ := r
      rw [hv] at h
      simp only [Option.some.injEq] at h
      unfold verifyUser moduleHash at hv
      cases hp : s.pwnam name with
      | none =>
        rw [hp] at hv
        simp only [if_true] at hv
        cases hv
        rw [if_neg (by rintro ⟨-, -, h | h⟩ <;> exact absurd h (by decide))] at h
        cases h
      | some pw =>
        refine ⟨name, pw, rfl, hp, fun hs => ?_⟩
        rw [hp] at hv
        simp only [if_pos (shadowed_iff.mpr hs)] at hv
        rw [if_neg (by decide), if_neg (by decide)] at hv
        cases hrv : runVerify s b l p name with
        | none => rw [hrv] at hv; cases hv
        | some r =>
          obtain ⟨c, d'⟩ := r
          rw [hrv] at hv
          simp only [Option.some.injEq, Prod.mk.injEq, hbs, Bool.false_eq_true, and_false, if_false] at hv
          obtain ⟨rfl, rfl⟩ := hv
          have hrep : ∀ rv x, (report ctrl rv x).1 = PAM_SUCCESS → rv = PAM_SUCCESS ∨ rv = PAM_AUTHTOK_ERR := by
            intro rv x hx
            unfold report at hx
            split at hx
            · next e => rw [e] at hx; exact absurd hx (by show ¬ PAM_ACCT_EXPIRED = PAM_SUCCESS; decide)
            split at hx
            · next e => rw [e] at hx; exact absurd hx (by show ¬ PAM_NEW_AUTHTOK_REQD = PAM_SUCCESS; decide)
            split at hx
            · next e => rw [e] at hx; exact absurd hx (by show ¬ PAM_AUTHTOK_EXPIRED = PAM_SUCCESS; decide)
            split at hx
            · next e => exact e.symm
            · exact Or.inl hx
          rcases runVerify_sound hp hs hrv with e | e | ⟨q, q', sp, days, h1, h2, h3, h4⟩
          · rw [e, if_neg (by rintro ⟨-, -, h | h⟩ <;> exact absurd h (by decide))] at h
            cases h
          · rw [e, if_neg (by rintro ⟨-, -, h | h⟩ <;> exact absurd h (by decide))] at h
            cases h
          · refine ⟨q, q', sp, h1, h2, h3, fun hok => ?_⟩
            obtain ⟨code, left, a0, a1, a2, a3, -⟩ := C71_answer sp.aging s.today hok hd
            rw [h4] at a0
            cases a0
            have a2 : c = PAM_AUTHTOK_EXPIRED ↔ TooLate sp.aging s.today := a2
            have a3 : c = PAM_NEW_AUTHTOK_REQD ↔ MustChange sp.aging s.today := a3
            rw [← a1, ← a2, ← a3]
            have := hrep _ _ (congrArg Prod.fst h)
            have hW : (on UNIX_NO_PASS_EXPIRY ctrl = true ∧ saved.getD PAM_AUTHINFO_UNAVAIL ≠ PAM_SUCCESS ∧
                (c = PAM_NEW_AUTHTOK_REQD ∨ c = PAM_AUTHTOK_EXPIRED)) ↔ Waived ctrl saved ∧ (c = PAM_NEW_AUTHTOK_REQD ∨ c = PAM_AUTHTOK_EXPIRED) := by
              rw [← waived_iff, and_assoc]
            by_cases w : Waived ctrl saved ∧ (c = PAM_NEW_AUTHTOK_REQD ∨ c = PAM_AUTHTOK_EXPIRED)
            · refine ⟨?_, Or.inr w.1⟩
              rcases w.2 with e | e <;> rw [e] <;> decide
            · rw [if_neg (fun x => w (hW.mp x))] at this
              rcases this with e | e <;> rw [e] <;> exact ⟨by decide, Or.inl ⟨by decide, by decide⟩⟩

end Pam.Unix
