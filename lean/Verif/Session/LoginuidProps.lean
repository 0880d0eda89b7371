import Verif.Session.Loginuid
import Verif.Core.Strtol
/-
C132: pam_loginuid.
-/
namespace Pam.Session
open Pam

namespace Spec

/-- a number in decimal digits, without zeros in front -/
def Decimal (s : Str) (n : Nat) : Prop := Digits 10 s n ∧ (s.head? = some '0' → s = ['0'])

/-- the login uid after the call: what was written, else what it was -/
def After (w : LWorld) (out : Option Str) (s : Str) : Prop := out = some s ∨ (out = none ∧ w.loginuid = some s)

/-- the process sees the user ids of the host -/
def Host (w : LWorld) : Prop := w.uidMap = none ∨ w.uidMap = some "         0          0 4294967295\n".toList

/-- the process is in a user namespace with other user ids -/
def Elsewhere (w : LWorld) : Prop :=
  ∃ m, w.uidMap = some m ∧ (∀ c ∈ m, c ≠ NUL) ∧ (m = [] ∨ ¬ m <+: "         0          0 4294967295\n".toList)

/-- the audit daemon runs, or there is no audit system to ask -/
def Audited (w : LWorld) : Prop :=
  (w.audit = false ∧ w.noAudit = true) ∨
  (w.audit = true ∧ ((w.request = .refused) ∨ (w.request = .denied ∧ w.root = false) ∨
    (w.request = .sent ∧ ∃ pre pid post, w.replies = pre ++ .status pid :: post ∧ pre.length < 30 ∧ pid ≠ 0 ∧ ∀ r ∈ pre, r = .nothing ∨ r = .other)))

end Spec
open Spec

theorem decimal_toDigits (n : Nat) : Decimal (Nat.toDigits 10 n) n := by
  obtain ⟨h1, h2, h3, h4⟩ := toDigits_spec n
  refine ⟨⟨h1, h2, h3.symm⟩, fun h => ?_⟩
  rw [h4 h]; rfl

theorem toDigits_short {n : Nat} (h : n < 2 ^ 32) : (Nat.toDigits 10 n).length ≤ 10 := by
  have := Nat.length_toDigits_le_iff (b := 10) (k := 10) (n := n) (by decide) (by decide)
  exact this.mpr (by omega)

theorem same_iff {cur : Str} {n : Nat} (h : n < 2 ^ 32) :
    ((cur.take 24).length = (Nat.toDigits 10 n).length ∧ (cur.take 24).take (Nat.toDigits 10 n).length = Nat.toDigits 10 n) ↔ cur = Nat.toDigits 10 n := by
  have hs := toDigits_short h
  constructor
  · rintro ⟨h1, h2⟩
    rw [← h1, List.take_length] at h2
    rw [h2] at h1
    have : cur.length ≤ 24 := by
      have := List.length_take (i := 24) (l := cur)
      rw [h2] at this; omega
    rwa [List.take_of_length_le this] at h2
  · intro e
    rw [e, List.take_of_length_le (by omega)]
    exact ⟨rfl, List.take_length⟩

theorem hostMap_length : hostMap.length = 33 := by decide +kernel

theorem not_namespaced {w : LWorld} (h : Host w) : namespaced w = false := by
  rcases h with h | h <;> simp only [namespaced, h]
  decide

theorem is_namespaced {w : LWorld} (h : Elsewhere w) : namespaced w = true := by
  obtain ⟨m, hm, h0, h⟩ := h
  simp only [namespaced, hm, decide_eq_true_eq]
  rcases h with h | h
  · left; rw [h]; rfl
  · right
    intro e
    apply h
    by_cases hl : m.length ≤ 33
    · rw [List.take_of_length_le (by omega), List.take_append_of_le_length (by rw [hostMap_length]; exact hl)] at e
      exact e ▸ List.take_prefix _ _
    · exfalso
      have : (m.take 34).length = 34 := by rw [List.length_take]; omega
      rw [this] at e
      have hn : NUL ∈ m.take 34 := by
        rw [e, List.take_of_length_le (by rw [List.length_append, hostMap_length]; exact Nat.le_refl _)]
        exact List.mem_append_right _ (List.mem_singleton.mpr rfl)
      exact h0 _ (List.mem_of_mem_take hn) rfl

theorem auditLoop_success : ∀ {rs : List Reply}, auditLoop rs = some PAM_SUCCESS ↔
    ∃ pre pid post, rs = pre ++ .status pid :: post ∧ pid ≠ 0 ∧ ∀ r ∈ pre, r = .nothing ∨ r = .other
  | [] => by simp [auditLoop]
  | r :: rs => by
    have ih := auditLoop_success (rs := rs)
    cases r with
    | nothing =>
      rw [auditLoop, ih]
      constructor
      · rintro ⟨pre, pid, post, rfl, h, ha⟩
        exact ⟨.nothing :: pre, pid, post, rfl, h, by simpa using ha⟩
      · rintro ⟨pre, pid, post, e, h, ha⟩
        cases pre with
        | nil => cases e
        | cons x pre => cases e; exact ⟨pre, pid, post, rfl, h, fun r hr => ha r (by simp [hr])⟩
    | other =>
      rw [auditLoop, ih]
      constructor
      · rintro ⟨pre, pid, post, rfl, h, ha⟩
        exact ⟨.other :: pre, pid, post, rfl, h, by simpa using ha⟩
      · rintro ⟨pre, pid, post, e, h, ha⟩
        cases pre with
        | nil => cases e
        | cons x pre => cases e; exact ⟨pre, pid, post, rfl, h, fun r hr => ha r (by simp [hr])⟩
    | last =>
      rw [auditLoop]
      constructor
      · intro h; cases h
      rintro ⟨pre, pid, post, e, h, ha⟩
      cases pre with
      | nil => cases e
      | cons x pre => cases e; have := ha .last (by simp); simp at this
    | status p =>
      rw [auditLoop]
      constructor
      · intro h
        by_cases hp : p = 0
        · simp [hp, PAM_SUCCESS, PAM_SESSION_ERR] at h
        · exact ⟨[], p, rs, rfl, hp, by simp⟩
      · rintro ⟨pre, pid, post, e, h, ha⟩
        cases pre with
        | nil => cases e; rw [if_neg h]
        | cons x pre => cases e; have := ha (.status p) (by simp); simp at this

theorem auditLoop_cases : ∀ {rs : List Reply} {r}, auditLoop rs = some r → r = PAM_SUCCESS ∨ r = PAM_SESSION_ERR
  | [], _, h => nomatch h
  | .nothing :: rs, _, h => auditLoop_cases (rs := rs) h
  | .other :: rs, _, h => auditLoop_cases (rs := rs) h
  | .last :: _, _, h => nomatch h
  | .status p :: _, r, h => by
    rw [auditLoop] at h; cases h
    by_cases hp : p = 0
    · right; rw [if_pos hp]
    · left; rw [if_neg hp]

theorem take_status {rs : List Reply} : (∃ pre pid post, rs.take 30 = pre ++ .status pid :: post ∧ pid ≠ 0 ∧ ∀ r ∈ pre, r = .nothing ∨ r = .other) ↔
    ∃ pre pid post, rs = pre ++ .status pid :: post ∧ pre.length < 30 ∧ pid ≠ 0 ∧ ∀ r ∈ pre, r = .nothing ∨ r = .other := by
  constructor
  · rintro ⟨pre, pid, post, e, h, ha⟩
    refine ⟨pre, pid, post ++ rs.drop 30, ?_, ?_, h, ha⟩
    · have := List.take_append_drop 30 rs
      rw [e] at this
      refine this.symm.trans ?_
      simp
    · have := congrArg List.length e
      simp only [List.length_take, List.length_append, List.length_cons] at this
      omega
  · rintro ⟨pre, pid, post, e, hl, h, ha⟩
    refine ⟨pre, pid, post.take (29 - pre.length), ?_, h, ha⟩
    rw [e, List.take_append, List.take_of_length_le (by omega)]
    rw [show 30 - pre.length = (29 - pre.length) + 1 by omega, List.take_succ_cons]

theorem checkAuditd_iff (w : LWorld) : checkAuditd w = PAM_SUCCESS ↔ Audited w := by
  unfold checkAuditd Audited
  by_cases ha : w.audit = false
  · simp [ha]
    by_cases hn : w.noAudit = true <;> simp [hn, PAM_SUCCESS, PAM_SESSION_ERR]
  · have hat : w.audit = true := by simpa using ha
    rw [if_neg ha]
    simp only [hat, Bool.true_eq_false, false_and, false_or, true_and]
    by_cases hs : w.request = .sent
    · simp only [hs, if_pos, reduceCtorEq, false_and, false_or, true_and, if_false]
      rw [← take_status, ← auditLoop_success]
      cases auditLoop (w.replies.take 30) with
      | none => simp [PAM_SUCCESS, PAM_SESSION_ERR]
      | some r => simp
    · rw [if_neg hs]
      simp only [hs, false_and, or_false]
      by_cases hr : w.request = .refused
      · simp [hr]
      · rw [if_neg hr]
        simp only [hr, false_or]
        by_cases hd : w.request = .denied ∧ w.root = false
        · simp [hd]
        · rw [if_neg hd]
          simp only [hd, iff_false]; decide

theorem checkAuditd_err {w : LWorld} (h : ¬ Audited w) : checkAuditd w = PAM_SESSION_ERR := by
  have hn : checkAuditd w ≠ PAM_SUCCESS := fun e => h ((checkAuditd_iff w).mp e)
  unfold checkAuditd at hn ⊢
  by_cases ha : w.audit = false
  · rw [if_pos ha] at hn ⊢
    by_cases hx : w.noAudit = true
    · exact absurd (by rw [if_pos hx]) hn
    · rw [if_neg hx]
  · rw [if_neg ha] at hn ⊢
    by_cases hs : w.request = .sent
    · rw [if_pos hs] at hn ⊢
      cases hl : auditLoop (w.replies.take 30) with
      | none => simp [hs]
      | some r =>
        rw [hl] at hn
        exact (auditLoop_cases hl).resolve_left hn
    · rw [if_neg hs] at hn ⊢
      dsimp only at hn ⊢
      by_cases hr : w.request = .refused
      · exact absurd (by rw [if_pos hr]) hn
      · rw [if_neg hr] at hn ⊢
        by_cases hd : w.request = .denied ∧ w.root = false
        · exact absurd (by rw [if_pos hd]) hn
        · rw [if_neg hd]

open Classical in
theorem loginuid_audit {w : LWorld} {argv : List Str} {uid : Nat} {ret : Int} {out} (hu : w.uid = some uid)
    (hs : setLoginuid w uid = (ret, out)) (hr : ret = PAM_SUCCESS ∨ ret = PAM_IGNORE) :
    loginuid w argv = (if "require_auditd".toList ∈ argv ∧ ¬ Audited w then PAM_SESSION_ERR else ret, out) := by
  unfold loginuid
  rw [hu]
  dsimp only
  rw [hs]
  dsimp only
  rw [if_neg (by rcases hr with h | h <;> simp [h])]
  by_cases ha : "require_auditd".toList ∈ argv
  · rw [if_pos ha]
    by_cases hc : Audited w
    · rw [if_neg (by simpa using (checkAuditd_iff w).mpr hc), if_neg (by simp [hc])]
    · rw [if_pos (fun e => hc ((checkAuditd_iff w).mp e)), if_pos ⟨ha, hc⟩, checkAuditd_err hc]
  · rw [if_neg ha, if_neg (fun h => ha h.1)]

open Classical in
/-- C132, the login uid: when the module succeeds the account exists and the login uid of the process is the decimal user id of the account: it was so
before, or it has been written. -/
theorem C132_success (w : LWorld) (argv : List Str) (out : Option Str) (hb : ∀ u, w.uid = some u → u < 2 ^ 32) (h : loginuid w argv = (PAM_SUCCESS, out)) :
    ∃ uid s, w.uid = some uid ∧ After w out s ∧ Decimal s uid ∧ ("require_auditd".toList ∈ argv → Audited w) := by
  cases hu : w.uid with
  | none => simp [loginuid, hu, PAM_SUCCESS, PAM_SESSION_ERR] at h
  | some uid =>
    have hb := hb uid hu
    have key : ∀ ret o, setLoginuid w uid = (ret, o) → (ret = PAM_SUCCESS ∨ ret = PAM_IGNORE) →
        ret = PAM_SUCCESS ∧ o = out ∧ ("require_auditd".toList ∈ argv → Audited w) := by
      intro ret o hs hr
      rw [loginuid_audit hu hs hr] at h
      by_cases hc : "require_auditd".toList ∈ argv ∧ ¬ Audited w
      · rw [if_pos hc] at h; cases h
      · rw [if_neg hc] at h; cases h
        exact ⟨rfl, rfl, fun ha => Classical.byContradiction (fun hn => hc ⟨ha, hn⟩)⟩
    cases hl : w.loginuid with
    | none =>
      have hs : setLoginuid w uid = (if w.missing then PAM_IGNORE else if namespaced w then PAM_IGNORE else PAM_SESSION_ERR, none) := by
        simp only [setLoginuid, hl]
      by_cases hr : w.missing = true ∨ namespaced w = true
      · have e : (if w.missing = true then PAM_IGNORE else if namespaced w = true then PAM_IGNORE else PAM_SESSION_ERR) = PAM_IGNORE := by
          rcases hr with hr | hr <;> simp [hr]
        rw [e] at hs
        exact absurd (key _ _ hs (Or.inr rfl)).1 (by decide)
      · rw [if_neg (fun e => hr (Or.inl e)), if_neg (fun e => hr (Or.inr e))] at hs
        simp only [loginuid, hu, hs] at h
        rw [if_pos (by decide)] at h
        cases h
    | some cur =>
      by_cases hc : cur = Nat.toDigits 10 uid
      · have hs : setLoginuid w uid = (PAM_SUCCESS, none) := by
          simp only [setLoginuid, hl]; rw [if_pos ((same_iff hb).mpr hc)]
        obtain ⟨_, ho, ha⟩ := key _ _ hs (Or.inl rfl)
        exact ⟨uid, _, rfl, Or.inr ⟨ho.symm, hl⟩, hc ▸ decimal_toDigits uid, ha⟩
      · by_cases hw : w.writable = true
        · have hs : setLoginuid w uid = (PAM_SUCCESS, some (Nat.toDigits 10 uid)) := by
            simp only [setLoginuid, hl]; rw [if_neg (fun e => hc ((same_iff hb).mp e)), if_pos hw]
          obtain ⟨_, ho, ha⟩ := key _ _ hs (Or.inl rfl)
          exact ⟨uid, _, rfl, Or.inl ho.symm, decimal_toDigits uid, ha⟩
        · have hs : setLoginuid w uid = (if namespaced w then PAM_IGNORE else PAM_SESSION_ERR, none) := by
            simp only [setLoginuid, hl]; rw [if_neg (fun e => hc ((same_iff hb).mp e)), if_neg hw]
          by_cases hn : namespaced w = true
          · rw [if_pos hn] at hs
            exact absurd (key _ _ hs (Or.inr rfl)).1 (by decide)
          · rw [if_neg hn] at hs
            simp only [loginuid, hu, hs] at h
            rw [if_pos (by decide)] at h
            cases h

open Classical in
/-- C132, the login uid: what the module does, outright. Without an account it fails. With one, and with a kernel that keeps login uids: one that is already
right is left alone, another is written; only the one write is ever made, and never another text. A login uid that cannot be set is an error on the host and
ignored in a user namespace; without /proc/self/loginuid the module is ignored. With "require_auditd", and the login uid set or ignored, the audit daemon
must run, or there must be nothing to ask. -/
theorem C132_decision (w : LWorld) (argv : List Str) (uid : Nat) (hu : w.uid = some uid) (hb : uid < 2 ^ 32) :
    let need : Int → Int := fun r => if "require_auditd".toList ∈ argv ∧ ¬ Audited w then PAM_SESSION_ERR else r
    ∃ s, Decimal s uid ∧
      (w.loginuid = some s → loginuid w argv = (need PAM_SUCCESS, none)) ∧
      (∀ cur, w.loginuid = some cur → cur ≠ s → w.writable = true → loginuid w argv = (need PAM_SUCCESS, some s)) ∧
      (∀ cur, w.loginuid = some cur → cur ≠ s → w.writable = false →
        (Host w → loginuid w argv = (PAM_SESSION_ERR, none)) ∧ (Elsewhere w → loginuid w argv = (need PAM_IGNORE, none))) ∧
      (w.loginuid = none → (w.missing = true ∨ Elsewhere w → loginuid w argv = (need PAM_IGNORE, none)) ∧
        (w.missing = false → Host w → loginuid w argv = (PAM_SESSION_ERR, none))) := by
  have err : setLoginuid w uid = (PAM_SESSION_ERR, none) → loginuid w argv = (PAM_SESSION_ERR, none) := by
    intro hs
    simp only [loginuid, hu, hs]
    rw [if_pos (by decide)]
  refine ⟨Nat.toDigits 10 uid, decimal_toDigits uid, ?_, ?_, ?_, ?_⟩
  · intro hl
    exact loginuid_audit hu (by simp only [setLoginuid, hl]; rw [if_pos ((same_iff hb).mpr rfl)]) (Or.inl rfl)
  · intro cur hl hc hw
    exact loginuid_audit hu (by simp only [setLoginuid, hl]; rw [if_neg (fun e => hc ((same_iff hb).mp e)), if_pos hw]) (Or.inl rfl)
  · intro cur hl hc hw
    constructor
    · intro hh
      exact err (by simp only [setLoginuid, hl]; rw [if_neg (fun e => hc ((same_iff hb).mp e)), if_neg (by simp [hw]), not_namespaced hh]; rfl)
    · intro hh
      exact loginuid_audit hu (by simp only [setLoginuid, hl]; rw [if_neg (fun e => hc ((same_iff hb).mp e)), if_neg (by simp [hw]), is_namespaced hh]; rfl) (Or.inr rfl)
  · intro hl
    constructor
    · intro hh
      refine loginuid_audit hu ?_ (Or.inr rfl)
      simp only [setLoginuid, hl]
      rcases hh with hh | hh
      · rw [if_pos hh]
      · rw [is_namespaced hh]; simp
    · intro hm hh
      exact err (by simp only [setLoginuid, hl]; rw [hm, not_namespaced hh]; rfl)

/-- C132, the login uid: without a user, or with one that is not known, it is not touched and the module fails. -/
theorem C132_unknown (w : LWorld) (argv : List Str) (hu : w.uid = none) : loginuid w argv = (PAM_SESSION_ERR, none) := by
  simp only [loginuid, hu]

/-- a host where the login uid is unset -/
def lw0 : LWorld where
  uid := some 1000
  uidMap := some "         0          0 4294967295\n".toList
  loginuid := some "4294967295".toList
  missing := false
  writable := true
  audit := true
  noAudit := false
  request := .sent
  replies := [.nothing, .other, .status 812]
  root := true

/-- `C132_success` and `C132_decision` are met where the login uid is set, and where it was right already -/
example : loginuid lw0 ["require_auditd".toList] = (PAM_SUCCESS, some "1000".toList) ∧
    loginuid { lw0 with loginuid := some "1000".toList } [] = (PAM_SUCCESS, none) ∧ Host lw0 ∧
    loginuid { lw0 with replies := [.other, .status 0] } ["require_auditd".toList] = (PAM_SESSION_ERR, some "1000".toList) := by
  refine ⟨by decide +kernel, by decide +kernel, Or.inr rfl, by decide +kernel⟩

/-- in a container a login uid that cannot be set is ignored -/
example : Elsewhere { lw0 with uidMap := some "         0     100000      65536\n".toList, writable := false } ∧
    loginuid { lw0 with uidMap := some "         0     100000      65536\n".toList, writable := false } [] = (PAM_IGNORE, none) :=
  ⟨⟨_, rfl, by decide, Or.inr (by decide)⟩, by decide +kernel⟩

end Pam.Session
