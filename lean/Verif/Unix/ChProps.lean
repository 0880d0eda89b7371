import Verif.Unix.UpdProps
import Verif.Unix.OpwProps
import Verif.Unix.CtrlProps
import Verif.Unix.LoginProps
/-
Property theorem C81: the password service of pam_unix.
-/
namespace Pam.Unix
open Pam Util

/-! ### vocabulary -/

/-- the hash of one of the old passwords that are remembered for the user is that of the password -/
def Remembered (cr : Crypts) (recs : List Str) (u new : Str) : Prop := ∃ hs, Recalls recs.flatten u hs ∧ ∃ h ∈ hs, Matches cr new h

/-- A new password that will do: it is there, not too long, not the old one, and unless root sets it not too short and, if old passwords
are remembered, none of them. -/
def Acceptable (c : ChCall) (cr : Crypts) (file : Option (List Str)) (new : Str) : Prop :=
  new ≠ [] ∧ new.length ≤ 512 ∧ c.oldItem.2 ≠ some new ∧
  (on UNIX__IAMROOT c.ctrl = false → c.minlen ≤ new.length ∧
    (on UNIX_REMEMBER_PASSWD c.ctrl = true → ∃ recs, file = some recs ∧ ¬ Remembered cr recs c.user.2 new))

/-- how often a new password is asked for -/
def attempts (c : ChCall) : Nat := if on UNIX_USE_AUTHTOK c.ctrl = true ∨ on UNIX_USE_FIRST_PASS c.ctrl = true then 1 else 3

/-- a password that may be changed -/
def MayChange (a : Aging) (d : Int) : Prop := ¬ Closed a d ∧ (Counting a d → (Old a d ∧ ¬ Dead a d) ∨ (¬ Old a d ∧ ¬ Young a d))

/-- the file of old passwords as it is read the i-th time -/
def opwAt (e : Etc) (c : ChCall) (i : Nat) : Option (List Str) := if c.opens i then e.op.main else none

/-! ### helper lemmas -/

/-- the options with `nullok`: modules/pam_unix/pam_unix_passwd.c:656-658 -/
def relaxed (ctrl : Ctrl) : Ctrl := if on UNIX__NONULL ctrl then set UNIX__NULLOK ctrl else ctrl

theorem on_relaxed {x : Nat} (hx : x < 35) (h1 : x ≠ 14) (h2 : x ≠ 30) (h3 : x ≠ 9) (c : Ctrl) : on x (relaxed c) = on x c := by
  unfold relaxed
  split
  · rw [on_bit hx h1 h2, on_bit hx h1 h2, set_bit]
    have m : ∀ x : Fin 35, x.val ≠ 9 → x.val ≠ 14 → x.val ≠ 30 → (maskOf UNIX__NULLOK).getLsbD (pos x.val) = true ∧ (flagOf UNIX__NULLOK).getLsbD (pos x.val) = false := by
      decide +kernel
    obtain ⟨a, b⟩ := m ⟨x, hx⟩ h3 h1 h2
    rw [a, b]
    simp
  · rfl

theorem null_relaxed (c : Ctrl) : off UNIX__NONULL (relaxed c) = true := by
  unfold off relaxed
  split
  · rw [on_bit (by decide) (by decide) (by decide), set_bit]
    have a : (maskOf UNIX__NULLOK).getLsbD (pos UNIX__NONULL) = false := by decide +kernel
    have b : (flagOf UNIX__NULLOK).getLsbD (pos UNIX__NONULL) = false := by decide +kernel
    rw [a, b]
    simp
  · next h => simpa using h

theorem algo_relaxed (c : Ctrl) : algoOf (relaxed c) = algoOf c := by
  unfold algoOf off
  rw [on_relaxed, on_relaxed, on_relaxed, on_relaxed, on_relaxed, on_relaxed, on_relaxed] <;> decide

theorem check_sound {cr : Crypts} {file : Option (List Str)} {u new : Str} (hu : Findable u) (h : checkOldPassword cr file u new = PAM_SUCCESS) :
    ∃ recs, file = some recs ∧ ¬ Remembered cr recs u new := by
  cases file with
  | none => cases h
  | some recs =>
    refine ⟨recs, rfl, ?_⟩
    rintro ⟨hs, h1, h2⟩
    rw [((C82_check cr recs u new hu).1 hs h1).1 h2] at h
    cases h

theorem check_codes (cr : Crypts) (file : Option (List Str)) (u new : Str) :
    checkOldPassword cr file u new = PAM_SUCCESS ∨ checkOldPassword cr file u new = PAM_AUTHTOK_ERR ∨ checkOldPassword cr file u new = PAM_ABORT := by
  unfold checkOldPassword
  split
  · exact Or.inr (Or.inr rfl)
  split
  · exact Or.inl rfl
  split
  · split
    · exact Or.inr (Or.inl rfl)
    · exact Or.inl rfl
  · exact Or.inl rfl

/-- the approval, as a decision -/
theorem approve_iff (cr : Crypts) (file : Option (List Str)) (ctrl : Ctrl) (u : Str) (old : Option Str) (new : Str) (minlen : Int) :
    approvePass cr file ctrl u old (some new) minlen = PAM_SUCCESS ↔
      old ≠ some new ∧ new.length ≤ 512 ∧ (on UNIX__IAMROOT ctrl = false → minlen ≤ new.length ∧
        (on UNIX_REMEMBER_PASSWD ctrl = true → checkOldPassword cr file u new = PAM_SUCCESS)) := by
  unfold approvePass
  dsimp only
  by_cases h1 : old = some new
  · rw [if_pos h1]
    exact ⟨nofun, fun h => absurd h1 h.1⟩
  rw [if_neg h1]
  by_cases h2 : new.length > 512
  · rw [if_pos h2]
    exact ⟨nofun, fun h => by have := h.2.1; omega⟩
  rw [if_neg h2]
  unfold off
  cases hr : on UNIX__IAMROOT ctrl with
  | true =>
    rw [if_neg (by decide)]
    exact ⟨fun _ => ⟨h1, by omega, nofun⟩, fun _ => rfl⟩
  | false =>
    rw [if_pos (by decide)]
    cases hrem : on UNIX_REMEMBER_PASSWD ctrl with
    | false =>
      rw [if_neg (by decide)]
      by_cases h3 : (new.length : Int) < minlen
      · rw [if_pos h3]
        exact ⟨nofun, fun h => by have := (h.2.2 rfl).1; omega⟩
      · rw [if_neg h3]
        exact ⟨fun _ => ⟨h1, by omega, fun _ => ⟨by omega, nofun⟩⟩, fun _ => rfl⟩
    | true =>
      rw [if_pos rfl]
      rcases check_codes cr file u new with h | h | h
      · rw [h, if_neg (by decide)]
        by_cases h3 : (new.length : Int) < minlen
        · rw [if_pos (Or.inl h3)]
          exact ⟨nofun, fun h => by have := (h.2.2 rfl).1; omega⟩
        · rw [if_neg (fun h => h.elim h3 nofun)]
          exact ⟨fun _ => ⟨h1, by omega, fun _ => ⟨by omega, fun _ => rfl⟩⟩, fun _ => rfl⟩
      · rw [h, if_neg (by decide), if_pos (Or.inr rfl)]
        exact ⟨nofun, fun h => by cases (h.2.2 rfl).2 rfl⟩
      · rw [h, if_pos rfl]
        exact ⟨nofun, fun h => by cases (h.2.2 rfl).2 rfl⟩

theorem approve_acceptable {cr : Crypts} {file : Option (List Str)} {c : ChCall} (hu : Findable c.user.2) {new : Str} (hne : new ≠ [])
    (h : approvePass cr file (relaxed c.ctrl) c.user.2 c.oldItem.2 (some new) c.minlen = PAM_SUCCESS) : Acceptable c cr file new := by
  obtain ⟨h1, h2, h3⟩ := (approve_iff ..).mp h
  rw [on_relaxed (by decide) (by decide) (by decide) (by decide), on_relaxed (by decide) (by decide) (by decide) (by decide)] at h3
  exact ⟨hne, h2, h1, fun hr => ⟨(h3 hr).1, fun hm => check_sound hu ((h3 hr).2 hm)⟩⟩

/-- the loop: a password that is returned was given at some attempt and approved -/
theorem askNew_sound {c : ChCall} {cr : Crypts} {file : Nat → Option (List Str)} {old : Option Str} : ∀ {left i : Nat} {rv : Int} {r : Int} {new : Option Str} {k : Nat},
    rv ≠ PAM_SUCCESS → askNew c cr file old left i rv = (r, new, k) →
      (new = none ∧ r ≠ PAM_SUCCESS ∧ k ≤ i + left) ∨
      (r = PAM_SUCCESS ∧ ∃ x j, new = some x ∧ x ≠ [] ∧ i ≤ j ∧ j < i + left ∧ k = j + 1 ∧ c.newTok j = (PAM_SUCCESS, x) ∧
        approvePass cr (file j) c.ctrl c.user.2 old (some x) c.minlen = PAM_SUCCESS)
  | 0, i, rv, r, new, k, hrv, h => by
    unfold askNew at h
    cases h
    exact Or.inl ⟨rfl, hrv, by omega⟩
  | left + 1, i, rv, r, new, k, hrv, h => by
    unfold askNew at h
    dsimp only at h
    split at h
    · next ht => cases h; exact Or.inl ⟨rfl, ht, by omega⟩
    · next ht =>
      have ht : (c.newTok i).1 = PAM_SUCCESS := by simpa using ht
      split at h
      · next hap =>
        cases h
        right
        refine ⟨hap, (c.newTok i).2, i, ?_⟩
        unfold nonEmpty at hap ⊢
        split at hap
        · cases hap
        · next hne =>
          exact ⟨if_neg hne, hne, Nat.le_refl _, by omega, rfl, by rw [← ht], hap⟩
      · next hap =>
        rcases askNew_sound hap h with ⟨h1, h2, h3⟩ | ⟨h1, x, j, h2, h3, h4, h5, h6⟩
        · exact Or.inl ⟨h1, h2, by omega⟩
        · exact Or.inr ⟨h1, x, j, h2, h3, by omega, by omega, h6⟩

/-- what becomes of a call -/
theorem ch_paths {w : World} {e : Etc} {b : Bin} {p : Proc} {c : ChCall} {fails : Fails} {r : ChRes} (h : chauthtok w e b p c fails = some r) :
    (r.acts = [] ∧ (r.code = PAM_SUCCESS → on UNIX__PRELIM c.ctrl = true)) ∨
    (r.acts = [.lock, .unlock] ∧ r.code ≠ PAM_SUCCESS) ∨
    (c.user.1 = PAM_SUCCESS ∧ c.user.2.head? ≠ some '-' ∧ c.user.2.head? ≠ some '+' ∧ (e.findPw c.user.2).isSome = true ∧
      on UNIX__PRELIM c.ctrl = false ∧ on UNIX__UPDATE c.ctrl = true ∧ lockPwdf c.tries = true ∧ c.oldItem.1 = PAM_SUCCESS ∧
      (∀ o, c.oldItem.2 = some o → ∃ f f', verifyPassword (e.sys w) b (c.luck 3) p (relaxed c.ctrl) f c.user.2 o = some (PAM_SUCCESS, f')) ∧
      verifyShadow (e.sys w) b (c.luck 4) p (relaxed c.ctrl) c.user.2 = some PAM_SUCCESS ∧
      ∃ new j h pw, j < attempts c ∧ c.newTok j = (PAM_SUCCESS, new) ∧ new ≠ [] ∧
        approvePass w.crypts (opwAt e c (j + 1)) (relaxed c.ctrl) c.user.2 c.oldItem.2 (some new) c.minlen = PAM_SUCCESS ∧
        createHash w.crypts c.rnd c.gensalt (algoOf c.ctrl) c.rounds new = some h ∧ (e.sys w).pwnam c.user.2 = some pw ∧
        r.acts = [.lock] ++ (setFiles w e p c.l pw c.user.2 c.oldItem.2 h (on UNIX_SHADOW c.ctrl) c.remember).2 ++ [.unlock] ∧
        r.code = (setFiles w e p c.l pw c.user.2 c.oldItem.2 h (on UNIX_SHADOW c.ctrl) c.remember).1) := by
  unfold chauthtok at h
  split at h
  · next hu => cases h; exact Or.inl ⟨rfl, fun h => absurd h hu⟩
  next hu =>
  have hu : c.user.1 = PAM_SUCCESS := by simpa using hu
  split at h
  · cases h; exact Or.inl ⟨rfl, nofun⟩
  next hd =>
  rw [not_or] at hd
  split at h
  · cases h; exact Or.inl ⟨rfl, nofun⟩
  next ent hent =>
  change (if on UNIX__PRELIM (relaxed c.ctrl) = true then prelim w e b p c (relaxed c.ctrl) fails
    else if on UNIX__UPDATE (relaxed c.ctrl) = true then update w e b p c (relaxed c.ctrl) fails else some ⟨PAM_ABORT, fails, 0, []⟩) = some r at h
  rw [on_relaxed (by decide) (by decide) (by decide) (by decide), on_relaxed (by decide) (by decide) (by decide) (by decide)] at h
  split at h
  · next hpre =>
    left
    refine ⟨?_, fun _ => hpre⟩
    unfold prelim at h
    dsimp only at h
    split at h
    · cases h
    · cases h; rfl
    · split at h
      · split at h
        · cases h; rfl
        split at h
        · cases h; rfl
        split at h
        · cases h
        · split at h
          · cases h; rfl
          · obtain ⟨_, -, rfl⟩ := Option.map_eq_some_iff.mp h; rfl
      · obtain ⟨_, -, rfl⟩ := Option.map_eq_some_iff.mp h; rfl
  next hpre =>
  have hpre : on UNIX__PRELIM c.ctrl = false := by simpa using hpre
  split at h
  case isFalse => cases h; exact Or.inl ⟨rfl, nofun⟩
  next hupd =>
  unfold update at h
  split at h
  · next ho => cases h; exact Or.inl ⟨rfl, fun h => absurd h ho⟩
  next ho =>
  have ho : c.oldItem.1 = PAM_SUCCESS := by simpa using ho
  have hatt : (if on UNIX_USE_AUTHTOK (relaxed c.ctrl) = true ∨ on UNIX_USE_FIRST_PASS (relaxed c.ctrl) = true then 1 else 3) = attempts c := by
    rw [on_relaxed (by decide) (by decide) (by decide) (by decide), on_relaxed (by decide) (by decide) (by decide) (by decide)]
    rfl
  dsimp only at h
  rw [hatt] at h
  obtain ⟨⟨rv, new, asked⟩, hask⟩ : ∃ t, askNew { c with ctrl := relaxed c.ctrl } w.crypts (fun i => if c.opens i then e.op.main else none) c.oldItem.2
      (attempts c) 0 PAM_AUTHTOK_ERR = t := ⟨_, rfl⟩
  rw [hask] at h
  rcases askNew_sound (by decide) hask with ⟨rfl, h1, -⟩ | ⟨-, new, j, rfl, hne, -, hj, rfl, htok, -⟩
  · dsimp only at h; cases h; exact Or.inl ⟨rfl, fun h => absurd h h1⟩
  rw [Nat.zero_add] at hj
  dsimp only at h htok
  split at h
  · cases h; exact Or.inl ⟨rfl, nofun⟩
  next hlock =>
  have hlock : lockPwdf c.tries = true := by simpa using hlock
  have change : ∀ (f : Fails) (old : Option Str), old = c.oldItem.2 → changeIt w e b p c (relaxed c.ctrl) f old new (j + 1) = some r →
      (∀ o, c.oldItem.2 = some o → ∃ f f', verifyPassword (e.sys w) b (c.luck 3) p (relaxed c.ctrl) f c.user.2 o = some (PAM_SUCCESS, f')) →
      (r.acts = [.lock, .unlock] ∧ r.code ≠ PAM_SUCCESS) ∨
      ((∀ o, c.oldItem.2 = some o → ∃ f f', verifyPassword (e.sys w) b (c.luck 3) p (relaxed c.ctrl) f c.user.2 o = some (PAM_SUCCESS, f')) ∧
        verifyShadow (e.sys w) b (c.luck 4) p (relaxed c.ctrl) c.user.2 = some PAM_SUCCESS ∧
        ∃ new j h pw, j < attempts c ∧ c.newTok j = (PAM_SUCCESS, new) ∧ new ≠ [] ∧
        approvePass w.crypts (opwAt e c (j + 1)) (relaxed c.ctrl) c.user.2 c.oldItem.2 (some new) c.minlen = PAM_SUCCESS ∧
        createHash w.crypts c.rnd c.gensalt (algoOf c.ctrl) c.rounds new = some h ∧ (e.sys w).pwnam c.user.2 = some pw ∧
        r.acts = [.lock] ++ (setFiles w e p c.l pw c.user.2 c.oldItem.2 h (on UNIX_SHADOW c.ctrl) c.remember).2 ++ [.unlock] ∧
        r.code = (setFiles w e p c.l pw c.user.2 c.oldItem.2 h (on UNIX_SHADOW c.ctrl) c.remember).1) := by
    rintro f old rfl h hold
    unfold changeIt at h
    split at h
    · cases h
    next rv2 hsh =>
    split at h
    · next hrv => cases h; exact Or.inl ⟨rfl, hrv⟩
    next hrv =>
    have hrv : rv2 = PAM_SUCCESS := by simpa using hrv
    rw [hrv] at hsh
    dsimp only at h
    rw [show (if c.opens (j + 1) = true then e.op.main else none) = opwAt e c (j + 1) from rfl] at h
    split at h
    · next hap => cases h; exact Or.inl ⟨rfl, hap⟩
    next hap =>
    have hap : approvePass w.crypts (opwAt e c (j + 1)) (relaxed c.ctrl) c.user.2 c.oldItem.2 (some new) c.minlen = PAM_SUCCESS := by simpa using hap
    split at h
    · cases h; exact Or.inl ⟨rfl, by show PAM_BUF_ERR ≠ PAM_SUCCESS; decide⟩
    next hh hhash =>
    rw [algo_relaxed] at hhash
    cases h
    unfold doSetpass
    cases hpw : (e.sys w).pwnam c.user.2 with
    | none => exact Or.inl ⟨rfl, by show PAM_AUTHTOK_ERR ≠ PAM_SUCCESS; decide⟩
    | some pw =>
      right
      refine ⟨hold, hsh, new, j, hh, pw, hj, htok, hne, hap, hhash, rfl, ?_⟩
      dsimp only
      rw [hent, Option.isSome_some, if_pos rfl, on_relaxed (by decide) (by decide) (by decide) (by decide)]
      exact ⟨rfl, rfl⟩
  split at h
  · next hold =>
    rcases change _ _ hold.symm h (fun o h' => by rw [hold] at h'; cases h') with h | h
    · exact Or.inr (Or.inl h)
    · exact Or.inr (Or.inr ⟨hu, hd.1, hd.2, by rw [hent]; rfl, hpre, hupd, hlock, ho, h⟩)
  · next o hold =>
    split at h
    · cases h
    next rv3 f3 hv =>
    split at h
    · next hrv => cases h; exact Or.inr (Or.inl ⟨rfl, hrv⟩)
    next hrv =>
    have hrv : rv3 = PAM_SUCCESS := by simpa using hrv
    rw [hrv] at hv
    rcases change _ _ hold.symm h (fun o' h' => by rw [hold] at h'; cases h'; exact ⟨_, _, hv⟩) with h | h
    · exact Or.inr (Or.inl h)
    · exact Or.inr (Or.inr ⟨hu, hd.1, hd.2, by rw [hent]; rfl, hpre, hupd, hlock, ho, h⟩)

theorem lock_iff {tries : Nat → Bool} : lockPwdf tries = true ↔ ∃ n, n ≤ 100 ∧ tries n = true := by
  unfold lockPwdf
  rw [List.any_eq_true]
  constructor
  · rintro ⟨n, h1, h2⟩
    exact ⟨n, by have := List.mem_range.mp h1; omega, h2⟩
  · rintro ⟨n, h1, h2⟩
    exact ⟨n, List.mem_range.mpr (by omega), h2⟩

/-- what the answer about the age of the password means for a change -/
theorem shadow_sound {s : Sys} {b : Bin} {l : Luck} {p : Proc} {ctrl : Ctrl} {name : Str} {pw : Pw} (hpw : s.pwnam name = some pw) (hs : pw.Shadowed)
    (hd : Day s.today) (h : verifyShadow s b l p (relaxed ctrl) name = some PAM_SUCCESS) (hr : on UNIX__IAMROOT ctrl = false ∨ on UNIX_EXPIRED_ONLY ctrl = true) :
    ∃ q q' sp, Helper b l p q ∧ Sees s q name q' ∧ s.spnam q' name = some sp ∧
      (sp.aging.Ok → MayChange sp.aging s.today ∧ (on UNIX_EXPIRED_ONLY ctrl = true → MustChange sp.aging s.today)) := by
  unfold verifyShadow moduleHash at h
  rw [hpw] at h
  dsimp only at h
  rw [if_pos (shadowed_iff.mpr hs)] at h
  dsimp only at h
  rw [if_neg (by decide), if_neg (by decide), on_relaxed (by decide) (by decide) (by decide) (by decide),
    on_relaxed (by decide) (by decide) (by decide) (by decide)] at h
  split at h
  · cases h
  next rv d hrun =>
  rw [Option.some.injEq] at h
  have hrv : rv = PAM_NEW_AUTHTOK_REQD ∨ (rv = PAM_SUCCESS ∧ on UNIX_EXPIRED_ONLY ctrl = false) := by
    split at h
    · next hx => rw [h] at hx; exact absurd hx (by decide)
    split at h
    · split at h
      · next hx => exact Or.inl hx
      · cases h
    · next hx =>
      have hx : on UNIX_EXPIRED_ONLY ctrl = false := by simpa using hx
      split at h
      · next hy =>
        rcases hy with hy | hy
        · rcases hr with hr | hr
          · rw [hr] at hy; cases hy
          · rw [hr] at hx; cases hx
        · exact Or.inl hy
      · exact Or.inr ⟨h, hx⟩
  rcases runVerify_sound hpw hs hrun with rfl | rfl | ⟨q, q', sp, days, h1, h2, h3, h4⟩
  · rcases hrv with h | ⟨h, -⟩ <;> exact absurd h (by decide)
  · rcases hrv with h | ⟨h, -⟩ <;> exact absurd h (by decide)
  · refine ⟨q, q', sp, h1, h2, h3, fun hok => ?_⟩
    obtain ⟨code, left, h5, -, -, h6, -, h7, -⟩ := C71_answer sp.aging s.today hok hd
    rw [h4] at h5
    cases h5
    rcases hrv with hn | ⟨hn, he⟩
    · have hm := h6.mp hn
      refine ⟨⟨hm.1, fun hc => ?_⟩, fun _ => hm⟩
      rcases hm.2 with h0 | ⟨-, h8⟩
      · rw [Counting, h0] at hc; omega
      · exact Or.inl h8
    · have hm := h7.mp hn
      refine ⟨⟨hm.1, fun hc => Or.inr (hm.2.2 hc)⟩, fun h => ?_⟩
      rw [he] at h
      cases h

/-! ### C81 -/

/-- C81: what is answered without further ado, and that the preliminary check changes nothing. -/
theorem C81_refused (w : World) (e : Etc) (b : Bin) (p : Proc) (c : ChCall) (fails : Fails) :
    (c.user.1 ≠ PAM_SUCCESS → chauthtok w e b p c fails = some ⟨c.user.1, fails, 0, []⟩) ∧
    (c.user.1 = PAM_SUCCESS → c.user.2.head? = some '-' ∨ c.user.2.head? = some '+' ∨ e.findPw c.user.2 = none →
      chauthtok w e b p c fails = some ⟨PAM_USER_UNKNOWN, fails, 0, []⟩) ∧
    (∀ r, chauthtok w e b p c fails = some r → on UNIX__PRELIM c.ctrl = true → r.acts = []) ∧
    (∀ r, chauthtok w e b p c fails = some r → on UNIX__PRELIM c.ctrl = false → on UNIX__UPDATE c.ctrl = false → r.acts = [] ∧ r.code ≠ PAM_SUCCESS) := by
  refine ⟨fun h => ?_, fun h1 h2 => ?_, fun r h hp => ?_, fun r h hp hn => ?_⟩
  · unfold chauthtok; rw [if_pos h]
  · unfold chauthtok
    rw [if_neg (by simpa using h1)]
    rcases h2 with h2 | h2 | h2
    · rw [if_pos (Or.inl h2)]
    · rw [if_pos (Or.inr h2)]
    · split
      · rfl
      · rw [h2]
  · unfold chauthtok at h
    split at h
    · cases h; rfl
    split at h
    · cases h; rfl
    split at h
    · cases h; rfl
    change (if on UNIX__PRELIM (relaxed c.ctrl) = true then prelim w e b p c (relaxed c.ctrl) fails
      else if on UNIX__UPDATE (relaxed c.ctrl) = true then update w e b p c (relaxed c.ctrl) fails else some ⟨PAM_ABORT, fails, 0, []⟩) = some r at h
    rw [on_relaxed (by decide) (by decide) (by decide) (by decide), if_pos hp] at h
    unfold prelim at h
    dsimp only at h
    split at h
    · cases h
    · cases h; rfl
    · split at h
      · split at h
        · cases h; rfl
        split at h
        · cases h; rfl
        split at h
        · cases h
        · split at h
          · cases h; rfl
          · obtain ⟨_, -, rfl⟩ := Option.map_eq_some_iff.mp h; rfl
      · obtain ⟨_, -, rfl⟩ := Option.map_eq_some_iff.mp h; rfl
  · unfold chauthtok at h
    split at h
    · next hu => cases h; exact ⟨rfl, hu⟩
    split at h
    · cases h; exact ⟨rfl, by show PAM_USER_UNKNOWN ≠ PAM_SUCCESS; decide⟩
    split at h
    · cases h; exact ⟨rfl, by show PAM_USER_UNKNOWN ≠ PAM_SUCCESS; decide⟩
    change (if on UNIX__PRELIM (relaxed c.ctrl) = true then prelim w e b p c (relaxed c.ctrl) fails
      else if on UNIX__UPDATE (relaxed c.ctrl) = true then update w e b p c (relaxed c.ctrl) fails else some ⟨PAM_ABORT, fails, 0, []⟩) = some r at h
    rw [on_relaxed (by decide) (by decide) (by decide) (by decide), on_relaxed (by decide) (by decide) (by decide) (by decide), hp, hn] at h
    cases h
    exact ⟨rfl, by show PAM_ABORT ≠ PAM_SUCCESS; decide⟩

/-- C81: whatever goes wrong, files are changed, or success is reported for the change itself, only if the user has an entry in
/etc/passwd, the lock was obtained, the old password, where there is one, was found right, the password may be changed according to its
age (unless root changes it), and the new one, which was given at one of the attempts, is acceptable; what is stored is a hash of it. -/
theorem C81_sound (w : World) (e : Etc) (b : Bin) (p : Proc) (c : ChCall) (fails : Fails) (hu : Findable c.user.2) (hbuf : (c.luck 3).buf.length = 513)
    (hnul : ∀ o, c.oldItem.2 = some o → NUL ∉ o) (hd : Day w.today) (r : ChRes) (h : chauthtok w e b p c fails = some r)
    (hdone : (∃ a ∈ r.acts, a.file = true) ∨ (r.code = PAM_SUCCESS ∧ on UNIX__PRELIM c.ctrl = false)) :
    on UNIX__PRELIM c.ctrl = false ∧ on UNIX__UPDATE c.ctrl = true ∧ (e.findPw c.user.2).isSome = true ∧ c.user.2.head? ≠ some '-' ∧ c.user.2.head? ≠ some '+' ∧
    (∃ n, n ≤ 100 ∧ c.tries n = true) ∧ c.oldItem.1 = PAM_SUCCESS ∧
    (∀ old, c.oldItem.2 = some old → ∃ x, Read (e.sys w) b (c.luck 3) p c.user.2 x ∧
      (Accepts w.crypts true x (old.take 512) ∨ ((c.luck 3).Cut ∧ Accepts w.crypts true x []))) ∧
    (∀ pw, (e.sys w).pwnam c.user.2 = some pw → pw.Shadowed → on UNIX__IAMROOT c.ctrl = false ∨ on UNIX_EXPIRED_ONLY c.ctrl = true →
      ∃ q q' sp, Helper b (c.luck 4) p q ∧ Sees (e.sys w) q c.user.2 q' ∧ (e.sys w).spnam q' c.user.2 = some sp ∧
        (sp.aging.Ok → MayChange sp.aging w.today ∧ (on UNIX_EXPIRED_ONLY c.ctrl = true → MustChange sp.aging w.today))) ∧
    ∃ new j h pw, j < attempts c ∧ c.newTok j = (PAM_SUCCESS, new) ∧ Acceptable c w.crypts (opwAt e c (j + 1)) new ∧
      createHash w.crypts c.rnd c.gensalt (algoOf c.ctrl) c.rounds new = some h ∧ (e.sys w).pwnam c.user.2 = some pw ∧
      r.acts = [.lock] ++ (setFiles w e p c.l pw c.user.2 c.oldItem.2 h (on UNIX_SHADOW c.ctrl) c.remember).2 ++ [.unlock] ∧
      r.code = (setFiles w e p c.l pw c.user.2 c.oldItem.2 h (on UNIX_SHADOW c.ctrl) c.remember).1 := by
  rcases ch_paths h with ⟨h1, h2⟩ | ⟨h1, h2⟩ | ⟨-, h1, h2, h3, h4, h5, h6, h7, h8, h9, new, j, hh, pw, k1, k2, k3, k4, k5⟩
  · exfalso
    rcases hdone with ⟨a, ha, -⟩ | ⟨hc, hp⟩
    · rw [h1] at ha; cases ha
    · rw [h2 hc] at hp; cases hp
  · exfalso
    rcases hdone with ⟨a, ha, hf⟩ | ⟨hc, -⟩
    · rw [h1] at ha
      simp only [List.mem_cons, List.not_mem_nil, or_false] at ha
      rcases ha with rfl | rfl <;> cases hf
    · exact h2 hc
  · refine ⟨h4, h5, h3, h1, h2, lock_iff.mp h6, h7, fun old ho => ?_, fun pw' hpw' hs hr => shadow_sound hpw' hs hd h9 hr,
      new, j, hh, pw, k1, k2, approve_acceptable hu k3 k4, k5⟩
    obtain ⟨f, f', hv⟩ := h8 old ho
    have := C74_sound (e.sys w) b (c.luck 3) hbuf p (relaxed c.ctrl) f f' c.user.2 old (hnul old ho) hv
    rw [null_relaxed] at this
    exact this

/-- C81: The files change only while the lock is held, and it is not held at the end. -/
theorem C81_locked (w : World) (e : Etc) (b : Bin) (p : Proc) (c : ChCall) (fails : Fails) (r : ChRes) (h : chauthtok w e b p c fails = some r) :
    (∀ k a, r.acts[k]? = some a → a.file = true → (e.after (r.acts.take k)).held = true) ∧ (e.held = false → (e.after r.acts).held = false) := by
  have hb : Bracketed r.acts := by
    rcases ch_paths h with ⟨h1, -⟩ | ⟨h1, -⟩ | ⟨-, -, -, -, -, -, -, -, -, -, new, j, hh, pw, -, -, -, -, -, -, h1, -⟩
    · exact Or.inl h1
    · exact Or.inr ⟨[], h1, by simp⟩
    · exact Or.inr ⟨_, h1, by intro a; apply setFiles_file⟩
  exact hb.held e

/-- C81: Wherever it is stopped, a change leaves other accounts alone and the files whole, and the hash of the user is the old one or, if the
change was reported as done, that of a password that was given and is acceptable; after such a report it is. -/
theorem C81_change (w : World) (e : Etc) (he : e.Clean) (b : Bin) (p : Proc) (c : ChCall) (fails : Fails) (hu : Findable c.user.2)
    (hh : ∀ new h, createHash w.crypts c.rnd c.gensalt (algoOf c.ctrl) c.rounds new = some h → h ≠ "x".toList ∧ h ≠ "##".toList ++ c.user.2)
    (r : ChRes) (h : chauthtok w e b p c fails = some r) (k : Nat) (e' : Etc) (he' : e' = e.after (r.acts.take k)) :
    (∀ n, n ≠ c.user.2 → SameAccount w e e' n) ∧ OnlyPassword e e' c.user.2 ∧
    (e'.pw.torn = false ∧ e'.sp.torn = false ∧ e'.op.torn = false) ∧
    (e'.pw.attr = e.pw.attr ∧ e'.sp.attr = e.sp.attr ∧ e'.op.attr = e.op.attr) ∧
    (SameHash w e e' c.user.2 ∨ (r.code = PAM_SUCCESS ∧ ∃ new j h, j < attempts c ∧ c.newTok j = (PAM_SUCCESS, new) ∧
      Acceptable c w.crypts (opwAt e c (j + 1)) new ∧ createHash w.crypts c.rnd c.gensalt (algoOf c.ctrl) c.rounds new = some h ∧ HashIs w e' c.user.2 h)) ∧
    (r.code = PAM_SUCCESS → on UNIX__PRELIM c.ctrl = false → r.acts.length ≤ k → ∃ new j h, j < attempts c ∧ c.newTok j = (PAM_SUCCESS, new) ∧
      Acceptable c w.crypts (opwAt e c (j + 1)) new ∧ createHash w.crypts c.rnd c.gensalt (algoOf c.ctrl) c.rounds new = some h ∧ HashIs w e' c.user.2 h) := by
  have none : ∀ b, e' = { e with held := b } → (r.code = PAM_SUCCESS → on UNIX__PRELIM c.ctrl = false → False) →
      (∀ n, n ≠ c.user.2 → SameAccount w e e' n) ∧ OnlyPassword e e' c.user.2 ∧
      (e'.pw.torn = false ∧ e'.sp.torn = false ∧ e'.op.torn = false) ∧
      (e'.pw.attr = e.pw.attr ∧ e'.sp.attr = e.sp.attr ∧ e'.op.attr = e.op.attr) ∧
      (SameHash w e e' c.user.2 ∨ (r.code = PAM_SUCCESS ∧ ∃ new j h, j < attempts c ∧ c.newTok j = (PAM_SUCCESS, new) ∧
        Acceptable c w.crypts (opwAt e c (j + 1)) new ∧ createHash w.crypts c.rnd c.gensalt (algoOf c.ctrl) c.rounds new = some h ∧ HashIs w e' c.user.2 h)) ∧
      (r.code = PAM_SUCCESS → on UNIX__PRELIM c.ctrl = false → r.acts.length ≤ k → ∃ new j h, j < attempts c ∧ c.newTok j = (PAM_SUCCESS, new) ∧
        Acceptable c w.crypts (opwAt e c (j + 1)) new ∧ createHash w.crypts c.rnd c.gensalt (algoOf c.ctrl) c.rounds new = some h ∧ HashIs w e' c.user.2 h) := by
    rintro b rfl hc
    exact ⟨fun n _ => ⟨rfl, rfl, rfl, rfl⟩, only_refl (Or.inl rfl) (Or.inl rfl), ⟨he.pwTorn, he.spTorn, he.opTorn⟩, ⟨rfl, rfl, rfl⟩,
      Or.inl (fun _ => Iff.rfl), fun h hp => (hc h hp).elim⟩
  rcases ch_paths h with ⟨h1, h2⟩ | ⟨h1, h2⟩ | ⟨-, -, -, -, -, -, -, -, -, -, new, j, hash, pw, k1, k2, k3, k4, k5, hpw, hacts, hcode⟩
  · refine none e.held (by rw [he', h1, List.take_nil]; rfl) (fun hc hp => ?_)
    rw [h2 hc] at hp; cases hp
  · obtain ⟨b, hb⟩ := Bracketed.files (r := []) (by simp) e k
    exact none b (by rw [he', h1]; exact hb.trans (by rw [List.take_nil]; rfl)) (fun hc _ => h2 hc)
  · obtain ⟨b', hb⟩ := Bracketed.files (r := (setFiles w e p c.l pw c.user.2 c.oldItem.2 hash (on UNIX_SHADOW c.ctrl) c.remember).2)
      (by intro a; apply setFiles_file) e k
    obtain ⟨g1, g2, g3, g4, g5, g6⟩ := C79_change w e he p c.l pw c.user.2 hpw c.oldItem.2 hash (on UNIX_SHADOW c.ctrl) (Or.inr (Or.inr (hh new hash k5)))
      c.remember (k - 1) _ rfl
    rw [hacts, hb] at he'
    rw [← hcode] at g5 g6
    have hacc := approve_acceptable hu k3 k4
    subst he'
    refine ⟨g1, g2, g3, g4, ?_, fun hc _ hk => ⟨new, j, hash, k1, k2, hacc, k5, g6 hc ?_⟩⟩
    · rcases g5 with g5 | ⟨hc, -, g5⟩
      · exact Or.inl g5
      · exact Or.inr ⟨hc, new, j, hash, k1, k2, hacc, k5, g5⟩
    · rw [hacts] at hk
      simp only [List.length_append, List.length_singleton] at hk
      omega

/-- C81: After a change that has been reported as done, whoever may check the user's password finds a password right exactly if the hash
of the new one accepts it; which it does for the new one. -/
theorem C81_login (w : World) (hc : Laws w.crypts.crypt) (e : Etc) (he : e.Clean) (b : Bin) (p : Proc) (c : ChCall) (fails : Fails) (hu : Findable c.user.2)
    (hh : ∀ new h, createHash w.crypts c.rnd c.gensalt (algoOf c.ctrl) c.rounds new = some h → h ≠ "x".toList ∧ h ≠ "##".toList ++ c.user.2)
    (hnul : ∀ j, NUL ∉ (c.newTok j).2) (r : ChRes) (h : chauthtok w e b p c fails = some r) (hpre : on UNIX__PRELIM c.ctrl = false)
    (hok : r.code = PAM_SUCCESS) (e' : Etc) (he' : e' = e.after r.acts) :
    ∃ new j h, j < attempts c ∧ c.newTok j = (PAM_SUCCESS, new) ∧ createHash w.crypts c.rnd c.gensalt (algoOf c.ctrl) c.rounds new = some h ∧
      ∀ (b : Bin) (vl : Luck), vl.Fine → ∀ (q : Proc) (ctrl : Ctrl) (fails f' : Fails) (code : Int), Trusted (e'.sys w) b q c.user.2 →
        (verifyPassword (e'.sys w) b vl q ctrl fails c.user.2 new = some (code, f') → code = PAM_SUCCESS) ∧
        (∀ x, NUL ∉ x → verifyPassword (e'.sys w) b vl q ctrl fails c.user.2 x = some (code, f') →
          (code = PAM_SUCCESS ↔ Accepts w.crypts (off UNIX__NONULL ctrl) h (x.take 512))) := by
  obtain ⟨-, -, -, -, -, h6⟩ := C81_change w e he b p c fails hu hh r h r.acts.length e' (by rw [List.take_length]; exact he')
  obtain ⟨new, j, hash, h1, h2, h3, h4, h5⟩ := h6 hok hpre (Nat.le_refl _)
  refine ⟨new, j, hash, h1, h2, h4, fun b vl hvl q ctrl fails f' code ht => ?_⟩
  have second : ∀ x, NUL ∉ x → verifyPassword (e'.sys w) b vl q ctrl fails c.user.2 x = some (code, f') →
      (code = PAM_SUCCESS ↔ Accepts w.crypts (off UNIX__NONULL ctrl) hash (x.take 512)) := by
    intro x hx hv
    rw [C74_accept (e'.sys w) b vl hvl q ctrl fails c.user.2 x hx (e'.shadow w) (rootReads w e') ht code f' hv]
    constructor
    · rintro ⟨y, hy, hacc⟩
      rw [(h5 y).mp hy] at hacc
      exact hacc
    · exact fun hacc => ⟨hash, (h5 hash).mpr rfl, hacc⟩
  refine ⟨fun hv => ?_, second⟩
  have hn : NUL ∉ new := by have := hnul j; rw [h2] at this; exact this
  refine (second new hn hv).mpr ?_
  rw [List.take_of_length_le h3.2.1]
  exact ⟨_, counts_strip.mpr rfl, (C69_accepts w.crypts new hash _ _ (counts_strip.mpr rfl)).mp
    (C70_round_trip w.crypts hc c.rnd c.gensalt (algoOf c.ctrl) c.rounds new hash _ (Or.inl h3.1) h4)⟩

/-- what is known about the user's old passwords -/
def NotOld (cr : Crypts) (recs : List Str) (u new : Str) : Prop :=
  (∃ hs, Recalls recs.flatten u hs ∧ ¬ ∃ h ∈ hs, Matches cr new h) ∨ Silent recs.flatten u

theorem runVerify_fine {s : Sys} {b : Bin} {l : Luck} (hl : l.Fine) {p : Proc} {name : Str} (ht : Trusted s b p name) {shadow : Str → Option Sp}
    (hr : s.RootReads shadow) {pw : Pw} (hpw : s.pwnam name = some pw) (hs : pw.Shadowed) {sp : Sp} (hsp : shadow name = some sp) {code days : Int}
    (hce : checkExpiry sp.aging s.today = some (code, days)) (hne : code ≠ PAM_AUTHINFO_UNAVAIL) : runVerify s b l p name = some (code, some days) := by
  have h := ((verifyUser_fine hl ht hr 0#64).2 pw hpw).2.2 hs sp code days hsp hce hne
  unfold verifyUser moduleHash at h
  rw [hpw] at h
  dsimp only at h
  rw [if_pos (shadowed_iff.mpr hs)] at h
  dsimp only at h
  rw [if_neg (by decide), if_neg (by decide)] at h
  cases hrun : runVerify s b l p name with
  | none => rw [hrun] at h; cases h
  | some x =>
    rw [hrun] at h
    obtain ⟨a, d⟩ := x
    dsimp only at h
    rw [if_neg (fun x => absurd x.2 (by decide))] at h
    exact h

theorem shadow_works {s : Sys} {b : Bin} {l : Luck} (hl : l.Fine) {p : Proc} {ctrl : Ctrl} {name : Str} (ht : Trusted s b p name) {shadow : Str → Option Sp}
    (hr : s.RootReads shadow) {pw : Pw} (hpw : s.pwnam name = some pw) (hd : Day s.today)
    (h : pw.Shadowed → ∃ sp, shadow name = some sp ∧ sp.aging.Ok ∧ MayChange sp.aging s.today ∧ (on UNIX_EXPIRED_ONLY ctrl = true → MustChange sp.aging s.today)) :
    verifyShadow s b l p (relaxed ctrl) name = some PAM_SUCCESS := by
  unfold verifyShadow moduleHash
  rw [hpw]
  dsimp only
  by_cases hs : pw.Shadowed
  · obtain ⟨sp, hsp, hok, hmay, hmust⟩ := h hs
    rw [if_pos (shadowed_iff.mpr hs)]
    dsimp only
    rw [if_neg (by decide), if_neg (by decide), on_relaxed (by decide) (by decide) (by decide) (by decide),
      on_relaxed (by decide) (by decide) (by decide) (by decide)]
    obtain ⟨code, left, h5, -, -, h6, -, h7, -⟩ := C71_answer sp.aging s.today hok hd
    have hcode : code = PAM_NEW_AUTHTOK_REQD ∨ (code = PAM_SUCCESS ∧ on UNIX_EXPIRED_ONLY ctrl = false) := by
      by_cases hm : MustChange sp.aging s.today
      · exact Or.inl (h6.mpr hm)
      · right
        refine ⟨h7.mpr ⟨hmay.1, fun h0 => hm ⟨hmay.1, Or.inl h0⟩, fun hc => ?_⟩, ?_⟩
        · rcases hmay.2 hc with h | h
          · exact absurd ⟨hmay.1, Or.inr ⟨hc, h⟩⟩ hm
          · exact h
        · cases hx : on UNIX_EXPIRED_ONLY ctrl with
          | false => rfl
          | true => exact absurd (hmust hx) hm
    rw [runVerify_fine hl ht hr hpw hs hsp h5 (by rcases hcode with h | ⟨h, -⟩ <;> rw [h] <;> decide)]
    dsimp only
    rcases hcode with rfl | ⟨rfl, hx⟩
    · rw [if_neg (by decide)]
      split
      · rw [if_pos rfl]
      · rw [if_pos (Or.inr rfl)]
    · rw [if_neg (by decide), hx, if_neg (by decide)]
      split <;> rfl
  · rw [if_neg (fun x => hs (shadowed_iff.mp x))]
    rfl

/-- C81: If nothing goes wrong, the password of a user of /etc/passwd is changed to the first one given, if it is acceptable, the old one
is right, and its age allows that. -/
theorem C81_works (w : World) (e : Etc) (b : Bin) (p : Proc) (c : ChCall) (fails : Fails) (hu : Findable c.user.2) (hd : Day w.today)
    (huser : c.user.1 = PAM_SUCCESS) (hdash : c.user.2.head? ≠ some '-' ∧ c.user.2.head? ≠ some '+') (hpre : on UNIX__PRELIM c.ctrl = false)
    (hupd : on UNIX__UPDATE c.ctrl = true) (hlock : ∃ n, n ≤ 100 ∧ c.tries n = true) (hfine : (c.luck 3).Fine ∧ (c.luck 4).Fine)
    (hl : c.l.sp.Fine ∧ c.l.pw.Fine ∧ c.l.op.Fine) (ht : Trusted (e.sys w) b p c.user.2)
    (hpw : (e.findPw c.user.2).isSome = true) (hsp : e.sp.main.isSome = true) (hop : c.oldItem.2 = none ∨ c.remember < 0 ∨ e.op.main.isSome = true)
    (hitem : c.oldItem.1 = PAM_SUCCESS)
    (hold : ∀ old, c.oldItem.2 = some old → NUL ∉ old ∧ ∃ x, Account (e.sys w) (e.shadow w) c.user.2 x ∧ Accepts w.crypts true x (old.take 512))
    (hage : ∀ pw, (e.sys w).pwnam c.user.2 = some pw → pw.Shadowed → ∃ sp, e.shadow w c.user.2 = some sp ∧ sp.aging.Ok ∧ MayChange sp.aging w.today ∧
      (on UNIX_EXPIRED_ONLY c.ctrl = true → MustChange sp.aging w.today))
    (new h : Str) (htok : c.newTok 0 = (PAM_SUCCESS, new)) (hnew : new ≠ [] ∧ new.length ≤ 512 ∧ c.oldItem.2 ≠ some new)
    (hroot : on UNIX__IAMROOT c.ctrl = false → c.minlen ≤ new.length ∧ (on UNIX_REMEMBER_PASSWD c.ctrl = true →
      c.opens 0 = true ∧ c.opens 1 = true ∧ ∃ recs, e.op.main = some recs ∧ NotOld w.crypts recs c.user.2 new))
    (hhash : createHash w.crypts c.rnd c.gensalt (algoOf c.ctrl) c.rounds new = some h) (r : ChRes) (hr : chauthtok w e b p c fails = some r) :
    r.code = PAM_SUCCESS ∧ r.asked = 1 := by
  obtain ⟨ent, hent⟩ := Option.isSome_iff_exists.mp hpw
  have hpwn : (e.sys w).pwnam c.user.2 = some ent.pw := by unfold Etc.sys; dsimp only; rw [hent]
  have hsh := shadow_works (ctrl := c.ctrl) hfine.2 ht (rootReads w e) hpwn hd (hage ent.pw hpwn)
  have happ : ∀ i, i < 2 → approvePass w.crypts (opwAt e c i) (relaxed c.ctrl) c.user.2 c.oldItem.2 (some new) c.minlen = PAM_SUCCESS := by
    intro i hi
    refine (approve_iff ..).mpr ⟨hnew.2.2, hnew.2.1, ?_⟩
    rw [on_relaxed (by decide) (by decide) (by decide) (by decide), on_relaxed (by decide) (by decide) (by decide) (by decide)]
    refine fun hi2 => ⟨(hroot hi2).1, fun hm => ?_⟩
    obtain ⟨o0, o1, recs, hrecs, hno⟩ := (hroot hi2).2 hm
    have : opwAt e c i = some recs := by
      unfold opwAt
      match i, hi with
      | 0, _ => rw [o0, if_pos rfl]; exact hrecs
      | 1, _ => rw [o1, if_pos rfl]; exact hrecs
    rw [this]
    rcases hno with ⟨hs, h1, h2⟩ | h1
    · exact ((C82_check w.crypts recs c.user.2 new hu).1 hs h1).2 h2
    · exact (C82_check w.crypts recs c.user.2 new hu).2.1 h1
  have hset : (setFiles w e p c.l ent.pw c.user.2 c.oldItem.2 h (on UNIX_SHADOW c.ctrl) c.remember).1 = PAM_SUCCESS := by
    refine setFiles_works w e p c.l ⟨hl.1, hl.2.1⟩ ent.pw c.user.2 c.oldItem.2 h _ c.remember ?_ hpw hsp
    rcases hop with hop | hop | hop
    · unfold saveOldPassword; rw [hop]; split <;> rfl
    · unfold saveOldPassword; rw [if_pos hop]
    · exact C82_works w e p c.l hl.2.2 c.user.2 _ _ (by rw [hpwn]; rfl) hop
  have hchange : ∀ f, changeIt w e b p c (relaxed c.ctrl) f c.oldItem.2 new 1 =
      some ⟨PAM_SUCCESS, f, 1, .lock :: (doSetpass w e p c.l (relaxed c.ctrl) c.user.2 c.oldItem.2 h c.remember).2⟩ := by
    intro f
    unfold changeIt
    rw [hsh]
    dsimp only
    rw [if_neg (by decide), show (if c.opens 1 = true then e.op.main else none) = opwAt e c 1 from rfl, happ 1 (by decide), if_neg (by decide), algo_relaxed, hhash]
    dsimp only
    have : (doSetpass w e p c.l (relaxed c.ctrl) c.user.2 c.oldItem.2 h c.remember).1 = PAM_SUCCESS := by
      unfold doSetpass
      rw [hpwn]
      dsimp only
      rw [hent, Option.isSome_some, if_pos rfl, on_relaxed (by decide) (by decide) (by decide) (by decide)]
      exact hset
    rw [this]
  have hask : ∀ n, askNew { c with ctrl := relaxed c.ctrl } w.crypts (fun i => if c.opens i then e.op.main else none) c.oldItem.2 (n + 1) 0 PAM_AUTHTOK_ERR =
      (PAM_SUCCESS, some new, 1) := by
    intro n
    unfold askNew
    dsimp only
    rw [htok]
    dsimp only
    have hne : nonEmpty new = some new := if_neg hnew.1
    rw [if_neg (by decide), hne, show (if c.opens 0 = true then e.op.main else none) = opwAt e c 0 from rfl, happ 0 (by decide), if_pos rfl]
  unfold chauthtok at hr
  rw [if_neg (by simpa using huser), if_neg (fun x => x.elim hdash.1 hdash.2), hent] at hr
  change (if on UNIX__PRELIM (relaxed c.ctrl) = true then prelim w e b p c (relaxed c.ctrl) fails
    else if on UNIX__UPDATE (relaxed c.ctrl) = true then update w e b p c (relaxed c.ctrl) fails else some ⟨PAM_ABORT, fails, 0, []⟩) = some r at hr
  rw [on_relaxed (by decide) (by decide) (by decide) (by decide), on_relaxed (by decide) (by decide) (by decide) (by decide), hpre, hupd, if_neg (by decide),
    if_pos rfl] at hr
  unfold update at hr
  rw [if_neg (by simpa using hitem)] at hr
  dsimp only at hr
  obtain ⟨n, hn⟩ : ∃ n, (if on UNIX_USE_AUTHTOK (relaxed c.ctrl) = true ∨ on UNIX_USE_FIRST_PASS (relaxed c.ctrl) = true then 1 else 3) = n + 1 := by
    split
    · exact ⟨0, rfl⟩
    · exact ⟨2, rfl⟩
  rw [hn, hask n] at hr
  dsimp only at hr
  rw [lock_iff.mpr hlock, if_neg (by decide)] at hr
  split at hr
  · next ho =>
    have := hchange fails
    rw [ho] at this
    rw [this] at hr
    cases hr
    exact ⟨rfl, rfl⟩
  · next o ho =>
    split at hr
    · cases hr
    next rv f hv =>
    obtain ⟨hnul, hacc⟩ := hold o ho
    have hrv : rv = PAM_SUCCESS := by
      refine (C74_accept (e.sys w) b (c.luck 3) hfine.1 p (relaxed c.ctrl) fails c.user.2 o hnul (e.shadow w) (rootReads w e) ht rv f hv).mpr ?_
      rw [null_relaxed]
      exact hacc
    rw [if_neg (by simpa using hrv)] at hr
    have := hchange f
    rw [ho] at this
    rw [this] at hr
    cases hr
    exact ⟨rfl, rfl⟩

/-- C81: the preliminary check succeeds only for an account that has no password, or one that may be changed according to its age (unless
root asks), and if root asks or the old password that was given was found right. -/
theorem C81_prelim (w : World) (e : Etc) (b : Bin) (p : Proc) (c : ChCall) (fails : Fails) (hbuf : ∀ i, (c.luck i).buf.length = 513) (hnul : NUL ∉ c.oldTok.2)
    (hn : (e.sys w).pwnam nobody = none) (hd : Day w.today) (hpre : on UNIX__PRELIM c.ctrl = true) (r : ChRes) (h : chauthtok w e b p c fails = some r)
    (hok : r.code = PAM_SUCCESS) :
    (e.findPw c.user.2).isSome = true ∧
    ((∃ x, Read (e.sys w) b (c.luck 1) p c.user.2 x ∧ Accepts w.crypts true x []) ∨
    ((on UNIX__IAMROOT c.ctrl = true ∨ (c.oldTok.1 = PAM_SUCCESS ∧ ∃ x, Read (e.sys w) b (c.luck 3) p c.user.2 x ∧
        (Accepts w.crypts true x (c.oldTok.2.take 512) ∨ ((c.luck 3).Cut ∧ Accepts w.crypts true x [])))) ∧
      (∀ pw, (e.sys w).pwnam c.user.2 = some pw → pw.Shadowed → on UNIX__IAMROOT c.ctrl = false ∨ on UNIX_EXPIRED_ONLY c.ctrl = true →
        ∃ q q' sp, Helper b (c.luck 4) p q ∧ Sees (e.sys w) q c.user.2 q' ∧ (e.sys w).spnam q' c.user.2 = some sp ∧
          (sp.aging.Ok → MayChange sp.aging w.today ∧ (on UNIX_EXPIRED_ONLY c.ctrl = true → MustChange sp.aging w.today))))) := by
  unfold chauthtok at h
  split at h
  · next hu => cases h; exact absurd hok hu
  split at h
  · cases h; cases hok
  split at h
  · cases h; cases hok
  next ent hent =>
  refine ⟨by rw [hent]; rfl, ?_⟩
  change (if on UNIX__PRELIM (relaxed c.ctrl) = true then prelim w e b p c (relaxed c.ctrl) fails
    else if on UNIX__UPDATE (relaxed c.ctrl) = true then update w e b p c (relaxed c.ctrl) fails else some ⟨PAM_ABORT, fails, 0, []⟩) = some r at h
  rw [on_relaxed (by decide) (by decide) (by decide) (by decide), if_pos hpre] at h
  have age : ∀ f, (verifyShadow (e.sys w) b (c.luck 4) p (relaxed c.ctrl) c.user.2).map (fun rv => (⟨if rv = PAM_AUTHTOK_ERR ∧
        off UNIX_EXPIRED_ONLY (relaxed c.ctrl) = true ∧ on UNIX__IAMROOT (relaxed c.ctrl) = true then PAM_SUCCESS else rv, f, 0, []⟩ : ChRes)) = some r →
      ∀ pw, (e.sys w).pwnam c.user.2 = some pw → pw.Shadowed → on UNIX__IAMROOT c.ctrl = false ∨ on UNIX_EXPIRED_ONLY c.ctrl = true →
        ∃ q q' sp, Helper b (c.luck 4) p q ∧ Sees (e.sys w) q c.user.2 q' ∧ (e.sys w).spnam q' c.user.2 = some sp ∧
          (sp.aging.Ok → MayChange sp.aging w.today ∧ (on UNIX_EXPIRED_ONLY c.ctrl = true → MustChange sp.aging w.today)) := by
    intro f hs pw hpw hsh hr
    obtain ⟨rv, hv, rfl⟩ := Option.map_eq_some_iff.mp hs
    have hrv : rv = PAM_SUCCESS := by
      dsimp only at hok
      split at hok
      · next hx =>
        obtain ⟨-, h1, h2⟩ := hx
        unfold off at h1
        rw [on_relaxed (by decide) (by decide) (by decide) (by decide)] at h1 h2
        rcases hr with hr | hr
        · rw [hr] at h2; cases h2
        · rw [hr] at h1; cases h1
      · exact hok
    rw [hrv] at hv
    exact shadow_sound hpw hsh hd hv hr
  unfold prelim at h
  dsimp only at h
  split at h
  · cases h
  · next runs hblank => exact Or.inl (blank_sound hbuf hn hblank).2
  · right
    unfold off at h
    rw [on_relaxed (x := UNIX__IAMROOT) (by decide) (by decide) (by decide) (by decide)] at h
    split at h
    · next hir =>
      split at h
      · next hx => cases h; exact absurd hok hx.2
      split at h
      · next hx => cases h; exact absurd hok hx
      next hx =>
      split at h
      · cases h
      · next rv f hv =>
        split at h
        · next hy => cases h; exact absurd hok hy
        · next hy =>
          have hy : rv = PAM_SUCCESS := by simpa using hy
          rw [hy] at hv
          refine ⟨Or.inr ⟨by simpa using hx, ?_⟩, age f (by unfold off; rw [on_relaxed (x := UNIX__IAMROOT) (by decide) (by decide) (by decide) (by decide)]; exact h)⟩
          have := C74_sound (e.sys w) b (c.luck 3) (hbuf 3) p (relaxed c.ctrl) fails f c.user.2 c.oldTok.2 hnul hv
          rw [null_relaxed] at this
          exact this
    · next hir =>
      exact ⟨Or.inl (by simpa using hir), age fails (by unfold off; rw [on_relaxed (x := UNIX__IAMROOT) (by decide) (by decide) (by decide) (by decide)]; exact h)⟩

/-- earlier attempts were refused, and the last one was not unless it is the last allowed -/
theorem askNew_first {c : ChCall} {cr : Crypts} {file : Nat → Option (List Str)} {old : Option Str} : ∀ {left i : Nat} {rv : Int} {r : Int} {new : Option Str} {k : Nat},
    askNew c cr file old left i rv = (r, new, k) → i ≤ k ∧ k ≤ i + left ∧
      (∀ m, i ≤ m → m + 1 < k → (c.newTok m).1 = PAM_SUCCESS ∧ approvePass cr (file m) c.ctrl c.user.2 old (nonEmpty (c.newTok m).2) c.minlen ≠ PAM_SUCCESS) ∧
      (∀ m, i ≤ m → k = m + 1 → k < i + left → (c.newTok m).1 ≠ PAM_SUCCESS ∨
        approvePass cr (file m) c.ctrl c.user.2 old (nonEmpty (c.newTok m).2) c.minlen = PAM_SUCCESS) ∧ (0 < left → i < k)
  | 0, i, rv, r, new, k, h => by
    unfold askNew at h
    cases h
    exact ⟨Nat.le_refl _, Nat.le_refl _, fun m _ _ => by omega, fun m _ _ _ => by omega, fun h => by omega⟩
  | left + 1, i, rv, r, new, k, h => by
    unfold askNew at h
    dsimp only at h
    split at h
    · next ht =>
      cases h
      refine ⟨by omega, by omega, fun m _ _ => by omega, fun m _ hm _ => ?_, fun _ => by omega⟩
      obtain rfl : i = m := by omega
      exact Or.inl ht
    · next ht =>
      have ht : (c.newTok i).1 = PAM_SUCCESS := by simpa using ht
      split at h
      · next hap =>
        cases h
        refine ⟨by omega, by omega, fun m _ _ => by omega, fun m _ hm _ => ?_, fun _ => by omega⟩
        obtain rfl : i = m := by omega
        exact Or.inr hap
      · next hap =>
        obtain ⟨h1, h2, h3, h4, h5⟩ := askNew_first h
        refine ⟨by omega, by omega, fun m hm hk => ?_, fun m hm hk hl => ?_, fun _ => by omega⟩
        · rcases Nat.eq_or_lt_of_le hm with rfl | hm
          · exact ⟨ht, hap⟩
          · exact h3 m hm hk
        · rcases Nat.eq_or_lt_of_le hm with rfl | hm
          · exfalso
            have := h5 (by omega)
            omega
          · exact h4 m hm hk (by omega)

/-- how often a new password was asked for is what the loop says -/
theorem asked_loop {w : World} {e : Etc} {b : Bin} {p : Proc} {c : ChCall} {fails : Fails} {r : ChRes} (h : chauthtok w e b p c fails = some r) :
    r.asked = 0 ∨ ∃ rv new, askNew { c with ctrl := relaxed c.ctrl } w.crypts (opwAt e c) c.oldItem.2 (attempts c) 0 PAM_AUTHTOK_ERR = (rv, new, r.asked) := by
  unfold chauthtok at h
  split at h
  · cases h; exact Or.inl rfl
  split at h
  · cases h; exact Or.inl rfl
  split at h
  · cases h; exact Or.inl rfl
  change (if on UNIX__PRELIM (relaxed c.ctrl) = true then prelim w e b p c (relaxed c.ctrl) fails
    else if on UNIX__UPDATE (relaxed c.ctrl) = true then update w e b p c (relaxed c.ctrl) fails else some ⟨PAM_ABORT, fails, 0, []⟩) = some r at h
  split at h
  · left
    unfold prelim at h
    dsimp only at h
    split at h
    · cases h
    · cases h; rfl
    · split at h
      · split at h
        · cases h; rfl
        split at h
        · cases h; rfl
        split at h
        · cases h
        · split at h
          · cases h; rfl
          · obtain ⟨_, -, rfl⟩ := Option.map_eq_some_iff.mp h; rfl
      · obtain ⟨_, -, rfl⟩ := Option.map_eq_some_iff.mp h; rfl
  split at h
  case isFalse => cases h; exact Or.inl rfl
  unfold update at h
  split at h
  · cases h; exact Or.inl rfl
  have hatt : (if on UNIX_USE_AUTHTOK (relaxed c.ctrl) = true ∨ on UNIX_USE_FIRST_PASS (relaxed c.ctrl) = true then 1 else 3) = attempts c := by
    rw [on_relaxed (by decide) (by decide) (by decide) (by decide), on_relaxed (by decide) (by decide) (by decide) (by decide)]
    rfl
  dsimp only at h
  rw [hatt] at h
  right
  rw [show (fun i => if c.opens i = true then e.op.main else none) = opwAt e c from rfl] at h
  obtain ⟨⟨rv, new, asked⟩, hask⟩ : ∃ t, askNew { c with ctrl := relaxed c.ctrl } w.crypts (opwAt e c) c.oldItem.2
      (attempts c) 0 PAM_AUTHTOK_ERR = t := ⟨_, rfl⟩
  rw [hask] at h ⊢
  refine ⟨rv, new, ?_⟩
  suffices asked = r.asked by rw [this]
  have change : ∀ (f : Fails) (old : Option Str) x, changeIt w e b p c (relaxed c.ctrl) f old x asked = some r → asked = r.asked := by
    intro f old x h
    unfold changeIt at h
    split at h
    · cases h
    split at h
    · cases h; rfl
    dsimp only at h
    rw [show (if c.opens asked = true then e.op.main else none) = opwAt e c asked from rfl] at h
    split at h
    · cases h; rfl
    split at h
    · cases h; rfl
    · cases h; rfl
  dsimp only at h
  split at h
  · cases h; rfl
  split at h
  · cases h; rfl
  split at h
  · exact change _ _ _ h
  · split at h
    · cases h
    split at h
    · cases h; rfl
    · exact change _ _ _ h

theorem acceptable_approve {cr : Crypts} {file : Option (List Str)} {c : ChCall} (hu : Findable c.user.2) {new : Str}
    (hknown : ∀ recs, file = some recs → (∃ hs, Recalls recs.flatten c.user.2 hs) ∨ Silent recs.flatten c.user.2) (h : Acceptable c cr file new) :
    approvePass cr file (relaxed c.ctrl) c.user.2 c.oldItem.2 (nonEmpty new) c.minlen = PAM_SUCCESS := by
  obtain ⟨h1, h2, h3, h4⟩ := h
  rw [show nonEmpty new = some new from if_neg h1]
  refine (approve_iff ..).mpr ⟨h3, h2, ?_⟩
  rw [on_relaxed (by decide) (by decide) (by decide) (by decide), on_relaxed (by decide) (by decide) (by decide) (by decide)]
  refine fun hr => ⟨(h4 hr).1, fun hm => ?_⟩
  obtain ⟨recs, rfl, hno⟩ := (h4 hr).2 hm
  rcases hknown recs rfl with ⟨hs, h5⟩ | h5
  · exact ((C82_check cr recs c.user.2 new hu).1 hs h5).2 (fun h => hno ⟨hs, h5, h⟩)
  · exact (C82_check cr recs c.user.2 new hu).2.1 h5

/-- C81: a new password is asked for at most three times, once if it has to be that of an earlier module; asking goes on only if what was
given is not acceptable, and ends early only with a password that is, or if asking fails. -/
theorem C81_asks (w : World) (e : Etc) (b : Bin) (p : Proc) (c : ChCall) (fails : Fails) (hu : Findable c.user.2)
    (hknown : ∀ recs, e.op.main = some recs → (∃ hs, Recalls recs.flatten c.user.2 hs) ∨ Silent recs.flatten c.user.2)
    (r : ChRes) (h : chauthtok w e b p c fails = some r) :
    r.asked ≤ attempts c ∧
    (∀ m, m + 1 < r.asked → ∃ x, c.newTok m = (PAM_SUCCESS, x) ∧ ¬ Acceptable c w.crypts (opwAt e c m) x) ∧
    (∀ m, r.asked = m + 1 → m + 1 < attempts c → (c.newTok m).1 ≠ PAM_SUCCESS ∨ Acceptable c w.crypts (opwAt e c m) (c.newTok m).2) := by
  rcases asked_loop h with h | ⟨rv, new, h⟩
  · rw [h]
    exact ⟨Nat.zero_le _, fun m hm => by omega, fun m hm => by omega⟩
  obtain ⟨-, h2, h3, h4, -⟩ := askNew_first h
  dsimp only at h3 h4
  refine ⟨by omega, fun m hm => ?_, fun m hm hl => ?_⟩
  · obtain ⟨h5, h6⟩ := h3 m (Nat.zero_le _) hm
    refine ⟨_, Prod.ext h5 rfl, fun hacc => h6 (acceptable_approve hu (fun recs hr => hknown recs ?_) hacc)⟩
    unfold opwAt at hr
    split at hr
    · exact hr
    · cases hr
  · rcases h4 m (Nat.zero_le _) hm (by omega) with h5 | h5
    · exact Or.inl h5
    · right
      cases hx : (c.newTok m).2 with
      | nil => rw [hx] at h5; cases h5
      | cons a t =>
        rw [hx] at h5
        exact approve_acceptable hu nofun h5

/-! ### examples -/

/-- options `yescrypt shadow remember=2 minlen=5`, called by an ordinary user -/
def demoOpts (upd : Bool) : Opts :=
  (setCtrl false { update := upd, prelim := !upd } none (some (-1)) (some 0) (some 0) ["yescrypt".toList, "shadow".toList, "remember=2".toList, "minlen=5".toList]).getD ⟨0, none, none, none⟩

/-- ada changes a password: the first one given is too short, the second was used before, and the third is fine -/
def demoCh (upd : Bool) : ChCall where
  ctrl := (demoOpts upd).ctrl
  remember := 2
  rounds := 5
  minlen := 5
  user := (PAM_SUCCESS, "ada".toList)
  info := PAM_SUCCESS
  oldTok := (PAM_SUCCESS, "secret password".toList)
  oldItem := (PAM_SUCCESS, some "secret password".toList)
  newTok i := (PAM_SUCCESS, if i = 0 then "abc".toList else if i = 1 then "first".toList else "a new one".toList)
  opens _ := true
  luck _ := demoLuck
  tries n := n = 2
  l := demoSLuck
  rnd i := i
  gensalt a _ := a

def demoChRes (upd : Bool) : ChRes := (chauthtok opwWorld opwEtc demoBin adaProc (demoCh upd) (fun _ => 0)).getD ⟨0, fun _ => 0, 0, []⟩

example : on UNIX__UPDATE (demoOpts true).ctrl = true ∧ on UNIX__PRELIM (demoOpts true).ctrl = false ∧ on UNIX__PRELIM (demoOpts false).ctrl = true ∧
    on UNIX_REMEMBER_PASSWD (demoOpts true).ctrl = true ∧ on UNIX__IAMROOT (demoOpts true).ctrl = false ∧ (demoOpts true).remember = some 2 ∧
    (demoOpts true).minlen = some 5 := by decide +kernel
example : attempts (demoCh true) = 3 ∧ algoOf (demoCh true).ctrl = .yescrypt := by decide +kernel
/-- the call returns, the third password is taken and the old one is remembered -/
example : (chauthtok opwWorld opwEtc demoBin adaProc (demoCh true) (fun _ => 0)).isSome = true ∧ (demoChRes true).code = PAM_SUCCESS ∧
    (demoChRes true).asked = 3 ∧ (demoChRes true).acts.any Act.file = true := by decide +kernel
example : ((opwEtc.after (demoChRes true).acts).findSp "ada".toList).map (·.hash) = some "$y$a new one".toList ∧
    (opwEtc.after (demoChRes true).acts).findSp "root".toList = opwEtc.findSp "root".toList ∧
    (opwEtc.after (demoChRes true).acts).op.main =
      some ["bob:1001:2:$1$ab$oldab,$1$cd$oldercd\n".toList, "ada:1000:2:$1$zz$nextzz,$1$BCDEFGHI$secretpasswordBCDEFGHI\n".toList] := by decide +kernel
/-- wrong old password; nobody by that name; the lock is never free; neither phase -/
example : ((chauthtok opwWorld opwEtc demoBin adaProc { demoCh true with oldItem := (PAM_SUCCESS, some "guess".toList) } (fun _ => 0)).map
    (fun r => (r.code, r.acts.length))) = some (PAM_AUTH_ERR, 2) := by decide +kernel
example : ((chauthtok opwWorld opwEtc demoBin adaProc { demoCh true with user := (PAM_SUCCESS, "eve".toList) } (fun _ => 0)).map
    (fun r => (r.code, r.acts.length))) = some (PAM_USER_UNKNOWN, 0) := by decide +kernel
example : ((chauthtok opwWorld opwEtc demoBin adaProc { demoCh true with tries := fun _ => false } (fun _ => 0)).map
    (fun r => (r.code, r.acts.length))) = some (PAM_AUTHTOK_LOCK_BUSY, 0) := by decide +kernel
/-- the preliminary check -/
example : (chauthtok opwWorld opwEtc demoBin adaProc (demoCh false) (fun _ => 0)).map (fun r => (r.code, r.asked, r.acts.length)) =
    some (PAM_SUCCESS, 0, 0) := by decide +kernel
example : (chauthtok opwWorld opwEtc demoBin adaProc { demoCh false with oldTok := (PAM_SUCCESS, "guess".toList) } (fun _ => 0)).map (·.code) =
    some PAM_AUTH_ERR := by decide +kernel
/-- the hypotheses of C81_works, for the last of the three passwords -/
def demoCh1 : ChCall := { demoCh true with newTok := fun _ => (PAM_SUCCESS, "a new one".toList) }
example : NotOld opwWorld.crypts opwFile "ada".toList "a new one".toList :=
  Or.inl ⟨_, opwRecalls, by
    rintro ⟨h, hh, hm⟩
    rcases List.mem_cons.mp hh with rfl | hh
    · exact absurd ((matches_iff ..).mpr hm) (by decide +kernel)
    · rw [List.mem_singleton.mp hh] at hm
      exact absurd ((matches_iff ..).mpr hm) (by decide +kernel)⟩
example : Trusted (opwEtc.sys opwWorld) demoBin adaProc "ada".toList ∧ (opwEtc.findPw "ada".toList).isSome = true ∧ opwEtc.sp.main.isSome = true ∧
    opwEtc.op.main.isSome = true ∧ demoLuck.Fine ∧ (demoSLuck.sp.Fine ∧ demoSLuck.pw.Fine ∧ demoSLuck.op.Fine) ∧ Day opwWorld.today ∧ opwEtc.Clean :=
  ⟨Or.inl rfl, by decide +kernel, rfl, rfl, demoLuck_fine, ⟨fineDefault, fineDefault, fineDefault⟩, by unfold Day; decide, ⟨rfl, rfl, rfl, rfl, rfl, rfl⟩⟩
example : ∃ sp, opwEtc.shadow opwWorld "ada".toList = some sp ∧ sp.aging.Ok ∧ MayChange sp.aging opwWorld.today :=
  ⟨_, rfl, by unfold Aging.Ok; decide, by unfold MayChange Closed Counting Old Dead Young; decide⟩
example : (opwEtc.sys opwWorld).pwnam nobody = none ∧ demoLuck.buf.length = 513 := ⟨by decide +kernel, List.length_replicate ..⟩

end Pam.Unix
