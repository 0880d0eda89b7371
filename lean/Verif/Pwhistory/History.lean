import Verif.Pwhistory.Props
/-
Property theorems C65 (no password is used again) and C66 (what the module answers).
-/
namespace Pam.Pwh
open Pam Spec

/-- the stored password `h` is the one the text `p` gives -/
def Matches (crypt : Str → Str → Option Str) (h p : Str) : Prop := crypt p h = some h

/-! ### the check -/

/-- C65: a password is refused exactly if it gives one of the remembered ones. -/
theorem C65_check (crypt : Str → Str → Option Str) (file : Option Str) (u p : Str) (hs : List Str) (h : Holds file u hs) :
    ((∃ h ∈ hs, Matches crypt h p) → checkOld crypt file u p = PAM_AUTHTOK_ERR) ∧
    ((¬ ∃ h ∈ hs, Matches crypt h p) → checkOld crypt file u p = PAM_SUCCESS) := by
  obtain ⟨pre, e, post, rfl, he, hu, rfl, hf⟩ := h
  simp only [checkOld]
  rw [findEntry_holds he hu hf]
  simp only
  have key : (pieces ',' (join e.hashes)).any (fun q => decide (q.length > 0) && comparePassword crypt p q) = true ↔
      ∃ h ∈ e.hashes, Matches crypt h p := by
    by_cases hne : e.hashes = []
    · rw [hne]; simp [join, pieces]
    · rw [pieces_join hne he.hashes, List.any_eq_true]
      constructor
      · rintro ⟨x, hx, h⟩
        simp only [Bool.and_eq_true, comparePassword, decide_eq_true_eq] at h
        exact ⟨x, hx, h.2⟩
      · rintro ⟨x, hx, h⟩
        refine ⟨x, hx, ?_⟩
        simp only [Bool.and_eq_true, comparePassword, decide_eq_true_eq]
        exact ⟨List.length_pos_iff.mpr (he.hashes x hx).1, h⟩
  constructor
  · intro h; rw [if_pos (key.mpr h)]
  · intro h; rw [if_neg (fun x => h (key.mp x))]

/-- C65: without an entry, or without a file, every password will do. -/
theorem C65_no_entry (crypt : Str → Str → Option Str) (file : Option Str) (u p : Str) (h : NoEntry file u) :
    checkOld crypt file u p = PAM_SUCCESS := by
  rcases h with rfl | ⟨ls, rfl, hf⟩
  · rfl
  · simp only [checkOld]
    rw [physLines_cat ls (fun l hl => (hf l hl).1.1)]
    have := findEntry_foreign (rest := []) hf
    rw [List.append_nil] at this
    rw [this]; rfl

/-! ### the loop -/

/-- this answer is no password to be accepted -/
def Passed (crypt : Str → Str → Option Str) (hs : List Str) (exempt : Prop) (a : Ans) : Prop :=
  a = .code PAM_TRY_AGAIN ∨ a = .code PAM_SUCCESS ∨ ∃ q, a = .got q ∧ (∃ h ∈ hs, Matches crypt h q) ∧ ¬ exempt

/-- how asking up to `total` times can end -/
def LoopOut (crypt : Str → Str → Option Str) (hs : List Str) (exempt : Prop) (c : Call) (total : Nat) (r : Int × Option Str × Nat) : Prop :=
  (∃ k p, k < total ∧ (∀ j < k, Passed crypt hs exempt (c.answers j)) ∧ c.answers k = .got p ∧
    ((¬ ∃ h ∈ hs, Matches crypt h p) ∨ exempt) ∧ r = (PAM_SUCCESS, some p, k + 1)) ∨
  (∃ k code, k < total ∧ (∀ j < k, Passed crypt hs exempt (c.answers j)) ∧ c.answers k = .code code ∧
    code ≠ PAM_SUCCESS ∧ code ≠ PAM_TRY_AGAIN ∧ r = (if code = PAM_CONV_AGAIN then PAM_INCOMPLETE else code, none, k + 1)) ∨
  ((∀ j < total, Passed crypt hs exempt (c.answers j)) ∧ r = (PAM_MAXTRIES, none, total))

theorem askLoop_spec {crypt : Str → Str → Option Str} {c : Call} {enforce : Bool} {check : Nat → Str → Int} {hs : List Str}
    (hcheck : ∀ i p, ((∃ h ∈ hs, Matches crypt h p) → check i p = PAM_AUTHTOK_ERR) ∧ ((¬ ∃ h ∈ hs, Matches crypt h p) → check i p = PAM_SUCCESS))
    {exempt : Prop} (hex : exempt ↔ c.ruid = 0 ∧ enforce = false ∧ c.expired = false) :
    ∀ (left i : Nat), (∀ j < i, Passed crypt hs exempt (c.answers j)) →
      LoopOut crypt hs exempt c (i + left) (askLoop c enforce check left i)
  | 0, i, h => Or.inr (Or.inr ⟨h, rfl⟩)
  | left + 1, i, h => by
    have next : Passed crypt hs exempt (c.answers i) → askLoop c enforce check (left + 1) i = askLoop c enforce check left (i + 1) →
        LoopOut crypt hs exempt c (i + (left + 1)) (askLoop c enforce check (left + 1) i) := by
      intro hp he
      have ih := askLoop_spec hcheck hex left (i + 1) (fun j hj => by
        rcases Nat.lt_succ_iff_lt_or_eq.mp hj with hj | rfl
        · exact h j hj
        · exact hp)
      rw [← he, show i + 1 + left = i + (left + 1) by omega] at ih
      exact ih
    cases ha : c.answers i with
    | code k =>
      by_cases hk : k ≠ PAM_SUCCESS ∧ k ≠ PAM_TRY_AGAIN
      · right; left
        refine ⟨i, k, by omega, h, ha, hk.1, hk.2, ?_⟩
        simp only [askLoop, ha]; rw [if_pos hk]
      · refine next ?_ ?_
        · rw [ha]
          by_cases h1 : k = PAM_SUCCESS
          · rw [h1]; exact Or.inr (Or.inl rfl)
          · have : k = PAM_TRY_AGAIN := by
              by_cases h2 : k = PAM_TRY_AGAIN
              · exact h2
              · exact absurd ⟨h1, h2⟩ hk
            rw [this]; exact Or.inl rfl
        · simp only [askLoop, ha]; rw [if_neg hk]
    | got p =>
      by_cases hu : ∃ h ∈ hs, Matches crypt h p
      · have hc := (hcheck i p).1 hu
        by_cases he : exempt
        · left
          refine ⟨i, p, by omega, h, ha, Or.inr he, ?_⟩
          have he' := hex.mp he
          simp only [askLoop, ha, hc]
          rw [if_pos (by decide), if_neg (by simp [he'.1, he'.2.1, he'.2.2])]
        · refine next ?_ ?_
          · rw [ha]; exact Or.inr (Or.inr ⟨p, rfl, hu, he⟩)
          · simp only [askLoop, ha, hc]
            rw [if_pos (by decide), if_pos]
            by_cases h1 : c.ruid = 0
            · by_cases h2 : enforce = true
              · exact Or.inr (Or.inl h2)
              · by_cases h3 : c.expired = true
                · exact Or.inr (Or.inr h3)
                · exact absurd (hex.mpr ⟨h1, by simpa using h2, by simpa using h3⟩) he
            · exact Or.inl h1
      · left
        refine ⟨i, p, by omega, h, ha, Or.inl hu, ?_⟩
        simp only [askLoop, ha, (hcheck i p).2 hu]
        rw [if_neg (by decide)]

/-! ### C66 -/

/-- root is exempt, unless told otherwise or the password has expired -/
def Exempt (o : Options) (c : Call) : Prop := c.ruid = 0 ∧ o.enforceForRoot = false ∧ c.expired = false

/-- C66: once the current password is saved, the user is asked up to `tries` times.  The first password that is not a remembered one
is taken (for an exempt root, any password); other failures end the call with their code; PAM_MAXTRIES is the answer when there are
no tries left. -/
theorem C66_answer (crypt : Str → Str → Option Str) (sys : Sys) (o : Options) (c : Call) (fs : Fs) (u : Str) (hs : List Str)
    (hrem : o.remember ≠ 0) (huser : c.user = .ok u) (hprel : c.prelim = false)
    (hsave : (saveOld sys o.remember u fs.main).1 = PAM_SUCCESS) (hopen : ∀ i, sys.opensAgain i = true)
    (hold : Holds (after fs (saveOld sys o.remember u fs.main).2).main u hs) :
    let r := chauthtok crypt sys o c fs
    let tries := o.tries.toNat
    (∃ k p, k < tries ∧ (∀ j < k, Passed crypt hs (Exempt o c) (c.answers j)) ∧ c.answers k = .got p ∧
      ((¬ ∃ h ∈ hs, Matches crypt h p) ∨ Exempt o c) ∧ r.code = PAM_SUCCESS ∧ r.newpass = some p ∧ r.asked = k + 1) ∨
    (∃ k code, k < tries ∧ (∀ j < k, Passed crypt hs (Exempt o c) (c.answers j)) ∧ c.answers k = .code code ∧
      code ≠ PAM_SUCCESS ∧ code ≠ PAM_TRY_AGAIN ∧
      r.code = (if code = PAM_CONV_AGAIN then PAM_INCOMPLETE else code) ∧ r.newpass = none ∧ r.asked = k + 1) ∨
    ((∀ j < tries, Passed crypt hs (Exempt o c) (c.answers j)) ∧ r.code = PAM_MAXTRIES ∧ r.newpass = none ∧ r.asked = tries) := by
  have hcheck : ∀ i p, ((∃ h ∈ hs, Matches crypt h p) →
        checkOld crypt (if sys.opensAgain i then (after fs (saveOld sys o.remember u fs.main).2).main else none) u p = PAM_AUTHTOK_ERR) ∧
      ((¬ ∃ h ∈ hs, Matches crypt h p) →
        checkOld crypt (if sys.opensAgain i then (after fs (saveOld sys o.remember u fs.main).2).main else none) u p = PAM_SUCCESS) := by
    intro i p
    rw [if_pos (hopen i)]
    exact C65_check crypt _ u p hs hold
  have := askLoop_spec (c := c) (enforce := o.enforceForRoot) hcheck (exempt := Exempt o c) Iff.rfl o.tries.toNat 0 (by simp)
  rw [Nat.zero_add] at this
  have e : chauthtok crypt sys o c fs =
      (let r := askLoop c o.enforceForRoot
        (fun i p => checkOld crypt (if sys.opensAgain i then (after fs (saveOld sys o.remember u fs.main).2).main else none) u p) o.tries.toNat 0
       ⟨r.1, r.2.1, r.2.2, (saveOld sys o.remember u fs.main).2⟩) := by
    simp only [chauthtok, huser, hprel]
    rw [if_neg hrem, if_neg (by simp), if_neg (by simp [hsave])]
    rfl
  intro r tries
  simp only [r, e]
  rcases this with ⟨k, p, h1, h2, h3, h4, h5⟩ | ⟨k, code, h1, h2, h3, h4, h5, h6⟩ | ⟨h1, h2⟩
  · left; rw [h5]; exact ⟨k, p, h1, h2, h3, h4, rfl, rfl, rfl⟩
  · right; left; rw [h6]; exact ⟨k, code, h1, h2, h3, h4, h5, rfl, rfl, rfl⟩
  · right; right; rw [h2]; exact ⟨h1, rfl, rfl, rfl⟩

/-- C66: what is answered without asking: nothing to remember, no user name, the preliminary pass, and failures of saving. -/
theorem C66_early (crypt : Str → Str → Option Str) (sys : Sys) (o : Options) (c : Call) (fs : Fs) :
    (o.remember = 0 → chauthtok crypt sys o c fs = ⟨PAM_IGNORE, none, 0, []⟩) ∧
    (o.remember ≠ 0 → ∀ k, c.user = .error k → chauthtok crypt sys o c fs = ⟨k, none, 0, []⟩) ∧
    (o.remember ≠ 0 → ∀ u, c.user = .ok u → c.prelim = true → chauthtok crypt sys o c fs = ⟨PAM_SUCCESS, none, 0, []⟩) ∧
    (o.remember ≠ 0 → ∀ u, c.user = .ok u → c.prelim = false → (saveOld sys o.remember u fs.main).1 ≠ PAM_SUCCESS →
      let r := chauthtok crypt sys o c fs
      r.code = (saveOld sys o.remember u fs.main).1 ∧ r.newpass = none ∧ r.asked = 0) := by
  refine ⟨fun h => by rw [chauthtok, if_pos h], fun h k hk => by simp only [chauthtok, hk]; rw [if_neg h],
    fun h u hu hp => by simp only [chauthtok, hu, hp]; rw [if_neg h]; rfl, fun h u hu hp hs => ?_⟩
  simp only [chauthtok, hu, hp]
  rw [if_neg h, if_neg (by simp), if_pos hs]
  exact ⟨rfl, rfl, rfl⟩

/-! ### C65 over whole histories -/

theorem getLast?_squash : ∀ t : List Str, (squash t).getLast? = t.getLast?
  | [] => rfl
  | [a] => rfl
  | a :: b :: r => by
    have ih := getLast?_squash (b :: r)
    rw [squash]
    split
    · rw [ih]; simp
    · rw [List.getLast?_cons, ih, List.getLast?_cons (a := a)]

theorem squash_append (h : Str) : ∀ t : List Str, squash (t ++ [h]) = if t.getLast? = some h then squash t else squash t ++ [h]
  | [] => rfl
  | [a] => by
    simp only [List.cons_append, List.nil_append, squash, List.getLast?_singleton, Option.some.injEq]
    split
    · next e => rw [e]
    · rfl
  | a :: b :: r => by
    have ih := squash_append h (b :: r)
    have hl : (a :: b :: r).getLast? = (b :: r).getLast? := by simp
    simp only [List.cons_append, squash] at ih ⊢
    rw [hl, ih]
    split <;> split <;> simp

theorem keep_length (n : Nat) (l : List Str) : (keep n l).length ≤ n := by simp only [keep, List.length_drop]; omega

theorem keep_keep (n : Nat) (l : List Str) : keep n (keep n l) = keep n l := by
  have := keep_length n l
  rw [keep, show (keep n l).length - n = 0 by omega, List.drop_zero]

theorem getLast?_keep {n : Nat} (hn : 1 ≤ n) (l : List Str) : (keep n l).getLast? = l.getLast? := by
  cases l with
  | nil => simp [keep]
  | cons a r =>
    rw [keep, List.getLast?_drop, if_neg]
    simp only [List.length_cons]; omega

theorem keep_append {n : Nat} (hn : 1 ≤ n) (l : List Str) (h : Str) : keep n (keep n l ++ [h]) = keep n (l ++ [h]) := by
  simp only [keep, List.length_append, List.length_drop, List.length_singleton]
  by_cases hl : l.length ≤ n
  · rw [show l.length - n = 0 by omega]; simp
  · rw [show l.length - (l.length - n) + 1 - n = 1 by omega, show l.length + 1 - n = (l.length - n) + 1 by omega,
      ← List.drop_drop, List.drop_append_of_le_length (l₁ := l) (by omega)]

/-- adding a password to what is remembered of `t` -/
theorem remember_squash {n : Nat} (hn : 1 ≤ n) (t : List Str) (h : Str) : remember n (keep n (squash t)) h = keep n (squash (t ++ [h])) := by
  rw [remember, getLast?_keep hn, getLast?_squash, squash_append]
  split
  · rw [keep_keep]
  · rw [keep_append hn]

/-- What can happen to the file while `hs` are the successive passwords of `u`, the last one being the current one.  Calls of the
module for any user, which may fail or be killed at any point, and changes of the password of `u` that the module allowed. -/
inductive Run (crypt : Str → Str → Option Str) (n : Nat) (u : Str) : List Str → Fs → Prop where
  | start (h : Str) (fs : Fs) : IsHash h → NoEntry fs.main u → Run crypt n u [h] fs
  | attempt (hs : List Str) (fs : Fs) (sys : Sys) (o : Options) (c : Call) (v : Str) (uid : Nat) (h : Str) (k : Nat) :
      Run crypt n u hs fs → c.user = .ok v → IsName v → Current sys v uid h → IsHash h →
      (v = u → o.remember = n ∧ hs.getLast? = some h) →
      Run crypt n u hs (after fs ((chauthtok crypt sys o c fs).ops.take k))
  | changed (hs : List Str) (fs : Fs) (sys : Sys) (o : Options) (c : Call) (uid : Nat) (h h' p : Str) :
      Run crypt n u hs fs → c.user = .ok u → Current sys u uid h → IsHash h → hs.getLast? = some h → o.remember = n →
      sys.rename = true → (chauthtok crypt sys o c fs).newpass = some p → IsHash h' →
      Run crypt n u (hs ++ [h']) (after fs (chauthtok crypt sys o c fs).ops)

/-- what the file holds -/
def Inv (n : Nat) (u : Str) (hs : List Str) (file : Option Str) : Prop :=
  (NoEntry file u ∧ ∃ h, hs = [h]) ∨
  ∃ t, Holds file u (keep n (squash t)) ∧ t ≠ [] ∧ (t = hs ∨ ∃ h, hs = t ++ [h])

theorem inv_save {n : Nat} (hn : 1 ≤ n) {u h : Str} {uid : Nat} {hs : List Str} {file : Option Str} (hu : IsName u) (hh : IsHash h)
    (hl : hs.getLast? = some h) (hi : Inv n u hs file) : Holds (some (content n u h uid file)) u (keep n (squash hs)) := by
  rcases hi with ⟨hno, a, rfl⟩ | ⟨t, hold, hne, rfl | ⟨a, rfl⟩⟩
  · simp only [List.getLast?_singleton, Option.some.injEq] at hl
    subst hl
    have := holds_new (n := (n : Int)) (uid := uid) hu hh hno
    rw [show keep n (squash [a]) = [a] by simp [keep, squash, show 1 - n = 0 by omega]]
    exact this
  · have := holds_own (uid := uid) hn hh hold (fun _ => keep_length n _)
    rw [remember_squash hn, squash_append, if_pos hl] at this
    exact this
  · rw [List.getLast?_append] at hl
    simp only [List.getLast?_singleton, Option.some_or, Option.some.injEq] at hl
    subst hl
    have := holds_own (uid := uid) hn hh hold (fun _ => keep_length n _)
    rw [remember_squash hn] at this
    exact this

theorem inv_other {m : Int} {n : Nat} {u v h : Str} {uid : Nat} {hs : List Str} {file : Option Str} (hu : IsName u) (hv : IsName v) (huv : u ≠ v)
    (hh : IsHash h) (hi : Inv n u hs file) : Inv n u hs (some (content m v h uid file)) := by
  rcases hi with ⟨hno, ha⟩ | ⟨t, hold, hrest⟩
  · exact Or.inl ⟨noEntry_other hu.1 hv huv hh hno, ha⟩
  · exact Or.inr ⟨t, holds_other hv huv hh hold, hrest⟩

theorem chauthtok_ops {crypt : Str → Str → Option Str} {sys : Sys} {o : Options} {c : Call} {fs : Fs} {v : Str} (hv : c.user = .ok v) :
    (chauthtok crypt sys o c fs).ops = [] ∨ (chauthtok crypt sys o c fs).ops = (saveOld sys o.remember v fs.main).2 := by
  simp only [chauthtok, hv]
  split
  · exact Or.inl rfl
  split
  · exact Or.inl rfl
  split
  · exact Or.inr rfl
  · exact Or.inr rfl

/-- a password is taken only after the current one was saved -/
theorem chauthtok_new {crypt : Str → Str → Option Str} {sys : Sys} {o : Options} {c : Call} {fs : Fs} {v p : Str} (hv : c.user = .ok v)
    (hp : (chauthtok crypt sys o c fs).newpass = some p) :
    (saveOld sys o.remember v fs.main).1 = PAM_SUCCESS ∧ (chauthtok crypt sys o c fs).ops = (saveOld sys o.remember v fs.main).2 := by
  simp only [chauthtok, hv] at hp ⊢
  split at hp
  · cases hp
  split at hp
  · cases hp
  split at hp
  · cases hp
  · rename_i h1 h2 h3
    rw [if_neg h1, if_neg h2, if_neg h3]
    exact ⟨by simpa using h3, rfl⟩

theorem saveOld_small {sys : Sys} {n : Int} {u h : Str} {uid : Nat} (hc : Current sys u uid h) (hn : n ≤ 0) (main : Option Str) :
    saveOld sys n u main = (PAM_SUCCESS, []) := by
  obtain ⟨pw, h1, _, _⟩ := hc
  simp only [saveOld, h1]; rw [if_pos hn]

/-- after success with a renaming that works, the new contents are there -/
theorem after_success {sys : Sys} {n : Int} {u h : Str} {uid : Nat} (hc : Current sys u uid h) (hh : h ≠ []) (hn : 1 ≤ n) (fs : Fs)
    (hs : (saveOld sys n u fs.main).1 = PAM_SUCCESS) (hr : sys.rename = true) :
    (after fs (saveOld sys n u fs.main).2).main = some (content n u h uid fs.main) := by
  have hd := saveOld_did hc hh hn fs
  generalize saveOld sys n u fs.main = r at hd hs
  cases hd with
  | nothing code h => exact absurd hs h
  | failed t code h => exact absurd hs h
  | done t ht =>
    rw [hr]
    simp only [after_append, after_create, ht]
    split <;> simp [after, Op.apply]

theorem run_inv {crypt : Str → Str → Option Str} {n : Nat} (hn : 1 ≤ n) {u : Str} (hu : IsName u) {hs : List Str} {fs : Fs}
    (h : Run crypt n u hs fs) : Inv n u hs fs.main := by
  induction h with
  | start h fs _ hno => exact Or.inl ⟨hno, h, rfl⟩
  | attempt hs fs sys o c v uid h k _ hv hname hc hh hown ih =>
    rcases chauthtok_ops (crypt := crypt) (sys := sys) (o := o) (fs := fs) hv with hops | hops
    · rw [hops, List.take_nil]; exact ih
    · rw [hops]
      by_cases hrem : o.remember ≤ 0
      · rw [saveOld_small hc hrem, List.take_nil]; exact ih
      · have hrem' : 1 ≤ o.remember := by clear hown; omega
        rcases (after_prefix hrem' hc hh.1 fs k).1 with hm | hm
        · rw [hm]; exact ih
        · rw [hm]
          by_cases hvu : v = u
          · obtain ⟨h1, h2⟩ := hown hvu
            subst hvu
            rw [h1]
            exact Or.inr ⟨hs, inv_save hn hname hh h2 ih, (by intro e; rw [e] at h2; cases h2), Or.inl rfl⟩
          · exact inv_other hu hname (fun e => hvu e.symm) hh ih
  | changed hs fs sys o c uid h h' p _ hv hc hh hlast hrem hren hp hh' ih =>
    obtain ⟨h1, h2⟩ := chauthtok_new hv hp
    rw [h2]
    rw [hrem] at h1 ⊢
    rw [after_success hc hh.1 (by omega) fs h1 hren]
    exact Or.inr ⟨hs, inv_save hn hu hh hlast ih, (by intro e; rw [e] at hlast; cases hlast), Or.inr ⟨h', rfl⟩⟩

/-- C65: in any such history, a password the module accepts for a user who is not exempt is none of the last `n` passwords of that
user, the current one included (immediate repetitions count once). -/
theorem C65_no_reuse_partial (crypt : Str → Str → Option Str) (n : Nat) (hn : 1 ≤ n) (u : Str) (hu : IsName u) (hs : List Str) (fs : Fs)
    (hrun : Run crypt n u hs fs) (sys : Sys) (o : Options) (c : Call) (uid : Nat) (h p : Str)
    (huser : c.user = .ok u) (hcur : Current sys u uid h) (hh : IsHash h) (hlast : hs.getLast? = some h)
    (hrem : o.remember = n) (hren : sys.rename = true) (hopen : ∀ i, sys.opensAgain i = true) (hex : ¬ Exempt o c)
    (hp : (chauthtok crypt sys o c fs).newpass = some p) :
    ∀ x ∈ keep n (squash hs), ¬ Matches crypt x p := by
  have hne : o.remember ≠ 0 := by omega
  have hprel : c.prelim = false := by
    cases hpr : c.prelim with
    | false => rfl
    | true => rw [(C66_early crypt sys o c fs).2.2.1 hne u huser hpr] at hp; cases hp
  have hsave := (chauthtok_new huser hp).1
  have hm := after_success hcur hh.1 (by omega) fs hsave hren
  have hold : Holds (after fs (saveOld sys o.remember u fs.main).2).main u (keep n (squash hs)) := by
    rw [hm, hrem]; exact inv_save hn hu hh hlast (run_inv hn hu hrun)
  rcases C66_answer crypt sys o c fs u _ hne huser hprel hsave hopen hold with ⟨k, q, _, _, _, h4, _, h5, _⟩ | ⟨k, code, _, _, _, _, _, _, h5, _⟩ | ⟨_, _, h5, _⟩
  · rw [hp] at h5; cases h5
    rcases h4 with h4 | h4
    · exact fun x hx hm => h4 ⟨x, hx, hm⟩
    · exact absurd h4 hex
  · rw [hp] at h5; cases h5
  · rw [hp] at h5; cases h5

/-- a crypt for the examples: the stored password is `$` and the text -/
def exCrypt (p h : Str) : Option Str := if h.head? = some '$' then some ('$' :: p) else none

def exCall (l : List Str) : Call where
  user := .ok "ann".toList
  prelim := false
  expired := false
  ruid := 1000
  answers i := match l[i]? with
    | some p => .got p
    | none => .code PAM_AUTHTOK_ERR

def exSys2 : Sys := { exSys with sp := fun u => if u = "ann".toList then some (some "$three".toList) else none }

/-- three tries: the second latest password, the current one, and a new one -/
example : chauthtok exCrypt exSys2 { defaults with remember := 2, tries := 3 } (exCall ["two".toList, "three".toList, "four".toList])
      ⟨some "ann:1000:2:$one,$two\n".toList, none, none⟩ =
    ⟨PAM_SUCCESS, some "four".toList, 3, (saveOld exSys2 2 "ann".toList (some "ann:1000:2:$one,$two\n".toList)).2⟩ := by
  decide +kernel

/-- the oldest one is no longer remembered -/
example : (chauthtok exCrypt exSys2 { defaults with remember := 2 } (exCall ["one".toList])
      ⟨some "ann:1000:2:$one,$two\n".toList, none, none⟩).newpass = some "one".toList := by
  decide +kernel

/-- a history with one change -/
example : ∃ fs, Run exCrypt 2 "ann".toList ["$three".toList, "$four".toList] fs ∧ (fs.main).isSome := by
  have hstart : Run exCrypt 2 "ann".toList ["$three".toList] ⟨none, none, none⟩ := .start _ _ (by unfold IsHash; decide) (Or.inl rfl)
  refine ⟨_, .changed _ _ exSys2 { defaults with remember := 2 } (exCall ["four".toList]) 1000 "$three".toList "$four".toList "four".toList hstart rfl
    ⟨⟨"ann".toList, "x".toList, 1000⟩, by decide, rfl, Or.inr ⟨Or.inl rfl, by decide⟩⟩ (by unfold IsHash; decide) rfl rfl rfl (by decide +kernel)
    (by unfold IsHash; decide), ?_⟩
  decide +kernel

/-- C65, what is missing: if the history cannot be opened when it is consulted, any password is accepted. -/
theorem C65_unreadable_counterexample :
    (chauthtok exCrypt { exSys2 with opensAgain := fun _ => false } { defaults with remember := 2 } (exCall ["two".toList])
      ⟨some "ann:1000:2:$one,$two\n".toList, none, none⟩).newpass = some "two".toList ∧
    Matches exCrypt "$two".toList "two".toList := by
  refine ⟨by decide +kernel, ?_⟩
  unfold Matches; decide +kernel

end Pam.Pwh
