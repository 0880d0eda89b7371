import Verif.Quota.Model
import Verif.Small.UsertypeProps
/-
What C146 to C148 need about pam_setquota: a specification, and lemmas.
-/
namespace Pam.Quota
open Pam Pam.Small

namespace Spec

/-- a user id: a number in decimal with an optional sign, which `strtoul` takes modulo 2^64, below 4294967295 -/
def IdNum (v : Str) (n : Nat) : Prop :=
  ∃ x, Signed (Digits 10) v x ∧ x.natAbs ≤ 18446744073709551615 ∧ x % 18446744073709551616 = n ∧ n < 4294967295

/-- the last valid id given by `key`, or the default -/
def Chosen (key : String) (default : Nat) (argv : List Str) (n : Nat) : Prop :=
  (∃ pre v post, argv = pre ++ (key.toList ++ v) :: post ∧ IdNum v n ∧ ∀ w m, key.toList ++ w ∈ post → ¬ IdNum w m) ∨
  ((∀ w m, key.toList ++ w ∈ argv → ¬ IdNum w m) ∧ n = default)

/-- where the range of users begins: startuid=, or UID_MIN of login.defs, or what is built in -/
def Start (w : World) (argv : List Str) (n : Nat) : Prop :=
  ∃ d, ((∃ v, w.uidMin = some v ∧ IdNum v d) ∨ ((∀ v m, w.uidMin = some v → ¬ IdNum v m) ∧ d = w.built)) ∧ Chosen "startuid=" d argv n

/-- where it ends -/
def Stop (argv : List Str) (n : Nat) : Prop := Chosen "enduid=" 0 argv n

/-- a limit: a number in decimal; anything else is 0, that is no limit -/
def Num (v : Str) (n : Nat) : Prop :=
  (Signed (Digits 10) v n ∧ n ≤ 9223372036854775807) ∨ ((∀ m : Nat, m ≤ 9223372036854775807 → ¬ Signed (Digits 10) v m) ∧ n = 0)

/-- a limit after the change: as the last argument for it says, otherwise as before -/
def Limit (key : String) (argv : List Str) (old new : Nat) : Prop :=
  (∃ v, Last key argv v ∧ Num v new) ∨ (Without key argv ∧ new = old)

/-- overwrite=1 -/
def Overwrite (argv : List Str) : Prop :=
  ∃ v x, Last "overwrite=" argv v ∧ Signed (Digits 10) v x ∧ -9223372036854775808 ≤ x ∧ x ≤ 9223372036854775807 ∧ x % 4294967296 = 1

/-- one of the limits of a pair is given without the other -/
def Half (argv : List Str) : Prop :=
  (Without "bhardlimit=" argv ↔ ¬ Without "bsoftlimit=" argv) ∨ (Without "ihardlimit=" argv ↔ ¬ Without "isoftlimit=" argv)

/-- no limit is given -/
def NoLimits (argv : List Str) : Prop :=
  ∀ k ∈ ["bhardlimit=", "bsoftlimit=", "ihardlimit=", "isoftlimit=", "btime=", "itime="], Without k argv

/-- a quota without limits -/
def Unset (q : Quota) : Prop := q.bhard = 0 ∧ q.bsoft = 0 ∧ q.ihard = 0 ∧ q.isoft = 0

/-- all limits as the arguments say -/
def Changed (argv : List Str) (old new : Quota) : Prop :=
  Limit "bhardlimit=" argv old.bhard new.bhard ∧ Limit "bsoftlimit=" argv old.bsoft new.bsoft ∧
  Limit "ihardlimit=" argv old.ihard new.ihard ∧ Limit "isoftlimit=" argv old.isoft new.isoft ∧
  Limit "btime=" argv old.btime new.btime ∧ Limit "itime=" argv old.itime new.itime

/-- the name of a file system: the text of `fs=`, with one slash at the end left out -/
def FsName (v f : Str) : Prop := (v = f ++ ['/'] ∧ f ≠ []) ∨ (v = f ∧ ∀ g, g ≠ [] → v ≠ g ++ ['/'])

/-- the last mount of that name, by directory or device -/
def LastMount (mounts : List Mount) (f : Str) (m : Mount) : Prop :=
  ∃ pre post, mounts = pre ++ m :: post ∧ (m.dir = f ∨ m.fsname = f) ∧ ∀ x ∈ post, x.dir ≠ f ∧ x.fsname ≠ f

/-- a directory without the slashes at its end -/
def Bare (dir d : Str) : Prop := ∃ sl, dir = d ++ sl ∧ (∀ c ∈ sl, c = '/') ∧ d.getLast? ≠ some '/'

/-- the home directory is in the mounted directory -/
def Contains (m : Mount) (home : Str) : Prop := ∃ d, Bare m.dir d ∧ (home = d ∨ ∃ r, home = d ++ '/' :: r)

/-- the mount that the home directory is on: the longest directory that contains it -/
def On (mounts : List Mount) (home : Str) (m : Mount) : Prop :=
  m ∈ mounts ∧ Contains m home ∧ ∀ x ∈ mounts, Contains x home → ∀ d d', Bare m.dir d → Bare x.dir d' → d'.length ≤ d.length

/-- the mounts the module can cope with: all paths absolute, no mount hides another one, the home directory itself is none, and the root comes first -/
structure Plain (mounts : List Mount) (home : Str) : Prop where
  absolute : ∀ m ∈ mounts, m.dir.head? = some '/'
  distinct : ∀ m ∈ mounts, ∀ m' ∈ mounts, ∀ d, Bare m.dir d → Bare m'.dir d → m = m'
  nothome : ∀ m ∈ mounts, ¬ Bare m.dir home
  rootfirst : ∀ pre m post, mounts = pre ++ m :: post → Bare m.dir [] → ∀ x ∈ pre, Bare x.dir []

end Spec
open Spec

/-! ### numbers -/

theorem strToUid_spec (v : Str) (d : Nat) : (∀ n, IdNum v n → strToUid v d = n) ∧ ((∀ m, ¬ IdNum v m) → strToUid v d = d) := by
  refine ⟨?_, ?_⟩
  · rintro n ⟨x, hs, hx, hn, hlt⟩
    obtain ⟨hne, e⟩ := strtoul10_some hs
    unfold strToUid
    dsimp only
    rw [e]
    dsimp only
    have hn' : (x % 18446744073709551616).toNat = n := by omega
    rw [if_neg (show ¬ 18446744073709551615 < x.natAbs by omega), hn', if_neg (by
      rintro (h | h | h | h)
      · omega
      · omega
      · exact hne h
      · exact h rfl)]
    omega
  · intro h
    unfold strToUid
    dsimp only
    by_cases hc : 4294967295 ≤ (strtoul10 v).1 ∨ 4294967295 ≤ (strtoul10 v).1 % 4294967296 ∨ v = (strtoul10 v).2 ∨ (strtoul10 v).2 ≠ []
    · rw [if_pos hc]
    · exfalso
      simp only [not_or] at hc
      obtain ⟨h1, h2, h3, h4⟩ := hc
      have h4 : (strtoul10 v).2 = [] := Classical.not_not.mp h4
      have hne : v ≠ [] := by rw [h4] at h3; exact h3
      obtain ⟨x, hx⟩ := strtoul10_end h4 hne
      obtain ⟨_, e⟩ := strtoul10_some hx
      rw [e] at h1
      dsimp only at h1
      split at h1
      · omega
      · exact h (x % 18446744073709551616).toNat ⟨x, hx, by omega, by omega, by omega⟩

theorem strtoInt10 {v : Str} {x : Int} : (strtoInt 10 v = (x, []) ∧ v ≠ []) ↔ Signed (Digits 10) v x :=
  strtoInt_base 10 (by decide) (by decide) (by decide) v x

theorem dqbNum_spec (v : Str) : Num v (dqbNum v) := by
  unfold dqbNum
  dsimp only
  by_cases hc : (strtoInt 10 v).1 < 0 ∨ v = (strtoInt 10 v).2 ∨ (strtoInt 10 v).2 ≠ [] ∨ 9223372036854775807 < (strtoInt 10 v).1
  · rw [if_pos hc]
    refine Or.inr ⟨?_, rfl⟩
    intro m hm hs
    obtain ⟨e, hne⟩ := strtoInt10.mpr hs
    rw [e] at hc
    dsimp only at hc
    rcases hc with h | h | h | h
    · omega
    · exact hne h
    · exact h rfl
    · omega
  · rw [if_neg hc]
    simp only [not_or] at hc
    obtain ⟨h1, h2, h3, h4⟩ := hc
    have h3 : (strtoInt 10 v).2 = [] := Classical.not_not.mp h3
    have hne : v ≠ [] := by rw [h3] at h2; exact h2
    have hs : Signed (Digits 10) v (strtoInt 10 v).1 := strtoInt10.mp ⟨Prod.ext rfl h3, hne⟩
    left
    have e : (((strtoInt 10 v).1.toNat : Nat) : Int) = (strtoInt 10 v).1 := by omega
    exact ⟨by rw [e]; exact hs, by omega⟩

theorem num_unique {v : Str} {a b : Nat} (h : Num v a) (h' : Num v b) : a = b := by
  rcases h with ⟨h1, h2⟩ | ⟨h1, h2⟩ <;> rcases h' with ⟨h3, h4⟩ | ⟨h3, h4⟩
  · have e1 := (strtoInt10.mpr h1).1
    have e2 := (strtoInt10.mpr h3).1
    rw [e1] at e2
    have := (Prod.mk.inj e2).1
    omega
  · exact absurd h1 (h3 a h2)
  · exact absurd h3 (h1 b h4)
  · omega

theorem overwriteOf_one (v : Str) : overwriteOf v = 1 ↔ ∃ x, Signed (Digits 10) v x ∧ -9223372036854775808 ≤ x ∧ x ≤ 9223372036854775807 ∧ x % 4294967296 = 1 := by
  unfold overwriteOf
  dsimp only
  constructor
  · intro h
    by_cases hc : (strtoInt 10 v).2 ≠ [] ∨ v = (strtoInt 10 v).2 ∨ (9223372036854775807 < (strtoInt 10 v).1 ∨ (strtoInt 10 v).1 < -9223372036854775808) ∨
        toInt32 (if 9223372036854775807 < (strtoInt 10 v).1 then 9223372036854775807 else if (strtoInt 10 v).1 < -9223372036854775808 then -9223372036854775808 else
          (strtoInt 10 v).1) < 0
    · rw [if_pos hc] at h; omega
    · rw [if_neg hc] at h
      simp only [not_or] at hc
      obtain ⟨h1, h2, ⟨h3, h4⟩, h5⟩ := hc
      have h1 : (strtoInt 10 v).2 = [] := Classical.not_not.mp h1
      have hne : v ≠ [] := by rw [h1] at h2; exact h2
      refine ⟨(strtoInt 10 v).1, strtoInt10.mp ⟨Prod.ext rfl h1, hne⟩, by omega, by omega, ?_⟩
      rw [if_neg h3, if_neg h4] at h
      unfold toInt32 at h
      dsimp only at h
      split at h <;> omega
  · rintro ⟨x, hs, h1, h2, h3⟩
    obtain ⟨e, hne⟩ := strtoInt10.mpr hs
    rw [e]
    dsimp only
    have h4 : ¬ 9223372036854775807 < x := by omega
    have h5 : ¬ x < -9223372036854775808 := by omega
    rw [if_neg h4, if_neg h5]
    have : toInt32 x = 1 := by
      unfold toInt32
      dsimp only
      rw [h3]; rfl
    rw [this, if_neg]
    rintro (h | h | (h | h) | h)
    · exact h rfl
    · exact hne h
    · exact h4 h
    · exact h5 h
    · omega

/-! ### arguments -/

theorem chosen_fold {σ : Type} (step : σ → Str → σ) (get : σ → Nat) (k : String) (hother : ∀ s a, ¬ k.toList <+: a → get (step s a) = get s)
    (hown : ∀ s v, get (step s (k.toList ++ v)) = strToUid v (get s)) : ∀ (argv : List Str) (s : σ), Chosen k (get s) argv (get (argv.foldl step s))
  | [], s => Or.inr ⟨(by intro w m h; cases h), rfl⟩
  | a :: argv, s => by
    rw [List.foldl_cons]
    rcases chosen_fold step get k hother hown argv (step s a) with ⟨pre, v, post, h1, h2, h3⟩ | ⟨h1, h2⟩
    · exact Or.inl ⟨a :: pre, v, post, by rw [h1]; rfl, h2, h3⟩
    · by_cases hp : k.toList <+: a
      · obtain ⟨v, rfl⟩ := hp
        rw [hown] at h2
        by_cases hv : ∃ n, IdNum v n
        · obtain ⟨n, hn⟩ := hv
          rw [(strToUid_spec v _).1 n hn] at h2
          exact Or.inl ⟨[], v, argv, rfl, by rw [h2]; exact hn, h1⟩
        · have hv : ∀ m, ¬ IdNum v m := fun m hm => hv ⟨m, hm⟩
          rw [(strToUid_spec v _).2 hv] at h2
          refine Or.inr ⟨?_, h2⟩
          intro w m hm
          rcases List.mem_cons.mp hm with h | h
          · rw [List.append_cancel_left h]; exact hv m
          · exact h1 w m h
      · rw [hother _ _ hp] at h2
        refine Or.inr ⟨?_, h2⟩
        intro w m hm
        rcases List.mem_cons.mp hm with h | h
        · exact absurd ⟨w, h⟩ hp
        · exact h1 w m h

theorem param_other (p : Params) (a : Str) :
    (¬ "startuid=".toList <+: a → (paramArg p a).start = p.start) ∧ (¬ "enduid=".toList <+: a → (paramArg p a).stop = p.stop) ∧
    (¬ "fs=".toList <+: a → (paramArg p a).fs = p.fs) ∧ (¬ "overwrite=".toList <+: a → (paramArg p a).overwrite = p.overwrite) := by
  unfold paramArg
  cases h1 : skipPrefix a "startuid=".toList with
  | some s => exact ⟨fun h => absurd ⟨s, (skipPrefix_some.mp h1).symm⟩ h, fun _ => rfl, fun _ => rfl, fun _ => rfl⟩
  | none =>
  dsimp only
  cases h2 : skipPrefix a "enduid=".toList with
  | some s => exact ⟨fun _ => rfl, fun h => absurd ⟨s, (skipPrefix_some.mp h2).symm⟩ h, fun _ => rfl, fun _ => rfl⟩
  | none =>
  dsimp only
  cases h3 : skipPrefix a "fs=".toList with
  | some s => exact ⟨fun _ => rfl, fun _ => rfl, fun h => absurd ⟨s, (skipPrefix_some.mp h3).symm⟩ h, fun _ => rfl⟩
  | none =>
  dsimp only
  cases h4 : skipPrefix a "overwrite=".toList with
  | some s => exact ⟨fun _ => rfl, fun _ => rfl, fun _ => rfl, fun h => absurd ⟨s, (skipPrefix_some.mp h4).symm⟩ h⟩
  | none => exact ⟨fun _ => rfl, fun _ => rfl, fun _ => rfl, fun _ => rfl⟩

theorem param_own (p : Params) (v : Str) :
    (paramArg p ("startuid=".toList ++ v)).start = strToUid v p.start ∧ (paramArg p ("enduid=".toList ++ v)).stop = strToUid v p.stop ∧
    (paramArg p ("fs=".toList ++ v)).fs = some (fsOf v) ∧ (paramArg p ("overwrite=".toList ++ v)).overwrite = overwriteOf v :=
  ⟨rfl, rfl, rfl, rfl⟩

theorem start_spec (w : World) (argv : List Str) : Start w argv (params w argv).start := by
  unfold params
  dsimp only
  have key := fun d => chosen_fold paramArg Params.start "startuid=" (fun s a h => (param_other s a).1 h) (fun s v => (param_own s v).1) argv { start := d }
  cases hu : w.uidMin with
  | none => exact ⟨w.built, Or.inr ⟨(by intro v m h; rw [hu] at h; cases h), rfl⟩, key _⟩
  | some v =>
    refine ⟨strToUid v w.built, ?_, key _⟩
    by_cases hv : ∃ n, IdNum v n
    · obtain ⟨n, hn⟩ := hv
      exact Or.inl ⟨v, hu, by rw [(strToUid_spec v _).1 n hn]; exact hn⟩
    · have hv : ∀ m, ¬ IdNum v m := fun m hm => hv ⟨m, hm⟩
      exact Or.inr ⟨(by intro v' m h; rw [hu] at h; cases h; exact hv m), (strToUid_spec v _).2 hv⟩

theorem stop_spec (w : World) (argv : List Str) : Stop argv (params w argv).stop :=
  chosen_fold paramArg Params.stop "enduid=" (fun s a h => (param_other s a).2.1 h) (fun s v => (param_own s v).2.1) argv _

theorem idnum_unique {v : Str} {a b : Nat} (h : IdNum v a) (h' : IdNum v b) : a = b := by
  rw [← (strToUid_spec v 0).1 a h, (strToUid_spec v 0).1 b h']

theorem chosen_unique {k : String} {d a b : Nat} : ∀ {argv : List Str}, Chosen k d argv a → Chosen k d argv b → a = b := by
  intro argv h h'
  rcases h with ⟨pre, v, post, rfl, h2, h3⟩ | ⟨h1, h2⟩ <;> rcases h' with ⟨pre', v', post', h4, h5, h6⟩ | ⟨h4, h5⟩
  · rcases List.append_eq_append_iff.mp h4 with ⟨t, ht1, ht2⟩ | ⟨t, ht1, ht2⟩
    · cases t with
      | nil =>
        rw [List.nil_append] at ht2
        have := List.append_cancel_left (List.cons.inj ht2).1
        subst this
        exact idnum_unique h2 h5
      | cons y t =>
        rw [List.cons_append] at ht2
        exact absurd h5 (h3 v' b (by rw [(List.cons.inj ht2).2]; simp))
    · cases t with
      | nil =>
        rw [List.nil_append] at ht2
        have := List.append_cancel_left (List.cons.inj ht2).1
        subst this
        exact idnum_unique h2 h5
      | cons y t =>
        rw [List.cons_append] at ht2
        exact absurd h2 (h6 v a (by rw [(List.cons.inj ht2).2]; simp))
  · exact absurd h2 (h4 v a (by simp))
  · subst h4; exact absurd h5 (h1 v' b (by simp))
  · omega

theorem start_unique {w : World} {argv : List Str} {a b : Nat} (h : Start w argv a) (h' : Start w argv b) : a = b := by
  obtain ⟨d, h1, h2⟩ := h
  obtain ⟨d', h3, h4⟩ := h'
  have : d = d' := by
    rcases h1 with ⟨v, e, hv⟩ | ⟨h1, e⟩ <;> rcases h3 with ⟨v', e', hv'⟩ | ⟨h3, e'⟩
    · rw [e] at e'; cases e'; exact idnum_unique hv hv'
    · exact absurd hv (h3 v d e)
    · exact absurd hv' (h1 v' d' e')
    · omega
  subst this
  exact chosen_unique h2 h4

theorem overwrite_spec (w : World) (argv : List Str) : (params w argv).overwrite = 1 ↔ Overwrite argv := by
  obtain ⟨h1, h2⟩ := foldl_last paramArg Params.overwrite "overwrite=" (fun s a h => (param_other s a).2.2.2 h) argv
    { start := match w.uidMin with | some v => strToUid v w.built | none => w.built }
  rcases last_or_without "overwrite=" argv with hw | ⟨v, hl⟩
  · have e : (params w argv).overwrite = 0 := h1 hw
    rw [e]
    constructor
    · intro h; cases h
    · rintro ⟨v, x, h, _⟩; exact absurd h (without_last hw)
  · obtain ⟨pre, _, e⟩ := h2 v hl
    rw [(param_own _ v).2.2.2] at e
    have e : (params w argv).overwrite = overwriteOf v := e
    rw [e, overwriteOf_one]
    constructor
    · rintro ⟨x, h⟩; exact ⟨v, x, hl, h⟩
    · rintro ⟨v', x, h, hx⟩
      rw [last_unique h hl] at hx
      exact ⟨x, hx⟩

theorem fsOf_spec (v : Str) : FsName v (fsOf v) := by
  unfold fsOf
  by_cases h : 1 < v.length ∧ v.getLast? = some '/'
  · rw [if_pos h]
    left
    have hne : v ≠ [] := by intro e; rw [e] at h; exact absurd h.1 (by decide)
    have e := List.dropLast_concat_getLast hne
    have hl : v.getLast hne = '/' := by
      have := List.getLast?_eq_some_getLast hne
      rw [this] at h
      exact Option.some.inj h.2
    rw [hl, List.dropLast_eq_take] at e
    refine ⟨e.symm, ?_⟩
    intro e2
    rw [e2] at e
    rw [← e] at h
    exact absurd h.1 (by decide)
  · rw [if_neg h]
    right
    refine ⟨rfl, ?_⟩
    rintro g hg e
    apply h
    rw [e]
    constructor
    · have := List.length_pos_iff.mpr hg
      rw [List.length_append]; simp; omega
    · simp

theorem fsname_unique {v a b : Str} (h : FsName v a) (h' : FsName v b) : a = b := by
  rcases h with ⟨e, hn⟩ | ⟨e, hn⟩ <;> rcases h' with ⟨e', hn'⟩ | ⟨e', hn'⟩
  · rw [e] at e'; exact List.append_cancel_right e'
  · exact absurd e (hn' a hn)
  · exact absurd e' (hn b hn')
  · rw [← e, e']

theorem fs_spec (w : World) (argv : List Str) :
    (Without "fs=" argv → (params w argv).fs = none) ∧ (∀ v f, Last "fs=" argv v → FsName v f → (params w argv).fs = some f) := by
  obtain ⟨h1, h2⟩ := foldl_last paramArg Params.fs "fs=" (fun s a h => (param_other s a).2.2.1 h) argv
    { start := match w.uidMin with | some v => strToUid v w.built | none => w.built }
  refine ⟨fun hw => h1 hw, fun v f hl hf => ?_⟩
  obtain ⟨pre, _, e⟩ := h2 v hl
  rw [(param_own _ v).2.2.1, fsname_unique (fsOf_spec v) hf] at e
  exact e

end Pam.Quota
