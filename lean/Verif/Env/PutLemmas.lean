import Verif.Env.Spec
import Verif.Handle.PEnvProps
/-
`pam_putenv` and `pam_getenv` on an environment that `Reads` as a map, from C17.
-/
namespace Pam.Env
open Pam Pam.Small Spec Handle.Spec

theorem go_snoc (c : Put) : ∀ (cs : List Put) (h0 : List Done) (e0 : PEnv) (h e),
    runPuts.go cs h0 e0 = some (h, e) → ∀ code e', e.putenv c.arg c.ok1 c.ok2 = some (code, e') → runPuts.go (cs ++ [c]) h0 e0 = some (h ++ [(c, code)], e')
  | [], h0, e0, h, e, hr, code, e', hp => by
    cases hr
    simp only [List.nil_append, runPuts.go, hp]
  | d :: cs, h0, e0, h, e, hr, code, e', hp => by
    simp only [List.cons_append, runPuts.go] at hr ⊢
    split at hr
    · cases hr
    · next c1 e1 he =>
      exact go_snoc c cs _ _ h e hr code e' hp

theorem runPuts_snoc {cs : List Put} {h : List Done} {e : PEnv} (hr : runPuts cs = some (h, e)) (c : Put) {code : Int} {e' : PEnv}
    (hp : e.putenv c.arg c.ok1 c.ok2 = some (code, e')) : runPuts (cs ++ [c]) = some (h ++ [(c, code)], e') :=
  go_snoc c cs [] .make h e hr code e' hp

/-- a call of `pam_putenv` with memory, in terms of what can be read -/
theorem put_reads {e : PEnv} {m : Vars} (hm : Reads e m) (t n : Str) (hn : t.takeWhile (· ≠ '=') = n) (hne : n ≠ []) :
    (∀ v, t = n ++ '=' :: v → ∃ e', put e t = some (PAM_SUCCESS, e') ∧ Reads e' (update m n (some v))) ∧
    (t = n → ∃ e', put e t = some (if (m n).isSome then PAM_SUCCESS else PAM_BAD_ITEM, e') ∧ Reads e' (update m n none)) := by
  obtain ⟨⟨cs, h, hr⟩, hm⟩ := hm
  have hneq : '=' ∉ n := by
    intro hh
    rw [← hn] at hh
    exact absurd (List.all_eq_true.mp (List.all_takeWhile (p := fun c => decide (c ≠ '=')) (l := t)) _ hh) (by simp)
  let c : Put := ⟨some t, true, true⟩
  obtain ⟨h1, e1, code, e', hr1, hp, -, -, hset, hdel⟩ := Handle.C17_putenv_codes cs c
  rw [hr] at hr1
  cases hr1
  have hr2 := runPuts_snoc hr c hp
  obtain ⟨h2, e2, hr3, -, hg⟩ := Handle.C17_environment_is_a_map (cs ++ [c])
  rw [hr2] at hr3
  cases hr3
  obtain ⟨h3, e3, hr4, -, hg0⟩ := Handle.C17_environment_is_a_map cs
  rw [hr] at hr4
  cases hr4
  have hmv : ∀ k, '=' ∉ k → m k = valueAfter k h := by
    intro k hk
    have := (hm k hk).symm.trans (hg0 k hk)
    exact Option.some.inj this
  have hname : c.name = some n := by
    unfold Put.name
    dsimp only [c]
    rw [hn, if_neg hne]
  constructor
  · rintro v ht
    have hv : c.value = some v := by
      unfold Put.value
      dsimp only [c]
      have : t.dropWhile (· ≠ '=') = '=' :: v := by
        rw [ht]
        rw [List.dropWhile_append_of_pos (by intro a ha; simp; rintro rfl; exact hneq ha)]
        simp
      rw [this]
    have hc := (hset n v hname hv).1 rfl rfl
    subst hc
    refine ⟨e', hp, ⟨_, _, hr2⟩, fun k hk => ?_⟩
    rw [hg k hk, Handle.valueAfter_snoc, hname]
    unfold update
    by_cases hkn : k = n
    · rw [if_pos (by rw [hkn]), if_pos hkn]
      have : Sets (c, PAM_SUCCESS) = true := by unfold Sets; rw [hv]; rfl
      rw [if_pos this, hv]
    · rw [if_neg (fun hh => hkn (Option.some.inj hh).symm), if_neg hkn, hmv k hk]
  · intro ht
    have hv : c.value = none := by
      unfold Put.value
      dsimp only [c]
      have : t.dropWhile (· ≠ '=') = [] := by
        have := List.dropWhile_append_of_pos (p := fun c => decide (c ≠ '=')) (l₁ := n) (l₂ := []) (by intro a ha; simp; rintro rfl; exact hneq ha)
        rw [ht]; simpa using this
      rw [this]
    have hc := hdel n hname hv
    have hs : Sets (c, code) = false := by unfold Sets; rw [hv]; rfl
    refine ⟨e', ?_, ⟨_, _, hr2⟩, fun k hk => ?_⟩
    · refine hp.trans ?_
      rw [hc, hmv n hneq]
      cases valueAfter n h <;> rfl
    · rw [hg k hk, Handle.valueAfter_snoc, hname]
      unfold update
      by_cases hkn : k = n
      · rw [if_pos (by rw [hkn]), if_pos hkn, hs]; rfl
      · rw [if_neg (fun hh => hkn (Option.some.inj hh).symm), if_neg hkn, hmv k hk]

theorem takeWhile_name (n v : Str) (h : '=' ∉ n) : (n ++ '=' :: v).takeWhile (· ≠ '=') = n := by
  rw [List.takeWhile_append_of_pos (by intro a ha; simp; rintro rfl; exact h ha)]
  simp

theorem takeWhile_all (n : Str) (h : '=' ∉ n) : n.takeWhile (· ≠ '=') = n := by
  have := List.takeWhile_append_of_pos (p := fun c => decide (c ≠ '=')) (l₁ := n) (l₂ := []) (by intro a ha; simp; rintro rfl; exact h ha)
  simpa using this

theorem put_set {e : PEnv} {m : Vars} (hm : Reads e m) (n v : Str) (h : '=' ∉ n) (hne : n ≠ []) :
    ∃ e', put e (n ++ '=' :: v) = some (PAM_SUCCESS, e') ∧ Reads e' (update m n (some v)) :=
  (put_reads hm _ n (takeWhile_name n v h) hne).1 v rfl

theorem put_unset {e : PEnv} {m : Vars} (hm : Reads e m) (n : Str) (h : '=' ∉ n) (hne : n ≠ []) :
    ∃ e', put e n = some (if (m n).isSome then PAM_SUCCESS else PAM_BAD_ITEM, e') ∧ Reads e' (update m n none) :=
  (put_reads hm _ n (takeWhile_all n h) hne).2 rfl

end Pam.Env
