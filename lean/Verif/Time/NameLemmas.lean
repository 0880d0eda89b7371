import Verif.Time.Spec
namespace Pam.Time
open Spec

/-- what the loop decides for a name without text after it -/
theorem sameLoop_append (whole : Str) : ∀ (w a s : Str), sameLoop whole a (w ++ s) w.length = sameLoop whole a w w.length := by
  intro w
  induction w with
  | nil => intro a s; cases a <;> cases s <;> rfl
  | cons y w ih =>
    intro a s
    cases a with
    | nil => simp [sameLoop]
    | cons x a => simp [sameLoop, ih]

theorem sameLoop_plain (whole : Str) : ∀ (w a : Str), '*' ∉ w → sameLoop whole a w w.length = some (decide (w = a)) := by
  intro w
  induction w with
  | nil => intro a _; cases a <;> simp [sameLoop]
  | cons y w ih =>
    intro a h
    have hy : y ≠ '*' := fun e => h (by simp [e])
    have hw : '*' ∉ w := fun e => h (by simp [e])
    cases a with
    | nil => simp [sameLoop, hy]
    | cons x a =>
      simp only [sameLoop, List.length_cons]
      by_cases he : y = x
      · simp [he, ih a hw]
      · simp [he, hy]

theorem sameLoop_star (whole : Str) (suf : Str) : ∀ (pre a : Str), '*' ∉ pre → '*' ∉ a →
    sameLoop whole a (pre ++ '*' :: suf) (pre ++ '*' :: suf).length =
      if pre <+: a then
        if suf.length ≤ whole.length then some (decide (suf <:+ whole)) else none
      else some false := by
  have fin : (if suf.length = 0 then some true
      else if whole.length < suf.length then none
      else some (suf.take suf.length == whole.drop (whole.length - suf.length)) : Option Bool) =
      if suf.length ≤ whole.length then some (decide (suf <:+ whole)) else none := by
    by_cases h0 : suf.length = 0
    · have : suf = [] := List.length_eq_zero_iff.mp h0
      subst this; simp
    · by_cases hl : whole.length < suf.length
      · have : ¬ suf.length ≤ whole.length := by omega
        simp [h0, hl, this]
      · have : suf.length ≤ whole.length := by omega
        simp only [h0, hl, this, if_false, if_true, List.take_length]
        congr 1
        rw [Bool.eq_iff_iff, beq_iff_eq, decide_eq_true_eq, List.suffix_iff_eq_drop]
  intro pre
  induction pre with
  | nil =>
    intro a _ ha
    cases a with
    | nil => simpa [sameLoop] using fin
    | cons x a =>
      have hx : ¬ '*' = x := fun e => ha (by rw [e]; exact List.mem_cons_self)
      simpa [sameLoop, hx] using fin
  | cons y pre ih =>
    intro a hp ha
    have hy : y ≠ '*' := fun e => hp (by simp [e])
    have hp' : '*' ∉ pre := fun e => hp (by simp [e])
    cases a with
    | nil => simp [sameLoop, hy]
    | cons x a =>
      have ha' : '*' ∉ a := fun e => ha (by simp [e])
      rw [List.cons_append, List.length_cons, sameLoop]
      by_cases he : y = x
      · subst he
        rw [if_pos rfl, ih a hp' ha']
        simp
      · rw [if_neg he, if_neg hy, if_neg]
        intro h
        exact he (List.cons_prefix_cons.mp h).1

/-- a star splits a text at its first star -/
theorem split_star {w : Str} (h : '*' ∈ w) : ∃ pre suf, w = pre ++ '*' :: suf ∧ '*' ∉ pre := by
  induction w with
  | nil => simp at h
  | cons c w ih =>
    by_cases hc : c = '*'
    · exact ⟨[], w, by simp [hc], by simp⟩
    · have : '*' ∈ w := by
        rcases List.mem_cons.mp h with h | h
        · exact absurd h.symm hc
        · exact h
      obtain ⟨pre, suf, rfl, hp⟩ := ih this
      exact ⟨c :: pre, suf, rfl, by simp [hp, Ne.symm hc]⟩

/-- where the star is, when the string has none -/
theorem fits_star {pre suf a : Str} (hp : '*' ∉ pre) (ha : '*' ∉ a) :
    Fits (pre ++ '*' :: suf) a ↔ pre <+: a ∧ suf <:+ a := by
  constructor
  · rintro (h | ⟨p, q, he, h1, h2⟩)
    · exact absurd (h ▸ (by simp : '*' ∈ pre ++ '*' :: suf)) ha
    · have hp2 : '*' ∉ p := fun e => ha (h1.subset e)
      have e1 := congrArg (List.takeWhile (fun c => c != '*')) he
      have tw : ∀ l r : Str, '*' ∉ l → (l ++ '*' :: r).takeWhile (fun c => c != '*') = l := by
        intro l r hl
        rw [List.takeWhile_append_of_pos]
        · simp
        · intro c hc
          simp only [bne_iff_ne, ne_eq]
          rintro rfl
          exact hl hc
      rw [tw _ _ hp, tw _ _ hp2] at e1
      subst e1
      have := List.append_cancel_left he
      simp only [List.cons.injEq, true_and] at this
      subst this
      exact ⟨h1, h2⟩
  · rintro ⟨h1, h2⟩
    exact Or.inr ⟨pre, suf, rfl, h1, h2⟩

end Pam.Time
