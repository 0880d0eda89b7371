import Verif.Dispatch.Lemmas
namespace Pam.Dispatch

variable {σ : Type}

theorem skipJump_suffix (L : Nat) (hs : List (Handler σ)) (n : Nat) :
    (skipJump L hs n).1 <:+ hs := by
  fun_induction skipJump L hs n with
  | case1 => exact List.suffix_refl _
  | case2 => exact List.suffix_refl _
  | case3 h t n hge ih => exact (ih.trans (List.dropWhile_suffix _)).trans (List.suffix_cons _ _)
  | case4 => exact List.suffix_refl _

theorem skipDecided_suffix (L : Nat) (hs : List (Handler σ)) : skipDecided L hs <:+ hs :=
  List.dropWhile_suffix _

theorem drop_of_suffix {α : Type} {hs0 t l : List α} {h : α} {depth : Nat}
    (hd : h :: t = hs0.drop depth) (hl : l <:+ t) :
    l = hs0.drop (depth + 1 + (t.length - l.length)) := by
  have ht : t = hs0.drop (depth + 1) := by
    rw [← List.tail_drop, ← hd]; rfl
  have := List.suffix_iff_eq_drop.1 hl
  rw [Nat.add_comm (depth + 1), Nat.add_comm _ (depth + 1), ← List.drop_drop, ← ht]
  exact this

theorem getElem?_of_drop {α : Type} {hs0 t : List α} {h : α} {depth : Nat}
    (hd : h :: t = hs0.drop depth) : hs0[depth]? = some h := by
  have := congrArg (fun l => l[0]?) hd
  simp at this
  exact this.symm

/-- a predicate on the final (or suspended) state -/
def Holds (I : St σ → Prop) : Outcome σ → Prop
  | .done _ st => I st
  | .incomplete _ st => I st
  | .ub => True

/-- Invariant rule for the walk. -/
theorem loop_invariant (mode : Mode) (skip : Nat) (hs0 : List (Handler σ)) (I : St σ → Prop)
    (hent : ∀ prev L st st', I st → enter prev L st = some st' → I st')
    (hinc : ∀ i h st st', hs0[i]? = some h → h.htype ≠ .substack → I st → visit mode h i st = some (.inl st') → I st')
    (hvis : ∀ i h st st' nx, hs0[i]? = some h → h.htype ≠ .substack → I st → visit mode h i st = some (.inr (st', nx)) →
      I st')
    (hbad : ∀ i h st st' n, hs0[i]? = some h → I st → visit mode h i st = some (.inr (st', .jump n)) →
      I st' → I { st' with imp := .negative, status := PAM_PERM_DENIED })
    (l : List (Handler σ)) (depth prev : Nat) (st : St σ)
    (hl : l = hs0.drop depth) (hI : I st) : Holds I (loop mode skip l depth prev st) := by
  fun_induction loop mode skip l depth prev st with
  | case1 => exact hI
  | case2 h t depth prev st hlt ih =>
    exact ih (by simpa using drop_of_suffix hl (List.suffix_refl t)) hI
  | case3 => trivial
  | case4 h t depth prev st hlt st0 he hsub ih =>
    exact ih (by simpa using drop_of_suffix hl (List.suffix_refl t)) (hent _ _ _ _ hI he)
  | case5 => trivial
  | case6 h t depth prev st hlt st0 he hsub st1 hv =>
    exact hinc _ _ _ _ (getElem?_of_drop hl) hsub (hent _ _ _ _ hI he) hv
  | case7 h t depth prev st hlt st0 he hsub st1 hv ih =>
    exact ih (by simpa using drop_of_suffix hl (List.suffix_refl t))
      (hvis _ _ _ _ _ (getElem?_of_drop hl) hsub (hent _ _ _ _ hI he) hv)
  | case8 h t depth prev st hlt st0 he hsub st1 hv ih =>
    exact ih (drop_of_suffix hl (skipDecided_suffix _ t))
      (hvis _ _ _ _ _ (getElem?_of_drop hl) hsub (hent _ _ _ _ hI he) hv)
  | case9 h t depth prev st hlt st0 he hsub st1 n hv ih =>
    apply ih (drop_of_suffix hl (skipJump_suffix _ t n))
    have := hvis _ _ _ _ _ (getElem?_of_drop hl) hsub (hent _ _ _ _ hI he) hv
    split
    · exact this
    · exact hbad _ _ _ _ _ (getElem?_of_drop hl) (hent _ _ _ _ hI he) hv this

theorem loop_done_code (mode : Mode) (skip : Nat) (l : List (Handler σ)) (depth prev : Nat)
    (st : St σ) (c : Int) (st' : St σ) (h : loop mode skip l depth prev st = .done c st') :
    c = if st'.status = PAM_SUCCESS ∧ st'.imp ≠ .positive then PAM_PERM_DENIED else st'.status := by
  fun_induction loop mode skip l depth prev st with
  | case1 => simp only [finish, Outcome.done.injEq] at h; obtain ⟨h1, rfl⟩ := h; exact h1.symm
  | case2 _ _ _ _ _ _ ih => exact ih h
  | case3 => cases h
  | case4 _ _ _ _ _ _ _ _ _ ih => exact ih h
  | case5 => cases h
  | case6 => cases h
  | case7 _ _ _ _ _ _ _ _ _ _ _ ih => exact ih h
  | case8 _ _ _ _ _ _ _ _ _ _ _ ih => exact ih h
  | case9 _ _ _ _ _ _ _ _ _ _ _ _ ih => exact ih h

/-- Invariant rule for complete uses of a stack. -/
theorem walk_invariant (mode : Mode) (hs : List (Handler σ)) (e : Env σ) (I : St σ → Prop)
    (hinit : I (freshSt e))
    (hworld : ∀ st w, I st → I { st with world := w })
    (hent : ∀ prev L st st', I st → enter prev L st = some st' → I st')
    (hinc : ∀ i h st st', hs[i]? = some h → h.htype ≠ .substack → I st → visit mode h i st = some (.inl st') → I st')
    (hvis : ∀ i h st st' nx, hs[i]? = some h → h.htype ≠ .substack → I st → visit mode h i st = some (.inr (st', nx)) →
      I st')
    (hbad : ∀ i h st st' n, hs[i]? = some h → I st → visit mode h i st = some (.inr (st', .jump n)) →
      I st' → I { st' with imp := .negative, status := PAM_PERM_DENIED })
    (o : Outcome σ) (hw : Walk mode hs e o) : Holds I o := by
  induction hw with
  | first =>
    cases hs with
    | nil => exact hinit
    | cons h t =>
      exact loop_invariant mode 0 (h :: t) I hent hinc hvis hbad _ 0 0 _ (by simp) hinit
  | resume w hprev ih =>
    cases hs with
    | nil => exact hworld _ w ih
    | cons h t =>
      exact loop_invariant mode _ (h :: t) I hent hinc hvis hbad _ 0 0 _ (by simp) (hworld _ w ih)

theorem walk_done_code (mode : Mode) (hs : List (Handler σ)) (e : Env σ) (c : Int) (st : St σ)
    (hw : Walk mode hs e (.done c st)) :
    (hs = [] ∧ c = PAM_PERM_DENIED) ∨
    c = if st.status = PAM_SUCCESS ∧ st.imp ≠ .positive then PAM_PERM_DENIED else st.status := by
  generalize ho : Outcome.done c st = o at hw
  cases hw with
  | first =>
    cases hs with
    | nil => left; simp only [dispatchAux] at ho; injection ho with h1 _; exact ⟨rfl, h1⟩
    | cons h t => right; exact loop_done_code _ _ _ _ _ _ _ _ ho.symm
  | resume w hprev =>
    cases hs with
    | nil => left; simp only [dispatchAux] at ho; injection ho with h1 _; exact ⟨rfl, h1⟩
    | cons h t => right; exact loop_done_code _ _ _ _ _ _ _ _ ho.symm

end Pam.Dispatch
