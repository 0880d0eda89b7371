import Verif.Dispatch.Invariant
namespace Pam.Dispatch

variable {σ : Type}

attribute [local simp] ACT_IGNORE ACT_OK ACT_DONE ACT_BAD ACT_DIE ACT_RESET ACT_UNDEF

/-- every possible effect of an action on the walk state -/
theorem act_cases (mode : Mode) (L i : Nat) (a r d : Int) (st st' : St σ) (nx : Next)
    (h : act mode L i a r d st = some (st', nx)) :
    (st'.subs = st.subs ∧ st'.cells = st.cells ∧ st'.world = st.world ∧ st'.trace = st.trace) ∧
    ((a = ACT_RESET ∧ st'.grant = st.grant ∧ ∃ s, st.subs L = some s ∧ st'.imp = s.imp ∧
        st'.status = s.status) ∨
     (Accepts mode a ∧ (r ≠ PAM_IGNORE ∨ d = r) ∧ st'.imp = .positive ∧ st'.status = r ∧
        (st.imp = .undef ∨ (st.imp = .positive ∧ st.status = PAM_SUCCESS)) ∧
        ((st'.grant = st.grant ∧ (r ≠ PAM_SUCCESS ∨ st.imp = .positive)) ∨
          (r = PAM_SUCCESS ∧ st'.grant = upd st.grant i true))) ∨
     (Accepts mode a ∧ st'.imp = st.imp ∧ st'.status = st.status ∧
        ((st.imp ≠ .undef ∧ (st.imp = .positive → st.status ≠ PAM_SUCCESS)) ∨
          (r = PAM_IGNORE ∧ d ≠ r)) ∧
        (st'.grant = st.grant ∨ (r = PAM_SUCCESS ∧ st'.grant = upd st.grant i true))) ∨
     ((a = ACT_BAD ∨ a = ACT_DIE) ∧ st'.grant = st.grant ∧ st'.imp = .negative ∧
        st'.status = if st.imp = .negative then st.status
          else if r = PAM_IGNORE then PAM_PERM_DENIED else r) ∨
     ((a = ACT_IGNORE ∨ (mode = .pleaseFreeze ∧ 0 < a)) ∧ st' = st) ∨
     (a ∉ [ACT_IGNORE, ACT_OK, ACT_DONE, ACT_BAD, ACT_DIE] ∧ st'.grant = st.grant ∧ st'.imp = .negative ∧ st'.status = PAM_PERM_DENIED)) := by
  unfold act at h
  unfold Accepts
  by_cases h8 : a = ACT_RESET
  · rw [if_pos h8] at h
    grind
  rw [if_neg h8] at h
  by_cases h4 : a = ACT_OK ∨ a = ACT_DONE
  · rw [if_pos h4] at h
    obtain ⟨imp, status, subs, cells, grant, world, trace⟩ := st
    have h4' : a = ACT_OK ∨ a = ACT_DONE ∨ (mode ≠ .pleaseFreeze ∧ 0 < a) := by
      rcases h4 with h | h
      · exact Or.inl h
      · exact Or.inr (Or.inl h)
    dsimp only at h ⊢
    cases imp <;> by_cases hr : r = PAM_SUCCESS <;> by_cases hi : r ≠ PAM_IGNORE ∨ d = r <;>
      by_cases hz : status = PAM_SUCCESS <;> simp [hr, hi, hz] at h <;> grind
  rw [if_neg h4] at h
  by_cases h6 : a = ACT_BAD ∨ a = ACT_DIE
  · rw [if_pos h6] at h
    grind
  rw [if_neg h6] at h
  by_cases h3 : a = ACT_IGNORE
  · rw [if_pos h3] at h
    grind
  rw [if_neg h3] at h
  by_cases h9 : 0 < a
  · rw [if_pos h9] at h
    obtain ⟨imp, status, subs, cells, grant, world, trace⟩ := st
    dsimp only at h ⊢
    by_cases hm : mode = .pleaseFreeze
    · simp [hm] at h
      exact ⟨by simp [← h.1], Or.inr (Or.inr (Or.inr (Or.inr (Or.inl ⟨Or.inr ⟨hm, h9⟩, h.1.symm⟩))))⟩
    · have hA : a = ACT_OK ∨ a = ACT_DONE ∨ (mode ≠ .pleaseFreeze ∧ 0 < a) := Or.inr (Or.inr ⟨hm, h9⟩)
      cases imp <;> by_cases hr : r = PAM_SUCCESS <;> by_cases hi : r ≠ PAM_IGNORE ∨ d = r <;>
        by_cases hz : status = PAM_SUCCESS <;> simp [hr, hi, hz, hm] at h <;> grind
  · rw [if_neg h9] at h
    have : a ∉ [ACT_IGNORE, ACT_OK, ACT_DONE, ACT_BAD, ACT_DIE] := by
      simp only [List.mem_cons, List.not_mem_nil, or_false]
      intro hc; rcases hc with hc | hc | hc | hc | hc
      · exact h3 hc
      · exact h4 (Or.inl hc)
      · exact h4 (Or.inr hc)
      · exact h6 (Or.inl hc)
      · exact h6 (Or.inr hc)
    grind

theorem act_jump (mode : Mode) (L i : Nat) (a r d : Int) (st st' : St σ) (n : Nat)
    (h : act mode L i a r d st = some (st', .jump n)) : 0 < a := by
  unfold act at h
  split at h
  · grind
  · split at h
    · dsimp only at h
      generalize (if st.imp = .undef ∨ (st.imp = .positive ∧ st.status = PAM_SUCCESS) then
        if r ≠ PAM_IGNORE ∨ d = r then { st with imp := .positive, status := r } else st
        else st) = st1 at h
      grind
    · grind

/-- the answer given by line `h` in world `w` -/
abbrev ans (h : Handler σ) (w : σ) : Int := (callModule h w).1

def cellsAfter (mode : Mode) (i : Nat) (r : Int) (cells : Nat → Int) : Nat → Int :=
  match mode with
  | .pleaseFreeze => upd cells i r
  | _ => cells

theorem visit_inl (mode : Mode) (h : Handler σ) (i : Nat) (st st' : St σ)
    (hv : visit mode h i st = some (.inl st')) :
    ans h st.world = PAM_INCOMPLETE ∧ st' = { st with world := (callModule h st.world).2 } := by
  unfold visit at hv
  dsimp only at hv
  split at hv
  · simp only [Option.some.injEq, Sum.inl.injEq] at hv
    exact ⟨by assumption, hv.symm⟩
  · split at hv <;> (rw [Option.map_eq_some_iff] at hv; obtain ⟨_, _, h⟩ := hv; cases h)

theorem visit_inr (mode : Mode) (h : Handler σ) (i : Nat) (st st' : St σ) (nx : Next)
    (hv : visit mode h i st = some (.inr (st', nx))) :
    ans h st.world ≠ PAM_INCOMPLETE ∧
    ∃ a r, (((deciding mode i (ans h st.world) st.cells < 0 ∨
              32 ≤ deciding mode i (ans h st.world) st.cells) ∧ a = ACT_BAD ∧ r = PAM_PERM_DENIED) ∨
            (0 ≤ deciding mode i (ans h st.world) st.cells ∧
              deciding mode i (ans h st.world) st.cells < 32 ∧
              a = h.actions (deciding mode i (ans h st.world) st.cells).toNat ∧
              r = ans h st.world)) ∧
      act mode h.level i a r (deciding mode i (ans h st.world) st.cells)
        { st with world := (callModule h st.world).2,
                  trace := st.trace ++ [(i, ans h st.world)],
                  cells := cellsAfter mode i (ans h st.world) st.cells } = some (st', nx) := by
  unfold visit at hv
  dsimp only at hv
  split at hv
  · simp at hv
  next hne =>
  refine ⟨hne, ?_⟩
  have hc : ∀ s : St σ, cachedRetval mode i (callModule h st.world).1 s =
      (deciding mode i (ans h st.world) s.cells,
        { s with cells := cellsAfter mode i (ans h st.world) s.cells }) := by
    intro s; cases mode <;> simp [cachedRetval, deciding, cellsAfter, ans]
  simp only [hc, PAM_RETURN_VALUES] at hv
  split at hv
  · next hr =>
    refine ⟨ACT_BAD, PAM_PERM_DENIED, Or.inl ⟨by simpa using hr, rfl, rfl⟩, ?_⟩
    rw [Option.map_eq_some_iff] at hv
    obtain ⟨x, hx, hxe⟩ := hv
    injection hxe with hxe
    subst hxe; exact hx
  · next hr =>
    refine ⟨_, _, Or.inr ⟨?_, ?_, rfl, rfl⟩, ?_⟩
    · simp only [not_or] at hr; omega
    · simp only [not_or] at hr; omega
    · rw [Option.map_eq_some_iff] at hv
      obtain ⟨x, hx, hxe⟩ := hv
      injection hxe with hxe
      subst hxe; exact hx

theorem enter_cases (prev L : Nat) (st st' : St σ) (h : enter prev L st = some st') :
    st' = st ∨ st' = { st with subs := upd st.subs L (some ⟨st.imp, st.status⟩) } := by
  unfold enter at h
  grind

end Pam.Dispatch
