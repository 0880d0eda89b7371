import Verif.Dispatch.Classic
/-
The substack table is only accessed in bounds and only where it was written (C06).
-/
namespace Pam.Dispatch
open Spec

variable {σ : Type}

/-- The shape of every list the loader builds: the levels start at 0, rise by at most one from one
line to the next, and stay below 16. -/
structure WellLeveled (hs : List (Handler σ)) : Prop where
  first : ∀ h, hs[0]? = some h → h.level = 0
  rise : ∀ i h h', hs[i]? = some h → hs[i + 1]? = some h' → h'.level ≤ h.level + 1
  bound : ∀ h ∈ hs, h.level < SUBSTACK_MAX_LEVEL

/-- slots `0..L` have been written -/
def Written (st : St σ) (L : Nat) : Prop := ∀ j ≤ L, st.subs j ≠ none

/-- no undefined behaviour, and a suspended walk remembers all it needs to resume -/
def Safe (hs : List (Handler σ)) : Outcome σ → Prop
  | .ub => False
  | .done _ _ => True
  | .incomplete d st => ∃ h, hs[d]? = some h ∧ Written st h.level

theorem enter_safe {prev L : Nat} {st : St σ} (hL : L ≤ prev + 1) (hb : L < SUBSTACK_MAX_LEVEL)
    (hw : Written st (min prev L)) : ∃ st0, enter prev L st = some st0 ∧ Written st0 L := by
  unfold enter
  split
  · refine ⟨_, rfl, ?_⟩
    intro j hj
    simp only [upd]
    split
    · simp
    · exact hw j (by omega)
  · exact ⟨st, rfl, fun j hj => hw j (by omega)⟩

theorem act_safe (mode : Mode) (L i : Nat) (a r d : Int) (st : St σ)
    (hb : L < SUBSTACK_MAX_LEVEL) (hw : Written st L) : act mode L i a r d st ≠ none := by
  unfold act
  have := hw L (Nat.le_refl _)
  rw [if_pos hb]
  cases hs : st.subs L with
  | none => exact absurd hs this
  | some s =>
    dsimp only
    repeat' split
    all_goals simp

theorem visit_safe (mode : Mode) (h : Handler σ) (i : Nat) (st : St σ)
    (hb : h.level < SUBSTACK_MAX_LEVEL) (hw : Written st h.level) : visit mode h i st ≠ none := by
  unfold visit
  dsimp only
  have hwc : ∀ (r : Int) (w : σ) t, Written (cachedRetval mode i r { st with world := w, trace := t }).2 h.level := by
    intro r w t; cases mode <;> exact hw
  split
  · simp
  · split
    · simp only [ne_eq, Option.map_eq_none_iff]; exact act_safe _ _ _ _ _ _ _ hb (hwc _ _ _)
    · simp only [ne_eq, Option.map_eq_none_iff]; exact act_safe _ _ _ _ _ _ _ hb (hwc _ _ _)

theorem visit_inl_written {mode : Mode} {h : Handler σ} {i : Nat} {st st' : St σ} {L : Nat}
    (hv : visit mode h i st = some (.inl st')) (hw : Written st L) : Written st' L := by
  obtain ⟨_, rfl⟩ := visit_inl _ _ _ _ _ hv; exact hw

theorem visit_inr_written {mode : Mode} {h : Handler σ} {i : Nat} {st st' : St σ} {nx : Next} {L : Nat}
    (hv : visit mode h i st = some (.inr (st', nx))) (hw : Written st L) : Written st' L := by
  obtain ⟨_, a, r, _, hact⟩ := visit_inr _ _ _ _ _ _ hv
  obtain ⟨⟨h1, _⟩, _⟩ := act_cases _ _ _ _ _ _ _ _ _ hact
  intro j hj; rw [h1]; exact hw j hj

theorem loop_safe (mode : Mode) (hs : List (Handler σ)) (hwl : WellLeveled hs)
    (l : List (Handler σ)) (depth prev : Nat) (st : St σ) (hl : l = hs.drop depth)
    (hp : ∀ h ∈ l.head?, h.level ≤ prev + 1) (hw : ∀ h ∈ l.head?, Written st (min prev h.level)) :
    Safe hs (loop mode 0 l depth prev st) := by
  have hb : ∀ {h : Handler σ} {t : List (Handler σ)} {depth : Nat}, h :: t = hs.drop depth →
      h.level < SUBSTACK_MAX_LEVEL := by
    intro h t depth hl
    exact hwl.bound h (List.mem_of_getElem? (getElem?_of_drop hl))
  have hrise : ∀ {h : Handler σ} {t : List (Handler σ)} {depth : Nat}, h :: t = hs.drop depth →
      ∀ h' ∈ t.head?, h'.level ≤ h.level + 1 := by
    intro h t depth hl h' hh'
    have ht : t = hs.drop (depth + 1) := by simpa using drop_of_suffix hl (List.suffix_refl t)
    cases t with
    | nil => simp at hh'
    | cons x xs =>
      simp at hh'; subst hh'
      exact hwl.rise depth h x (getElem?_of_drop hl) (getElem?_of_drop ht)
  fun_induction loop mode 0 l depth prev st with
  | case1 => trivial
  | case2 _ _ _ _ _ hlt => omega
  | case3 h t depth prev st hlt he =>
    obtain ⟨st0, h1, _⟩ := enter_safe (hp h (by simp)) (hb hl) (hw h (by simp))
    rw [h1] at he; cases he
  | case4 h t depth prev st hlt st0 he hsub ih =>
    obtain ⟨st0', h1, h2⟩ := enter_safe (hp h (by simp)) (hb hl) (hw h (by simp))
    rw [h1] at he; cases he
    exact ih (by simpa using drop_of_suffix hl (List.suffix_refl t)) (hrise hl)
      (fun h' _ j hj => h2 j (by omega))
  | case5 h t depth prev st hlt st0 he hsub hv =>
    obtain ⟨st0', h1, h2⟩ := enter_safe (hp h (by simp)) (hb hl) (hw h (by simp))
    rw [h1] at he; cases he
    exact absurd hv (visit_safe _ _ _ _ (hb hl) h2)
  | case6 h t depth prev st hlt st0 he hsub st1 hv =>
    obtain ⟨st0', h1, h2⟩ := enter_safe (hp h (by simp)) (hb hl) (hw h (by simp))
    rw [h1] at he; cases he
    exact ⟨h, getElem?_of_drop hl, visit_inl_written hv h2⟩
  | case7 h t depth prev st hlt st0 he hsub st1 hv ih =>
    obtain ⟨st0', h1, h2⟩ := enter_safe (hp h (by simp)) (hb hl) (hw h (by simp))
    rw [h1] at he; cases he
    exact ih (by simpa using drop_of_suffix hl (List.suffix_refl t)) (hrise hl)
      (fun h' _ j hj => visit_inr_written hv h2 j (by omega))
  | case8 h t depth prev st hlt st0 he hsub st1 hv ih =>
    obtain ⟨st0', h1, h2⟩ := enter_safe (hp h (by simp)) (hb hl) (hw h (by simp))
    rw [h1] at he; cases he
    refine ih (drop_of_suffix hl (skipDecided_suffix _ t)) ?_
      (fun h' _ j hj => visit_inr_written hv h2 j (by omega))
    intro h' hh'
    have := List.head?_dropWhile_not (fun h' : Handler σ => decide (h'.level ≥ h.level)) t
    unfold skipDecided at hh'
    rw [Option.mem_def] at hh'
    rw [hh'] at this
    simp at this; omega
  | case9 h t depth prev st hlt st0 he hsub st1 n hv ih =>
    obtain ⟨st0', h1, h2⟩ := enter_safe (hp h (by simp)) (hb hl) (hw h (by simp))
    rw [h1] at he; cases he
    refine ih (drop_of_suffix hl (skipJump_suffix _ t n)) ?_ ?_
    · intro h' hh'
      obtain ⟨s, e1, e2, e3⟩ := skipJump_split h.level t n
      by_cases hse : s = []
      · subst hse
        simp only [List.nil_append] at e1
        rw [← e1] at hh'
        exact hrise hl h' hh'
      · have := e3 hse h' hh'; omega
    · intro h' _ j hj
      have := visit_inr_written hv h2 j (by omega)
      split <;> exact this

theorem dispatch_safe_first (mode : Mode) (hs : List (Handler σ)) (hwl : WellLeveled hs) (e : Env σ) :
    Safe hs (dispatchAux mode hs none e) := by
  cases hs with
  | nil => trivial
  | cons h t =>
    have h0 := hwl.first h (by simp)
    refine loop_safe mode (h :: t) hwl (h :: t) 0 0 (freshSt e) (by simp) ?_ ?_
    · intro h' hh'; simp at hh'; subst hh'; omega
    · intro h' hh' j hj
      have : j = 0 := by omega
      subst this; simp [freshSt, upd]

theorem dispatch_safe_resume (mode : Mode) (hs : List (Handler σ)) (hwl : WellLeveled hs)
    (d : Nat) (st : St σ) (w : σ) (hs' : Safe hs (.incomplete d st)) :
    Safe hs (dispatchAux mode hs
        (some { depth := d, imp := st.imp, status := st.status, subs := st.subs })
        { cells := st.cells, grant := st.grant, world := w, trace := st.trace }) := by
  obtain ⟨h, hd, hw⟩ := hs'
  have hlen : d < hs.length := by
    rcases Nat.lt_or_ge d hs.length with h1 | h1
    · exact h1
    · rw [List.getElem?_eq_none h1] at hd; cases hd
  cases hs with
  | nil => trivial
  | cons x xs =>
    have hl : ∀ y ys, (x :: xs).drop d = y :: ys → y = h := by
      intro y ys hy
      have := getElem?_of_drop hy.symm
      rw [this] at hd; injection hd
    simp only [dispatchAux]
    have := loop_resume mode (x :: xs) d hlen
      (resumedSt ⟨d, st.imp, st.status, st.subs⟩ ⟨st.cells, st.grant, w, st.trace⟩) d 0 (by omega)
      (x :: xs) (by simp)
    rw [show prevLevel (x :: xs) 0 = 0 from rfl] at this
    rw [this]
    refine loop_safe mode (x :: xs) hwl _ d _ _ rfl ?_ ?_
    · intro h' hh'
      cases hdr : (x :: xs).drop d with
      | nil => rw [hdr] at hh'; simp at hh'
      | cons y ys =>
        rw [hdr] at hh'; simp at hh'; subst hh'
        have e := hl y ys hdr
        cases d with
        | zero => have := hwl.first h hd; rw [e]; omega
        | succ d =>
          simp only [prevLevel]
          cases hk : (x :: xs)[d]? with
          | none =>
            have := List.getElem?_eq_none_iff.1 hk
            omega
          | some g =>
            have := hwl.rise d g h hk hd
            rw [e]; exact this
    · intro h' hh' j hj
      cases hdr : (x :: xs).drop d with
      | nil => rw [hdr] at hh'; simp at hh'
      | cons y ys =>
        rw [hdr] at hh'; simp at hh'; subst hh'
        have e := hl y ys hdr
        exact hw j (by rw [← e]; omega)

theorem walk_safe (mode : Mode) (hs : List (Handler σ)) (hwl : WellLeveled hs) (e : Env σ)
    (o : Outcome σ) (hw : Walk mode hs e o) : Safe hs o := by
  induction hw with
  | first => exact dispatch_safe_first mode hs hwl e
  | resume w _ ih => exact dispatch_safe_resume mode hs hwl _ _ w ih

end Pam.Dispatch
