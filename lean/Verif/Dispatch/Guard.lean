import Verif.Dispatch.Denied
/-
A line that must not fail, among others: the walk grants only if it does not fail.
-/
namespace Pam.Dispatch

variable {σ : Type}

/-- a line that does not count PAM_SUCCESS or PAM_NEW_AUTHTOK_REQD as a failure -/
structure Fair (h : Handler σ) : Prop extends Direct h where
  fair : ∀ c, c = 0 ∨ c = 12 → h.actions c ≠ ACT_BAD ∧ h.actions c ≠ ACT_DIE

/-- a line after which the walk goes on, unless it fails -/
def Open (h : Handler σ) : Prop := ∀ c < 32, h.actions c ≠ ACT_DONE

/-- the world after the modules of these lines -/
def worldAfter (pre : List (Handler σ)) (w : σ) : σ := pre.foldl (fun w h => (callModule h w).2) w

/-! ### helper lemmas -/

/-- the answer that counts -/
def answerOf (c : Int) : Int := if c < 0 ∨ (PAM_RETURN_VALUES : Int) ≤ c then PAM_PERM_DENIED else c

theorem visit_fair {x : Handler σ} (hx : x.level = 0) {i : Nat} {st st1 : St σ} {nx : Next}
    (hv : visit .pleaseFreeze x i st = some (.inr (st1, nx))) :
    ∃ st0, st0.imp = st.imp ∧ st0.status = st.status ∧ st0.world = (callModule x st.world).2 ∧
      act .pleaseFreeze 0 i (kindOf x (callModule x st.world).1) (answerOf (callModule x st.world).1) (callModule x st.world).1 st0 = some (st1, nx) := by
  unfold visit at hv
  dsimp only at hv
  rw [hx] at hv
  by_cases hi : (callModule x st.world).1 = PAM_INCOMPLETE
  · rw [if_pos hi] at hv; cases hv
  · rw [if_neg hi] at hv
    unfold cachedRetval at hv
    dsimp only at hv
    unfold kindOf answerOf
    by_cases hf : (callModule x st.world).1 < 0 ∨ (PAM_RETURN_VALUES : Int) ≤ (callModule x st.world).1
    · rw [if_pos hf] at hv ⊢
      rw [if_pos hf]
      obtain ⟨q, hq, e⟩ := Option.map_eq_some_iff.mp hv
      cases e
      exact ⟨_, by rfl, by rfl, by rfl, hq⟩
    · rw [if_neg hf] at hv ⊢
      rw [if_neg hf]
      obtain ⟨q, hq, e⟩ := Option.map_eq_some_iff.mp hv
      cases e
      exact ⟨_, by rfl, by rfl, by rfl, hq⟩

/-- the verdict is against, for a reason that is not a grant -/
def Against (st : St σ) : Prop := st.imp = .negative ∧ ¬ Granted st.status

theorem kind_words {x : Handler σ} (hx : Fair x) (c : Int) : kindOf x c ∈ [ACT_IGNORE, ACT_OK, ACT_DONE, ACT_BAD, ACT_DIE] := by
  unfold kindOf
  split
  · decide
  · rename_i hf
    exact hx.words _ (by simp only [PAM_RETURN_VALUES] at hf; omega)

theorem denied_not : ¬ Granted PAM_PERM_DENIED := by unfold Granted; decide

theorem kind_failed {x : Handler σ} (hx : Fair x) {c : Int} (h : kindOf x c = ACT_BAD ∨ kindOf x c = ACT_DIE) :
    ¬ Granted (if answerOf c = PAM_IGNORE then PAM_PERM_DENIED else answerOf c) := by
  by_cases hf : c < 0 ∨ (PAM_RETURN_VALUES : Int) ≤ c
  · unfold answerOf
    rw [if_pos hf, if_neg (by decide)]
    exact denied_not
  · unfold kindOf at h
    unfold answerOf
    rw [if_neg hf] at h ⊢
    split
    · exact denied_not
    · rintro (e | e)
      · have := hx.fair c.toNat (Or.inl (by rw [e]; rfl))
        rcases h with h | h
        · exact this.1 h
        · exact this.2 h
      · have := hx.fair c.toNat (Or.inr (by rw [e]; rfl))
        rcases h with h | h
        · exact this.1 h
        · exact this.2 h

theorem act_world {i : Nat} {k r c : Int} {st st1 : St σ} {nx : Next} (hk : k ∈ [ACT_IGNORE, ACT_OK, ACT_DONE, ACT_BAD, ACT_DIE])
    (h : act .pleaseFreeze 0 i k r c st = some (st1, nx)) : st1.world = st.world ∧ (st.imp = .negative → st1.imp = .negative ∧ st1.status = st.status) ∧
      (nx = .cont ∨ (nx = .decided ∧ (k = ACT_DONE ∨ k = ACT_DIE))) ∧
      (st1.imp = .negative → st.imp = .negative ∨ k = ACT_BAD ∨ k = ACT_DIE) := by
  simp only [List.mem_cons, List.not_mem_nil, or_false] at hk
  rcases hk with rfl | rfl | rfl | rfl | rfl
  · cases h; exact ⟨rfl, fun h => ⟨h, rfl⟩, Or.inl rfl, fun h => Or.inl h⟩
  all_goals
    unfold act at h
    simp (decide := true) only [if_true, if_false, true_or, or_true] at h
    repeat' split at h
    all_goals
      have e := Option.some.inj h
      injection e with e1 e2
      subst e1 e2
      refine ⟨rfl, ?_, ?_, ?_⟩ <;> grind

theorem act_against {i : Nat} {k r c : Int} (hk : k = ACT_BAD ∨ k = ACT_DIE) {st st1 : St σ} {nx : Next}
    (h : act .pleaseFreeze 0 i k r c st = some (st1, nx)) :
    st1.imp = .negative ∧ (st1.status = (if r = PAM_IGNORE then PAM_PERM_DENIED else r) ∨ (st.imp = .negative ∧ st1.status = st.status)) := by
  unfold act at h
  rw [if_neg (by rcases hk with rfl | rfl <;> decide), if_neg (by rcases hk with rfl | rfl <;> decide), if_pos hk] at h
  by_cases hn : st.imp ≠ .negative
  · rw [if_pos hn] at h
    have e := Option.some.inj h
    injection e with e1 e2
    subst e1
    exact ⟨rfl, Or.inl rfl⟩
  · rw [if_neg hn] at h
    have e := Option.some.inj h
    injection e with e1 e2
    subst e1
    have := Decidable.not_not.mp hn
    exact ⟨this, Or.inr ⟨this, rfl⟩⟩

theorem finish_against {st a : St σ} {c : Int} (h : finish st = .done c a) (hA : Against st) : ¬ Granted c := by
  unfold finish at h
  injection h with h1 h2
  rw [if_neg (fun x => hA.2 (Or.inl x.1))] at h1
  rw [← h1]; exact hA.2

theorem loop_against : ∀ (l : List (Handler σ)), (∀ h ∈ l, Fair h) → ∀ (d : Nat) (st a : St σ) (c : Int),
    loop .pleaseFreeze 0 l d 0 st = .done c a → Against st → ¬ Granted c := by
  intro l
  induction l with
  | nil => intro _ d st a c h hA; unfold loop at h; exact finish_against h hA
  | cons x t ih =>
    intro hl d st a c h hA
    have hx := hl x List.mem_cons_self
    obtain ⟨st1, nx, v, k, f⟩ := loop_line hx.toDirect h
    obtain ⟨st0, e1, e2, e3, e4⟩ := visit_fair hx.top v
    obtain ⟨-, w2, w3, -⟩ := act_world (kind_words hx _) e4
    obtain ⟨w4, w5⟩ := w2 (e1.trans hA.1)
    have hA1 : Against st1 := ⟨w4, by rw [w5, e2]; exact hA.2⟩
    rcases w3 with e | ⟨e, -⟩
    · exact ih (fun h hh => hl h (List.mem_cons_of_mem _ hh)) _ _ _ _ (k e) hA1
    · exact finish_against (f e) hA1

/-- one line of a walk that is granted in the end -/
theorem guard_step {x : Handler σ} (hx : Fair x) {l : List (Handler σ)} (hl : ∀ h ∈ l, Fair h) {d : Nat} {st a : St σ} {c : Int}
    (hsane : st.imp = .negative → ¬ Granted st.status) (h : loop .pleaseFreeze 0 (x :: l) d 0 st = .done c a) (hg : Granted c) :
    kindOf x (callModule x st.world).1 ≠ ACT_BAD ∧ kindOf x (callModule x st.world).1 ≠ ACT_DIE ∧
      (kindOf x (callModule x st.world).1 ≠ ACT_DONE → ∃ st1 : St σ, st1.world = (callModule x st.world).2 ∧ (st1.imp = .negative → ¬ Granted st1.status) ∧
        loop .pleaseFreeze 0 l (d + 1) 0 st1 = .done c a) := by
  have hnot : st.imp ≠ .negative := fun hn => loop_against (x :: l)
    (by intro h hh; rcases List.mem_cons.mp hh with rfl | hh; exact hx; exact hl h hh) d st a c h ⟨hn, hsane hn⟩ hg
  obtain ⟨st1, nx, v, k, f⟩ := loop_line hx.toDirect h
  obtain ⟨st0, e1, e2, e3, e4⟩ := visit_fair hx.top v
  obtain ⟨w1, w2, w3, w4⟩ := act_world (kind_words hx _) e4
  have hno : ¬ (kindOf x (callModule x st.world).1 = ACT_BAD ∨ kindOf x (callModule x st.world).1 = ACT_DIE) := by
    intro hk
    obtain ⟨z1, z2⟩ := act_against hk e4
    rcases z2 with z2 | ⟨z2, -⟩
    · have hA1 : Against st1 := ⟨z1, by rw [z2]; exact kind_failed hx hk⟩
      rcases w3 with e | ⟨e, -⟩
      · exact loop_against l hl _ _ _ _ (k e) hA1 hg
      · exact finish_against (f e) hA1 hg
    · exact hnot (e1.symm.trans z2)
  refine ⟨fun h => hno (Or.inl h), fun h => hno (Or.inr h), fun hd => ⟨st1, w1.trans e3, ?_, ?_⟩⟩
  · intro hn
    rcases w4 hn with h | h
    · exact absurd (e1.symm.trans h) hnot
    · exact absurd h hno
  · rcases w3 with e | ⟨e, hk⟩
    · exact k e
    · rcases hk with hk | hk
      · exact absurd hk hd
      · exact absurd (Or.inr hk) hno

theorem loop_guard : ∀ (pre : List (Handler σ)), (∀ h ∈ pre, Fair h ∧ Open h) → ∀ (x : Handler σ), Fair x → ∀ (post : List (Handler σ)),
    (∀ h ∈ post, Fair h) → ∀ (d : Nat) (st a : St σ) (c : Int), (st.imp = .negative → ¬ Granted st.status) →
    loop .pleaseFreeze 0 (pre ++ x :: post) d 0 st = .done c a → Granted c →
    kindOf x (callModule x (worldAfter pre st.world)).1 ≠ ACT_BAD ∧ kindOf x (callModule x (worldAfter pre st.world)).1 ≠ ACT_DIE := by
  intro pre
  induction pre with
  | nil =>
    intro _ x hx post hpost d st a c hs h hg
    obtain ⟨h1, h2, -⟩ := guard_step hx hpost hs h hg
    exact ⟨h1, h2⟩
  | cons y pre ih =>
    intro hpre x hx post hpost d st a c hs h hg
    obtain ⟨hy, ho⟩ := hpre y List.mem_cons_self
    have hrest : ∀ h ∈ pre, Fair h ∧ Open h := fun h hh => hpre h (List.mem_cons_of_mem _ hh)
    obtain ⟨-, -, h3⟩ := guard_step hy (l := pre ++ x :: post) (by
      intro h hh
      rcases List.mem_append.mp hh with hh | hh
      · exact (hrest h hh).1
      · rcases List.mem_cons.mp hh with rfl | hh
        · exact hx
        · exact hpost h hh) hs h hg
    obtain ⟨st1, k1, k2, k3⟩ := h3 (by
      unfold kindOf
      split
      · decide
      · rename_i hf
        exact ho _ (by simp only [PAM_RETURN_VALUES] at hf; omega))
    have := ih hrest x hx post hpost (d + 1) st1 a c k2 k3 hg
    rw [k1] at this
    exact this

/-- A walk over lines of which one may not fail, and none before it ends the walk with success, is granted only if that line's module,
called after the modules before it, does not fail. -/
theorem walk_guard (pre : List (Handler σ)) (hpre : ∀ h ∈ pre, Fair h ∧ Open h) (x : Handler σ) (hx : Fair x) (post : List (Handler σ))
    (hpost : ∀ h ∈ post, Fair h) (e : Env σ) (a : St σ) (c : Int) (h : dispatchAux .pleaseFreeze (pre ++ x :: post) none e = .done c a)
    (hg : Granted c) :
    kindOf x (callModule x (worldAfter pre e.world)).1 ≠ ACT_BAD ∧ kindOf x (callModule x (worldAfter pre e.world)).1 ≠ ACT_DIE := by
  have : loop .pleaseFreeze 0 (pre ++ x :: post) 0 0 (freshSt e) = .done c a := by
    cases pre with
    | nil => exact h
    | cons _ _ => exact h
  exact loop_guard pre hpre x hx post hpost 0 (freshSt e) a c (fun hn => by cases hn) this hg

/-! ### the same for PAM_SUCCESS alone -/

/-- the verdict cannot become PAM_SUCCESS any more -/
def Late (st : St σ) : Prop := (st.imp = .negative ∧ ¬ Granted st.status) ∨ (st.imp = .positive ∧ st.status ≠ PAM_SUCCESS)

theorem act_late {x : Handler σ} (hx : Fair x) {i : Nat} {a c : Int} {st st1 : St σ} {nx : Next}
    (h : act .pleaseFreeze 0 i (kindOf x a) (answerOf a) c st = some (st1, nx)) (hL : Late st) : Late st1 := by
  by_cases hk : kindOf x a = ACT_BAD ∨ kindOf x a = ACT_DIE
  · obtain ⟨z1, z2⟩ := act_against hk h
    refine Or.inl ⟨z1, ?_⟩
    rcases z2 with z2 | ⟨z2, z3⟩
    · rw [z2]; exact kind_failed hx hk
    · rw [z3]
      rcases hL with hL | hL
      · exact hL.2
      · rw [hL.1] at z2; cases z2
  · have hw := kind_words hx a
    generalize kindOf x a = k at *
    simp only [List.mem_cons, List.not_mem_nil, or_false] at hw
    rcases hw with rfl | rfl | rfl | rfl | rfl
    · cases h; exact hL
    · unfold act at h
      simp (decide := true) only [if_true, if_false, true_or, or_true] at h
      have hc : ¬ (st.imp = .undef ∨ (st.imp = .positive ∧ st.status = PAM_SUCCESS)) := by
        rintro (e | e)
        · rcases hL with hL | hL <;> (rw [hL.1] at e; cases e)
        · rcases hL with hL | hL
          · rw [hL.1] at e; cases e.1
          · exact hL.2 e.2
      rw [if_neg hc] at h
      repeat' split at h
      all_goals
        have e := Option.some.inj h
        injection e with e1 e2
        subst e1
        exact hL
    · unfold act at h
      simp (decide := true) only [if_true, if_false, true_or, or_true] at h
      have hc : ¬ (st.imp = .undef ∨ (st.imp = .positive ∧ st.status = PAM_SUCCESS)) := by
        rintro (e | e)
        · rcases hL with hL | hL <;> (rw [hL.1] at e; cases e)
        · rcases hL with hL | hL
          · rw [hL.1] at e; cases e.1
          · exact hL.2 e.2
      rw [if_neg hc] at h
      repeat' split at h
      all_goals
        have e := Option.some.inj h
        injection e with e1 e2
        subst e1
        exact hL
    · exact absurd (Or.inl rfl) hk
    · exact absurd (Or.inr rfl) hk

/-- an answer other than PAM_SUCCESS that counts for success -/
theorem act_turns {i : Nat} {k r c : Int} (hk : k = ACT_OK ∨ k = ACT_DONE) (hr : r ≠ PAM_SUCCESS) (hri : r ≠ PAM_IGNORE) {st st1 : St σ} {nx : Next}
    (h : act .pleaseFreeze 0 i k r c st = some (st1, nx)) (hsane : st.imp = .negative → ¬ Granted st.status) : Late st1 := by
  unfold act at h
  rw [if_neg (by rcases hk with rfl | rfl <;> decide), if_pos hk] at h
  dsimp only at h
  rw [if_pos (Or.inl hri), if_neg hr] at h
  by_cases hc : st.imp = .undef ∨ (st.imp = .positive ∧ st.status = PAM_SUCCESS)
  · rw [if_pos hc, if_pos rfl] at h
    have e := Option.some.inj h
    injection e with e1 e2
    subst e1
    exact Or.inr ⟨rfl, hr⟩
  · rw [if_neg hc] at h
    have hL : Late st := by
      cases hi : st.imp with
      | undef => exact absurd (Or.inl hi) hc
      | positive => exact Or.inr ⟨hi, fun e => hc (Or.inr ⟨hi, e⟩)⟩
      | negative => exact Or.inl ⟨hi, hsane hi⟩
    split at h
    all_goals
      have e := Option.some.inj h
      injection e with e1 e2
      subst e1
      exact hL

theorem finish_late {st a : St σ} {c : Int} (h : finish st = .done c a) (hL : Late st) : c ≠ PAM_SUCCESS := by
  have hs : st.status ≠ PAM_SUCCESS := by
    rcases hL with hL | hL
    · exact fun e => hL.2 (Or.inl e)
    · exact hL.2
  unfold finish at h
  injection h with h1 h2
  rw [if_neg (fun x => hs x.1)] at h1
  rw [← h1]; exact hs

theorem loop_late : ∀ (l : List (Handler σ)), (∀ h ∈ l, Fair h) → ∀ (d : Nat) (st a : St σ) (c : Int),
    loop .pleaseFreeze 0 l d 0 st = .done c a → Late st → c ≠ PAM_SUCCESS := by
  intro l
  induction l with
  | nil => intro _ d st a c h hA; unfold loop at h; exact finish_late h hA
  | cons x t ih =>
    intro hl d st a c h hL
    have hx := hl x List.mem_cons_self
    obtain ⟨st1, nx, v, k, f⟩ := loop_line hx.toDirect h
    obtain ⟨st0, e1, e2, e3, e4⟩ := visit_fair hx.top v
    obtain ⟨-, -, w3, -⟩ := act_world (kind_words hx _) e4
    have hL1 : Late st1 := act_late hx e4 (by unfold Late; rw [e1, e2]; exact hL)
    rcases w3 with e | ⟨e, -⟩
    · exact ih (fun h hh => hl h (List.mem_cons_of_mem _ hh)) _ _ _ _ (k e) hL1
    · exact finish_late (f e) hL1

theorem loop_strict : ∀ (pre : List (Handler σ)), (∀ h ∈ pre, Fair h ∧ Open h) → ∀ (x : Handler σ), Fair x → ∀ (post : List (Handler σ)),
    (∀ h ∈ post, Fair h) → ∀ (d : Nat) (st a : St σ) (c : Int), (st.imp = .negative → ¬ Granted st.status) →
    loop .pleaseFreeze 0 (pre ++ x :: post) d 0 st = .done c a → c = PAM_SUCCESS →
    ∀ r, (callModule x (worldAfter pre st.world)).1 = r → answerOf r ≠ PAM_IGNORE → kindOf x r = ACT_OK ∨ kindOf x r = ACT_DONE → answerOf r = PAM_SUCCESS := by
  intro pre
  induction pre with
  | nil =>
    intro _ x hx post hpost d st a c hs h hg r hr hri hk
    by_cases hne : answerOf r = PAM_SUCCESS
    · exact hne
    · exfalso
      obtain ⟨st1, nx, v, k, f⟩ := loop_line hx.toDirect h
      obtain ⟨st0, e1, e2, e3, e4⟩ := visit_fair hx.top v
      obtain ⟨-, -, w3, -⟩ := act_world (kind_words hx _) e4
      have hr' : (callModule x st.world).1 = r := hr
      rw [hr'] at e4 w3
      have hL1 : Late st1 := act_turns hk hne hri e4 (by rw [e1, e2]; exact hs)
      rcases w3 with e | ⟨e, -⟩
      · exact loop_late post hpost _ _ _ _ (k e) hL1 hg
      · exact finish_late (f e) hL1 hg
  | cons y pre ih =>
    intro hpre x hx post hpost d st a c hs h hg
    obtain ⟨hy, ho⟩ := hpre y List.mem_cons_self
    have hrest : ∀ h ∈ pre, Fair h ∧ Open h := fun h hh => hpre h (List.mem_cons_of_mem _ hh)
    obtain ⟨-, -, h3⟩ := guard_step hy (l := pre ++ x :: post) (by
      intro h hh
      rcases List.mem_append.mp hh with hh | hh
      · exact (hrest h hh).1
      · rcases List.mem_cons.mp hh with rfl | hh
        · exact hx
        · exact hpost h hh) hs h (Or.inl hg)
    obtain ⟨st1, k1, k2, k3⟩ := h3 (by
      unfold kindOf
      split
      · decide
      · rename_i hf
        exact ho _ (by simp only [PAM_RETURN_VALUES] at hf; omega))
    have := ih hrest x hx post hpost (d + 1) st1 a c k2 k3 hg
    rw [k1] at this
    exact this

/-- A walk of this kind that ends with PAM_SUCCESS: if the line counts its module's answer for success, that answer is PAM_SUCCESS. -/
theorem walk_strict (pre : List (Handler σ)) (hpre : ∀ h ∈ pre, Fair h ∧ Open h) (x : Handler σ) (hx : Fair x) (post : List (Handler σ))
    (hpost : ∀ h ∈ post, Fair h) (e : Env σ) (a : St σ) (h : dispatchAux .pleaseFreeze (pre ++ x :: post) none e = .done PAM_SUCCESS a)
    (r : Int) (hr : (callModule x (worldAfter pre e.world)).1 = r) (hri : answerOf r ≠ PAM_IGNORE) (hk : kindOf x r = ACT_OK ∨ kindOf x r = ACT_DONE) :
    answerOf r = PAM_SUCCESS := by
  have : loop .pleaseFreeze 0 (pre ++ x :: post) 0 0 (freshSt e) = .done PAM_SUCCESS a := by
    cases pre with
    | nil => exact h
    | cons _ _ => exact h
  exact loop_strict pre hpre x hx post hpost 0 (freshSt e) a _ (fun hn => by cases hn) this rfl r hr hri hk

end Pam.Dispatch
