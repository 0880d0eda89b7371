import Verif.Dispatch.ActLemmas
namespace Pam.Dispatch

variable {σ : Type}

/-- provenance of an (impression, status) pair -/
def Good (mode : Mode) (hs : List (Handler σ)) (e : Env σ) (tr : List (Nat × Int))
    (gr : Nat → Bool) (imp : Impression) (status : Int) : Prop :=
  (imp = .undef ∧ status = PAM_PERM_DENIED) ∨
  (imp = .positive ∧
    (∃ i h, hs[i]? = some h ∧ (i, status) ∈ tr ∧
      0 ≤ deciding mode i status e.cells ∧ deciding mode i status e.cells < 32 ∧
      Accepts mode (h.actions (deciding mode i status e.cells).toNat) ∧
      (status ≠ PAM_IGNORE ∨ deciding mode i status e.cells = status)) ∧
    (status = PAM_SUCCESS → ∃ i h, hs[i]? = some h ∧ (i, PAM_SUCCESS) ∈ tr ∧ gr i = true ∧
      0 ≤ deciding mode i PAM_SUCCESS e.cells ∧ deciding mode i PAM_SUCCESS e.cells < 32 ∧
      Accepts mode (h.actions (deciding mode i PAM_SUCCESS e.cells).toNat))) ∨
  (imp = .negative ∧
    (status = PAM_PERM_DENIED ∨
      (status ≠ PAM_IGNORE ∧ ∃ i h, hs[i]? = some h ∧ (i, status) ∈ tr ∧
        0 ≤ deciding mode i status e.cells ∧ deciding mode i status e.cells < 32)))

theorem Good.mono {mode : Mode} {hs : List (Handler σ)} {e : Env σ} {tr tr' : List (Nat × Int)}
    {gr gr' : Nat → Bool} {imp : Impression} {status : Int}
    (h : Good mode hs e tr gr imp status) (ht : ∀ p ∈ tr, p ∈ tr')
    (hg : ∀ i, gr i = true → gr' i = true) : Good mode hs e tr' gr' imp status := by
  rcases h with h | ⟨h1, ⟨i, hh, h2, h3, h4⟩, h5⟩ | ⟨h1, h2⟩
  · exact Or.inl h
  · refine Or.inr (Or.inl ⟨h1, ⟨i, hh, h2, ht _ h3, h4⟩, fun h => ?_⟩)
    obtain ⟨j, hj, k1, k2, k3, k4⟩ := h5 h
    exact ⟨j, hj, k1, ht _ k2, hg _ k3, k4⟩
  · refine Or.inr (Or.inr ⟨h1, ?_⟩)
    rcases h2 with h2 | ⟨h3, i, hh, h4, h5, h6⟩
    · exact Or.inl h2
    · exact Or.inr ⟨h3, i, hh, h4, ht _ h5, h6⟩

/-- an answer really given by line `i` -/
def Answered (hs : List (Handler σ)) (p : Nat × Int) : Prop :=
  ∃ h, hs[p.1]? = some h ∧ h.htype ≠ .substack ∧ p.2 ≠ PAM_INCOMPLETE ∧
    ((h.htype = .mustFail ∧ p.2 = PAM_PERM_DENIED) ∨
     (h.htype ≠ .mustFail ∧ h.func = none ∧ p.2 = PAM_MODULE_UNKNOWN) ∨
     (h.htype ≠ .mustFail ∧ ∃ f, h.func = some f ∧ ∃ w, (f w).1 = p.2))

/-- the invariant behind C01 and C08 -/
def Prov (mode : Mode) (hs : List (Handler σ)) (e : Env σ) (st : St σ) : Prop :=
  Good mode hs e st.trace st.grant st.imp st.status ∧
  (∀ L s, st.subs L = some s → Good mode hs e st.trace st.grant s.imp s.status) ∧
  (mode ≠ .pleaseFreeze → st.cells = e.cells) ∧
  (∀ p ∈ st.trace, Answered hs p)

theorem upd_mono (g : Nat → Bool) (i : Nat) : ∀ j, g j = true → upd g i true j = true := by
  intro j h; unfold upd; split <;> simp [h]

theorem deciding_eq {mode : Mode} {e : Env σ} {st : St σ} (h : mode ≠ .pleaseFreeze → st.cells = e.cells)
    (i : Nat) (r : Int) : deciding mode i r st.cells = deciding mode i r e.cells := by
  cases mode with
  | pleaseFreeze => rfl
  | mayBeFrozen => simp [deciding, h (by simp)]
  | mustBeFrozen => simp [deciding, h (by simp)]

theorem answered_visit (hs : List (Handler σ)) (i : Nat) (h : Handler σ) (w : σ)
    (hi : hs[i]? = some h) (hsub : h.htype ≠ .substack) (hinc : ans h w ≠ PAM_INCOMPLETE) :
    Answered hs (i, ans h w) := by
  refine ⟨h, hi, hsub, hinc, ?_⟩
  unfold ans callModule
  by_cases hm : h.htype = .mustFail
  · left; simp [hm]
  · right
    cases hf : h.func with
    | none => left; simp [hm]
    | some f => right; exact ⟨hm, f, rfl, w, by simp [hm]⟩

theorem walk_prov (mode : Mode) (hs : List (Handler σ)) (e : Env σ) (he : e.trace = [])
    (o : Outcome σ) (hw : Walk mode hs e o) : Holds (Prov mode hs e) o := by
  refine walk_invariant mode hs e (Prov mode hs e) ?_ ?_ ?_ ?_ ?_ ?_ o hw
  · refine ⟨Or.inl ⟨rfl, rfl⟩, ?_, fun _ => rfl, by simp [freshSt, he]⟩
    intro L s hs
    simp only [freshSt, upd] at hs
    split at hs
    · injection hs with hs; subst hs; exact Or.inl ⟨rfl, rfl⟩
    · cases hs
  · intro st w h; exact h
  · intro prev L st st' h he
    rcases enter_cases prev L st st' he with rfl | rfl
    · exact h
    · refine ⟨h.1, ?_, h.2.2⟩
      intro L' s hs
      simp only [upd] at hs
      split at hs
      · injection hs with hs; subst hs; exact h.1
      · exact h.2.1 L' s hs
  · intro i h st st' _ _ hI hv
    obtain ⟨_, rfl⟩ := visit_inl _ _ _ _ _ hv
    exact hI
  · intro i h st st' nx hi hsub hI hv
    obtain ⟨hne, a, r, har, hact⟩ := visit_inr _ _ _ _ _ _ hv
    obtain ⟨⟨e1, e2, e3, e4⟩, hc⟩ := act_cases _ _ _ _ _ _ _ _ _ hact
    dsimp only at e1 e2 e3 e4 hc
    rw [deciding_eq hI.2.2.1] at har hc
    obtain ⟨hg, hsubs, hcells, hans⟩ := hI
    have htr : ∀ p ∈ st.trace, p ∈ st'.trace := by
      intro p hp; rw [e4]; exact List.mem_append_left _ hp
    have hgr : ∀ j, st.grant j = true → st'.grant j = true := by
      intro j hj
      rcases hc with ⟨_, h, _⟩ | ⟨_, _, _, _, _, (⟨h, _⟩ | ⟨_, h⟩)⟩ | ⟨_, _, _, _, (h | ⟨_, h⟩)⟩ |
        ⟨_, h, _⟩ | ⟨_, h⟩ | ⟨_, h, _⟩
      all_goals first
        | (rw [h]; exact hj)
        | (rw [h]; exact upd_mono _ _ _ hj)
    have hmem : (i, ans h st.world) ∈ st'.trace := by rw [e4]; simp
    refine ⟨?_, ?_, ?_, ?_⟩
    · rcases hc with ⟨_, _, s, h2, h3, h4⟩ | ⟨h1, h2, h3, h4, h5, h6⟩ | ⟨_, h1, h2, _⟩ |
        ⟨h1, _, h3, h4⟩ | ⟨_, h1⟩ | ⟨_, _, h3, h4⟩
      · rw [h3, h4]; exact (hsubs _ _ h2).mono htr hgr
      · rcases har with ⟨hr1, hr2, hr3⟩ | ⟨hr1, hr2, hr3, hr4⟩
        · subst hr2; simp [Accepts, ACT_OK, ACT_DONE, ACT_BAD] at h1
        · subst hr4
          refine Or.inr (Or.inl ⟨h3, ⟨i, h, hi, by rw [h4]; exact hmem, ?_⟩, ?_⟩)
          · rw [h4]; subst hr3
            exact ⟨hr1, hr2, h1, h2⟩
          · intro hz
            rw [h4] at hz
            rcases h6 with ⟨h6, h7⟩ | ⟨h6, h7⟩
            · rcases h7 with h7 | h7
              · exact absurd hz h7
              · rcases h5 with h5 | ⟨_, h5⟩
                · simp [h7] at h5
                · rcases hg with hg | hg | hg
                  · simp [hg.1] at h7
                  · obtain ⟨j, hj, k1, k2, k3, k4⟩ := hg.2.2 h5
                    exact ⟨j, hj, k1, htr _ k2, hgr _ k3, k4⟩
                  · simp [hg.1] at h7
            · subst hr3
              rw [hz] at hr1 hr2 h1 hmem
              exact ⟨i, h, hi, hmem, by rw [h7]; simp [upd], hr1, hr2, h1⟩
      · rw [h1, h2]; exact hg.mono htr hgr
      · refine Or.inr (Or.inr ⟨h3, ?_⟩)
        rw [h4]
        by_cases hn : st.imp = .negative
        · rw [if_pos hn]
          rcases hg with hg | hg | hg
          · simp [hg.1] at hn
          · simp [hg.1] at hn
          · rcases hg.2 with hp | ⟨h3, j, hh, h4, h5, h6⟩
            · exact Or.inl hp
            · exact Or.inr ⟨h3, j, hh, h4, htr _ h5, h6⟩
        · rw [if_neg hn]
          by_cases hig : r = PAM_IGNORE
          · rw [if_pos hig]; exact Or.inl rfl
          · rw [if_neg hig]
            rcases har with ⟨hr1, hr2, hr3⟩ | ⟨hr1, hr2, hr3, hr4⟩
            · exact Or.inl hr3
            · subst hr4
              exact Or.inr ⟨hig, i, h, hi, hmem, hr1, hr2⟩
      · rw [h1]
        refine hg.mono ?_ (fun _ h => h)
        intro p hp; exact List.mem_append_left _ hp
      · exact Or.inr (Or.inr ⟨h3, Or.inl h4⟩)
    · intro L s hs
      rw [e1] at hs
      exact (hsubs L s hs).mono htr hgr
    · intro hm
      rw [e2]
      have := hcells hm
      cases mode <;> simp_all [cellsAfter]
    · intro p hp
      rw [e4] at hp
      rcases List.mem_append.1 hp with hp | hp
      · exact hans p hp
      · simp only [List.mem_singleton] at hp
        subst hp
        exact answered_visit hs i h st.world hi hsub hne
  · intro _ _ _ st _ _ _ _ h
    exact ⟨Or.inr (Or.inr ⟨rfl, Or.inl rfl⟩), h.2.1, h.2.2.1, h.2.2.2⟩

end Pam.Dispatch
