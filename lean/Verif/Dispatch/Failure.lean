import Verif.Dispatch.Provenance
namespace Pam.Dispatch

variable {σ : Type}

/-- is this answer a failure? -/
def isFail (mode : Mode) (hs : List (Handler σ)) (e : Env σ) (p : Nat × Int) : Bool :=
  match hs[p.1]? with
  | some h => decide (Failing h (deciding mode p.1 p.2 e.cells))
  | none => false

/-- invariant behind C02 -/
def FailInv (mode : Mode) (hs : List (Handler σ)) (e : Env σ) (plain : Prop) (st : St σ) : Prop :=
  (mode ≠ .pleaseFreeze → st.cells = e.cells) ∧
  (st.trace.find? (isFail mode hs e) = none → st.imp = .negative →
    ¬ plain ∧ st.status = PAM_PERM_DENIED) ∧
  ∀ p, st.trace.find? (isFail mode hs e) = some p →
    st.imp = .negative ∧
      ((if st.status = PAM_SUCCESS then PAM_PERM_DENIED else st.status)
          = failCode p.2 (deciding mode p.1 p.2 e.cells) ∨
        (¬ plain ∧ st.status = PAM_PERM_DENIED))

theorem walk_fail (mode : Mode) (hs : List (Handler σ)) (e : Env σ) (he : e.trace = [])
    (plain : Prop)
    (hreset : ∀ h ∈ hs, ∀ k < 32, h.actions k ≠ ACT_RESET)
    (hplain : plain → ∀ h ∈ hs, ∀ k < 32, h.actions k ∈ [ACT_IGNORE, ACT_OK, ACT_DONE, ACT_BAD, ACT_DIE])
    (o : Outcome σ) (hw : Walk mode hs e o) : Holds (FailInv mode hs e plain) o := by
  refine walk_invariant mode hs e (FailInv mode hs e plain) ?_ ?_ ?_ ?_ ?_ ?_ o hw
  · refine ⟨fun _ => rfl, by simp [freshSt], by simp [freshSt, he]⟩
  · intro st w h; exact h
  · intro prev L st st' h he
    rcases enter_cases prev L st st' he with rfl | rfl
    · exact h
    · exact h
  · intro i h st st' _ _ hI hv
    obtain ⟨_, rfl⟩ := visit_inl _ _ _ _ _ hv
    exact hI
  · intro i h st st' nx hi hsub hI hv
    obtain ⟨hne, a, r, har, hact⟩ := visit_inr _ _ _ _ _ _ hv
    obtain ⟨⟨e1, e2, e3, e4⟩, hc⟩ := act_cases _ _ _ _ _ _ _ _ _ hact
    dsimp only at e1 e2 e3 e4 hc
    obtain ⟨hcells, hI1, hI2⟩ := hI
    rw [deciding_eq hcells] at har hc
    have hmem : h ∈ hs := List.mem_of_getElem? hi
    generalize hd : deciding mode i (ans h st.world) e.cells = d at har hc
    have hfail : isFail mode hs e (i, ans h st.world) = decide (Failing h d) := by
      simp [isFail, hi, hd]
    have hff : Failing h d ↔ (a = ACT_BAD ∨ a = ACT_DIE) := by
      unfold Failing
      rcases har with ⟨h1, h2, h3⟩ | ⟨h1, h2, h3, h4⟩
      · rw [h2]; simp; omega
      · rw [h3]; constructor
        · rintro (h | h | h | h)
          · omega
          · omega
          · exact Or.inl h
          · exact Or.inr h
        · rintro (h | h)
          · exact Or.inr (Or.inr (Or.inl h))
          · exact Or.inr (Or.inr (Or.inr h))
    have hnr : a ≠ ACT_RESET := by
      rcases har with ⟨h1, h2, h3⟩ | ⟨h1, h2, h3, h4⟩
      · rw [h2]; simp [ACT_BAD, ACT_RESET]
      · rw [h3]; exact hreset h hmem _ (by omega)
    have hpl : plain → a ∈ [ACT_IGNORE, ACT_OK, ACT_DONE, ACT_BAD, ACT_DIE] := by
      intro hp
      rcases har with ⟨h1, h2, h3⟩ | ⟨h1, h2, h3, h4⟩
      · rw [h2]; simp
      · rw [h3]; exact hplain hp h hmem _ (by omega)
    refine ⟨?_, ?_, ?_⟩
    · intro hm
      rw [e2]
      have := hcells hm
      cases mode <;> simp_all [cellsAfter]
    · rw [e4, List.find?_append, Option.or_eq_none_iff]
      rintro ⟨hn1, hn2⟩ hneg
      have hnf : ¬ Failing h d := by
        simpa [hfail] using hn2
      rcases hc with ⟨h1, _⟩ | ⟨h1, h2, h3, h4, h5, h6⟩ | ⟨_, h1, h2, _⟩ |
        ⟨h1, _, h3, h4⟩ | ⟨_, h1⟩ | ⟨h1, _, h3, h4⟩
      · exact absurd h1 hnr
      · simp [h3] at hneg
      · rw [h2]; exact hI1 hn1 (by rw [← h1]; exact hneg)
      · exact absurd (hff.2 h1) hnf
      · rw [h1]; rw [h1] at hneg; exact hI1 hn1 hneg
      · exact ⟨fun hp => h1 (hpl hp), h4⟩
    · intro p
      rw [e4, List.find?_append]
      cases hf : st.trace.find? (isFail mode hs e) with
      | some q =>
        simp only [Option.some_or, Option.some.injEq]
        rintro rfl
        obtain ⟨hn, hst⟩ := hI2 q hf
        rcases hc with ⟨h1, _⟩ | ⟨h1, h2, h3, h4, h5, h6⟩ | ⟨_, h1, h2, _⟩ |
          ⟨h1, _, h3, h4⟩ | ⟨_, h1⟩ | ⟨h1, _, h3, h4⟩
        · exact absurd h1 hnr
        · simp [hn] at h5
        · rw [h1, h2]; exact ⟨hn, hst⟩
        · rw [if_pos hn] at h4
          rw [h3, h4]; exact ⟨rfl, hst⟩
        · rw [h1]; exact ⟨hn, hst⟩
        · exact ⟨h3, Or.inr ⟨fun hp => h1 (hpl hp), h4⟩⟩
      | none =>
        simp only [Option.none_or]
        intro hp
        have hF : Failing h d ∧ p = (i, ans h st.world) := by
          by_cases hF : Failing h d
          · simp [hfail, hF] at hp; exact ⟨hF, hp.symm⟩
          · simp [hfail, hF] at hp
        obtain ⟨hF, rfl⟩ := hF
        have hbd := hff.1 hF
        rcases hc with ⟨h1, _⟩ | ⟨h1, h2, h3, h4, h5, h6⟩ | ⟨h1, _⟩ |
          ⟨h1, _, h3, h4⟩ | ⟨h1, _⟩ | ⟨h1, _, h3, h4⟩
        · exact absurd h1 hnr
        · rcases hbd with rfl | rfl <;> simp [Accepts, ACT_BAD, ACT_DIE, ACT_OK, ACT_DONE] at h1
        · rcases hbd with rfl | rfl <;> simp [Accepts, ACT_BAD, ACT_DIE, ACT_OK, ACT_DONE] at h1
        · refine ⟨h3, ?_⟩
          by_cases hn : st.imp = .negative
          · obtain ⟨hnp, hst⟩ := hI1 hf hn
            rw [if_pos hn] at h4
            exact Or.inr ⟨hnp, by rw [h4, hst]⟩
          · rw [if_neg hn] at h4
            left
            rw [h4, hd]
            unfold failCode
            rcases har with ⟨h1, h2, h3⟩ | ⟨h1, h2, h3, h5⟩
            · rw [h3, if_pos (show d < 0 ∨ 32 ≤ d ∨ _ by omega)]; simp
            · subst h5
              by_cases hig : ans h st.world = PAM_IGNORE
              · simp [hig]
              · by_cases hsu : ans h st.world = PAM_SUCCESS
                · simp [hsu, PAM_SUCCESS, PAM_IGNORE, PAM_PERM_DENIED]
                · rw [if_neg hig, if_neg hsu, if_neg]
                  rintro (h | h | h | h) <;> first | omega | contradiction
        · rcases h1 with h1 | ⟨_, h1⟩
          · rcases hbd with rfl | rfl <;> simp [ACT_BAD, ACT_DIE, ACT_IGNORE] at h1
          · rcases hbd with rfl | rfl <;> simp [ACT_BAD, ACT_DIE] at h1
        · exact absurd (show a ∈ _ by rcases hbd with rfl | rfl <;> simp) h1
  · intro i h st st' n hi hI hv hI'
    obtain ⟨hne, a, r, har, hact⟩ := visit_inr _ _ _ _ _ _ hv
    have hpos := act_jump _ _ _ _ _ _ _ _ _ hact
    have hnp : ¬ plain := by
      intro hp
      rcases har with ⟨h1, h2, h3⟩ | ⟨h1, h2, h3, h4⟩
      · rw [h2] at hpos; simp [ACT_BAD] at hpos
      · have := hplain hp h (List.mem_of_getElem? hi) (deciding mode i (ans h st.world) st.cells).toNat (by omega)
        rw [← h3] at this
        simp [ACT_IGNORE, ACT_OK, ACT_DONE, ACT_BAD, ACT_DIE] at this
        omega
    refine ⟨hI'.1, fun _ _ => ⟨hnp, rfl⟩, fun p hp => ⟨rfl, Or.inr ⟨hnp, rfl⟩⟩⟩

end Pam.Dispatch
