import Verif.Dispatch.Frozen
/-
A recording walk that fails and the walk that replays it.
-/
namespace Pam.Dispatch

variable {σ τ : Type}

/-- a line without jumps and resets, outside substacks, that counts for success only if its module answers PAM_SUCCESS or
PAM_NEW_AUTHTOK_REQD -/
structure Direct (h : Handler σ) : Prop where
  top : h.level = 0
  line : h.htype ≠ .substack
  words : ∀ c < 32, h.actions c ∈ [ACT_IGNORE, ACT_OK, ACT_DONE, ACT_BAD, ACT_DIE]
  success : ∀ c < 32, h.actions c = ACT_OK ∨ h.actions c = ACT_DONE → c = 0 ∨ c = 12

/-- a positive answer -/
def Granted (c : Int) : Prop := c = PAM_SUCCESS ∨ c = PAM_NEW_AUTHTOK_REQD

/-! ### helper lemmas -/

/-- the action for an answer -/
def kindOf (h : Handler σ) (c : Int) : Int := if c < 0 ∨ (PAM_RETURN_VALUES : Int) ≤ c then ACT_BAD else h.actions c.toNat

theorem act_ignored (mode : Mode) (i : Nat) (r c : Int) (st : St σ) : act mode 0 i ACT_IGNORE r c st = some (st, .cont) := rfl

theorem act_failed (mode : Mode) (i : Nat) (k r c : Int) (hk : k = ACT_BAD ∨ k = ACT_DIE) (st : St σ) :
    ∃ st', act mode 0 i k r c st = some (st', if k = ACT_DIE then .decided else .cont) ∧ st'.cells = st.cells ∧ st'.imp = .negative := by
  unfold act
  rw [if_neg (by rcases hk with rfl | rfl <;> decide), if_neg (by rcases hk with rfl | rfl <;> decide), if_pos hk]
  by_cases hn : st.imp ≠ .negative
  · rw [if_pos hn]; exact ⟨_, rfl, rfl, rfl⟩
  · rw [if_neg hn]; exact ⟨_, rfl, rfl, Decidable.not_not.mp hn⟩

theorem act_counted (mode : Mode) (i : Nat) (k r c : Int) (hk : k = ACT_OK ∨ k = ACT_DONE) (st : St σ) :
    ∃ st', act mode 0 i k r c st = some (st', if st'.imp = .positive ∧ k = ACT_DONE then .decided else .cont) ∧ st'.cells = st.cells ∧
      (st.imp = .negative → st'.imp = .negative) ∧
      (c = r → st.imp ≠ .negative → st'.imp = .positive ∧ (st'.status = r ∨ (st.imp = .positive ∧ st'.status = st.status))) := by
  unfold act
  rw [if_neg (by rcases hk with rfl | rfl <;> decide), if_pos hk]
  dsimp only
  by_cases h1 : st.imp = .undef ∨ (st.imp = .positive ∧ st.status = PAM_SUCCESS)
  · rw [if_pos h1]
    have hneg : st.imp ≠ .negative := by
      intro e; rw [e] at h1; rcases h1 with h | ⟨h, -⟩ <;> cases h
    by_cases h2 : r ≠ PAM_IGNORE ∨ c = r
    · rw [if_pos h2, if_pos rfl]
      by_cases hs : r = PAM_SUCCESS
      · rw [if_pos hs]
        exact ⟨_, congrArg some (Prod.ext rfl (by simp)), rfl, fun h => absurd h hneg, fun _ _ => ⟨rfl, Or.inl rfl⟩⟩
      · rw [if_neg hs]
        exact ⟨_, congrArg some (Prod.ext rfl (by simp)), rfl, fun h => absurd h hneg, fun _ _ => ⟨rfl, Or.inl rfl⟩⟩
    · rw [if_neg h2]
      have hc : c ≠ r := fun h => h2 (Or.inr h)
      by_cases hp : st.imp = .positive
      · rw [if_pos hp]
        by_cases hs : r = PAM_SUCCESS
        · rw [if_pos hs]
          exact ⟨_, congrArg some (Prod.ext rfl (by simp [hp])), rfl, fun h => absurd h hneg, fun h => absurd h hc⟩
        · rw [if_neg hs]
          exact ⟨_, congrArg some (Prod.ext rfl (by simp [hp])), rfl, fun h => absurd h hneg, fun h => absurd h hc⟩
      · rw [if_neg hp]
        exact ⟨_, congrArg some (Prod.ext rfl (if_neg (fun h => hp h.1)).symm), rfl, fun h => absurd h hneg, fun h => absurd h hc⟩
  · rw [if_neg h1]
    by_cases hp : st.imp = .positive
    · rw [if_pos hp]
      have hneg : st.imp ≠ .negative := by rw [hp]; decide
      by_cases hs : r = PAM_SUCCESS
      · rw [if_pos hs]
        exact ⟨_, congrArg some (Prod.ext rfl (by simp [hp])), rfl, fun h => absurd h hneg, fun _ _ => ⟨hp, Or.inr ⟨hp, rfl⟩⟩⟩
      · rw [if_neg hs]
        exact ⟨_, congrArg some (Prod.ext rfl (by simp [hp])), rfl, fun h => absurd h hneg, fun _ _ => ⟨hp, Or.inr ⟨hp, rfl⟩⟩⟩
    · rw [if_neg hp]
      have hneg : st.imp = .negative := by
        cases hi : st.imp with
        | undef => exact absurd (Or.inl hi) h1
        | positive => exact absurd hi hp
        | negative => rfl
      exact ⟨_, congrArg some (Prod.ext rfl (if_neg (fun h => hp h.1)).symm), rfl, fun h => h, fun _ h => absurd hneg h⟩

/-- one visited line -/
theorem visit_kind (mode : Mode) (x : Handler σ) (hx : x.level = 0) (i : Nat) (st st1 : St σ) (nx : Next)
    (hv : visit mode x i st = some (.inr (st1, nx))) :
    ∃ st0 r', (callModule x st.world).1 ≠ PAM_INCOMPLETE ∧ st0.imp = st.imp ∧ st0.status = st.status ∧
      st0.cells = (cachedRetval mode i (callModule x st.world).1 st).2.cells ∧
      (kindOf x (cachedRetval mode i (callModule x st.world).1 st).1 ≠ ACT_BAD → r' = (callModule x st.world).1) ∧
      act mode 0 i (kindOf x (cachedRetval mode i (callModule x st.world).1 st).1) r'
        (cachedRetval mode i (callModule x st.world).1 st).1 st0 = some (st1, nx) := by
  unfold visit at hv
  dsimp only at hv
  rw [hx] at hv
  by_cases hi : (callModule x st.world).1 = PAM_INCOMPLETE
  · rw [if_pos hi] at hv; cases hv
  · rw [if_neg hi] at hv
    generalize hs0 : ({ st with world := (callModule x st.world).2, trace := st.trace ++ [(i, (callModule x st.world).1)] } : St σ) = s0 at hv
    have e1 : (cachedRetval mode i (callModule x st.world).1 s0).1 = (cachedRetval mode i (callModule x st.world).1 st).1 := by
      subst hs0; cases mode <;> rfl
    have e2 : (cachedRetval mode i (callModule x st.world).1 s0).2.cells = (cachedRetval mode i (callModule x st.world).1 st).2.cells := by
      subst hs0; cases mode <;> rfl
    have e3 : (cachedRetval mode i (callModule x st.world).1 s0).2.imp = st.imp ∧ (cachedRetval mode i (callModule x st.world).1 s0).2.status = st.status := by
      subst hs0; cases mode <;> exact ⟨rfl, rfl⟩
    rw [e1] at hv
    unfold kindOf
    by_cases hf : (cachedRetval mode i (callModule x st.world).1 st).1 < 0 ∨ (PAM_RETURN_VALUES : Int) ≤ (cachedRetval mode i (callModule x st.world).1 st).1
    · rw [if_pos hf] at hv ⊢
      obtain ⟨q, hq, e⟩ := Option.map_eq_some_iff.mp hv
      cases e
      exact ⟨_, PAM_PERM_DENIED, hi, e3.1, e3.2, e2, fun h => absurd rfl h, hq⟩
    · rw [if_neg hf] at hv ⊢
      obtain ⟨q, hq, e⟩ := Option.map_eq_some_iff.mp hv
      cases e
      exact ⟨_, _, hi, e3.1, e3.2, e2, fun _ => rfl, hq⟩

/-- what the two walks have in common -/
structure Beneath (a : St σ) (b : St τ) : Prop where
  neg : a.imp = .negative → b.imp = .negative
  undef : a.imp = .undef → b.imp ≠ .positive
  good : a.imp = .positive → Granted a.status

theorem skip_all (l : List (Handler σ)) : skipDecided 0 l = [] := by
  unfold skipDecided
  induction l with
  | nil => rfl
  | cons h t ih => rw [List.dropWhile_cons_of_pos (by simp)]; exact ih

theorem finish_good {st a : St σ} {c : Int} (h : finish st = .done c a) (hi : st.imp = .positive) (hg : Granted st.status) : Granted c := by
  unfold finish at h
  injection h with h1 h2
  rw [if_neg (fun x => x.2 hi)] at h1
  rw [← h1]; exact hg

theorem finish_success {st a : St σ} (h : finish st = .done PAM_SUCCESS a) : st.imp = .positive := by
  unfold finish at h
  injection h with h1 h2
  by_cases hp : st.imp = .positive
  · exact hp
  · by_cases hs : st.status = PAM_SUCCESS
    · rw [if_pos ⟨hs, hp⟩] at h1; exact absurd h1 (by decide)
    · rw [if_neg (fun x => hs x.1)] at h1; exact absurd h1 hs

theorem loop_line {mode : Mode} {x : Handler σ} (hx : Direct x) {t : List (Handler σ)} {d : Nat} {st a : St σ} {c : Int}
    (h : loop mode 0 (x :: t) d 0 st = .done c a) : ∃ st1 nx, visit mode x d st = some (.inr (st1, nx)) ∧
      (nx = .cont → loop mode 0 t (d + 1) 0 st1 = .done c a) ∧ (nx = .decided → finish st1 = .done c a) := by
  unfold loop at h
  rw [if_neg (Nat.not_lt_zero _), hx.top] at h
  unfold enter at h
  rw [if_neg (Nat.lt_irrefl 0)] at h
  dsimp only at h
  rw [if_neg hx.line] at h
  cases hv : visit mode x d st with
  | none => rw [hv] at h; cases h
  | some q =>
    rw [hv] at h
    match q, h with
    | .inl s1, h => cases h
    | .inr (s1, .cont), h => exact ⟨s1, .cont, rfl, fun _ => h, fun e => Next.noConfusion e⟩
    | .inr (s1, .decided), h =>
      dsimp only at h
      rw [skip_all] at h
      unfold loop at h
      exact ⟨s1, .decided, rfl, fun e => Next.noConfusion e, fun _ => h⟩
    | .inr (s1, .jump n), h => exact ⟨s1, .jump n, rfl, fun e => Next.noConfusion e, fun e => Next.noConfusion e⟩

theorem visit_recorded {x : Handler σ} {i : Nat} {st st1 : St σ} {nx : Next} (hv : visit .pleaseFreeze x i st = some (.inr (st1, nx))) :
    st1.cells = upd st.cells i (callModule x st.world).1 := by
  obtain ⟨_, a, r, _, hact⟩ := visit_inr _ _ _ _ _ _ hv
  exact (act_cases _ _ _ _ _ _ _ _ _ hact).1.2.1

theorem loop_first {x : Handler σ} (hx : Direct x) {t : List (Handler σ)} {d : Nat} {st a st1 : St σ} {c : Int} {nx : Next}
    (h : loop .pleaseFreeze 0 (x :: t) d 0 st = .done c a) (hv : visit .pleaseFreeze x d st = some (.inr (st1, nx))) :
    ∀ i < d + 1, a.cells i = st1.cells i := by
  unfold loop at h
  rw [if_neg (Nat.not_lt_zero _), hx.top] at h
  unfold enter at h
  rw [if_neg (Nat.lt_irrefl 0)] at h
  dsimp only at h
  rw [if_neg hx.line, hv] at h
  cases nx with
  | cont => exact (loop_frame _ _ _ _ _ _ h).1
  | decided => exact fun i hi => (loop_frame _ _ _ _ _ _ h).1 i (Nat.lt_of_lt_of_le hi (Nat.le_add_right _ _))
  | jump n =>
    intro i hi
    rw [(loop_frame _ _ _ _ _ _ h).1 i (Nat.lt_of_lt_of_le hi (Nat.le_add_right _ _))]
    split <;> rfl

/-- The replaying walk succeeds only if the recording one was granted. -/
theorem loop_denied : ∀ (l : List (Handler σ)) (m : List (Handler τ)), SameLines l m → (∀ h ∈ l, Direct h) → (∀ h ∈ m, Direct h) →
    ∀ (d : Nat) (sa a : St σ) (sb b : St τ) (ca : Int), loop .pleaseFreeze 0 l d 0 sa = .done ca a → loop .mayBeFrozen 0 m d 0 sb = .done PAM_SUCCESS b →
      sb.cells = a.cells → (∀ h ∈ l, ∀ w, (callModule h w).1 ≠ INVALID_RETVAL) → Beneath sa sb → Granted ca := by
  intro l
  induction l with
  | nil =>
    intro m hm _ _ d sa a sb b ca ha hb _ _ hB
    cases m with
    | cons y t => cases hm
    | nil =>
      unfold loop at ha hb
      have h1 := finish_success hb
      have h2 : sa.imp = .positive := by
        cases hi : sa.imp with
        | undef => exact absurd h1 (hB.undef hi)
        | negative => rw [hB.neg hi] at h1; cases h1
        | positive => rfl
      exact finish_good ha h2 (hB.good h2)
  | cons x t ih =>
    intro m hm hl hmD d sa a sb b ca ha hb hcells htr hB
    cases m with
    | nil => cases hm
    | cons y u =>
      obtain ⟨hxy, htu⟩ := hm
      have hx := hl x List.mem_cons_self
      have hy := hmD y List.mem_cons_self
      obtain ⟨sa1, na, va, ka, fa⟩ := loop_line hx ha
      obtain ⟨sb1, nb, vb, kb, fb⟩ := loop_line hy hb
      have ra2 := visit_recorded va
      obtain ⟨a0, r, -, a1, a2, a3, a4, a5⟩ := visit_kind _ _ hx.top _ _ _ _ va
      obtain ⟨b0, q, -, b1, b2, b3, b4, b5⟩ := visit_kind _ _ hy.top _ _ _ _ vb
      have hcA : (cachedRetval .pleaseFreeze d (callModule x sa.world).1 sa).1 = (callModule x sa.world).1 := rfl
      rw [hcA] at a4 a5
      have hframe : a.cells d = (callModule x sa.world).1 := by
        rw [loop_first hx ha va d (Nat.lt_succ_self d), ra2]; simp [upd]
      have hcB : (cachedRetval .mayBeFrozen d (callModule y sb.world).1 sb).1 = (callModule x sa.world).1 := by
        show (if sb.cells d = INVALID_RETVAL then _ else sb.cells d) = _
        rw [hcells, hframe, if_neg (htr x List.mem_cons_self _)]
      have hcBc : (cachedRetval .mayBeFrozen d (callModule y sb.world).1 sb).2.cells = sb.cells := rfl
      rw [hcB] at b4 b5
      rw [hcBc] at b3
      have hk : kindOf y (callModule x sa.world).1 = kindOf x (callModule x sa.world).1 := by unfold kindOf; rw [hxy.2.2]
      rw [hk] at b4 b5
      generalize hc : (callModule x sa.world).1 = c at *
      have htl : ∀ h ∈ t, Direct h := fun h hh => hl h (List.mem_cons_of_mem _ hh)
      have hul : ∀ h ∈ u, Direct h := fun h hh => hmD h (List.mem_cons_of_mem _ hh)
      have hgo : na = .cont → nb = .cont → sb1.cells = sb.cells → Beneath sa1 sb1 → Granted ca := fun e1 e2 e3 e4 =>
        ih u htu htl hul (d + 1) sa1 a sb1 b ca (ka e1) (kb e2) (e3.trans hcells) (fun h hh => htr h (List.mem_cons_of_mem _ hh)) e4
      have hin : kindOf x c ∈ [ACT_IGNORE, ACT_OK, ACT_DONE, ACT_BAD, ACT_DIE] := by
        unfold kindOf
        split
        · decide
        · rename_i hf
          exact hx.words _ (by simp only [PAM_RETURN_VALUES] at hf; omega)
      have hgr : kindOf x c = ACT_OK ∨ kindOf x c = ACT_DONE → Granted c := by
        unfold kindOf
        split
        · intro h; exact absurd h (by decide)
        · rename_i hf
          intro h
          have := hx.success _ (by simp only [PAM_RETURN_VALUES] at hf; omega) h
          unfold Granted PAM_SUCCESS PAM_NEW_AUTHTOK_REQD
          simp only [PAM_RETURN_VALUES] at hf
          omega
      simp only [List.mem_cons, List.not_mem_nil, or_false] at hin
      have hbad : kindOf x c = ACT_BAD ∨ kindOf x c = ACT_DIE → Granted ca := by
        intro hkd
        obtain ⟨a', x1, x2, x3⟩ := act_failed .pleaseFreeze d _ r c hkd a0
        obtain ⟨b', y1, y2, y3⟩ := act_failed .mayBeFrozen d _ q c hkd b0
        rw [x1] at a5
        rw [y1] at b5
        have ea := Option.some.inj a5
        have eb := Option.some.inj b5
        injection ea with ea1 ea2
        injection eb with eb1 eb2
        subst ea1 eb1
        by_cases hd : kindOf x c = ACT_DIE
        · rw [if_pos hd] at eb2
          have := finish_success (fb eb2.symm)
          rw [y3] at this; cases this
        · rw [if_neg hd] at ea2 eb2
          exact hgo ea2.symm eb2.symm (y2.trans b3) ⟨fun _ => y3, fun h => by (rw [x3] at h; cases h), fun h => by (rw [x3] at h; cases h)⟩
      have hok : kindOf x c = ACT_OK ∨ kindOf x c = ACT_DONE → Granted ca := by
        intro hkd
        have hnb : kindOf x c ≠ ACT_BAD := by rcases hkd with e | e <;> rw [e] <;> decide
        have er := a4 hnb
        obtain ⟨a', x1, x2, x3, x4⟩ := act_counted .pleaseFreeze d _ r c hkd a0
        obtain ⟨b', y1, y2, y3, y4⟩ := act_counted .mayBeFrozen d _ q c hkd b0
        rw [x1] at a5
        rw [y1] at b5
        have ea := Option.some.inj a5
        have eb := Option.some.inj b5
        injection ea with ea1 ea2
        injection eb with eb1 eb2
        subst ea1 eb1
        by_cases hneg : sa.imp = .negative
        · have n1 := x3 (a1.trans hneg)
          have n2 := y3 (b1.trans (hB.neg hneg))
          rw [if_neg (fun h => by (rw [n1] at h; cases h.1))] at ea2
          rw [if_neg (fun h => by (rw [n2] at h; cases h.1))] at eb2
          exact hgo ea2.symm eb2.symm (y2.trans b3) ⟨fun _ => n2, fun h => by (rw [n1] at h; cases h), fun h => by (rw [n1] at h; cases h)⟩
        · obtain ⟨p1, p2⟩ := x4 er.symm (by rw [a1]; exact hneg)
          have hstat : Granted a'.status := by
            rcases p2 with p2 | ⟨p2, p3⟩
            · rw [p2, er]; exact hgr hkd
            · rw [p3, a2]; exact hB.good (a1.symm.trans p2)
          by_cases hd : kindOf x c = ACT_DONE
          · rw [if_pos ⟨p1, hd⟩] at ea2
            exact finish_good (fa ea2.symm) p1 hstat
          · rw [if_neg (fun h => hd h.2)] at ea2 eb2
            exact hgo ea2.symm eb2.symm (y2.trans b3) ⟨fun h => by (rw [p1] at h; cases h), fun h => by (rw [p1] at h; cases h), fun _ => hstat⟩
      rcases hin with hi | hi | hi | hi | hi
      · rw [hi, act_ignored] at a5 b5
        have ea := Option.some.inj a5
        have eb := Option.some.inj b5
        injection ea with ea1 ea2
        injection eb with eb1 eb2
        subst ea1 eb1
        exact hgo ea2.symm eb2.symm b3 ⟨fun h => by rw [b1]; exact hB.neg (a1.symm.trans h), fun h => by rw [b1]; exact hB.undef (a1.symm.trans h),
          fun h => by rw [a2]; exact hB.good (a1.symm.trans h)⟩
      · exact hok (Or.inl hi)
      · exact hok (Or.inr hi)
      · exact hbad (Or.inl hi)
      · exact hbad (Or.inr hi)

/-- Two walks over the same lines, the second replaying the first: the second succeeds only if the first was granted. -/
theorem walk_denied (l : List (Handler σ)) (m : List (Handler τ)) (hlm : SameLines l m) (hl : ∀ h ∈ l, Direct h) (hm : ∀ h ∈ m, Direct h)
    (ea : Env σ) (eb : Env τ) (ca : Int) (a : St σ) (b : St τ) (hne : l ≠ [])
    (ha : dispatchAux .pleaseFreeze l none ea = .done ca a) (hb : dispatchAux .mayBeFrozen m none eb = .done PAM_SUCCESS b)
    (hcells : eb.cells = a.cells) (htr : ∀ h ∈ l, ∀ w, (callModule h w).1 ≠ INVALID_RETVAL) : Granted ca := by
  cases l with
  | nil => exact absurd rfl hne
  | cons x t =>
    cases m with
    | nil => cases hlm
    | cons y u =>
      simp only [dispatchAux] at ha hb
      exact loop_denied (x :: t) (y :: u) hlm hl hm 0 (freshSt ea) a (freshSt eb) b ca ha hb hcells htr
        ⟨fun h => (by cases h), fun _ h => (by cases h), fun h => (by cases h)⟩

end Pam.Dispatch
