import Verif.Dispatch.Failure
namespace Pam.Dispatch

variable {σ : Type}

/-! ### Specification of patient modules -/

/-- `g` is the line `h` with its module made patient: instead of answering PAM_INCOMPLETE, the
patient module lets the application act (`app`) and goes on itself, as if it had been called
again. -/
structure PatientOf (app : σ → σ) (h g : Handler σ) : Prop where
  htype : g.htype = h.htype
  level : g.level = h.level
  actions : g.actions = h.actions
  missing : h.func = none → g.func = none
  func : ∀ f, h.func = some f → ∃ gf, g.func = some gf ∧
    ∀ w, gf w = if (f w).1 = PAM_INCOMPLETE then gf (app (f w).2) else f w

/-- The application repeats the same call until it no longer gets PAM_INCOMPLETE; `app` is what it
does in between.  `Completes … c e'`: after finitely many calls the result is `c`, leaving `e'`. -/
inductive Completes (mode : Mode) (hs : List (Handler σ)) (app : σ → σ) :
    Option Former → Env σ → Int → Env σ → Prop
  | done {fo e c st} (h : dispatchAux mode hs fo e = .done c st) :
      Completes mode hs app fo e c ⟨st.cells, st.grant, st.world, st.trace⟩
  | again {fo e d st c e'} (h : dispatchAux mode hs fo e = .incomplete d st)
      (hrest : Completes mode hs app (some ⟨d, st.imp, st.status, st.subs⟩)
        ⟨st.cells, st.grant, app st.world, st.trace⟩ c e') :
      Completes mode hs app fo e c e'

/-! ### Lemmas -/

theorem callModule_patient {app : σ → σ} {h g : Handler σ} (hp : PatientOf app h g) (w : σ) :
    callModule g w = if (callModule h w).1 = PAM_INCOMPLETE then
      callModule g (app (callModule h w).2) else callModule h w := by
  unfold callModule
  rw [hp.htype]
  by_cases hm : h.htype = .mustFail
  · simp [hm, PAM_PERM_DENIED, PAM_INCOMPLETE]
  · simp only [hm, if_false]
    cases hf : h.func with
    | none => rw [hp.missing hf]; simp [PAM_MODULE_UNKNOWN, PAM_INCOMPLETE]
    | some f =>
      obtain ⟨gf, h1, h2⟩ := hp.func f hf
      rw [h1]
      exact h2 w

theorem visit_patient {app : σ → σ} {h g : Handler σ} (hp : PatientOf app h g) (mode : Mode)
    (i : Nat) (st : St σ) (hne : (callModule h st.world).1 ≠ PAM_INCOMPLETE) :
    visit mode g i st = visit mode h i st := by
  unfold visit
  rw [callModule_patient hp, if_neg hne, hp.level, hp.actions]

theorem visit_world (mode : Mode) (g : Handler σ) (i : Nat) (st : St σ) (w w' : σ)
    (h : callModule g w = callModule g w') :
    visit mode g i { st with world := w } = visit mode g i { st with world := w' } := by
  unfold visit
  simp only [h]

/-- level of the line before position `d` (0 before the first) -/
def prevLevel (hs : List (Handler σ)) (d : Nat) : Nat :=
  match d with
  | 0 => 0
  | d + 1 => match hs[d]? with
    | some h => h.level
    | none => 0

theorem loop_skip (mode : Mode) (skip : Nat) (l : List (Handler σ)) (depth prev : Nat) (st : St σ)
    (hle : skip ≤ depth) : loop mode skip l depth prev st = loop mode 0 l depth prev st := by
  fun_induction loop mode 0 l depth prev st with
  | case1 => simp [loop]
  | case2 h t depth prev st hlt ih => omega
  | case3 h t depth prev st hlt he => rw [loop, if_neg (by omega), he]
  | case4 h t depth prev st hlt st0 he hsub ih =>
    rw [loop, if_neg (by omega), he]; simp only [hsub, if_true]; exact ih (by omega)
  | case5 h t depth prev st hlt st0 he hsub hv =>
    rw [loop, if_neg (by omega), he]; simp only [hsub, if_false, hv]
  | case6 h t depth prev st hlt st0 he hsub st1 hv =>
    rw [loop, if_neg (by omega), he]; simp only [hsub, if_false, hv]
  | case7 h t depth prev st hlt st0 he hsub st1 hv ih =>
    rw [loop, if_neg (by omega), he]; simp only [hsub, if_false, hv]; exact ih (by omega)
  | case8 h t depth prev st hlt st0 he hsub st1 hv ih =>
    rw [loop, if_neg (by omega), he]; simp only [hsub, if_false, hv]; exact ih (by omega)
  | case9 h t depth prev st hlt st0 he hsub st1 n hv ih =>
    rw [loop, if_neg (by omega), he]; simp only [hsub, if_false, hv]; exact ih (by omega)

theorem prevLevel_succ {hs t : List (Handler σ)} {h : Handler σ} {depth : Nat}
    (hl : h :: t = hs.drop depth) : prevLevel hs (depth + 1) = h.level := by
  simp [prevLevel, getElem?_of_drop hl]

/-- resuming at `d` = starting there with the level of the line before -/
theorem loop_resume (mode : Mode) (hs : List (Handler σ)) (d : Nat) (hd : d < hs.length)
    (st : St σ) : ∀ (k depth : Nat), d = depth + k → ∀ l, l = hs.drop depth →
    loop mode d l depth (prevLevel hs depth) st
      = loop mode 0 (hs.drop d) d (prevLevel hs d) st := by
  intro k
  induction k with
  | zero =>
    intro depth hk l hl
    have : depth = d := by omega
    subst this; subst hl
    exact loop_skip _ _ _ _ _ _ (Nat.le_refl _)
  | succ k ih =>
    intro depth hk l hl
    cases l with
    | nil =>
      have := congrArg List.length hl
      simp at this; omega
    | cons h t =>
      rw [loop, if_pos (by omega)]
      have hp := prevLevel_succ hl
      have ht : t = hs.drop (depth + 1) := by
        simpa using drop_of_suffix hl (List.suffix_refl t)
      rw [← hp]
      exact ih (depth + 1) (by omega) t ht

theorem skipJump_split (L : Nat) (hs : List (Handler σ)) (n : Nat) :
    ∃ s, hs = s ++ (skipJump L hs n).1 ∧ (∀ x ∈ s, L ≤ x.level) ∧
      (s ≠ [] → ∀ x ∈ (skipJump L hs n).1.head?, x.level ≤ L) := by
  fun_induction skipJump L hs n with
  | case1 => exact ⟨[], by simp⟩
  | case2 => exact ⟨[], by simp⟩
  | case4 => exact ⟨[], by simp⟩
  | case3 h t n hge ih =>
    obtain ⟨s, h1, h2, h3⟩ := ih
    have htw := List.takeWhile_append_dropWhile (p := fun h' : Handler σ => decide (h'.level > L)) (l := t)
    have hall : ∀ x ∈ t.takeWhile (fun h' : Handler σ => decide (h'.level > L)), L ≤ x.level := by
      intro x hx
      have := (List.all_eq_true.1 List.all_takeWhile) x hx
      simp at this; omega
    refine ⟨h :: (t.takeWhile (fun h' => decide (h'.level > L)) ++ s), ?_, ?_, ?_⟩
    · rw [List.cons_append, List.append_assoc, ← h1, htw]
    · intro x hx
      rcases List.mem_cons.1 hx with rfl | hx
      · exact hge
      · rcases List.mem_append.1 hx with hx | hx
        · exact hall x hx
        · exact h2 x hx
    · intro _ x hx
      cases s with
      | cons a b => exact h3 (by simp) x hx
      | nil =>
        simp only [List.nil_append] at h1
        rw [← h1] at hx
        have := List.head?_dropWhile_not (fun h' : Handler σ => decide (h'.level > L)) t
        rw [Option.mem_def] at hx
        rw [hx] at this
        simpa using this

theorem skipDecided_split (L : Nat) (hs : List (Handler σ)) :
    ∃ s, hs = s ++ skipDecided L hs ∧ (∀ x ∈ s, L ≤ x.level) ∧
      (s ≠ [] → ∀ x ∈ (skipDecided L hs).head?, x.level ≤ L) := by
  refine ⟨hs.takeWhile (fun h' => decide (h'.level ≥ L)), ?_, ?_, ?_⟩
  · exact (List.takeWhile_append_dropWhile).symm
  · intro x hx; simpa using (List.all_eq_true.1 List.all_takeWhile) x hx
  · intro _ x hx
    have := List.head?_dropWhile_not (fun h' : Handler σ => decide (h'.level ≥ L)) hs
    rw [Option.mem_def] at hx
    unfold skipDecided at hx
    rw [hx] at this
    simp at this; omega

/-- the walk's `prev` and the level of the preceding line agree about entering a substack -/
def PrevOK (hs l : List (Handler σ)) (depth prev : Nat) : Prop :=
  ∀ h t, l = h :: t → (prev < h.level ↔ prevLevel hs depth < h.level)

theorem prevOK_skip {hs t l : List (Handler σ)} {h : Handler σ} {depth : Nat}
    (hl : h :: t = hs.drop depth) (s : List (Handler σ)) (hs1 : t = s ++ l)
    (hs2 : ∀ x ∈ s, h.level ≤ x.level) (hs3 : s ≠ [] → ∀ x ∈ l.head?, x.level ≤ h.level) :
    PrevOK hs l (depth + 1 + (t.length - l.length)) h.level := by
  intro x xs hx
  have hlen : t.length - l.length = s.length := by rw [hs1]; simp
  rw [hlen]
  by_cases he : s = []
  · subst he; simp only [List.length_nil, Nat.add_zero, prevLevel_succ hl]
  · have h3 := hs3 he x (by simp [hx])
    obtain ⟨k, hk⟩ : ∃ k, s.length = k + 1 :=
      ⟨s.length - 1, by have := List.length_pos_iff.2 he; omega⟩
    have hge : h.level ≤ prevLevel hs (depth + 1 + s.length) := by
      rw [hk, show depth + 1 + (k + 1) = (depth + 1 + k) + 1 by omega]
      simp only [prevLevel]
      have ht : t = hs.drop (depth + 1) := by
        simpa using drop_of_suffix hl (List.suffix_refl t)
      have : hs[depth + 1 + k]? = s[k]? := by
        rw [← List.getElem?_drop, ← ht, hs1, List.getElem?_append_left (by omega)]
      rw [this, List.getElem?_eq_getElem (by omega)]
      exact hs2 _ (List.getElem_mem _)
    omega

theorem enter_idem {prev prev' L : Nat} {st st0 : St σ} (he : enter prev L st = some st0)
    (hp : prev < L ↔ prev' < L) (w : σ) :
    enter prev' L { st0 with world := w } = some { st0 with world := w } := by
  unfold enter at he ⊢
  by_cases h : prev < L
  · rw [if_pos h] at he
    rw [if_pos (hp.1 h)]
    split at he
    · next hL =>
      simp only [Option.some.injEq] at he
      subst he
      rw [if_pos hL]
      congr 1
      simp only [St.mk.injEq, true_and, and_true]
      funext j; unfold upd; split <;> rfl
    · cases he
  · rw [if_neg (fun h' => h (hp.2 h'))]

theorem dropWhile_map (pat : Handler σ → Handler σ) (p : Nat → Bool) (l : List (Handler σ))
    (hlev : ∀ h ∈ l, (pat h).level = h.level) :
    (l.map pat).dropWhile (fun h => p h.level) = (l.dropWhile (fun h => p h.level)).map pat := by
  induction l with
  | nil => rfl
  | cons a t ih =>
    simp only [List.map_cons, List.dropWhile_cons, hlev a (by simp)]
    split
    · exact ih (fun h hh => hlev h (by simp [hh]))
    · rfl

theorem skipJump_map (pat : Handler σ → Handler σ) (L : Nat) (l : List (Handler σ)) (n : Nat)
    (hlev : ∀ h ∈ l, (pat h).level = h.level) :
    skipJump L (l.map pat) n = ((skipJump L l n).1.map pat, (skipJump L l n).2) := by
  fun_induction skipJump L l n with
  | case1 => simp [skipJump]
  | case2 => simp [skipJump]
  | case3 h t n hge ih =>
    have := dropWhile_map pat (fun k => decide (k > L)) t (fun x hx => hlev x (by simp [hx]))
    rw [List.map_cons, skipJump, if_pos (by rw [hlev h (by simp)]; exact hge), this]
    exact ih (fun x hx => hlev x (List.mem_cons_of_mem _ ((List.dropWhile_sublist _).subset hx)))
  | case4 h t n hge =>
    rw [List.map_cons, skipJump, if_neg (by rw [hlev h (by simp)]; exact hge)]

theorem skipDecided_map (pat : Handler σ → Handler σ) (L : Nat) (l : List (Handler σ))
    (hlev : ∀ h ∈ l, (pat h).level = h.level) :
    skipDecided L (l.map pat) = (skipDecided L l).map pat :=
  dropWhile_map pat (fun k => decide (k ≥ L)) l hlev

theorem prevLevel_map (pat : Handler σ → Handler σ) (hs : List (Handler σ))
    (hlev : ∀ h ∈ hs, (pat h).level = h.level) (d : Nat) :
    prevLevel (hs.map pat) d = prevLevel hs d := by
  cases d with
  | zero => rfl
  | succ d =>
    simp only [prevLevel, List.getElem?_map]
    cases h : hs[d]? with
    | none => rfl
    | some x => simp [hlev x (List.mem_of_getElem? h)]

/-- one call: if it completes, the patient stack does the same; if it is interrupted, the patient
stack does what it would do when resumed there -/
theorem loop_patient (mode : Mode) (skip : Nat) (app : σ → σ) (pat : Handler σ → Handler σ)
    (hs : List (Handler σ)) (hpat : ∀ h ∈ hs, PatientOf app h (pat h))
    (l : List (Handler σ)) (depth prev : Nat) (st : St σ) (hl : l = hs.drop depth)
    (hprev : PrevOK hs l depth prev) :
    match loop mode skip l depth prev st with
    | .ub => True
    | .done c st' => loop mode skip (l.map pat) depth prev st = .done c st'
    | .incomplete d st' => loop mode skip (l.map pat) depth prev st
        = loop mode 0 ((hs.map pat).drop d) d (prevLevel hs d) { st' with world := app st'.world }
        ∧ d < hs.length := by
  have hmem : ∀ {depth : Nat} {l : List (Handler σ)}, l = hs.drop depth → ∀ x ∈ l, x ∈ hs := by
    intro d l hl x hx; rw [hl] at hx; exact List.mem_of_mem_drop hx
  fun_induction loop mode skip l depth prev st with
  | case1 => simp [finish, loop]
  | case2 h t depth prev st hlt ih =>
    have hp := hpat h (hmem hl h (by simp))
    rw [List.map_cons, loop, if_pos hlt, hp.level]
    apply ih (by simpa using drop_of_suffix hl (List.suffix_refl t))
    intro x xs hx
    rw [prevLevel_succ hl]
  | case3 => trivial
  | case4 h t depth prev st hlt st0 he hsub ih =>
    have hp := hpat h (hmem hl h (by simp))
    rw [List.map_cons, loop, if_neg hlt, hp.level, he]
    simp only [hp.htype, hsub, if_true]
    apply ih (by simpa using drop_of_suffix hl (List.suffix_refl t))
    intro x xs hx
    rw [prevLevel_succ hl]
  | case5 => trivial
  | case6 h t depth prev st hlt st0 he hsub st1 hv =>
    have hp := hpat h (hmem hl h (by simp))
    obtain ⟨hinc, rfl⟩ := visit_inl _ _ _ _ _ hv
    have hlen : depth < hs.length := by
      have := congrArg List.length hl
      simp at this; omega
    refine ⟨?_, hlen⟩
    have hdr : (hs.map pat).drop depth = pat h :: t.map pat := by
      rw [← List.map_drop, ← hl]; rfl
    rw [hdr]
    conv => lhs; rw [List.map_cons, loop, if_neg hlt, hp.level, he]
    rw [loop, if_neg (by omega), hp.level,
      show ({ st0 with world := (callModule h st0.world).2 } : St σ).world
        = (callModule h st0.world).2 from rfl]
    rw [show ({ ({ st0 with world := (callModule h st0.world).2 } : St σ) with
        world := app (callModule h st0.world).2 } : St σ)
        = { st0 with world := app (callModule h st0.world).2 } from rfl]
    rw [enter_idem he (hprev h t rfl)]
    simp only [hp.htype, hsub, if_false]
    have hcm := callModule_patient hp st0.world
    rw [if_pos hinc] at hcm
    have hvw := visit_world mode (pat h) depth st0 st0.world (app (callModule h st0.world).2) hcm
    rw [show ({ st0 with world := st0.world } : St σ) = st0 from rfl] at hvw
    rw [hvw]
    rcases hvv : visit mode (pat h) depth { st0 with world := app (callModule h st0.world).2 } with
      _ | (s1 | ⟨s1, _ | _ | n⟩) <;> simp only [hp.level]
    all_goals exact loop_skip _ _ _ _ _ _ (by omega)
  | case7 h t depth prev st hlt st0 he hsub st1 hv ih =>
    have hp := hpat h (hmem hl h (by simp))
    have hne := (visit_inr _ _ _ _ _ _ hv).1
    rw [List.map_cons, loop, if_neg hlt, hp.level, he]
    simp only [hp.htype, hsub, if_false, visit_patient hp mode depth st0 hne, hv, hp.level]
    apply ih (by simpa using drop_of_suffix hl (List.suffix_refl t))
    intro x xs hx
    rw [prevLevel_succ hl]
  | case8 h t depth prev st hlt st0 he hsub st1 hv ih =>
    have hp := hpat h (hmem hl h (by simp))
    have hne := (visit_inr _ _ _ _ _ _ hv).1
    have hlev : ∀ x ∈ t, (pat x).level = x.level := fun x hx =>
      (hpat x (hmem hl x (by simp [hx]))).level
    rw [List.map_cons, loop, if_neg hlt, hp.level, he]
    simp only [hp.htype, hsub, if_false, visit_patient hp mode depth st0 hne, hv, hp.level,
      skipDecided_map pat h.level t hlev, List.length_map]
    apply ih (drop_of_suffix hl (skipDecided_suffix _ t))
    obtain ⟨s, h1, h2, h3⟩ := skipDecided_split h.level t
    exact prevOK_skip hl s h1 h2 h3
  | case9 h t depth prev st hlt st0 he hsub st1 n hv ih =>
    have hp := hpat h (hmem hl h (by simp))
    have hne := (visit_inr _ _ _ _ _ _ hv).1
    have hlev : ∀ x ∈ t, (pat x).level = x.level := fun x hx =>
      (hpat x (hmem hl x (by simp [hx]))).level
    rw [List.map_cons, loop, if_neg hlt, hp.level, he]
    simp only [hp.htype, hsub, if_false, visit_patient hp mode depth st0 hne, hv, hp.level,
      skipJump_map pat h.level t n hlev, List.length_map]
    apply ih (drop_of_suffix hl (skipJump_suffix _ t n))
    obtain ⟨s, h1, h2, h3⟩ := skipJump_split h.level t n
    exact prevOK_skip hl s h1 h2 h3

theorem prevOK_start (hs : List (Handler σ)) : PrevOK hs hs 0 0 := by
  intro h t _; simp [prevLevel]

theorem dispatchAux_done_patient (mode : Mode) (app : σ → σ) (pat : Handler σ → Handler σ)
    (hs : List (Handler σ)) (hpat : ∀ h ∈ hs, PatientOf app h (pat h)) (fo : Option Former)
    (e : Env σ) (c : Int) (st : St σ) (h : dispatchAux mode hs fo e = .done c st) :
    dispatchAux mode (hs.map pat) fo e = .done c st := by
  cases hs with
  | nil => exact h
  | cons x xs =>
    have key := fun (skip : Nat) (s : St σ) => loop_patient mode skip app pat (x :: xs) hpat
      (x :: xs) 0 0 s (by simp) (prevOK_start _)
    cases fo with
    | none =>
      have := key 0 (freshSt e)
      simp only [dispatchAux] at h
      rw [h] at this
      exact this
    | some f =>
      have := key f.depth (resumedSt f e)
      simp only [dispatchAux] at h
      rw [h] at this
      exact this

theorem dispatchAux_again_patient (mode : Mode) (app : σ → σ) (pat : Handler σ → Handler σ)
    (hs : List (Handler σ)) (hpat : ∀ h ∈ hs, PatientOf app h (pat h)) (fo : Option Former)
    (e : Env σ) (d : Nat) (st : St σ) (h : dispatchAux mode hs fo e = .incomplete d st) :
    dispatchAux mode (hs.map pat) fo e =
      dispatchAux mode (hs.map pat) (some ⟨d, st.imp, st.status, st.subs⟩)
        ⟨st.cells, st.grant, app st.world, st.trace⟩ := by
  cases hs with
  | nil => simp [dispatchAux] at h
  | cons x xs =>
    have key := fun (skip : Nat) (s : St σ) => loop_patient mode skip app pat (x :: xs) hpat
      (x :: xs) 0 0 s (by simp) (prevOK_start _)
    have hlev : ∀ h ∈ (x :: xs), (pat h).level = h.level := fun h hh => (hpat h hh).level
    have fin : ∀ (s : Outcome σ), (s = loop mode 0 (((x :: xs).map pat).drop d) d
        (prevLevel (x :: xs) d) { st with world := app st.world } ∧ d < (x :: xs).length) →
        s = dispatchAux mode ((x :: xs).map pat) (some ⟨d, st.imp, st.status, st.subs⟩)
          ⟨st.cells, st.grant, app st.world, st.trace⟩ := by
      rintro s ⟨h1, h2⟩
      rw [h1, ← prevLevel_map pat (x :: xs) hlev]
      exact (loop_resume mode ((x :: xs).map pat) d (by simpa using h2)
        { st with world := app st.world } d 0 (by omega) _ (by simp)).symm
    cases fo with
    | none =>
      have := key 0 (freshSt e)
      simp only [dispatchAux] at h
      rw [h] at this
      exact fin _ this
    | some f =>
      have := key f.depth (resumedSt f e)
      simp only [dispatchAux] at h
      rw [h] at this
      exact fin _ this

theorem completes_patient (mode : Mode) (app : σ → σ) (pat : Handler σ → Handler σ)
    (hs : List (Handler σ)) (hpat : ∀ h ∈ hs, PatientOf app h (pat h)) (fo : Option Former)
    (e : Env σ) (c : Int) (e' : Env σ) (h : Completes mode hs app fo e c e') :
    ∃ st, dispatchAux mode (hs.map pat) fo e = .done c st ∧
      e' = ⟨st.cells, st.grant, st.world, st.trace⟩ := by
  induction h with
  | done h => exact ⟨_, dispatchAux_done_patient mode app pat hs hpat _ _ _ _ h, rfl⟩
  | again h hrest ih =>
    obtain ⟨st', h1, h2⟩ := ih
    exact ⟨st', by rw [dispatchAux_again_patient mode app pat hs hpat _ _ _ _ h]; exact h1, h2⟩

/-! ### No line answers twice -/

/-- trace sorted and below `k` -/
def TraceBelow (k : Nat) (tr : List (Nat × Int)) : Prop :=
  (tr.map Prod.fst).Pairwise (· < ·) ∧ ∀ p ∈ tr, p.1 < k

def TraceOK : Outcome σ → Prop
  | .ub => True
  | .done _ st' => (st'.trace.map Prod.fst).Pairwise (· < ·)
  | .incomplete d st' => TraceBelow d st'.trace

theorem loop_trace (mode : Mode) (skip : Nat) (l : List (Handler σ)) (depth prev : Nat)
    (st : St σ) (h : TraceBelow (max depth skip) st.trace) :
    TraceOK (loop mode skip l depth prev st) := by
  have mono : ∀ {k k' tr}, TraceBelow k tr → k ≤ k' → TraceBelow k' tr :=
    fun h hk => ⟨h.1, fun p hp => Nat.lt_of_lt_of_le (h.2 p hp) hk⟩
  have hent : ∀ {prev L : Nat} {st st0 : St σ}, enter prev L st = some st0 → st0.trace = st.trace := by
    intro prev L st st0 he
    rcases enter_cases _ _ _ _ he with rfl | rfl <;> rfl
  have hvis : ∀ {h : Handler σ} {i : Nat} {st st1 : St σ} {nx : Next}, TraceBelow i st.trace →
      visit mode h i st = some (.inr (st1, nx)) → TraceBelow (i + 1) st1.trace := by
    intro h i st st1 nx ht hv
    obtain ⟨_, a, r, _, hact⟩ := visit_inr _ _ _ _ _ _ hv
    obtain ⟨⟨_, _, _, e4⟩, _⟩ := act_cases _ _ _ _ _ _ _ _ _ hact
    rw [e4]
    refine ⟨?_, ?_⟩
    · simp only [List.map_append, List.map_cons, List.map_nil]
      rw [List.pairwise_append]
      refine ⟨ht.1, by simp, ?_⟩
      intro a ha b hb
      simp only [List.mem_singleton] at hb
      obtain ⟨p, hp, rfl⟩ := List.mem_map.1 ha
      rw [hb]; exact ht.2 p hp
    · intro p hp
      rcases List.mem_append.1 hp with hp | hp
      · have := ht.2 p hp; omega
      · simp only [List.mem_singleton] at hp; rw [hp]; simp
  fun_induction loop mode skip l depth prev st with
  | case1 => exact h.1
  | case2 x t depth prev st hlt ih => exact ih (mono h (by omega))
  | case3 => trivial
  | case4 x t depth prev st hlt st0 he hsub ih =>
    apply ih; rw [hent he]; exact mono h (by omega)
  | case5 => trivial
  | case6 x t depth prev st hlt st0 he hsub st1 hv =>
    obtain ⟨_, rfl⟩ := visit_inl _ _ _ _ _ hv
    show TraceBelow _ st0.trace
    rw [hent he]; exact mono h (by omega)
  | case7 x t depth prev st hlt st0 he hsub st1 hv ih =>
    exact ih (mono (hvis (by rw [hent he]; exact mono h (by omega)) hv) (by omega))
  | case8 x t depth prev st hlt st0 he hsub st1 hv ih =>
    exact ih (mono (hvis (by rw [hent he]; exact mono h (by omega)) hv) (by omega))
  | case9 x t depth prev st hlt st0 he hsub st1 n hv ih =>
    apply ih
    have := mono (hvis (by rw [hent he]; exact mono h (by omega)) hv)
      (show depth + 1 ≤ max (depth + 1 + (t.length - (skipJump x.level t n).1.length)) skip by omega)
    split
    · exact this
    · exact this

theorem walk_trace (mode : Mode) (hs : List (Handler σ)) (e : Env σ) (he : e.trace = [])
    (o : Outcome σ) (hw : Walk mode hs e o) :
    TraceOK o := by
  induction hw with
  | first =>
    cases hs with
    | nil => simp [dispatchAux, freshSt, he, TraceOK]
    | cons x xs =>
      exact loop_trace mode 0 (x :: xs) 0 0 (freshSt e) (by simp [freshSt, he, TraceBelow])
  | @resume d st w hw ih =>
    cases hs with
    | nil => exact (show TraceBelow d st.trace from ih).1
    | cons x xs =>
      exact loop_trace mode d (x :: xs) 0 0 _ (by simpa [resumedSt, TraceOK] using ih)

end Pam.Dispatch
