import Verif.Dispatch.Resume
namespace Pam.Dispatch

variable {σ τ : Type}

attribute [local simp] ACT_IGNORE ACT_OK ACT_DONE ACT_BAD ACT_DIE ACT_RESET ACT_UNDEF

/-- what two parallel lists (auth/setcred, open/close session) have in common: the same lines, with
the functions of the two services of each module -/
def SameLine (a : Handler σ) (b : Handler τ) : Prop :=
  a.htype = b.htype ∧ a.level = b.level ∧ a.actions = b.actions

/-- lists with the same lines -/
def SameLines : List (Handler σ) → List (Handler τ) → Prop
  | [], [] => True
  | a :: l, b :: m => SameLine a b ∧ SameLines l m
  | _, _ => False

theorem SameLines.length {l : List (Handler σ)} {m : List (Handler τ)} (h : SameLines l m) :
    l.length = m.length := by
  induction l generalizing m with
  | nil => cases m with | nil => rfl | cons => cases h
  | cons a l ih => cases m with | nil => cases h | cons b m => simp [ih h.2]

theorem SameLines.dropWhile {l : List (Handler σ)} {m : List (Handler τ)} (h : SameLines l m)
    (p : Nat → Bool) :
    SameLines (l.dropWhile (fun h => p h.level)) (m.dropWhile (fun h => p h.level)) := by
  induction l generalizing m with
  | nil => cases m with | nil => trivial | cons => cases h
  | cons a l ih =>
    cases m with
    | nil => cases h
    | cons b m =>
      simp only [List.dropWhile_cons, h.1.2.1]
      split
      · exact ih h.2
      · exact h

theorem SameLines.skipDecided {l : List (Handler σ)} {m : List (Handler τ)} (h : SameLines l m)
    (L : Nat) : SameLines (skipDecided L l) (skipDecided L m) :=
  h.dropWhile (fun k => decide (k ≥ L))

theorem SameLines.skipJump (L : Nat) (l : List (Handler σ)) (n : Nat) : ∀ m : List (Handler τ),
    SameLines l m → SameLines (skipJump L l n).1 (skipJump L m n).1 ∧
      (skipJump L l n).2 = (skipJump L m n).2 := by
  fun_induction Pam.Dispatch.skipJump L l n with
  | case1 n =>
    intro m h
    cases m with
    | nil => simp [Pam.Dispatch.skipJump, SameLines]
    | cons => cases h
  | case2 a t =>
    intro m h
    cases m with
    | nil => cases h
    | cons b m => simpa [Pam.Dispatch.skipJump] using h
  | case3 a t n hge ih =>
    intro m h
    cases m with
    | nil => cases h
    | cons b m =>
      have hb : b.level ≥ L := by have := h.1.2.1; omega
      rw [Pam.Dispatch.skipJump, if_pos hb]
      exact ih _ (h.2.dropWhile (fun k => decide (k > L)))
  | case4 a t n hge =>
    intro m h
    cases m with
    | nil => cases h
    | cons b m =>
      have hb : ¬ b.level ≥ L := by have := h.1.2.1; omega
      rw [Pam.Dispatch.skipJump, if_neg hb]
      exact ⟨h, rfl⟩

def isNeg (s : Sub) : Bool := decide (s.imp = .negative)

/-- the recording and the replaying walk are in step -/
structure InStep (a : St σ) (b : St τ) : Prop where
  neg : a.imp = .negative ↔ b.imp = .negative
  subs : ∀ L, (a.subs L).map isNeg = (b.subs L).map isNeg

set_option linter.unusedSimpArgs false in
theorem act_inStep (L i : Nat) (ac rA rB : Int) (a : St σ) (b : St τ) (h : InStep a b)
    (hig : rB = PAM_IGNORE → rA = PAM_IGNORE) (a' : St σ) (nx : Next)
    (hA : act .pleaseFreeze L i ac rA rA a = some (a', nx)) :
    ∃ b', act .mayBeFrozen L i ac rB rA b = some (b', nx) ∧ InStep a' b' ∧
      b'.trace = b.trace ∧ b'.cells = b.cells := by
  obtain ⟨hneg, hsubs⟩ := h
  obtain ⟨ia, sa, ua, ca, ga, wa, ta⟩ := a
  obtain ⟨ib, sb, ub, cb, gb, wb, tb⟩ := b
  have hacc : rB ≠ PAM_IGNORE ∨ rA = rB := by
    by_cases h : rB = PAM_IGNORE
    · right; rw [hig h, h]
    · exact Or.inl h
  dsimp only at hneg hsubs
  unfold act at hA ⊢
  by_cases h8 : ac = ACT_RESET
  · rw [if_pos h8] at hA ⊢
    have hL := hsubs L
    split at hA
    · next hlt =>
      rw [if_pos hlt]
      dsimp only at hA ⊢
      cases hu : ua L with
      | none => simp [hu] at hA
      | some x =>
        rw [hu] at hL
        cases hv : ub L with
        | none => simp [hv] at hL
        | some y =>
          simp only [hu, Option.some.injEq, Prod.mk.injEq] at hA
          obtain ⟨rfl, rfl⟩ := hA
          refine ⟨_, rfl, ⟨?_, hsubs⟩, rfl, rfl⟩
          simpa [hv, isNeg] using hL
    · cases hA
  rw [if_neg h8] at hA ⊢
  by_cases h4 : ac = ACT_OK ∨ ac = ACT_DONE
  · rw [if_pos h4] at hA ⊢
    have hl : (rA ≠ PAM_IGNORE ∨ rA = rA) := Or.inr rfl
    rw [if_pos hl] at hA
    rw [if_pos hacc]
    dsimp only at hA ⊢
    cases ia <;> cases ib <;> simp at hneg <;>
      by_cases hza : sa = PAM_SUCCESS <;> by_cases hzb : sb = PAM_SUCCESS <;>
      by_cases hra : rA = PAM_SUCCESS <;> by_cases hrb : rB = PAM_SUCCESS <;>
      simp only [hza, hzb, hra, hrb, reduceCtorEq, false_or, true_or, and_false, and_true, and_self,
        if_true, if_false, false_and, true_and, or_false, or_true, Option.some.injEq, Prod.mk.injEq]
        at hA ⊢ <;>
      (obtain ⟨rfl, rfl⟩ := hA; exact ⟨_, ⟨rfl, rfl⟩, ⟨by simp, hsubs⟩, rfl, rfl⟩)
  rw [if_neg h4] at hA ⊢
  by_cases h6 : ac = ACT_BAD ∨ ac = ACT_DIE
  · rw [if_pos h6] at hA ⊢
    dsimp only at hA ⊢
    by_cases hb : ib = .negative
    · have ha := hneg.2 hb
      rw [if_neg (by simpa using ha)] at hA
      rw [if_neg (by simpa using hb)]
      simp only [Option.some.injEq, Prod.mk.injEq] at hA
      obtain ⟨rfl, rfl⟩ := hA
      exact ⟨_, rfl, ⟨hneg, hsubs⟩, rfl, rfl⟩
    · have ha := fun h => hb (hneg.1 h)
      rw [if_pos (by simpa using ha)] at hA
      rw [if_pos (by simpa using hb)]
      simp only [Option.some.injEq, Prod.mk.injEq] at hA
      obtain ⟨rfl, rfl⟩ := hA
      exact ⟨_, rfl, ⟨by simp, hsubs⟩, rfl, rfl⟩
  rw [if_neg h6] at hA ⊢
  by_cases h3 : ac = ACT_IGNORE
  · rw [if_pos h3] at hA ⊢
    simp only [Option.some.injEq, Prod.mk.injEq] at hA
    obtain ⟨rfl, rfl⟩ := hA
    exact ⟨_, rfl, ⟨hneg, hsubs⟩, rfl, rfl⟩
  rw [if_neg h3] at hA ⊢
  by_cases h9 : 0 < ac
  · rw [if_pos h9] at hA ⊢
    rw [if_pos hacc]
    simp only [ne_eq, not_true_eq_false, if_false, Option.some.injEq, Prod.mk.injEq] at hA
    obtain ⟨rfl, rfl⟩ := hA
    refine ⟨_, rfl, ⟨?_, ?_⟩, ?_, ?_⟩
    · dsimp only
      rw [hneg]
      cases ib <;> simp <;> by_cases hzb : sb = PAM_SUCCESS <;> simp [hzb]
    · intro L
      rw [hsubs L]
      cases ib <;> simp <;> by_cases hzb : sb = PAM_SUCCESS <;> simp [hzb]
    · cases ib <;> simp <;> by_cases hzb : sb = PAM_SUCCESS <;> simp [hzb]
    · cases ib <;> simp <;> by_cases hzb : sb = PAM_SUCCESS <;> simp [hzb]
  · rw [if_neg h9] at hA ⊢
    simp only [Option.some.injEq, Prod.mk.injEq] at hA
    obtain ⟨rfl, rfl⟩ := hA
    exact ⟨_, rfl, ⟨by simp, hsubs⟩, rfl, rfl⟩

theorem enter_inStep (prev L : Nat) (a : St σ) (b : St τ) (h : InStep a b) (a' : St σ)
    (hA : enter prev L a = some a') :
    ∃ b', enter prev L b = some b' ∧ InStep a' b' ∧ b'.trace = b.trace ∧ b'.cells = b.cells ∧
      a'.trace = a.trace ∧ a'.cells = a.cells := by
  unfold enter at hA ⊢
  split at hA
  · next h1 =>
    split at hA
    · next h2 =>
      injection hA with hA; subst hA
      rw [if_pos h1, if_pos h2]
      refine ⟨_, rfl, ⟨h.neg, ?_⟩, rfl, rfl, rfl, rfl⟩
      intro L'
      simp only [upd]
      split
      · simp only [Option.map_some, isNeg, Option.some.injEq, decide_eq_decide]; exact h.neg
      · exact h.subs L'
    · cases hA
  · next h1 =>
    injection hA with hA; subst hA
    rw [if_neg h1]
    exact ⟨_, rfl, h, rfl, rfl, rfl, rfl⟩

/-- a recording walk only writes the answers of the lines it still has to visit, and only adds to
the trace -/
theorem loop_frame (l : List (Handler σ)) (depth prev : Nat) (st : St σ) (c : Int) (st' : St σ)
    (h : loop .pleaseFreeze 0 l depth prev st = .done c st') :
    (∀ i < depth, st'.cells i = st.cells i) ∧ st.trace <+: st'.trace := by
  have hent : ∀ {prev L : Nat} {st st0 : St σ}, enter prev L st = some st0 →
      st0.trace = st.trace ∧ st0.cells = st.cells := by
    intro prev L st st0 he
    rcases enter_cases _ _ _ _ he with rfl | rfl <;> exact ⟨rfl, rfl⟩
  have hvis : ∀ {h : Handler σ} {i : Nat} {st st1 : St σ} {nx : Next},
      visit .pleaseFreeze h i st = some (.inr (st1, nx)) →
      st1.trace = st.trace ++ [(i, ans h st.world)] ∧ st1.cells = upd st.cells i (ans h st.world) := by
    intro h i st st1 nx hv
    obtain ⟨_, a, r, _, hact⟩ := visit_inr _ _ _ _ _ _ hv
    obtain ⟨⟨_, e2, _, e4⟩, _⟩ := act_cases _ _ _ _ _ _ _ _ _ hact
    exact ⟨e4, e2⟩
  have step : ∀ {x : Handler σ} {depth depth' prev L : Nat} {st st0 st1 : St σ} {nx : Next},
      enter prev L st = some st0 → visit .pleaseFreeze x depth st0 = some (.inr (st1, nx)) →
      depth + 1 ≤ depth' →
      (∀ i < depth', st'.cells i = st1.cells i) ∧ st1.trace <+: st'.trace →
      (∀ i < depth, st'.cells i = st.cells i) ∧ st.trace <+: st'.trace := by
    intro x depth depth' prev L st st0 st1 nx he hv hle ⟨h1, h2⟩
    obtain ⟨ht, hc⟩ := hvis hv
    obtain ⟨ht0, hc0⟩ := hent he
    refine ⟨fun i hi => ?_, ?_⟩
    · rw [h1 i (by omega), hc, hc0]; simp [upd]; omega
    · rw [ht, ht0] at h2
      exact (List.prefix_append _ _).trans h2
  fun_induction loop .pleaseFreeze 0 l depth prev st with
  | case1 =>
    simp only [finish, Outcome.done.injEq] at h; rw [← h.2]
    exact ⟨fun _ _ => rfl, List.prefix_refl _⟩
  | case2 x t depth prev st hlt ih => omega
  | case3 => cases h
  | case4 x t depth prev st hlt st0 he hsub ih =>
    obtain ⟨h1, h2⟩ := ih h
    obtain ⟨ht0, hc0⟩ := hent he
    exact ⟨fun i hi => by rw [h1 i (by omega), hc0], by rw [← ht0]; exact h2⟩
  | case5 => cases h
  | case6 => cases h
  | case7 x t depth prev st hlt st0 he hsub st1 hv ih => exact step he hv (by omega) (ih h)
  | case8 x t depth prev st hlt st0 he hsub st1 hv ih => exact step he hv (by omega) (ih h)
  | case9 x t depth prev st hlt st0 he hsub st1 n hv ih =>
    refine step (depth' := depth + 1 + (t.length - (skipJump x.level t n).1.length)) he hv
      (Nat.le_add_right (depth + 1) _) ?_
    have := ih h
    split at this <;> exact this

theorem visit_inStep (F : Nat → Int) (x : Handler σ) (y : Handler τ) (i : Nat) (a : St σ) (b : St τ)
    (a1 : St σ) (nx : Next) (hxy : SameLine x y) (h : InStep a b)
    (hv : visit .pleaseFreeze x i a = some (.inr (a1, nx))) (hF : F i = ans x a.world)
    (hinv : F i ≠ INVALID_RETVAL) (hbc : b.cells = F) (hinc : ans y b.world ≠ PAM_INCOMPLETE)
    (hig : ans y b.world = PAM_IGNORE → F i = PAM_IGNORE) :
    ∃ b1, visit .mayBeFrozen y i b = some (.inr (b1, nx)) ∧ InStep a1 b1 ∧
      b1.trace = b.trace ++ [(i, ans y b.world)] ∧ b1.cells = F ∧
      a1.trace = a.trace ++ [(i, ans x a.world)] := by
  obtain ⟨hne, ac, r, har, hact⟩ := visit_inr _ _ _ _ _ _ hv
  obtain ⟨⟨_, _, _, e4⟩, _⟩ := act_cases _ _ _ _ _ _ _ _ _ hact
  simp only [deciding] at har hact
  unfold visit
  dsimp only
  rw [if_neg hinc]
  subst hbc
  simp only [cachedRetval, hinv, if_false, PAM_RETURN_VALUES]
  rcases har with ⟨h1, rfl, rfl⟩ | ⟨h1, h2, rfl, rfl⟩
  · rw [if_pos (by rw [hF]; exact h1)]
    have hact' : act .pleaseFreeze x.level i ACT_BAD PAM_PERM_DENIED PAM_PERM_DENIED
        { a with world := (callModule x a.world).2,
                 trace := a.trace ++ [(i, ans x a.world)],
                 cells := cellsAfter .pleaseFreeze i (ans x a.world) a.cells } = some (a1, nx) := by
      rw [← hact]; simp [act]
    obtain ⟨b1, k1, k2, k3, k4⟩ := act_inStep x.level i ACT_BAD PAM_PERM_DENIED PAM_PERM_DENIED
      ({ a with world := (callModule x a.world).2,
                trace := a.trace ++ [(i, ans x a.world)],
                cells := cellsAfter .pleaseFreeze i (ans x a.world) a.cells } : St σ)
      ({ b with world := (callModule y b.world).2, trace := b.trace ++ [(i, ans y b.world)] } : St τ)
      ⟨h.neg, h.subs⟩ (fun h => h) a1 nx hact'
    refine ⟨b1, ?_, k2, k3, by rw [k4], e4⟩
    rw [← hxy.2.1]
    have : act .mayBeFrozen x.level i ACT_BAD PAM_PERM_DENIED (b.cells i)
      ({ b with world := (callModule y b.world).2, trace := b.trace ++ [(i, ans y b.world)] } : St τ)
      = some (b1, nx) := by rw [← k1]; simp [act]
    rw [this]; rfl
  · rw [if_neg (by rw [hF]; omega)]
    obtain ⟨b1, k1, k2, k3, k4⟩ := act_inStep x.level i _ _ (ans y b.world)
      ({ a with world := (callModule x a.world).2,
                trace := a.trace ++ [(i, ans x a.world)],
                cells := cellsAfter .pleaseFreeze i (ans x a.world) a.cells } : St σ)
      ({ b with world := (callModule y b.world).2, trace := b.trace ++ [(i, ans y b.world)] } : St τ)
      ⟨h.neg, h.subs⟩ (fun h => by rw [← hF]; exact hig h) a1 nx hact
    refine ⟨b1, ?_, k2, k3, by rw [k4], e4⟩
    rw [← hxy.2.1, ← hxy.2.2, hF, k1]; rfl

theorem loop_replay (F : Nat → Int) (trA : List (Nat × Int)) (hinv : ∀ p ∈ trA, p.2 ≠ INVALID_RETVAL)
    (hsB : List (Handler τ))
    (hB : ∀ i h, hsB[i]? = some h → ∀ w, ans h w ≠ PAM_INCOMPLETE ∧
      (ans h w = PAM_IGNORE → F i = PAM_IGNORE))
    (l : List (Handler σ)) (depth prev : Nat) (a : St σ) (c : Int) (a' : St σ)
    (h : loop .pleaseFreeze 0 l depth prev a = .done c a') (hF : a'.cells = F) (htA : a'.trace = trA) :
    ∀ (m : List (Handler τ)) (b : St τ), m = hsB.drop depth → SameLines l m → InStep a b →
      b.cells = F →
    ∃ c' b', loop .mayBeFrozen 0 m depth prev b = .done c' b' ∧
      ∃ ta tb, a'.trace = a.trace ++ ta ∧ b'.trace = b.trace ++ tb ∧
        ta.map Prod.fst = tb.map Prod.fst := by
  have rec1 : ∀ {x : Handler σ} {y : Handler τ} {m : List (Handler τ)} {depth depth' prev : Nat}
      {a a0 a1 : St σ} {b b0 : St τ} {nx : Next},
      enter prev x.level a = some a0 → visit .pleaseFreeze x depth a0 = some (.inr (a1, nx)) →
      enter prev y.level b = some b0 → SameLine x y → InStep a0 b0 → b0.cells = F →
      y :: m = hsB.drop depth →
      ((∀ i < depth', a'.cells i = a1.cells i) ∧ a1.trace <+: a'.trace) → depth < depth' →
      ∃ b1, visit .mayBeFrozen y depth b0 = some (.inr (b1, nx)) ∧ InStep a1 b1 ∧
      b1.trace = b0.trace ++ [(depth, ans y b0.world)] ∧ b1.cells = F ∧
      a1.trace = a0.trace ++ [(depth, ans x a0.world)] := by
    intro x y m depth depth' prev a a0 a1 b b0 nx he hv heb hxy hst hbc hm hfr hlt
    obtain ⟨_, ac, r, _, hact⟩ := visit_inr _ _ _ _ _ _ hv
    obtain ⟨⟨_, e2, _, e4⟩, _⟩ := act_cases _ _ _ _ _ _ _ _ _ hact
    have hFi : F depth = ans x a0.world := by
      rw [← hF, hfr.1 depth hlt, e2]; simp [cellsAfter, upd]
    have hmem : (depth, ans x a0.world) ∈ trA := by
      rw [← htA]; exact hfr.2.subset (by rw [e4]; simp)
    have := hB depth y (getElem?_of_drop hm) b0.world
    exact visit_inStep F x y depth a0 b0 a1 nx hxy hst hv hFi (by rw [hFi]; exact hinv _ hmem) hbc
      this.1 this.2
  fun_induction loop .pleaseFreeze 0 l depth prev a with
  | case1 depth prev a =>
    intro m b hm hsl hst hbc
    cases m with
    | cons => cases hsl
    | nil =>
      simp only [finish, Outcome.done.injEq] at h
      rw [← h.2]
      exact ⟨_, b, by rw [loop, finish], [], [], by simp, by simp, rfl⟩
  | case2 x t depth prev a hlt ih => omega
  | case3 => cases h
  | case4 x t depth prev a hlt a0 he hsub ih =>
    intro m b hm hsl hst hbc
    cases m with
    | nil => cases hsl
    | cons y m =>
      obtain ⟨b0, hb0, hst0, ht0, hc0, hta0, hca0⟩ := enter_inStep _ _ _ _ hst _ he
      rw [hsl.1.2.1] at hb0
      obtain ⟨c', b', h1, ta, tb, h2, h3, h4⟩ := ih h m b0
        (by simpa using drop_of_suffix hm (List.suffix_refl m)) hsl.2 hst0 (by rw [hc0, hbc])
      refine ⟨c', b', ?_, ta, tb, by rw [h2, hta0], by rw [h3, ht0], h4⟩
      rw [loop, if_neg (by omega), hb0]
      simp only [← hsl.1.1, hsub, if_true, ← hsl.1.2.1]
      exact h1
  | case5 => cases h
  | case6 => cases h
  | case7 x t depth prev a hlt a0 he hsub a1 hv ih =>
    intro m b hm hsl hst hbc
    cases m with
    | nil => cases hsl
    | cons y m =>
      obtain ⟨b0, hb0, hst0, ht0, hc0, hta0, hca0⟩ := enter_inStep _ _ _ _ hst _ he
      obtain ⟨b1, hvb, hst1, htb1, hcb1, hta1⟩ := rec1 he hv (by rw [hsl.1.2.1] at hb0; exact hb0)
        hsl.1 hst0 (by rw [hc0, hbc]) hm (loop_frame _ _ _ _ _ _ h) (by omega)
      obtain ⟨c', b', h1, ta, tb, h2, h3, h4⟩ := ih h m b1
        (by simpa using drop_of_suffix hm (List.suffix_refl m)) hsl.2 hst1 hcb1
      refine ⟨c', b', ?_, (depth, ans x a0.world) :: ta, (depth, ans y b0.world) :: tb,
        by rw [h2, hta1, hta0]; simp, by rw [h3, htb1, ht0]; simp, by simp [h4]⟩
      rw [hsl.1.2.1] at hb0
      rw [loop, if_neg (by omega), hb0]
      simp only [← hsl.1.1, hsub, if_false, hvb, ← hsl.1.2.1]
      exact h1
  | case8 x t depth prev a hlt a0 he hsub a1 hv ih =>
    intro m b hm hsl hst hbc
    cases m with
    | nil => cases hsl
    | cons y m =>
      obtain ⟨b0, hb0, hst0, ht0, hc0, hta0, hca0⟩ := enter_inStep _ _ _ _ hst _ he
      obtain ⟨b1, hvb, hst1, htb1, hcb1, hta1⟩ := rec1 he hv (by rw [hsl.1.2.1] at hb0; exact hb0)
        hsl.1 hst0 (by rw [hc0, hbc]) hm (loop_frame _ _ _ _ _ _ h) (by omega)
      have hsk := hsl.2.skipDecided x.level
      have hlen : m.length - (skipDecided x.level m).length = t.length - (skipDecided x.level t).length := by
        rw [hsl.2.length, hsk.length]
      obtain ⟨c', b', h1, ta, tb, h2, h3, h4⟩ := ih h (skipDecided x.level m) b1
        (by rw [← hlen]; exact drop_of_suffix hm (skipDecided_suffix _ m)) hsk hst1 hcb1
      refine ⟨c', b', ?_, (depth, ans x a0.world) :: ta, (depth, ans y b0.world) :: tb,
        by rw [h2, hta1, hta0]; simp, by rw [h3, htb1, ht0]; simp, by simp [h4]⟩
      rw [hsl.1.2.1] at hb0
      rw [loop, if_neg (by omega), hb0]
      simp only [← hsl.1.1, hsub, if_false, hvb, ← hsl.1.2.1, hlen]
      exact h1
  | case9 x t depth prev a hlt a0 he hsub a1 n hv ih =>
    intro m b hm hsl hst hbc
    cases m with
    | nil => cases hsl
    | cons y m =>
      obtain ⟨b0, hb0, hst0, ht0, hc0, hta0, hca0⟩ := enter_inStep _ _ _ _ hst _ he
      have hfr := loop_frame _ _ _ _ _ _ h
      obtain ⟨b1, hvb, hst1, htb1, hcb1, hta1⟩ := rec1
        (depth' := depth + 1 + (t.length - (skipJump x.level t n).1.length)) he hv
        (by rw [hsl.1.2.1] at hb0; exact hb0)
        hsl.1 hst0 (by rw [hc0, hbc]) hm (by split at hfr <;> exact hfr) (by omega)
      obtain ⟨hsk, hleft⟩ := SameLines.skipJump x.level t n m hsl.2
      have hlen : m.length - (skipJump x.level m n).1.length
          = t.length - (skipJump x.level t n).1.length := by
        rw [hsl.2.length, hsk.length]
      obtain ⟨c', b', h1, ta, tb, h2, h3, h4⟩ := ih h (skipJump x.level m n).1
        (if (skipJump x.level m n).2 = 0 then b1
          else { b1 with imp := .negative, status := PAM_PERM_DENIED })
        (by rw [← hlen]; exact drop_of_suffix hm (skipJump_suffix _ m n)) hsk
        (by rw [hleft]; split
            · exact hst1
            · exact ⟨by simp, hst1.subs⟩)
        (by split <;> exact hcb1)
      refine ⟨c', b', ?_, (depth, ans x a0.world) :: ta, (depth, ans y b0.world) :: tb,
        ?_, ?_, by simp [h4]⟩
      · rw [hsl.1.2.1] at hb0
        rw [loop, if_neg (by omega), hb0]
        simp only [← hsl.1.1, hsub, if_false, hvb, ← hsl.1.2.1, hlen]
        exact h1
      · have : a'.trace = a1.trace ++ ta := by rw [h2]; split <;> rfl
        rw [this, hta1, hta0]; simp
      · have : b'.trace = b1.trace ++ tb := by rw [h3]; split <;> rfl
        rw [this, htb1, ht0]; simp

end Pam.Dispatch
