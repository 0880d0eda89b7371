import Verif.Dispatch.Spec
namespace Pam.Dispatch
open Spec

variable {σ : Type}

/-! ### Encoding of verdicts -/

def enc : Verdict → Sub
  | .none => ⟨.undef, PAM_PERM_DENIED⟩
  | .good c => ⟨.positive, c⟩
  | .bad c => ⟨.negative, c⟩

def toSt (s : State σ) (subs : Nat → Option Sub) : St σ :=
  { imp := (enc s.verdict).imp, status := (enc s.verdict).status, subs := subs,
    cells := s.cells, grant := s.grant, world := s.world, trace := s.calls }

def modeOf (replay : Bool) : Mode := if replay then .mayBeFrozen else .pleaseFreeze

def modHandler (m : Module σ) (L : Nat) : Handler σ :=
  match m.body with
  | .broken => { htype := .mustFail, func := none, actions := m.action, level := L }
  | .missing => { htype := .module, func := none, actions := m.action, level := L }
  | .fn f => { htype := .module, func := some f, actions := m.action, level := L }

theorem flatten_mod (m : Module σ) (r : Stack σ) (L : Nat) :
    (Stack.mod m r).flatten L = modHandler m L :: r.flatten L := rfl

@[simp] theorem modHandler_level (m : Module σ) (L : Nat) : (modHandler m L).level = L := by
  unfold modHandler; split <;> rfl
@[simp] theorem modHandler_actions (m : Module σ) (L : Nat) : (modHandler m L).actions = m.action := by
  unfold modHandler; split <;> rfl
@[simp] theorem modHandler_htype (m : Module σ) (L : Nat) : (modHandler m L).htype ≠ .substack := by
  unfold modHandler; split <;> simp

theorem callModule_modHandler (m : Module σ) (L : Nat) (w : σ) :
    callModule (modHandler m L) w = m.call w := by
  obtain ⟨b, a⟩ := m
  cases b <;> simp [modHandler, Module.call, callModule]

theorem flatten_length (t : Stack σ) : ∀ L, (t.flatten L).length = t.size := by
  induction t with
  | nil => intro L; rfl
  | mod m r ih => intro L; simp [Stack.flatten, Stack.size, ih]; omega
  | sub b r ihb ihr => intro L; simp [Stack.flatten, Stack.size, ihb, ihr]; omega

theorem flatten_level_ge (t : Stack σ) : ∀ L, ∀ h ∈ t.flatten L, L ≤ h.level := by
  induction t with
  | nil => intro L h hh; simp [Stack.flatten] at hh
  | mod m r ih =>
    intro L h hh
    rw [flatten_mod] at hh
    rcases List.mem_cons.1 hh with rfl | hh
    · simp
    · exact ih L h hh
  | sub b r ihb ihr =>
    intro L h hh
    simp only [Stack.flatten, List.mem_cons, List.mem_append] at hh
    rcases hh with rfl | hh | hh
    · simp
    · have := ihb _ h hh; omega
    · exact ihr L h hh

theorem flatten_head_level (t : Stack σ) (L : Nat) (h : Handler σ) (hs)
    (heq : t.flatten L = h :: hs) : h.level = L := by
  cases t with
  | nil => simp [Stack.flatten] at heq
  | mod m r => rw [flatten_mod] at heq; injection heq with h1 _; rw [← h1]; simp
  | sub b r => simp only [Stack.flatten] at heq; injection heq with h1 _; rw [← h1]

/-- The handlers after a (sub)stack of level `L` start below `L`. -/
def Below (L : Nat) : List (Handler σ) → Prop
  | [] => True
  | h :: _ => h.level < L

theorem dropWhile_append_below (p : Handler σ → Bool) (A K : List (Handler σ))
    (hA : ∀ a ∈ A, p a = true) (hK : ∀ h hs, K = h :: hs → p h = false) :
    (A ++ K).dropWhile p = K := by
  induction A with
  | nil =>
    cases K with
    | nil => rfl
    | cons h hs => simp [hK h hs rfl]
  | cons a A ih =>
    simp [hA a (by simp)]
    exact ih (fun x hx => hA x (by simp [hx]))

theorem skipDecided_flatten (t : Stack σ) (L : Nat) (K : List (Handler σ)) (hK : Below L K) :
    skipDecided L (t.flatten L ++ K) = K := by
  unfold skipDecided
  apply dropWhile_append_below
  · intro a ha; simpa using flatten_level_ge t L a ha
  · intro h hs e; subst e; simpa [Below] using hK

/-- drop entries from a structured stack -/
def Spec.Stack.drop : Nat → Stack σ → Stack σ
  | 0, t => t
  | _ + 1, .nil => .nil
  | n + 1, .mod _ r => Stack.drop n r
  | n + 1, .sub _ r => Stack.drop n r

theorem dropWhile_sub (b r : Stack σ) (L : Nat) (K : List (Handler σ)) (hK : Below L K) :
    (b.flatten (L + 1) ++ (r.flatten L ++ K)).dropWhile (fun h' => decide (h'.level > L))
      = r.flatten L ++ K := by
  apply dropWhile_append_below
  · intro a ha; have := flatten_level_ge b (L + 1) a ha; simp; omega
  · intro h hs e
    cases hr : r.flatten L with
    | nil => rw [hr] at e; simp at e; subst e; simp [Below] at hK; simp; omega
    | cons x xs =>
      rw [hr] at e; simp at e
      have := flatten_head_level r L x xs hr
      rw [← e.1]; simp; omega

theorem dropWhile_none (r : Stack σ) (L : Nat) (K : List (Handler σ)) (hK : Below L K) :
    (r.flatten L ++ K).dropWhile (fun h' => decide (h'.level > L)) = r.flatten L ++ K := by
  have := dropWhile_sub (.nil) r L K hK
  simpa [Stack.flatten] using this

theorem skipJump_below (L : Nat) (K : List (Handler σ)) (hK : Below L K) (n : Nat) :
    skipJump L K n = (K, n) := by
  cases K with
  | nil => simp [skipJump]
  | cons h t =>
    cases n with
    | zero => simp [skipJump]
    | succ n =>
      have hK' : h.level < L := hK
      rw [skipJump, if_neg (by omega)]

theorem skipJump_flatten (t : Stack σ) : ∀ (L : Nat) (K : List (Handler σ)), Below L K → ∀ n,
    skipJump L (t.flatten L ++ K) n = ((t.drop n).flatten L ++ K, n - t.length) := by
  induction t with
  | nil =>
    intro L K hK n
    simp only [Stack.flatten, List.nil_append, skipJump_below L K hK, Stack.length]
    cases n <;> simp [Stack.drop, Stack.flatten]
  | mod m r ih =>
    intro L K hK n
    cases n with
    | zero => simp [flatten_mod, skipJump, Stack.drop]
    | succ n =>
      rw [flatten_mod, List.cons_append, skipJump, if_pos (by simp), dropWhile_none r L K hK,
        ih L K hK n]
      simp [Stack.drop, Stack.length]; omega
  | sub b r _ ih =>
    intro L K hK n
    cases n with
    | zero => simp [Stack.flatten, skipJump, Stack.drop]
    | succ n =>
      simp only [Stack.flatten, List.cons_append, List.append_assoc]
      rw [skipJump, if_pos (by simp), dropWhile_sub b r L K hK, ih L K hK n]
      simp [Stack.drop, Stack.length]; omega

theorem drop_size (t : Stack σ) : ∀ n, (t.drop n).size ≤ t.size := by
  induction t with
  | nil => intro n; cases n <;> simp [Stack.drop]
  | mod m r ih => intro n; cases n with
    | zero => simp [Stack.drop]
    | succ n => have := ih n; simp [Stack.drop, Stack.size]; omega
  | sub b r _ ih => intro n; cases n with
    | zero => simp [Stack.drop]
    | succ n => have := ih n; simp [Stack.drop, Stack.size]; omega

theorem drop_all (t : Stack σ) : ∀ n, t.length ≤ n → t.drop n = .nil := by
  induction t with
  | nil => intro n _; cases n <;> rfl
  | mod m r ih => intro n h; cases n with
    | zero => simp [Stack.length] at h
    | succ n => exact ih n (by simp only [Stack.length] at h; omega)
  | sub b r _ ih => intro n h; cases n with
    | zero => simp [Stack.length] at h
    | succ n => exact ih n (by simp only [Stack.length] at h; omega)

theorem drop_levels (t : Stack σ) : ∀ n, (t.drop n).levels ≤ t.levels := by
  induction t with
  | nil => intro n; cases n <;> simp [Stack.drop]
  | mod m r ih => intro n; cases n with
    | zero => simp [Stack.drop]
    | succ n => have := ih n; simp [Stack.drop, Stack.levels]; omega
  | sub b r _ ih => intro n; cases n with
    | zero => simp [Stack.drop]
    | succ n => have := ih n; simp [Stack.drop, Stack.levels]; omega

theorem eval_skip (replay : Bool) (entry : Verdict) (t : Stack σ) : ∀ (n pos : Nat) (s : State σ),
    eval replay entry n t pos s =
      if n ≤ t.length then eval replay entry 0 (t.drop n) (pos + (t.size - (t.drop n).size)) s
      else .finished { s with verdict := .bad PAM_PERM_DENIED } := by
  induction t with
  | nil => intro n pos s; cases n <;> simp [eval, Stack.length, Stack.drop, Stack.size]
  | mod m r ih =>
    intro n pos s
    cases n with
    | zero => simp [Stack.drop, Stack.size]
    | succ n =>
      rw [eval, ih]
      have := drop_size r n
      have hl : (Stack.mod m r).length = 1 + r.length := rfl
      by_cases h : n ≤ r.length
      · rw [if_pos h, if_pos (by omega)]; simp only [Stack.drop, Stack.size]; congr 1; omega
      · rw [if_neg h, if_neg (by omega)]
  | sub b r _ ih =>
    intro n pos s
    cases n with
    | zero => simp [Stack.drop, Stack.size]
    | succ n =>
      rw [eval, ih]
      have := drop_size r n
      have hl : (Stack.sub b r).length = 1 + r.length := rfl
      by_cases h : n ≤ r.length
      · rw [if_pos h, if_pos (by omega)]; simp only [Stack.drop, Stack.size]; congr 1; omega
      · rw [if_neg h, if_neg (by omega)]

/-! ### The walk equals the structured interpretation -/

/-- effect of an action on the structured state, and where to go next -/
def actSpec (replay : Bool) (entry : Verdict) (a r d : Int) (pos : Nat) (s2 : State σ) :
    State σ × Next :=
  if a = ACT_IGNORE then (s2, .cont)
  else if a = ACT_OK then ((s2.accept r d).markGrant pos r, .cont)
  else if a = ACT_DONE then
    let s3 := (s2.accept r d).markGrant pos r
    (s3, if s3.verdict.isGood then .decided else .cont)
  else if a = ACT_BAD then ({ s2 with verdict := s2.verdict.reject r }, .cont)
  else if a = ACT_DIE then ({ s2 with verdict := s2.verdict.reject r }, .decided)
  else if a = ACT_RESET then ({ s2 with verdict := entry }, .cont)
  else if 0 < a then
    if replay then
      let s3 := s2.accept r d
      let s4 := if s2.verdict = .none ∧ r = PAM_SUCCESS
                then { s3 with grant := upd s3.grant pos true } else s3
      (s4, .jump a.toNat)
    else (s2, .jump a.toNat)
  else ({ s2 with verdict := .bad PAM_PERM_DENIED }, .cont)

/-- what one module line does to the structured state, and where to go next -/
def stepSpec (replay : Bool) (entry : Verdict) (m : Module σ) (pos : Nat) (s : State σ) :
    State σ ⊕ (State σ × Next) :=
  let r := (m.call s.world).1
  if r = PAM_INCOMPLETE then .inl { s with world := (m.call s.world).2 }
  else
    let s1 := { s with world := (m.call s.world).2, calls := s.calls ++ [(pos, r)] }
    let d := if replay then (if s1.cells pos = INVALID_RETVAL then r else s1.cells pos) else r
    let s2 := if replay then s1 else { s1 with cells := upd s1.cells pos r }
    if d < 0 ∨ 32 ≤ d then .inr ({ s2 with verdict := s2.verdict.reject PAM_PERM_DENIED }, .cont)
    else .inr (actSpec replay entry (m.action d.toNat) r d pos s2)

theorem eval_mod (replay : Bool) (entry : Verdict) (m : Module σ) (rest : Stack σ) (pos : Nat)
    (s : State σ) :
    eval replay entry 0 (.mod m rest) pos s =
      match stepSpec replay entry m pos s with
      | .inl s' => .suspended pos s'
      | .inr (s', .cont) => eval replay entry 0 rest (pos + 1) s'
      | .inr (s', .decided) => .finished s'
      | .inr (s', .jump n) => eval replay entry n rest (pos + 1) s' := by
  rw [eval, stepSpec]
  generalize (m.call s.world).1 = r
  generalize (m.call s.world).2 = w1
  dsimp only
  by_cases h1 : r = PAM_INCOMPLETE
  · rw [if_pos h1, if_pos h1]
  rw [if_neg h1, if_neg h1]
  generalize hd : (if replay then (if s.cells pos = INVALID_RETVAL then r else s.cells pos)
    else r) = d
  generalize hs2 : (if replay then
      ({ s with world := w1, calls := s.calls ++ [(pos, r)] } : State σ)
    else { s with world := w1, calls := s.calls ++ [(pos, r)], cells := upd s.cells pos r }) = s2
  by_cases h2 : d < 0 ∨ 32 ≤ d
  · rw [if_pos h2, if_pos h2]
  rw [if_neg h2, if_neg h2]
  generalize m.action d.toNat = a
  rw [actSpec]
  by_cases h3 : a = ACT_IGNORE
  · rw [if_pos h3, if_pos h3]
  rw [if_neg h3, if_neg h3]
  by_cases h4 : a = ACT_OK
  · rw [if_pos h4, if_pos h4]
  rw [if_neg h4, if_neg h4]
  by_cases h5 : a = ACT_DONE
  · rw [if_pos h5, if_pos h5]
    generalize (State.accept s2 r d).markGrant pos r = s3
    dsimp only
    by_cases hg : s3.verdict.isGood = true
    · rw [if_pos hg, if_pos hg]
    · rw [if_neg hg, if_neg hg]
  rw [if_neg h5, if_neg h5]
  by_cases h6 : a = ACT_BAD
  · rw [if_pos h6, if_pos h6]
  rw [if_neg h6, if_neg h6]
  by_cases h7 : a = ACT_DIE
  · rw [if_pos h7, if_pos h7]
  rw [if_neg h7, if_neg h7]
  by_cases h8 : a = ACT_RESET
  · rw [if_pos h8, if_pos h8]
  rw [if_neg h8, if_neg h8]
  by_cases h9 : 0 < a
  · rw [if_pos h9, if_pos h9]
    cases replay <;> rfl
  · rw [if_neg h9, if_neg h9]

attribute [local simp] ACT_IGNORE ACT_OK ACT_DONE ACT_BAD ACT_DIE ACT_RESET ACT_UNDEF

theorem act_spec (replay : Bool) (entry : Verdict) (a r d : Int) (L pos : Nat) (s : State σ)
    (subs : Nat → Option Sub) (hL : L < SUBSTACK_MAX_LEVEL) (hsub : subs L = some (enc entry))
    (hdr : replay = false → d = r) :
    act (modeOf replay) L pos a r d (toSt s subs) =
      some (toSt (actSpec replay entry a r d pos s).1 subs,
        (actSpec replay entry a r d pos s).2) := by
  obtain ⟨v, cells, grant, world, calls⟩ := s
  unfold actSpec act
  by_cases h3 : a = ACT_IGNORE
  · subst h3; simp
  by_cases h8 : a = ACT_RESET
  · subst h8; simp [hL, hsub, toSt]
  by_cases h6 : a = ACT_BAD
  · subst h6
    cases v <;> simp [toSt, enc, Verdict.reject]
  by_cases h7 : a = ACT_DIE
  · subst h7
    cases v <;> simp [toSt, enc, Verdict.reject]
  by_cases h4 : a = ACT_OK
  · subst h4
    simp only [State.accept, State.markGrant, Verdict.accept]
    cases v <;> simp [toSt, enc] <;> grind [enc, Verdict.isGood]
  by_cases h5 : a = ACT_DONE
  · subst h5
    simp only [State.accept, State.markGrant, Verdict.accept]
    cases v <;> simp [toSt, enc] <;> grind [enc, Verdict.isGood]
  simp only [h3, h4, h5, h6, h7, h8, if_false, false_or]
  by_cases h9 : 0 < a
  · cases replay
    · simp [h9, modeOf]
    · simp only [State.accept, Verdict.accept]
      cases v <;> simp [toSt, enc, h9, modeOf] <;> grind [enc]
  · simp [h9, toSt, enc]

theorem visit_spec (replay : Bool) (entry : Verdict) (m : Module σ) (L pos : Nat) (s : State σ)
    (subs : Nat → Option Sub) (hL : L < SUBSTACK_MAX_LEVEL) (hsub : subs L = some (enc entry)) :
    visit (modeOf replay) (modHandler m L) pos (toSt s subs) =
      match stepSpec replay entry m pos s with
      | .inl s' => some (.inl (toSt s' subs))
      | .inr (s', n) => some (.inr (toSt s' subs, n)) := by
  unfold visit stepSpec
  rw [callModule_modHandler]
  have hw : (toSt s subs).world = s.world := rfl
  rw [hw]
  dsimp only
  generalize (m.call s.world).1 = r
  generalize (m.call s.world).2 = w1
  by_cases h1 : r = PAM_INCOMPLETE
  · rw [if_pos h1, if_pos h1]; rfl
  rw [if_neg h1, if_neg h1]
  generalize hd : (if replay then (if s.cells pos = INVALID_RETVAL then r else s.cells pos)
    else r) = d
  generalize hs2 : (if replay then
      ({ s with world := w1, calls := s.calls ++ [(pos, r)] } : State σ)
    else { s with world := w1, calls := s.calls ++ [(pos, r)], cells := upd s.cells pos r }) = s2
  have hc : cachedRetval (modeOf replay) pos r
      { toSt s subs with world := w1, trace := (toSt s subs).trace ++ [(pos, r)] }
      = (d, toSt s2 subs) := by
    subst hd hs2
    cases replay <;> rfl
  have hdr : replay = false → d = r := by intro h; subst hd; simp [h]
  rw [hc]
  simp only [modHandler_level, modHandler_actions, PAM_RETURN_VALUES]
  by_cases h2 : d < 0 ∨ 32 ≤ d
  · rw [if_pos h2, if_pos (by simpa using h2)]
    obtain ⟨v, cells, grant, world, calls⟩ := s2
    cases v <;> simp [act, toSt, enc, Verdict.reject]
  · rw [if_neg h2, if_neg (by simpa using h2), act_spec replay entry _ r d L pos s2 subs hL hsub hdr]
    rfl

theorem enter_spec (prev L : Nat) (entry : Verdict) (s : State σ) (subs : Nat → Option Sub)
    (hL : L < SUBSTACK_MAX_LEVEL)
    (hentry : (L ≤ prev ∧ subs L = some (enc entry)) ∨ (prev < L ∧ entry = s.verdict)) :
    ∃ subs0, enter prev L (toSt s subs) = some (toSt s subs0) ∧ subs0 L = some (enc entry) ∧
      ∀ l < L, subs0 l = subs l := by
  rcases hentry with ⟨h, hs⟩ | ⟨h, rfl⟩
  · exact ⟨subs, by simp [enter, Nat.not_lt.2 h], hs, fun _ _ => rfl⟩
  · refine ⟨upd subs L (some (enc s.verdict)), by simp [enter, h, hL, toSt], by simp [upd], ?_⟩
    intro l hl; simp [upd]; omega

/-- relation between the structured interpretation of `t` and the flat walk over
`flatten L t ++ K`. -/
def Agrees (mode : Mode) (L : Nat) (t : Stack σ) (K : List (Handler σ)) (depth : Nat)
    (subs : Nat → Option Sub) (lhs : Outcome σ) : Result σ → Prop
  | .finished s' => ∃ subs' prev', L ≤ prev' + 1 ∧ (∀ l < L, subs' l = subs l) ∧
      lhs = loop mode 0 K (depth + t.size) prev' (toSt s' subs')
  | .suspended p s' => ∃ subs', lhs = .incomplete p (toSt s' subs')

theorem Agrees.mono {mode : Mode} {L : Nat} {t t' : Stack σ} {K : List (Handler σ)}
    {depth depth' : Nat} {subs subs' : Nat → Option Sub} {lhs : Outcome σ} {r : Result σ}
    (h : Agrees mode L t K depth subs lhs r) (hd : depth + t.size = depth' + t'.size)
    (hs : ∀ l < L, subs l = subs' l) : Agrees mode L t' K depth' subs' lhs r := by
  cases r with
  | suspended p s => exact h
  | finished s =>
    obtain ⟨subs2, prev', h1, h2, h3⟩ := h
    exact ⟨subs2, prev', h1, fun l hl => (h2 l hl).trans (hs l hl), by rw [h3, hd]⟩

theorem loop_flatten (replay : Bool) : ∀ (n : Nat) (t : Stack σ), t.size ≤ n →
    ∀ (L : Nat) (K : List (Handler σ)) (depth prev : Nat) (s : State σ) (subs : Nat → Option Sub)
      (entry : Verdict),
    L + t.levels ≤ SUBSTACK_MAX_LEVEL → Below L K → L ≤ prev + 1 →
    ((L ≤ prev ∧ subs L = some (enc entry)) ∨ (prev < L ∧ entry = s.verdict)) →
    Agrees (modeOf replay) L t K depth subs
      (loop (modeOf replay) 0 (t.flatten L ++ K) depth prev (toSt s subs))
      (eval replay entry 0 t depth s) := by
  intro n
  induction n with
  | zero =>
    intro t ht L K depth prev s subs entry _ _ hprev _
    cases t with
    | nil => exact ⟨subs, prev, hprev, fun _ _ => rfl, rfl⟩
    | mod m r => simp [Stack.size] at ht
    | sub b r => simp [Stack.size] at ht
  | succ n ih =>
    intro t ht L K depth prev s subs entry hnest hK hprev hentry
    cases t with
    | nil => exact ⟨subs, prev, hprev, fun _ _ => rfl, rfl⟩
    | mod m r =>
      simp only [Stack.size] at ht
      simp only [Stack.levels] at hnest
      obtain ⟨subs0, hent, hs0, hs0'⟩ := enter_spec prev L entry s subs (by omega) hentry
      rw [flatten_mod, List.cons_append, loop, if_neg (by omega), modHandler_level, hent]
      dsimp only
      rw [if_neg (modHandler_htype m L), visit_spec replay entry m L depth s subs0 (by omega) hs0,
        eval_mod]
      rcases stepSpec replay entry m depth s with s' | ⟨s', nx⟩
      · exact ⟨subs0, rfl⟩
      · cases nx with
        | cont =>
          exact (ih r (by omega) L K (depth + 1) L s' subs0 entry (by omega) hK (by omega)
            (Or.inl ⟨Nat.le_refl _, hs0⟩)).mono (by simp [Stack.size]; omega) hs0'
        | decided =>
          refine ⟨subs0, L, by omega, hs0', ?_⟩
          dsimp only
          rw [skipDecided_flatten r L K hK]
          congr 1
          simp [flatten_length, Stack.size]; omega
        | jump k =>
          dsimp only
          rw [skipJump_flatten r L K hK k, eval_skip]
          have hds := drop_size r k
          have hdn := drop_levels r k
          dsimp only
          by_cases hk : k ≤ r.length
          · rw [if_pos hk, if_pos (by omega)]
            have e1 : depth + 1 + ((r.flatten L ++ K).length - ((r.drop k).flatten L ++ K).length)
                = depth + 1 + (r.size - (r.drop k).size) := by
              simp only [List.length_append, flatten_length]; omega
            rw [e1]
            exact (ih (r.drop k) (by omega) L K _ L s' subs0 entry (by omega) hK (by omega)
              (Or.inl ⟨Nat.le_refl _, hs0⟩)).mono (by simp [Stack.size]; omega) hs0'
          · rw [if_neg hk, if_neg (by omega)]
            have e2 : (r.drop k) = .nil := drop_all r k (by omega)
            refine ⟨subs0, L, by omega, hs0', ?_⟩
            rw [e2]
            simp only [Stack.flatten, List.nil_append, List.length_append, flatten_length]
            congr 1
            simp [Stack.size]; omega
    | sub b r =>
      simp only [Stack.size] at ht
      simp only [Stack.levels] at hnest
      obtain ⟨subs0, hent, hs0, hs0'⟩ := enter_spec prev L entry s subs (by omega) hentry
      simp only [Stack.flatten, List.cons_append, List.append_assoc]
      rw [loop, if_neg (by omega)]
      dsimp only
      rw [hent]
      dsimp only
      rw [if_pos rfl, eval]
      have hK' : Below (L + 1) (r.flatten L ++ K) := by
        cases hr : r.flatten L with
        | nil =>
          cases K with
          | nil => trivial
          | cons x xs => simp [Below] at hK ⊢; omega
        | cons x xs =>
          have := flatten_head_level r L x xs hr
          simp [Below]; omega
      have hb := ih b (by omega) (L + 1) (r.flatten L ++ K) (depth + 1) L s subs0 s.verdict
        (by omega) hK' (by omega) (Or.inr ⟨by omega, rfl⟩)
      rcases he : eval replay s.verdict 0 b (depth + 1) s with s' | ⟨p, s'⟩
      · rw [he] at hb
        obtain ⟨subs1, prev1, h1, h2, h3⟩ := hb
        dsimp only
        rw [h3]
        exact (ih r (by omega) L K (depth + 1 + b.size) prev1 s' subs1 entry (by omega) hK
          (by omega) (Or.inl ⟨by omega, by rw [h2 L (by omega), hs0]⟩)).mono
          (by simp [Stack.size]; omega) (fun l hl => by rw [h2 l (by omega), hs0' l hl])
      · rw [he] at hb
        exact hb

/-- the whole walk -/
theorem dispatchAux_flatten (replay : Bool) (t : Stack σ) (e : Env σ)
    (hn : t.levels ≤ SUBSTACK_MAX_LEVEL) :
    obsOutcome (dispatchAux (modeOf replay) (t.flatten 0) none e) = some (run replay t e).obs := by
  have key := loop_flatten replay t.size t (Nat.le_refl _) 0 [] 0 0
    (init e)
    (upd (fun _ => none) 0 (some ⟨.undef, PAM_PERM_DENIED⟩)) .none (by omega) trivial (by omega)
    (Or.inl ⟨Nat.le_refl _, by simp [upd, enc]⟩)
  have hd : dispatchAux (modeOf replay) (t.flatten 0) none e =
      if t.flatten 0 = [] then .done PAM_PERM_DENIED (freshSt e) else
      loop (modeOf replay) 0 (t.flatten 0 ++ []) 0 0 (freshSt e) := by
    cases h : t.flatten 0 with
    | nil => simp [dispatchAux]
    | cons a b => simp [dispatchAux]
  rw [hd]
  unfold run
  have hfr : freshSt e = toSt (init e)
      (upd (fun _ => none) 0 (some ⟨.undef, PAM_PERM_DENIED⟩)) := rfl
  rw [hfr]
  by_cases h0 : t.flatten 0 = []
  · have : t = .nil := by
      cases t with
      | nil => rfl
      | mod m r => simp [flatten_mod] at h0
      | sub b r => simp [Stack.flatten] at h0
    subst this
    simp [Stack.flatten, obsOutcome, eval, Result.obs, Verdict.code, toSt, init]
  · rw [if_neg h0]
    rcases he : eval replay .none 0 t 0
      (init e) with s' | ⟨p, s'⟩
    · rw [he] at key
      obtain ⟨subs', prev', _, _, h3⟩ := key
      rw [h3]
      simp only [loop, finish, obsOutcome, Result.obs, toSt]
      cases s'.verdict <;> simp [enc, Verdict.code]
    · rw [he] at key
      obtain ⟨subs', h3⟩ := key
      rw [h3]
      simp [obsOutcome, Result.obs, toSt]

end Pam.Dispatch
