import Verif.Dispatch.Frozen
namespace Pam.Dispatch
open Spec

variable {σ : Type}

/-- The four classic control flags. -/
inductive Flag
  | required | requisite | sufficient | optional
deriving DecidableEq, Repr

/-- The action tables built for the classic control flags: libpam/pam_handlers.c:163-184 together
with `_pam_set_default_control`, libpam/pam_misc.c:230-239. -/
def classicActions (fl : Flag) (code : Nat) : Int :=
  match fl with
  | .required =>
    if code = 0 then ACT_OK else if code = 12 then ACT_OK else if code = 25 then ACT_IGNORE
    else ACT_BAD
  | .requisite =>
    if code = 0 then ACT_OK else if code = 12 then ACT_OK else if code = 25 then ACT_IGNORE
    else ACT_DIE
  | .optional => if code = 0 then ACT_OK else if code = 12 then ACT_OK else ACT_IGNORE
  | .sufficient => if code = 0 then ACT_DONE else if code = 12 then ACT_DONE else ACT_IGNORE

/-- the stack made of classic lines -/
def classicStack : List (Flag × Body σ) → Stack σ
  | [] => .nil
  | (fl, b) :: rest => .mod ⟨b, classicActions fl⟩ (classicStack rest)

/-! ### Specification: what the manual says, over the list of answers -/
namespace ClassicSpec

/-- a positive answer -/
def pos (r : Int) : Bool := r = PAM_SUCCESS || r = PAM_NEW_AUTHTOK_REQD

/-- a PAM return code -/
def valid (r : Int) : Bool := decide (0 ≤ r ∧ r < 32)

/-- the line fails the stack: it is required or requisite and did not succeed (and was not
ignored), or its answer is no PAM code at all -/
def fails (p : Flag × Int) : Bool :=
  !valid p.2 || ((p.1 == .required || p.1 == .requisite) && !pos p.2 && !(p.2 == PAM_IGNORE))

/-- does the walk end after this line? (`failed`: some earlier line failed the stack) -/
def stops (failed : Bool) (p : Flag × Int) : Bool :=
  (p.1 == .requisite && fails p && valid p.2) || (p.1 == .sufficient && pos p.2 && !failed)

/-- the lines that are run -/
def executed (failed : Bool) : List (Flag × Int) → List (Flag × Int)
  | [] => []
  | p :: t => if stops failed p then [p] else p :: executed (failed || fails p) t

/-- the result of the stack, from the lines that were run -/
def result (ex : List (Flag × Int)) : Int :=
  match ex.find? fails with
  | some p => if valid p.2 then p.2 else PAM_PERM_DENIED
  | none =>
    let good := (ex.map Prod.snd).filter pos
    match good.find? (· ≠ PAM_SUCCESS) with
    | some r => r
    | none => if good = [] then PAM_PERM_DENIED else PAM_SUCCESS

end ClassicSpec

/-- the answers of all lines if they were run one after the other -/
def answers : List (Flag × Body σ) → σ → List (Flag × Int)
  | [], _ => []
  | (fl, b) :: rest, w =>
    (fl, ((Module.mk b (fun _ => 0)).call w).1) :: answers rest ((Module.mk b (fun _ => 0)).call w).2

/-! ### Proof -/
open ClassicSpec

/-- effect of one line on the verdict -/
def vstep (v : Verdict) (p : Flag × Int) : Verdict :=
  if fails p then v.reject (if valid p.2 then p.2 else PAM_PERM_DENIED)
  else if pos p.2 then v.accept p.2 else v

def vfold : Verdict → List (Flag × Int) → Verdict
  | v, [] => v
  | v, p :: t => vfold (vstep v p) t

def isBad : Verdict → Bool
  | .bad _ => true
  | _ => false

theorem isBad_vstep (v : Verdict) (p : Flag × Int) : isBad (vstep v p) = (isBad v || fails p) := by
  unfold vstep
  cases h : fails p
  · simp only [if_false, Bool.or_false, reduceCtorEq]
    split
    · cases v with
      | none => rfl
      | good c => simp only [Verdict.accept]; by_cases hc : c = PAM_SUCCESS <;> simp [hc, isBad]
      | bad c => rfl
    · rfl
  · cases v <;> simp [Verdict.reject, isBad]

theorem stops_oor (failed : Bool) (fl : Flag) (r : Int) (hv : r < 0 ∨ 32 ≤ r) :
    stops failed (fl, r) = false := by
  have hval : valid r = false := by simp only [valid, decide_eq_false_iff_not]; omega
  have hp : pos r = false := by
    simp only [pos, PAM_SUCCESS, PAM_NEW_AUTHTOK_REQD, Bool.or_eq_false_iff,
      decide_eq_false_iff_not]; omega
  simp [stops, hval, hp]

theorem stepSpec_classic (entry : Verdict) (fl : Flag) (b : Body σ) (i : Nat) (s : State σ) (r : Int)
    (w : σ) (hcall : (Module.mk b (classicActions fl)).call s.world = (r, w))
    (hne : r ≠ PAM_INCOMPLETE) :
    ∃ s', s'.verdict = vstep s.verdict (fl, r) ∧ s'.world = w ∧ s'.calls = s.calls ++ [(i, r)] ∧
      stepSpec false entry ⟨b, classicActions fl⟩ i s =
        .inr (s', if stops (isBad s.verdict) (fl, r) then .decided else .cont) := by
  unfold stepSpec
  rw [hcall]
  dsimp only
  rw [if_neg hne]
  by_cases hv : r < 0 ∨ 32 ≤ r
  · have hval : valid r = false := by simp only [valid, decide_eq_false_iff_not]; omega
    have hf : fails (fl, r) = true := by simp [fails, hval]
    have hp : pos r = false := by
      simp only [pos, PAM_SUCCESS, PAM_NEW_AUTHTOK_REQD, Bool.or_eq_false_iff,
        decide_eq_false_iff_not]; omega
    simp only [Bool.false_eq_true, if_false, hv, if_true, stops_oor _ fl r hv]
    refine ⟨_, ?_, ?_, ?_, rfl⟩
    · simp [vstep, hf, hval]
    · rfl
    · rfl
  · have h0 : 0 ≤ r := by omega
    have hval : valid r = true := by simp only [valid, decide_eq_true_eq]; omega
    simp only [Bool.false_eq_true, if_false, hv]
    generalize hs2 : ({ s with world := w, calls := s.calls ++ [(i, r)], cells := upd s.cells i r }
      : State σ) = s2
    have e1 : s2.verdict = s.verdict := by rw [← hs2]
    have e2 : s2.world = w := by rw [← hs2]
    have e3 : s2.calls = s.calls ++ [(i, r)] := by rw [← hs2]
    have hacc : ∀ t : State σ, ((t.accept r r).markGrant i r).verdict = t.verdict.accept r ∧
        ((t.accept r r).markGrant i r).world = t.world ∧
        ((t.accept r r).markGrant i r).calls = t.calls := by
      intro t
      have : t.accept r r = { t with verdict := t.verdict.accept r } := by simp [State.accept]
      rw [this]
      unfold State.markGrant
      split <;> simp
    have hgood : ∀ v : Verdict, (v.accept r).isGood = !isBad v := by
      intro v
      cases v with
      | none => rfl
      | good c => simp only [Verdict.accept]; by_cases hc : c = PAM_SUCCESS <;> simp [hc, isBad, Verdict.isGood]
      | bad c => rfl
    by_cases hr0 : r = 0 ∨ r = 12
    · have hp : pos r = true := by
        simp only [pos, PAM_SUCCESS, PAM_NEW_AUTHTOK_REQD, Bool.or_eq_true, decide_eq_true_eq]; exact hr0
      have hf : fails (fl, r) = false := by simp [fails, hval, hp]
      have hvs : vstep s.verdict (fl, r) = s.verdict.accept r := by simp [vstep, hf, hp]
      have hact : classicActions fl r.toNat = if fl = .sufficient then ACT_DONE else ACT_OK := by
        rcases hr0 with rfl | rfl <;> cases fl <;> simp [classicActions]
      rw [hact, hvs]
      obtain ⟨k1, k2, k3⟩ := hacc s2
      by_cases hfl : fl = .sufficient
      · refine ⟨(s2.accept r r).markGrant i r, by rw [k1, e1], by rw [k2, e2], by rw [k3, e3], ?_⟩
        rw [if_pos hfl]
        simp only [actSpec, ACT_DONE, ACT_IGNORE, ACT_OK]
        simp [k1, e1, hgood, stops, hfl, hp]
      · refine ⟨(s2.accept r r).markGrant i r, by rw [k1, e1], by rw [k2, e2], by rw [k3, e3], ?_⟩
        rw [if_neg hfl]
        simp [actSpec, ACT_OK, ACT_IGNORE, stops, hfl, hf]
    · have hp : pos r = false := by
        simp only [pos, PAM_SUCCESS, PAM_NEW_AUTHTOK_REQD, Bool.or_eq_false_iff,
          decide_eq_false_iff_not]; omega
      by_cases hi : r = 25 ∨ fl = .sufficient ∨ fl = .optional
      · have hf : fails (fl, r) = false := by
          simp only [fails, hval, hp, PAM_IGNORE]
          rcases hi with rfl | rfl | rfl <;> simp
        have hact : classicActions fl r.toNat = ACT_IGNORE := by
          have h1 : r.toNat ≠ 0 := by omega
          have h2 : r.toNat ≠ 12 := by omega
          rcases hi with rfl | rfl | rfl
          · cases fl <;> simp [classicActions]
          · simp [classicActions, h1, h2]
          · simp [classicActions, h1, h2]
        rw [hact]
        refine ⟨s2, by rw [e1]; simp [vstep, hf, hp], e2, e3, ?_⟩
        simp [actSpec, stops, hf, hp]
      · have h1 : r.toNat ≠ 0 := by omega
        have h2 : r.toNat ≠ 12 := by omega
        have h3 : r.toNat ≠ 25 := by omega
        have hig : r ≠ 25 := by omega
        have hf : fails (fl, r) = true := by
          simp only [fails, hval, hp, PAM_IGNORE]
          cases fl <;> simp_all
        refine ⟨{ s2 with verdict := s2.verdict.reject r }, ?_, e2, e3, ?_⟩
        · simp [vstep, hf, hval, e1]
        · cases fl with
          | sufficient => simp at hi
          | optional => simp at hi
          | required =>
            simp [classicActions, h1, h2, h3, actSpec, stops, ACT_BAD, ACT_IGNORE, ACT_OK, ACT_DONE]
          | requisite =>
            simp [classicActions, h1, h2, h3, actSpec, stops, ACT_BAD, ACT_IGNORE, ACT_OK, ACT_DONE,
              ACT_DIE, hf, hval]


theorem eval_classic (lines : List (Flag × Body σ))
    (hne : ∀ p ∈ lines, ∀ f, p.2 = .fn f → ∀ w, (f w).1 ≠ PAM_INCOMPLETE) :
    ∀ (entry : Verdict) (i : Nat) (s : State σ),
    ∃ s', eval false entry 0 (classicStack lines) i s = .finished s' ∧
      s'.verdict = vfold s.verdict (executed (isBad s.verdict) (answers lines s.world)) ∧
      s'.calls = s.calls ++
        ((executed (isBad s.verdict) (answers lines s.world)).zipIdx i).map (fun q => (q.2, q.1.2)) := by
  induction lines with
  | nil =>
    intro entry i s
    exact ⟨s, by simp [classicStack, eval], by simp [answers, executed, vfold],
      by simp [answers, executed]⟩
  | cons p rest ih =>
    intro entry i s
    obtain ⟨fl, b⟩ := p
    obtain ⟨r, w, hrw⟩ : ∃ r w, (Module.mk b (fun _ => 0)).call s.world = (r, w) := ⟨_, _, rfl⟩
    have hcall : (Module.mk b (classicActions fl)).call s.world = (r, w) := by rw [← hrw]; rfl
    have hr : r ≠ PAM_INCOMPLETE := by
      have : r = ((Module.mk b (fun _ => 0)).call s.world).1 := by rw [hrw]
      rw [this]
      cases b with
      | broken => simp [Module.call, PAM_PERM_DENIED, PAM_INCOMPLETE]
      | missing => simp [Module.call, PAM_MODULE_UNKNOWN, PAM_INCOMPLETE]
      | fn f => exact hne (fl, .fn f) (by simp) f rfl s.world
    obtain ⟨s', h1, h2, h3, h4⟩ := stepSpec_classic entry fl b i s r w hcall hr
    rw [classicStack, eval_mod, h4]
    have hans : answers ((fl, b) :: rest) s.world = (fl, r) :: answers rest s'.world := by
      rw [answers, h2, hrw]
    rw [hans]
    cases hst : stops (isBad s.verdict) (fl, r) with
    | true =>
      simp only [if_true, executed, hst]
      exact ⟨s', rfl, by simp [vfold, h1], by simp [h3]⟩
    | false =>
      obtain ⟨s'', k1, k2, k3⟩ := ih (fun p hp => hne p (by simp [hp])) entry (i + 1) s'
      rw [h1, isBad_vstep] at k2
      rw [h1, isBad_vstep] at k3
      refine ⟨s'', by simpa using k1, ?_, ?_⟩
      · simp only [executed, hst]; simpa [vfold] using k2
      · simp only [executed, hst]; simp [k3, h3]

theorem vfold_bad (c : Int) (ex : List (Flag × Int)) : vfold (.bad c) ex = .bad c := by
  induction ex with
  | nil => rfl
  | cons p t ih =>
    rw [vfold]
    have : vstep (.bad c) p = .bad c := by
      unfold vstep; split
      · rfl
      · split <;> rfl
    rw [this, ih]

theorem vfold_code (ex : List (Flag × Int)) : (vfold .none ex).code = result ex := by
  -- generalise over the verdict reached by positive answers only
  have gen : ∀ (ex : List (Flag × Int)) (good : List Int), (∀ r ∈ good, pos r = true) →
      (vfold (match good.find? (· ≠ PAM_SUCCESS) with
        | some r => .good r
        | none => if good = [] then Verdict.none else .good PAM_SUCCESS) ex).code =
      match ex.find? fails with
      | some p => if valid p.2 then p.2 else PAM_PERM_DENIED
      | none =>
        match (good ++ (ex.map Prod.snd).filter pos).find? (· ≠ PAM_SUCCESS) with
        | some r => r
        | none => if good ++ (ex.map Prod.snd).filter pos = [] then PAM_PERM_DENIED else PAM_SUCCESS := by
    intro ex
    induction ex with
    | nil =>
      intro good hg
      simp only [vfold, List.find?_nil, List.map_nil, List.filter_nil, List.append_nil]
      cases hf : good.find? (· ≠ PAM_SUCCESS) with
      | some r => rfl
      | none => by_cases h : good = [] <;> simp [h, Verdict.code]
    | cons p t ih =>
      intro good hg
      rw [vfold]
      cases hf : fails p with
      | true =>
        have hnp : (if valid p.2 then p.2 else PAM_PERM_DENIED) ≠ PAM_SUCCESS ∧
            (if valid p.2 then p.2 else PAM_PERM_DENIED) ≠ PAM_IGNORE := by
          by_cases hv : valid p.2 = true
          · simp only [hv, if_true]
            simp only [fails, hv, Bool.not_true, Bool.false_or, Bool.and_eq_true,
              Bool.not_eq_true', pos, Bool.or_eq_false_iff, decide_eq_false_iff_not, beq_eq_false_iff_ne] at hf
            exact ⟨hf.1.2.1, hf.2⟩
          · simp [hv, PAM_PERM_DENIED, PAM_SUCCESS, PAM_IGNORE]
        have hst : ∀ v, isBad v = false → vstep v p = .bad (if valid p.2 then p.2 else PAM_PERM_DENIED) := by
          intro v hv
          rw [vstep, if_pos hf]
          cases v with
          | bad c => simp [isBad] at hv
          | none => simp only [Verdict.reject]; rw [if_neg hnp.2]
          | good c => simp only [Verdict.reject]; rw [if_neg hnp.2]
        rw [hst _ (by
          split
          · rfl
          · split <;> rfl), vfold_bad]
        simp only [List.find?_cons, hf, Verdict.code]
        rw [if_neg hnp.1]
      | false =>
        simp only [List.find?_cons, hf]
        by_cases hp : pos p.2 = true
        · have := ih (good ++ [p.2]) (by
            intro r hr; rcases List.mem_append.1 hr with h | h
            · exact hg r h
            · simp at h; rw [h]; exact hp)
          simp only [List.map_cons, List.filter_cons, hp, if_true]
          rw [List.append_assoc, List.singleton_append] at this
          rw [← this]
          congr 2
          rw [vstep, hf]
          simp only [Bool.false_eq_true, if_false, hp, if_true, List.find?_append]
          cases hgf : good.find? (· ≠ PAM_SUCCESS) with
          | some r =>
            have hr : r ≠ PAM_SUCCESS := by simpa using List.find?_some hgf
            simp [Verdict.accept, hr]
          | none =>
            by_cases hge : good = []
            · by_cases hz : p.2 = PAM_SUCCESS <;> simp [hge, Verdict.accept, hz]
            · by_cases hz : p.2 = PAM_SUCCESS <;> simp [hge, Verdict.accept, hz]
        · have := ih good hg
          simp only [List.map_cons, List.filter_cons, hp, if_false, Bool.false_eq_true]
          rw [← this]
          congr 2
          rw [vstep, hf]
          simp [hp]
  have := gen ex [] (by simp)
  simpa [result] using this

end Pam.Dispatch
