import Verif.Config.LoadProps
/-
One pass of an application over the stack of a service: the files of libpam put together
(pam_handlers.c, pam_dispatch.c), for modules given as functions on a world.
-/
namespace Pam.Stack
open Pam Pam.Config Pam.Config.Spec
open Pam.Dispatch (Env dispatchAux)
open Pam.Dispatch.Spec (Verdict Stack State Module Body Result eval run)

/-- `Str` is a C string -/
abbrev Str := List Char

variable {σ : Type}

/-- The state of a handle before its first call: no answers are recorded, no line has granted anything
(libpam/pam_handlers.c:816-827). -/
def fresh (w : σ) : Env σ := ⟨fun _ => INVALID_RETVAL, fun _ => false, w, []⟩

/-- The first call of pam_authenticate, pam_acct_mgmt, pam_open_session or pam_chauthtok (one pass) on a new handle: load the
configuration (libpam/pam_handlers.c:405-575), choose the list of the service or that of `other`
(libpam/pam_dispatch.c:354-405), walk it (libpam/pam_dispatch.c:34-318).  `none`: the configuration cannot be loaded, or
a module asks to be called again. -/
def pass (sys : Sys) (svc : Str) (fn : Fn) (dl : Linker σ) (w : σ) : Option (Int × σ) :=
  match initHandlers sys svc with
  | none => none
  | some T =>
    let es := if (T.conf.get fn).isEmpty then T.other.get fn else T.conf.get fn
    match dispatchAux .pleaseFreeze (es.map (link dl)) none (fresh w) with
    | .done c st => some (c, st.world)
    | _ => none

/-! ### The stack of a plain configuration -/

/-- a module line with a readable type, an ordinary control and a module name -/
def plain (ws : List Str) : Bool :=
  match ws with
  | t :: c :: p :: _ =>
    (typeOf t).isSome && t.head? != some '-' && c.map lower != "include".toList && c.map lower != "substack".toList &&
      nameOk (some p)
  | _ => false

/-- the tree of module lines -/
def rowsTree (ty : MType) : List (List Str) → Tree
  | [] => .nil
  | ws :: rest =>
    match ws with
    | t :: c :: p :: args =>
      if typeOf t = some ty then .line .module (actionsOf c) (some p) args (rowsTree ty rest) else rowsTree ty rest
    | _ => rowsTree ty rest

theorem lineMeaning_plain {t c p : Str} {args : List Str} (h : plain (t :: c :: p :: args) = true) :
    ∃ ty, typeOf t = some ty ∧ lineMeaning (t :: c :: p :: args) = ⟨some ty, .module, .module (actionsOf c) (some p) args⟩ := by
  simp only [plain, Bool.and_eq_true, bne_iff_ne, ne_eq] at h
  obtain ⟨⟨⟨⟨h1, h2⟩, h3⟩, h4⟩, -⟩ := h
  obtain ⟨ty, hty⟩ := Option.isSome_iff_exists.mp h1
  refine ⟨ty, hty, ?_⟩
  unfold lineMeaning
  generalize "include".toList = I at *
  generalize "substack".toList = S at *
  simp [h2, h3, h4, hty]

theorem expand_plain (load : Option Str → Tree × Bool) (ty : MType) (rows : List (List Str)) (h : rows.all plain = true) :
    expand load .auth ty (rows.map lineMeaning) = (rowsTree ty rows, true) := by
  induction rows with
  | nil => rfl
  | cons ws rest ih =>
    rw [List.all_cons, Bool.and_eq_true] at h
    have ih := ih h.2
    match ws, h.1 with
    | t :: c :: p :: args, hp =>
      obtain ⟨ty', hty, hm⟩ := lineMeaning_plain hp
      have hn : nameOk (some p) = true := by
        simp only [plain, Bool.and_eq_true] at hp; exact hp.2
      rw [List.map_cons, hm, expand, ih]
      simp only [rowsTree, hty, Option.getD_some, Option.some.injEq, hn, if_true]
      by_cases e : ty' = ty <;> simp [e]

/-- what a file of module lines describes -/
theorem stackOf_plain (sys : Sys) (svc bytes : Str) (ty : MType) (rows : List (List Str)) (ho : openConfig sys svc = some bytes)
    (hl : (fileLines ' ' bytes).1.map mkargv = rows) (hp : rows.all plain = true) :
    stackOf sys svc ty = rowsTree ty rows := by
  unfold stackOf
  rw [ho]
  dsimp only
  have : (fileLines ' ' bytes).1.map (fun l => lineMeaning (mkargv l)) = rows.map lineMeaning := by
    rw [← hl, List.map_map]; rfl
  rw [this, expand_plain _ _ _ hp]

/-- A pass over a stack that is not empty is the structured interpretation of what the file describes. -/
theorem pass_run (sys : Sys) (svc : Str) (T : Tables) (fn : Fn) (dl : Linker σ) (w : σ)
    (hdir : sys.confdir.isSome ∨ sys.haveDir) (hsvc : ieq svc otherName = false)
    (h : initHandlers sys svc = some T) (hf : fn.first = true) (hne : (stackOf sys svc fn.mtype).flatten 0 ≠ [])
    (s : State σ) (hr : run false (toStack dl (stackOf sys svc fn.mtype)) (fresh w) = .finished s) :
    pass sys svc fn dl w = some (s.verdict.code, s.world) := by
  have h1 := ((C43_loaded_stacks sys svc T hdir hsvc h fn).1 hf).1
  have h2 := C43_call_is_structured_semantics sys svc T hdir hsvc h fn hf dl false (fresh w)
  unfold pass
  rw [h]
  dsimp only
  have : (T.conf.get fn).isEmpty = false := by
    rw [h1]; cases hq : (stackOf sys svc fn.mtype).flatten 0 with
    | nil => exact absurd hq hne
    | cons a b => rfl
  rw [this]
  rw [hr] at h2
  simp only [Bool.false_eq_true, if_false] at h2 ⊢
  generalize dispatchAux _ _ _ _ = x at h2
  cases x with
  | done c st =>
    simp only [Dispatch.Spec.obsOutcome, Dispatch.Spec.Result.obs, Option.some.injEq, Dispatch.Spec.Obs.finished.injEq] at h2
    obtain ⟨e1, -, -, e2, -⟩ := h2
    simp [e1, e2]
  | incomplete p st => simp [Dispatch.Spec.obsOutcome, Dispatch.Spec.Result.obs] at h2
  | ub => simp [Dispatch.Spec.obsOutcome] at h2

/-! ### One line at a time -/

/-- the line answers `r` and leaves the world as `w` -/
structure Answers (b : Body σ) (s : State σ) (r : Int) (w : σ) : Prop where
  call : (Module.mk b (fun _ => 0)).call s.world = (r, w)
  whole : r ≠ PAM_INCOMPLETE

/-- the code that a failing answer contributes -/
def badCode (r : Int) : Int := if r < 0 ∨ 32 ≤ r then PAM_PERM_DENIED else r

theorem line_bad {b : Body σ} {s : State σ} {r : Int} {w : σ} (ha : Answers b s r w) (a : Nat → Int) (entry : Verdict)
    (rest : Stack σ) (pos : Nat) (hb : r < 0 ∨ 32 ≤ r ∨ a r.toNat = ACT_BAD) :
    ∃ s', s'.verdict = s.verdict.reject (badCode r) ∧ s'.world = w ∧
      eval false entry 0 (.mod ⟨b, a⟩ rest) pos s = eval false entry 0 rest (pos + 1) s' := by
  have hc : (Module.mk b a).call s.world = (r, w) := ha.call
  conv => enter [1, s', 2, 2]; rw [eval]; rw [hc]; dsimp only
  simp only [if_neg ha.whole, Bool.false_eq_true, if_false]
  by_cases hv : r < 0 ∨ 32 ≤ r
  · simp only [if_pos hv]
    refine ⟨_, ?_, ?_, rfl⟩
    · simp [badCode, hv]
    · rfl
  · have hact : a r.toNat = ACT_BAD := by
      rcases hb with h | h | h
      · exact absurd (Or.inl h) hv
      · exact absurd (Or.inr h) hv
      · exact h
    simp only [if_neg hv, hact, if_neg (by decide : ¬ ACT_BAD = ACT_IGNORE), if_neg (by decide : ¬ ACT_BAD = ACT_OK),
      if_neg (by decide : ¬ ACT_BAD = ACT_DONE), if_true]
    refine ⟨_, ?_, ?_, rfl⟩
    · simp [badCode, hv]
    · rfl

theorem line_die {b : Body σ} {s : State σ} {r : Int} {w : σ} (ha : Answers b s r w) (a : Nat → Int) (entry : Verdict)
    (rest : Stack σ) (pos : Nat) (hv : ¬ (r < 0 ∨ 32 ≤ r)) (hact : a r.toNat = ACT_DIE) :
    ∃ s', s'.verdict = s.verdict.reject r ∧ s'.world = w ∧
      eval false entry 0 (.mod ⟨b, a⟩ rest) pos s = .finished s' := by
  have hc : (Module.mk b a).call s.world = (r, w) := ha.call
  conv => enter [1, s', 2, 2]; rw [eval]; rw [hc]; dsimp only
  simp only [if_neg ha.whole, Bool.false_eq_true, if_false, if_neg hv, hact, if_neg (by decide : ¬ ACT_DIE = ACT_IGNORE),
    if_neg (by decide : ¬ ACT_DIE = ACT_OK), if_neg (by decide : ¬ ACT_DIE = ACT_DONE),
    if_neg (by decide : ¬ ACT_DIE = ACT_BAD), if_true]
  exact ⟨_, rfl, rfl, rfl⟩

theorem line_ignore {b : Body σ} {s : State σ} {r : Int} {w : σ} (ha : Answers b s r w) (a : Nat → Int) (entry : Verdict)
    (rest : Stack σ) (pos : Nat) (hv : ¬ (r < 0 ∨ 32 ≤ r)) (hact : a r.toNat = ACT_IGNORE) :
    ∃ s', s'.verdict = s.verdict ∧ s'.world = w ∧
      eval false entry 0 (.mod ⟨b, a⟩ rest) pos s = eval false entry 0 rest (pos + 1) s' := by
  have hc : (Module.mk b a).call s.world = (r, w) := ha.call
  conv => enter [1, s', 2, 2]; rw [eval]; rw [hc]; dsimp only
  simp only [if_neg ha.whole, Bool.false_eq_true, if_false, if_neg hv, hact, if_true]
  refine ⟨_, ?_, ?_, rfl⟩ <;> rfl

theorem accept_facts (t : State σ) (r : Int) (i : Nat) : ((t.accept r r).markGrant i r).verdict = t.verdict.accept r ∧
    ((t.accept r r).markGrant i r).world = t.world := by
  have : t.accept r r = { t with verdict := t.verdict.accept r } := by simp [State.accept]
  rw [this]
  unfold State.markGrant
  split <;> simp

theorem line_ok {b : Body σ} {s : State σ} {r : Int} {w : σ} (ha : Answers b s r w) (a : Nat → Int) (entry : Verdict)
    (rest : Stack σ) (pos : Nat) (hv : ¬ (r < 0 ∨ 32 ≤ r)) (hact : a r.toNat = ACT_OK) :
    ∃ s', s'.verdict = s.verdict.accept r ∧ s'.world = w ∧
      eval false entry 0 (.mod ⟨b, a⟩ rest) pos s = eval false entry 0 rest (pos + 1) s' := by
  have hc : (Module.mk b a).call s.world = (r, w) := ha.call
  conv => enter [1, s', 2, 2]; rw [eval]; rw [hc]; dsimp only
  simp only [if_neg ha.whole, Bool.false_eq_true, if_false, if_neg hv, hact, if_neg (by decide : ¬ ACT_OK = ACT_IGNORE), if_true]
  refine ⟨_, ?_, ?_, rfl⟩
  · exact (accept_facts _ _ _).1
  · exact (accept_facts _ _ _).2

theorem line_done {b : Body σ} {s : State σ} {r : Int} {w : σ} (ha : Answers b s r w) (a : Nat → Int) (entry : Verdict)
    (rest : Stack σ) (pos : Nat) (hv : ¬ (r < 0 ∨ 32 ≤ r)) (hact : a r.toNat = ACT_DONE) :
    ∃ s', s'.verdict = s.verdict.accept r ∧ s'.world = w ∧
      eval false entry 0 (.mod ⟨b, a⟩ rest) pos s =
        if (s.verdict.accept r).isGood then .finished s' else eval false entry 0 rest (pos + 1) s' := by
  have hc : (Module.mk b a).call s.world = (r, w) := ha.call
  conv => enter [1, s', 2, 2]; rw [eval]; rw [hc]; dsimp only
  simp only [if_neg ha.whole, Bool.false_eq_true, if_false, if_neg hv, hact, if_neg (by decide : ¬ ACT_DONE = ACT_IGNORE),
    if_neg (by decide : ¬ ACT_DONE = ACT_OK), if_true]
  generalize hs2 : (State.mk s.verdict (Dispatch.upd s.cells pos r) s.grant w (s.calls ++ [(pos, r)]) : State σ) = s2
  have e1 : s2.verdict = s.verdict := by rw [← hs2]
  have e2 : s2.world = w := by rw [← hs2]
  obtain ⟨k1, k2⟩ := accept_facts s2 r pos
  exact ⟨_, k1.trans (by rw [e1]), k2.trans e2, by rw [k1, e1]⟩

theorem line_jump {b : Body σ} {s : State σ} {r : Int} {w : σ} (ha : Answers b s r w) (a : Nat → Int) (entry : Verdict)
    (rest : Stack σ) (pos n : Nat) (hv : ¬ (r < 0 ∨ 32 ≤ r)) (hact : a r.toNat = (n : Int)) (hn : 0 < n) :
    ∃ s', s'.verdict = s.verdict ∧ s'.world = w ∧
      eval false entry 0 (.mod ⟨b, a⟩ rest) pos s = eval false entry n rest (pos + 1) s' := by
  have hc : (Module.mk b a).call s.world = (r, w) := ha.call
  conv => enter [1, s', 2, 2]; rw [eval]; rw [hc]; dsimp only
  have h0 : (0 : Int) < n := by omega
  simp only [if_neg ha.whole, Bool.false_eq_true, if_false, if_neg hv, hact]
  rw [if_neg (by simp only [ACT_IGNORE]; omega), if_neg (by simp only [ACT_OK]; omega), if_neg (by simp only [ACT_DONE]; omega),
    if_neg (by simp only [ACT_BAD]; omega), if_neg (by simp only [ACT_DIE]; omega), if_neg (by simp only [ACT_RESET]; omega), if_pos h0]
  refine ⟨_, ?_, ?_, rfl⟩ <;> rfl

end Pam.Stack
