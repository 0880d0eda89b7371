import Verif.Dispatch.Levels
/-
Property theorems about walking a stack (C01-C08).  Vocabulary: `Walk`, `Accepts`, `deciding`,
`Failing`, `failCode` and the structured semantics are in Spec.lean, the classic-flag
specification in Classic.lean (`ClassicSpec`), `Completes`/`PatientOf` in Resume.lean.
-/
namespace Pam.Dispatch
open Spec

set_option linter.unusedSimpArgs false

variable {σ τ : Type}

/-! ## A concrete handle state used by the witnesses -/

/-- nothing recorded yet; the world is a counter of calls -/
def exEnv : Env Nat := ⟨fun _ => INVALID_RETVAL, fun _ => false, 0, []⟩

/-- a classic line whose module counts its calls and answers `r` -/
def exLine (fl : Flag) (r : Int) : Handler Nat :=
  ⟨.module, some (fun n => (r, n + 1)), classicActions fl, 0⟩

/-! ## C01 -/

/-- C01: success of a walk means that a line of the stack with a loaded module really answered
PAM_SUCCESS during this walk, that its answer was one the control accepts (`ok`/`done`; when a
frozen chain is replayed the recorded answer selects the action, and a jump accepts too), and that
it is recorded as a grantor. -/
theorem C01_success_needs_granting_module (mode : Mode) (hs : List (Handler σ)) (e : Env σ)
    (he : e.trace = []) (st : St σ) (hw : Walk mode hs e (.done PAM_SUCCESS st)) :
    ∃ i h f w, hs[i]? = some h ∧ h.htype ≠ .mustFail ∧ h.htype ≠ .substack ∧
      h.func = some f ∧ (f w).1 = PAM_SUCCESS ∧ (i, PAM_SUCCESS) ∈ st.trace ∧ st.grant i = true ∧
      0 ≤ deciding mode i PAM_SUCCESS e.cells ∧ deciding mode i PAM_SUCCESS e.cells < 32 ∧
      Accepts mode (h.actions (deciding mode i PAM_SUCCESS e.cells).toNat) := by
  have hp := walk_prov mode hs e he _ hw
  have hc := walk_done_code mode hs e _ _ hw
  rcases hc with ⟨_, hc⟩ | hc
  · simp [PAM_SUCCESS, PAM_PERM_DENIED] at hc
  have hsp : st.status = PAM_SUCCESS ∧ st.imp = .positive := by
    by_cases h1 : st.status = PAM_SUCCESS
    · by_cases h2 : st.imp = .positive
      · exact ⟨h1, h2⟩
      · simp [h1, h2, PAM_SUCCESS, PAM_PERM_DENIED] at hc
    · simp [h1] at hc; exact absurd hc.symm h1
  obtain ⟨hg, _, _, hans⟩ := hp
  rcases hg with ⟨h, _⟩ | ⟨_, _, h⟩ | ⟨h, _⟩
  · rw [hsp.2] at h; cases h
  · obtain ⟨i, h, h1, h2, h3, h4, h5, h6⟩ := h hsp.1
    obtain ⟨h', k1, k2, _, k3⟩ := hans _ h2
    rw [h1] at k1; injection k1 with k1; subst k1
    rcases k3 with ⟨_, k3⟩ | ⟨_, _, k3⟩ | ⟨k3, f, k4, w, k5⟩
    · simp [PAM_SUCCESS, PAM_PERM_DENIED] at k3
    · simp [PAM_SUCCESS, PAM_MODULE_UNKNOWN] at k3
    · exact ⟨i, h, f, w, h1, k3, k2, k4, k5, h2, h3, h4, h5, h6⟩
  · rw [hsp.2] at h; cases h

/-- witness: an optional line that is ignored, then a required line that succeeds -/
example : ∃ st, Walk .pleaseFreeze [exLine .optional PAM_AUTH_ERR, exLine .required PAM_SUCCESS] exEnv
    (.done PAM_SUCCESS st) ∧ exEnv.trace = [] := by
  have : ∃ st, dispatchAux .pleaseFreeze
      [exLine .optional PAM_AUTH_ERR, exLine .required PAM_SUCCESS] none exEnv = .done PAM_SUCCESS st := by
    simp [dispatchAux, loop, enter, visit, callModule, cachedRetval, act, exLine, freshSt, classicActions,
      PAM_INCOMPLETE, PAM_RETURN_VALUES, INVALID_RETVAL, ACT_IGNORE, ACT_OK, ACT_BAD, ACT_DIE, ACT_DONE, ACT_RESET, PAM_SUCCESS,
      PAM_AUTH_ERR, finish, upd, PAM_IGNORE, PAM_PERM_DENIED]
  obtain ⟨st, h⟩ := this
  exact ⟨st, by rw [← h]; exact .first, rfl⟩

/-! ## C02 -/

/-- C02: in a stack without `reset`, let `p` be the first answer of the walk that fails its line
(its action is `bad` or `die`, or the code is no PAM code).  Then the walk does not return
PAM_SUCCESS; it returns the code of that failure, or PAM_PERM_DENIED (after a bad jump). -/
theorem C02_failure_never_masked (mode : Mode) (hs : List (Handler σ)) (e : Env σ)
    (he : e.trace = []) (hreset : ∀ h ∈ hs, ∀ k < 32, h.actions k ≠ ACT_RESET)
    (c : Int) (st : St σ) (hw : Walk mode hs e (.done c st))
    (pre : List (Nat × Int)) (p : Nat × Int) (post : List (Nat × Int))
    (htr : st.trace = pre ++ p :: post) (h : Handler σ) (hh : hs[p.1]? = some h)
    (hfail : Failing h (deciding mode p.1 p.2 e.cells))
    (hfirst : ∀ q ∈ pre, ∀ h', hs[q.1]? = some h' → ¬ Failing h' (deciding mode q.1 q.2 e.cells)) :
    c ≠ PAM_SUCCESS ∧
      (c = failCode p.2 (deciding mode p.1 p.2 e.cells) ∨ c = PAM_PERM_DENIED) ∧
      ((∀ h ∈ hs, ∀ k < 32, h.actions k ∈ [ACT_IGNORE, ACT_OK, ACT_DONE, ACT_BAD, ACT_DIE]) →
        c = failCode p.2 (deciding mode p.1 p.2 e.cells)) := by
  have hi := walk_fail mode hs e he
    (∀ h ∈ hs, ∀ k < 32, h.actions k ∈ [ACT_IGNORE, ACT_OK, ACT_DONE, ACT_BAD, ACT_DIE]) hreset
    (fun h => h) _ hw
  have hc := walk_done_code mode hs e _ _ hw
  have hfind : st.trace.find? (isFail mode hs e) = some p := by
    rw [htr, List.find?_append]
    have : pre.find? (isFail mode hs e) = none := by
      rw [List.find?_eq_none]
      intro q hq hqf
      unfold isFail at hqf
      split at hqf
      · next h' hh' => exact hfirst q hq h' hh' (by simpa using hqf)
      · cases hqf
    rw [this]
    simp [isFail, hh, hfail]
  obtain ⟨_, _, h3⟩ := hi
  obtain ⟨hneg, hcode⟩ := h3 p hfind
  have hcs : c = if st.status = PAM_SUCCESS then PAM_PERM_DENIED else st.status := by
    rcases hc with ⟨h0, _⟩ | hc
    · subst h0; simp at hh
    · rw [hc]; simp [hneg]
  refine ⟨?_, ?_, ?_⟩
  · rw [hcs]; split
    · simp [PAM_SUCCESS, PAM_PERM_DENIED]
    · assumption
  · rcases hcode with h | ⟨_, h⟩
    · exact Or.inl (hcs.trans h)
    · right; rw [hcs, h]; rfl
  · intro hpl
    rcases hcode with h | ⟨hnp, _⟩
    · exact hcs.trans h
    · exact absurd hpl hnp

/-- witness: required line fails with PAM_AUTH_ERR, later sufficient line succeeds -/
example : ∃ st, Walk .pleaseFreeze [exLine .required PAM_AUTH_ERR, exLine .sufficient PAM_SUCCESS] exEnv
    (.done PAM_AUTH_ERR st) ∧ st.trace = [] ++ (0, PAM_AUTH_ERR) :: [(1, PAM_SUCCESS)] ∧
    Failing (exLine .required PAM_AUTH_ERR) PAM_AUTH_ERR := by
  have : ∃ st, dispatchAux .pleaseFreeze
      [exLine .required PAM_AUTH_ERR, exLine .sufficient PAM_SUCCESS] none exEnv = .done PAM_AUTH_ERR st ∧
      st.trace = [] ++ (0, PAM_AUTH_ERR) :: [(1, PAM_SUCCESS)] := by
    simp [dispatchAux, loop, enter, visit, callModule, cachedRetval, act, exLine, freshSt, classicActions,
      PAM_INCOMPLETE, PAM_RETURN_VALUES, INVALID_RETVAL, ACT_IGNORE, ACT_OK, ACT_BAD, ACT_DIE, ACT_DONE, ACT_RESET, PAM_SUCCESS,
      PAM_AUTH_ERR, finish, upd, PAM_IGNORE, PAM_PERM_DENIED, exEnv]
  obtain ⟨st, h, ht⟩ := this
  exact ⟨st, by rw [← h]; exact .first, ht, by decide⟩

/-! ## C03 -/

/-- C03: for every tree of modules and substacks (entries on at most 16 levels), walking the flat
list built for it gives exactly the result, answers in order, recorded cells, grantors and final
world of the structured interpretation `Spec.run`.  The modes used by the library are
`pleaseFreeze` (`replay = false`) and `mayBeFrozen` (`replay = true`). -/
theorem C03_walk_is_structured_semantics (replay : Bool) (t : Stack σ) (e : Env σ)
    (hn : t.levels ≤ SUBSTACK_MAX_LEVEL) :
    obsOutcome (dispatchAux (if replay then .mayBeFrozen else .pleaseFreeze) (t.flatten 0) none e)
      = some (run replay t e).obs := by
  have := dispatchAux_flatten replay t e hn
  cases replay <;> exact this

/-- witness: a substack whose `done` ends only the substack, followed by a failing line -/
example :
    let t : Stack Nat := .sub (.mod ⟨.fn (fun n => (PAM_SUCCESS, n + 1)), classicActions .sufficient⟩
        (.mod ⟨.broken, classicActions .required⟩ .nil))
        (.mod ⟨.fn (fun n => (PAM_ACCT_EXPIRED, n + 1)), classicActions .required⟩ .nil)
    t.levels ≤ SUBSTACK_MAX_LEVEL ∧
      ∃ ce gr, (run false t exEnv).obs = .finished PAM_ACCT_EXPIRED ce gr 2 [(1, 0), (3, 13)] := by
  refine ⟨by decide, ?_⟩
  simp [run, eval, init, exEnv, Module.call, classicActions, PAM_INCOMPLETE, ACT_IGNORE, ACT_OK, ACT_BAD,
    ACT_DONE, ACT_DIE, ACT_RESET, State.accept, State.markGrant, Verdict.accept, Verdict.isGood, Verdict.reject,
    Verdict.code, Result.obs, Stack.size, PAM_SUCCESS, PAM_ACCT_EXPIRED, PAM_IGNORE]

/-! ## C04 -/

/-- C04: a list of classic lines (no module asks to be called again): the lines that are run are
those of `ClassicSpec.executed`, in order, and the result is `ClassicSpec.result` of their
answers. -/
theorem C04_classic_flags (lines : List (Flag × Body σ)) (e : Env σ) (he : e.trace = [])
    (hne : ∀ p ∈ lines, ∀ f, p.2 = .fn f → ∀ w, (f w).1 ≠ PAM_INCOMPLETE) :
    ∃ st, dispatchAux .pleaseFreeze ((classicStack lines).flatten 0) none e
        = .done (ClassicSpec.result (ClassicSpec.executed false (answers lines e.world))) st ∧
      st.trace = ((ClassicSpec.executed false (answers lines e.world)).zipIdx).map
        (fun q => (q.2, q.1.2)) := by
  have hnest : (classicStack lines).levels ≤ SUBSTACK_MAX_LEVEL := by
    have : (classicStack lines).levels ≤ 1 := by
      induction lines with
      | nil => simp [classicStack, Stack.levels]
      | cons p t ih =>
        have := ih (fun p hp => hne p (by simp [hp]))
        simp only [classicStack, Stack.levels]; omega
    exact Nat.le_trans this (by decide)
  have h1 := C03_walk_is_structured_semantics false (classicStack lines) e hnest
  obtain ⟨s', h2, h3, h4⟩ := eval_classic lines hne .none 0 (init e)
  simp only [run, h2, Result.obs] at h1
  have hiv : (init e).verdict = .none := rfl
  have hiw : (init e).world = e.world := rfl
  have hic : (init e).calls = [] := he
  rw [hiv, hiw] at h3 h4
  rw [hic] at h4
  have hbad : isBad .none = false := rfl
  rw [hbad] at h3 h4
  generalize hd : dispatchAux (if (false : Bool) = true then Mode.mayBeFrozen else .pleaseFreeze)
    ((classicStack lines).flatten 0) none e = o at h1
  cases o with
  | done c st =>
    simp only [obsOutcome, Option.some.injEq, Obs.finished.injEq] at h1
    obtain ⟨e1, _, _, _, e5⟩ := h1
    refine ⟨st, ?_, ?_⟩
    · simp only [Bool.false_eq_true, if_false] at hd
      rw [hd, e1, h3, vfold_code]
    · rw [e5, h4]; simp
  | incomplete d st => simp [obsOutcome] at h1
  | ub => simp [obsOutcome] at h1

/-- witness: `required` succeeds, `requisite` fails, a later line is not run -/
example :
    let lines : List (Flag × Body Nat) := [(.required, .fn (fun n => (PAM_SUCCESS, n))),
      (.requisite, .fn (fun n => (PAM_MAXTRIES, n))), (.optional, .fn (fun n => (PAM_SUCCESS, n)))]
    ClassicSpec.executed false (answers lines 0) = [(.required, 0), (.requisite, 11)] ∧
    ClassicSpec.result (ClassicSpec.executed false (answers lines 0)) = PAM_MAXTRIES := by
  decide

/-! ## C05 -/

/-- C05: `pat h` is line `h` whose module waits until it has an answer (`app` is what the
application does between the calls).  If repeating the call until it is complete gives `c` and
leaves recorded answers, grantors, world and answer list `e'`, then one single call of the stack
of waiting modules gives exactly the same. -/
theorem C05_resume_loses_nothing (mode : Mode) (app : σ → σ) (pat : Handler σ → Handler σ)
    (hs : List (Handler σ)) (hpat : ∀ h ∈ hs, PatientOf app h (pat h))
    (e : Env σ) (c : Int) (e' : Env σ) (h : Completes mode hs app none e c e') :
    ∃ st, dispatchAux mode (hs.map pat) none e = .done c st ∧
      e' = ⟨st.cells, st.grant, st.world, st.trace⟩ :=
  completes_patient mode app pat hs hpat none e c e' h

/-- C05: over the first call and any number of repeated calls, the lines that answered have
strictly increasing positions: no line that has answered is called again. -/
theorem C05_no_line_answers_twice (mode : Mode) (hs : List (Handler σ)) (e : Env σ)
    (he : e.trace = []) (o : Outcome σ) (st : St σ)
    (ho : (∃ c, o = .done c st) ∨ (∃ d, o = .incomplete d st)) (hw : Walk mode hs e o) :
    (st.trace.map Prod.fst).Pairwise (· < ·) := by
  have := walk_trace mode hs e he o hw
  rcases ho with ⟨c, rfl⟩ | ⟨d, rfl⟩
  · exact this
  · exact this.1

/-- C05: while suspended at line `d`, every line that has answered is before `d`; the resumed call
starts at `d`. -/
theorem C05_suspended_position (mode : Mode) (hs : List (Handler σ)) (e : Env σ)
    (he : e.trace = []) (d : Nat) (st : St σ) (hw : Walk mode hs e (.incomplete d st)) :
    ∀ p ∈ st.trace, p.1 < d := (walk_trace mode hs e he _ hw).2

/-- a module that is not ready while the world is 0 -/
def exWaiting : Handler Nat :=
  ⟨.module, some (fun n => if n = 0 then (PAM_INCOMPLETE, n) else (PAM_SUCCESS, n)), classicActions .required, 0⟩

def exWaited : Handler Nat :=
  ⟨.module, some (fun n => (PAM_SUCCESS, if n = 0 then 1 else n)), classicActions .required, 0⟩

/-- witness: the module is not ready at first; the application makes it ready -/
example : PatientOf (fun n => n + 1) exWaiting exWaited ∧
    ∃ e', Completes .pleaseFreeze [exWaiting] (fun n => n + 1) none exEnv PAM_SUCCESS e' := by
  refine ⟨⟨rfl, rfl, rfl, by simp [exWaiting], ?_⟩, ?_⟩
  · intro f hf
    simp only [exWaiting, Option.some.injEq] at hf
    subst hf
    refine ⟨_, rfl, ?_⟩
    intro w
    by_cases h : w = 0 <;> simp [h, PAM_INCOMPLETE, PAM_SUCCESS]
  · have : ∃ st, dispatchAux .pleaseFreeze [exWaiting] none exEnv = .incomplete 0 st ∧ st.world = 0 ∧
        st.imp = .undef := by
      simp [dispatchAux, loop, enter, visit, callModule, exWaiting, exEnv, freshSt]
    obtain ⟨st, h1, h2, h3⟩ := this
    have : ∃ st', dispatchAux .pleaseFreeze [exWaiting] (some ⟨0, st.imp, st.status, st.subs⟩)
        ⟨st.cells, st.grant, st.world + 1, st.trace⟩ = .done PAM_SUCCESS st' := by
      simp [dispatchAux, loop, enter, visit, callModule, exWaiting, h2, h3, cachedRetval, act, classicActions,
        PAM_INCOMPLETE, PAM_SUCCESS, ACT_OK, ACT_RESET, PAM_IGNORE, finish, resumedSt]
    obtain ⟨st', h4⟩ := this
    exact ⟨_, .again h1 (.done h4)⟩

/-! ## C06 (dispatcher part; the loader part is in Verif/Config) -/

/-- C06: on every list whose levels start at 0, rise by at most one and stay below 16, no walk
(including all resumed calls) reads a substack slot that was not written or is out of bounds. -/
theorem C06_no_bad_substack_access_partial (mode : Mode) (hs : List (Handler σ)) (hwl : WellLeveled hs)
    (e : Env σ) : ¬ Walk mode hs e .ub :=
  fun hw => walk_safe mode hs hwl e _ hw

/-- witness: a substack line and a line in it -/
example : WellLeveled [(⟨.substack, none, fun _ => ACT_UNDEF, 0⟩ : Handler Nat),
    ⟨.module, some (fun n => (0, n)), fun _ => ACT_RESET, 1⟩] := by
  refine ⟨?_, ?_, ?_⟩
  · intro h hh; simp at hh; simp [← hh]
  · intro i h h' h1 h2
    match i with
    | 0 => simp at h1 h2; subst h1; subst h2; simp
    | i + 1 => simp at h2
  · intro h hh; simp at hh; rcases hh with rfl | rfl <;> simp [SUBSTACK_MAX_LEVEL]

/-- the hypothesis matters: entering level 16 writes outside the table -/
example : dispatchAux .pleaseFreeze [(⟨.module, some (fun n => (0, n)), fun _ => ACT_OK, 16⟩ : Handler Nat)]
    none exEnv = .ub := by
  simp [dispatchAux, loop, enter]

/-! ## C07 -/

/-- C07, the part that holds: `hsA` is the first chain (auth / open session), `hsB` the second one
for the same lines.  After a complete first call, the second call reaches exactly the same lines
in the same order, provided that no module answered -1 in the first call, that the second
functions do not ask to be called again, and that a second function answers PAM_IGNORE only where
the first one did.  Missing from the full claim: without the last proviso it is false
(`C07_frozen_chain_counterexample`). -/
theorem C07_frozen_chain_partial (hsA : List (Handler σ)) (hsB : List (Handler τ))
    (hsame : SameLines hsA hsB) (eA : Env σ) (heA : eA.trace = []) (cA : Int) (a : St σ)
    (hA : dispatchAux .pleaseFreeze hsA none eA = .done cA a)
    (hinv : ∀ p ∈ a.trace, p.2 ≠ INVALID_RETVAL)
    (hB : ∀ i h, hsB[i]? = some h → ∀ w, (callModule h w).1 ≠ PAM_INCOMPLETE ∧
      ((callModule h w).1 = PAM_IGNORE → a.cells i = PAM_IGNORE))
    (eB : Env τ) (heB : eB.trace = []) (hcells : eB.cells = a.cells) :
    ∃ cB b, dispatchAux .mayBeFrozen hsB none eB = .done cB b ∧
      b.trace.map Prod.fst = a.trace.map Prod.fst := by
  cases hsA with
  | nil =>
    cases hsB with
    | nil =>
      simp only [dispatchAux, Outcome.done.injEq] at hA
      refine ⟨_, _, rfl, ?_⟩
      rw [← hA.2]; simp [freshSt, heA, heB]
    | cons y m => cases hsame
  | cons x l =>
    cases hsB with
    | nil => cases hsame
    | cons y m =>
      simp only [dispatchAux] at hA
      have hstep : InStep (freshSt eA) (freshSt eB) := ⟨by simp [freshSt], by
        intro L; simp only [freshSt, upd]⟩
      obtain ⟨c', b', h1, ta, tb, h2, h3, h4⟩ := loop_replay a.cells a.trace hinv (y :: m) hB
        (x :: l) 0 0 (freshSt eA) cA a hA rfl rfl (y :: m) (freshSt eB) (by simp) hsame hstep
        (by simpa [freshSt] using hcells)
      refine ⟨c', b', h1, ?_⟩
      have e1 : (freshSt eA).trace = [] := heA
      have e2 : (freshSt eB).trace = [] := heB
      rw [h2, h3, e1, e2]; simpa using h4.symm

/-- C07, the full claim, is false of the code: `sufficient A; required B`.  A's authentication
succeeds, so B is not run; A's second function answers PAM_IGNORE, so the walk does not stop and
B's second function is called although B was not run in the first call. -/
theorem C07_frozen_chain_counterexample :
    ∃ (hsA hsB : List (Handler Nat)) (eA eB : Env Nat) (cA cB : Int) (a b : St Nat),
      SameLines hsA hsB ∧ eA.trace = [] ∧ eB.trace = [] ∧
      dispatchAux .pleaseFreeze hsA none eA = .done cA a ∧ cA = PAM_SUCCESS ∧ eB.cells = a.cells ∧
      dispatchAux .mayBeFrozen hsB none eB = .done cB b ∧
      a.trace.map Prod.fst = [0] ∧ b.trace.map Prod.fst = [0, 1] := by
  have hA : ∃ a, dispatchAux .pleaseFreeze [exLine .sufficient PAM_SUCCESS, exLine .required PAM_SUCCESS]
      none exEnv = .done PAM_SUCCESS a ∧ a.trace.map Prod.fst = [0] ∧ a.cells 0 = 0 ∧
        a.cells 1 = INVALID_RETVAL := by
    simp [dispatchAux, loop, enter, visit, callModule, cachedRetval, act, exLine, freshSt, classicActions,
      PAM_INCOMPLETE, PAM_RETURN_VALUES, INVALID_RETVAL, ACT_IGNORE, ACT_OK, ACT_BAD, ACT_DIE, ACT_DONE, ACT_RESET, PAM_SUCCESS,
      finish, upd, PAM_IGNORE, PAM_PERM_DENIED, exEnv, skipDecided]
  obtain ⟨a, h1, h2, h3, h4⟩ := hA
  have hB : ∃ b, dispatchAux .mayBeFrozen [exLine .sufficient PAM_IGNORE, exLine .required PAM_SUCCESS]
      none ⟨a.cells, fun _ => false, 0, []⟩ = .done PAM_SUCCESS b ∧ b.trace.map Prod.fst = [0, 1] := by
    simp [dispatchAux, loop, enter, visit, callModule, cachedRetval, act, exLine, freshSt, classicActions,
      PAM_INCOMPLETE, PAM_RETURN_VALUES, INVALID_RETVAL, ACT_IGNORE, ACT_OK, ACT_BAD, ACT_DIE, ACT_DONE, ACT_RESET, PAM_SUCCESS,
      finish, upd, PAM_IGNORE, PAM_PERM_DENIED, skipDecided, h3, h4]
  obtain ⟨b, k1, k2⟩ := hB
  exact ⟨_, _, exEnv, ⟨a.cells, fun _ => false, 0, []⟩, _, _, a, b,
    by simp [SameLines, SameLine, exLine], rfl, rfl, h1, rfl, rfl, k1, h2, k2⟩

/-- witness for the partial theorem: same lines, second functions answer PAM_SUCCESS -/
example : ∃ a, dispatchAux .pleaseFreeze [exLine .sufficient PAM_SUCCESS, exLine .required PAM_SUCCESS]
      none exEnv = .done PAM_SUCCESS a ∧ (∀ p ∈ a.trace, p.2 ≠ INVALID_RETVAL) ∧
      (∀ i h, [exLine .sufficient PAM_SUCCESS, exLine .required PAM_SUCCESS][i]? = some h → ∀ w,
        (callModule h w).1 ≠ PAM_INCOMPLETE ∧
        ((callModule h w).1 = PAM_IGNORE → a.cells i = PAM_IGNORE)) := by
  simp [dispatchAux, loop, enter, visit, callModule, cachedRetval, act, exLine, freshSt, classicActions,
    PAM_INCOMPLETE, PAM_RETURN_VALUES, INVALID_RETVAL, ACT_IGNORE, ACT_OK, ACT_BAD, ACT_DIE, ACT_DONE, ACT_RESET, PAM_SUCCESS,
    finish, upd, PAM_IGNORE, PAM_PERM_DENIED, exEnv, skipDecided]
  intro i h hi
  match i with
  | 0 => simp at hi; simp [← hi]
  | 1 => simp at hi; simp [← hi]
  | i + 2 => simp at hi

/-! ## C08 -/

/-- C08, the parts that hold in every mode: a completed walk returns PAM_PERM_DENIED or the answer
of a line of this walk, never PAM_INCOMPLETE; and PAM_IGNORE only if a line answered PAM_IGNORE
and its control accepts that. -/
theorem C08_return_code_provenance_partial (mode : Mode) (hs : List (Handler σ)) (e : Env σ)
    (he : e.trace = []) (c : Int) (st : St σ) (hw : Walk mode hs e (.done c st)) :
    (c = PAM_PERM_DENIED ∨
      ∃ i h, hs[i]? = some h ∧ h.htype ≠ .substack ∧ (i, c) ∈ st.trace ∧
        ((h.htype ≠ .mustFail ∧ h.func = none ∧ c = PAM_MODULE_UNKNOWN) ∨
         (h.htype ≠ .mustFail ∧ ∃ f, h.func = some f ∧ ∃ w, (f w).1 = c))) ∧
    c ≠ PAM_INCOMPLETE ∧
    (c = PAM_IGNORE → ∃ i h, hs[i]? = some h ∧ (i, PAM_IGNORE) ∈ st.trace ∧
      deciding mode i PAM_IGNORE e.cells = PAM_IGNORE ∧ Accepts mode (h.actions 25)) ∧
    (mode = .pleaseFreeze → 0 ≤ c ∧ c < 32) := by
  have hp := walk_prov mode hs e he _ hw
  have hc := walk_done_code mode hs e _ _ hw
  obtain ⟨hg, _, _, hans⟩ := hp
  have hPD : c = PAM_PERM_DENIED → ((c = PAM_PERM_DENIED ∨
      ∃ i h, hs[i]? = some h ∧ h.htype ≠ .substack ∧ (i, c) ∈ st.trace ∧
        ((h.htype ≠ .mustFail ∧ h.func = none ∧ c = PAM_MODULE_UNKNOWN) ∨
         (h.htype ≠ .mustFail ∧ ∃ f, h.func = some f ∧ ∃ w, (f w).1 = c))) ∧
    c ≠ PAM_INCOMPLETE ∧
    (c = PAM_IGNORE → ∃ i h, hs[i]? = some h ∧ (i, PAM_IGNORE) ∈ st.trace ∧
      deciding mode i PAM_IGNORE e.cells = PAM_IGNORE ∧ Accepts mode (h.actions 25)) ∧
    (mode = .pleaseFreeze → 0 ≤ c ∧ c < 32)) := by
    intro h; subst h
    refine ⟨Or.inl rfl, by decide, fun h => absurd h (by decide), fun _ => by decide⟩
  rcases hc with ⟨_, hc⟩ | hc
  · exact hPD hc
  by_cases hcp : c = PAM_PERM_DENIED
  · exact hPD hcp
  have hcs : c = st.status := by
    by_cases h1 : st.status = PAM_SUCCESS ∧ st.imp ≠ .positive
    · rw [if_pos h1] at hc; exact absurd hc hcp
    · rw [if_neg h1] at hc; exact hc
  have key : ∃ i h, hs[i]? = some h ∧ (i, c) ∈ st.trace ∧
      0 ≤ deciding mode i c e.cells ∧ deciding mode i c e.cells < 32 ∧
      (c = PAM_IGNORE → deciding mode i c e.cells = c ∧
        Accepts mode (h.actions (deciding mode i c e.cells).toNat)) := by
    rcases hg with ⟨_, h⟩ | ⟨_, ⟨i, h, h1, h2, h3, h4, h5, h6⟩, _⟩ | ⟨_, h | ⟨h0, i, h, h1, h2, h3, h4⟩⟩
    · exact absurd (hcs.trans h) hcp
    · rw [← hcs] at h2 h3 h4 h5 h6
      refine ⟨i, h, h1, h2, h3, h4, fun hi => ⟨?_, h5⟩⟩
      rcases h6 with h6 | h6
      · exact absurd hi h6
      · exact h6
    · exact absurd (hcs.trans h) hcp
    · rw [← hcs] at h0 h2 h3 h4
      exact ⟨i, h, h1, h2, h3, h4, fun hi => absurd hi h0⟩
  obtain ⟨i, h, h1, h2, h3, h4, h5⟩ := key
  obtain ⟨h', k1, k2, k0, k3⟩ := hans _ h2
  rw [h1] at k1; injection k1 with k1; subst k1
  refine ⟨Or.inr ⟨i, h, h1, k2, h2, ?_⟩, k0, ?_, ?_⟩
  · rcases k3 with ⟨_, k3⟩ | k3 | k3
    · exact absurd k3 hcp
    · exact Or.inl k3
    · exact Or.inr k3
  · intro hi
    obtain ⟨h6, h7⟩ := h5 hi
    subst hi
    rw [h6] at h7
    exact ⟨i, h, h1, h2, h6, by simpa [PAM_IGNORE] using h7⟩
  · intro hm
    subst hm
    exact ⟨h3, h4⟩

/-- C08 fails for pam_setcred / pam_close_session: the recorded answer selects the action, so an
out-of-range answer of the second function is handed to the application. -/
theorem C08_replay_out_of_range_counterexample :
    ∃ (hs : List (Handler Nat)) (e : Env Nat) (st : St Nat), e.trace = [] ∧
      Walk .mayBeFrozen hs e (.done 77 st) := by
  have : ∃ st, dispatchAux .mayBeFrozen [exLine .required 77] none ⟨fun _ => 0, fun _ => false, 0, []⟩
      = .done 77 st := by
    simp [dispatchAux, loop, enter, visit, callModule, cachedRetval, act, exLine, freshSt, classicActions,
      PAM_INCOMPLETE, PAM_RETURN_VALUES, INVALID_RETVAL, ACT_IGNORE, ACT_OK, ACT_BAD, ACT_DIE, ACT_DONE, ACT_RESET, PAM_SUCCESS,
      finish, upd, PAM_IGNORE, PAM_PERM_DENIED]
  obtain ⟨st, h⟩ := this
  exact ⟨_, ⟨fun _ => 0, fun _ => false, 0, []⟩, st, rfl, by rw [← h]; exact .first⟩

/-- in the same situation the first chain turns the answer into PAM_PERM_DENIED (witness for
`C08_return_code_provenance_partial`) -/
example : ∃ st, Walk .pleaseFreeze [exLine .required 77] exEnv (.done PAM_PERM_DENIED st) := by
  have : ∃ st, dispatchAux .pleaseFreeze [exLine .required 77] none exEnv = .done PAM_PERM_DENIED st := by
    simp [dispatchAux, loop, enter, visit, callModule, cachedRetval, act, exLine, freshSt, classicActions,
      PAM_INCOMPLETE, PAM_RETURN_VALUES, INVALID_RETVAL, ACT_IGNORE, ACT_OK, ACT_BAD, ACT_DIE, ACT_DONE, ACT_RESET, PAM_SUCCESS,
      finish, upd, PAM_IGNORE, PAM_PERM_DENIED]
  obtain ⟨st, h⟩ := this
  exact ⟨st, by rw [← h]; exact .first⟩

end Pam.Dispatch
