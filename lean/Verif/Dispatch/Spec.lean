import Verif.Dispatch.Model
/-
Structured (documented) meaning of a PAM stack, independent of the level-annotated pointer walk.
A stack is a sequence of entries; an entry is a module line or a nested substack.
Reference: pam.conf(5), /repo/doc/man/pam.conf-syntax.xml.
-/
namespace Pam.Dispatch.Spec

/-- What a (sub)stack has concluded so far. -/
inductive Verdict
  /-- nothing yet -/
  | none
  /-- will return `c`, a positive conclusion -/
  | good (c : Int)
  /-- failed with `c` -/
  | bad (c : Int)
deriving DecidableEq, Repr

/-- The code returned to the application: only a positive conclusion may be PAM_SUCCESS. -/
def Verdict.code : Verdict → Int
  | .none => PAM_PERM_DENIED
  | .good c => c
  | .bad c => if c = PAM_SUCCESS then PAM_PERM_DENIED else c

/-- A positive contribution `c` (`ok`, `done`): it counts if nothing was concluded yet or the
conclusion so far is plain success. -/
def Verdict.accept (v : Verdict) (c : Int) : Verdict :=
  match v with
  | .none => .good c
  | .good d => if d = PAM_SUCCESS then .good c else .good d
  | .bad d => .bad d

/-- A failure `c` (`bad`, `die`): the first failure sticks; PAM_IGNORE is not a failure code. -/
def Verdict.reject (v : Verdict) (c : Int) : Verdict :=
  match v with
  | .bad d => .bad d
  | _ => .bad (if c = PAM_IGNORE then PAM_PERM_DENIED else c)

/-- A module line: what happens when it is called and the action for each return code. -/
inductive Body (σ : Type)
  /-- a malformed line -/
  | broken
  /-- module or function could not be loaded -/
  | missing
  | fn (f : σ → Int × σ)

/-- a module line of a stack -/
structure Module (σ : Type) where
  body : Body σ
  action : Nat → Int

/-- A stack: a sequence of entries, each a module line or a nested substack. -/
inductive Stack (σ : Type)
  | nil
  | mod (m : Module σ) (rest : Stack σ)
  | sub (body rest : Stack σ)

/-- number of configuration lines (module lines and substack lines) -/
def Stack.size {σ} : Stack σ → Nat
  | .nil => 0
  | .mod _ r => 1 + r.size
  | .sub b r => 1 + b.size + r.size

/-- number of entries at the outermost level (a substack is one entry) -/
def Stack.length {σ} : Stack σ → Nat
  | .nil => 0
  | .mod _ r => 1 + r.length
  | .sub _ r => 1 + r.length

/-- number of nested levels that have an entry (an empty substack is an entry at its own level) -/
def Stack.levels {σ} : Stack σ → Nat
  | .nil => 0
  | .mod _ r => max 1 r.levels
  | .sub b r => max (b.levels + 1) r.levels

/-- The flat list built by the loader for a stack whose outermost entries have level `L`:
a substack line is a handler of type substack followed by its content one level deeper
(libpam/pam_handlers.c:201-218). -/
def Stack.flatten {σ} (L : Nat) : Stack σ → List (Handler σ)
  | .nil => []
  | .mod m r =>
    (match m.body with
     | .broken => { htype := .mustFail, func := none, actions := m.action, level := L }
     | .missing => { htype := .module, func := none, actions := m.action, level := L }
     | .fn f => { htype := .module, func := some f, actions := m.action, level := L })
      :: r.flatten L
  | .sub b r =>
    { htype := .substack, func := none, actions := fun _ => ACT_UNDEF, level := L }
      :: (b.flatten (L + 1) ++ r.flatten L)

/-- Everything a walk can observe or change. -/
structure State (σ : Type) where
  verdict : Verdict
  /-- recorded answers of the first function of each line (for the frozen chain) -/
  cells : Nat → Int
  /-- lines that granted access -/
  grant : Nat → Bool
  world : σ
  /-- answers so far, in order: (line, code) for every line that was reached and answered -/
  calls : List (Nat × Int)

/-- result of interpreting a stack -/
inductive Result (σ : Type)
  | finished (s : State σ)
  /-- the module of line `pos` returned PAM_INCOMPLETE -/
  | suspended (pos : Nat) (s : State σ)

/-- answer of a module line: code and new world -/
def Module.call {σ} (m : Module σ) (w : σ) : Int × σ :=
  match m.body with
  | .broken => (PAM_PERM_DENIED, w)
  | .missing => (PAM_MODULE_UNKNOWN, w)
  | .fn f => f w

/-- A positive contribution `r` of line `pos`.  When replaying a frozen chain, a PAM_IGNORE whose
recorded answer was something else contributes nothing. -/
def State.accept {σ} (s : State σ) (r d : Int) : State σ :=
  if r = PAM_IGNORE ∧ d ≠ r then s else { s with verdict := s.verdict.accept r }

/-- is the verdict positive? -/
def Verdict.isGood : Verdict → Bool
  | .good _ => true
  | _ => false

/-- mark line `pos` as grantor if it said success and the conclusion is positive -/
def State.markGrant {σ} (s : State σ) (pos : Nat) (r : Int) : State σ :=
  if s.verdict.isGood = true ∧ r = PAM_SUCCESS then { s with grant := upd s.grant pos true } else s

/-- Interpretation of a (sub)stack. `replay` = follow the frozen chain (setcred, close_session);
`entry` = verdict at entry of this substack; `skip` = entries still to be skipped by a jump;
`pos` = line number of the first line. -/
def eval {σ} (replay : Bool) (entry : Verdict) : Nat → Stack σ → Nat → State σ → Result σ
  | 0, .nil, _, s => .finished s
  -- jump past the end of the (sub)stack
  | _ + 1, .nil, _, s => .finished { s with verdict := .bad PAM_PERM_DENIED }
  | k + 1, .mod _ rest, pos, s => eval replay entry k rest (pos + 1) s
  | k + 1, .sub b rest, pos, s => eval replay entry k rest (pos + 1 + b.size) s
  | 0, .sub b rest, pos, s =>
    match eval replay s.verdict 0 b (pos + 1) s with
    | .suspended p s' => .suspended p s'
    | .finished s' => eval replay entry 0 rest (pos + 1 + b.size) s'
  | 0, .mod m rest, pos, s =>
    let r := (m.call s.world).1
    if r = PAM_INCOMPLETE then .suspended pos { s with world := (m.call s.world).2 }
    else
      let s1 := { s with world := (m.call s.world).2, calls := s.calls ++ [(pos, r)] }
      -- the code that selects the action
      let d := if replay then (if s1.cells pos = INVALID_RETVAL then r else s1.cells pos) else r
      let s2 := if replay then s1 else { s1 with cells := upd s1.cells pos r }
      if d < 0 ∨ 32 ≤ d then
        eval replay entry 0 rest (pos + 1)
          { s2 with verdict := s2.verdict.reject PAM_PERM_DENIED }
      else
        let a := m.action d.toNat
        if a = ACT_IGNORE then eval replay entry 0 rest (pos + 1) s2
        else if a = ACT_OK then
          eval replay entry 0 rest (pos + 1) ((s2.accept r d).markGrant pos r)
        else if a = ACT_DONE then
          let s3 := (s2.accept r d).markGrant pos r
          if s3.verdict.isGood then .finished s3 else eval replay entry 0 rest (pos + 1) s3
        else if a = ACT_BAD then
          eval replay entry 0 rest (pos + 1) { s2 with verdict := s2.verdict.reject r }
        else if a = ACT_DIE then
          .finished { s2 with verdict := s2.verdict.reject r }
        else if a = ACT_RESET then
          eval replay entry 0 rest (pos + 1) { s2 with verdict := entry }
        else if 0 < a then
          if replay then
            let s3 := s2.accept r d
            let s4 := if s2.verdict = .none ∧ r = PAM_SUCCESS
                      then { s3 with grant := upd s3.grant pos true } else s3
            eval replay entry a.toNat rest (pos + 1) s4
          else eval replay entry a.toNat rest (pos + 1) s2
        else
          -- not an action
          eval replay entry 0 rest (pos + 1) { s2 with verdict := .bad PAM_PERM_DENIED }

/-- Observable result of a walk. -/
inductive Obs (σ : Type)
  | finished (code : Int) (cells : Nat → Int) (grant : Nat → Bool) (world : σ)
      (calls : List (Nat × Int))
  | suspended (pos : Nat) (cells : Nat → Int) (grant : Nat → Bool) (world : σ)
      (calls : List (Nat × Int))

/-- observable part of a structured interpretation -/
def Result.obs {σ} : Result σ → Obs σ
  | .finished s => .finished s.verdict.code s.cells s.grant s.world s.calls
  | .suspended p s => .suspended p s.cells s.grant s.world s.calls

/-- observable part of a flat walk (`none` for undefined behaviour) -/
def obsOutcome {σ} : Outcome σ → Option (Obs σ)
  | .done c st => some (.finished c st.cells st.grant st.world st.trace)
  | .incomplete p st => some (.suspended p st.cells st.grant st.world st.trace)
  | .ub => Option.none

/-- state at the beginning of a walk: nothing concluded -/
def init {σ} (e : Env σ) : State σ :=
  { verdict := .none, cells := e.cells, grant := e.grant, world := e.world, calls := e.trace }

/-- meaning of a whole stack -/
def run {σ} (replay : Bool) (t : Stack σ) (e : Env σ) : Result σ :=
  eval replay .none 0 t 0 (init e)

end Pam.Dispatch.Spec

/-! ### Vocabulary for statements about arbitrary (flat) stacks -/
namespace Pam.Dispatch

/-- A complete use of one stack by the application: the first call, and then any number of
repeated calls after PAM_INCOMPLETE.  Between calls the world may change arbitrarily. -/
inductive Walk {σ : Type} (mode : Mode) (hs : List (Handler σ)) (e : Env σ) : Outcome σ → Prop
  | first : Walk mode hs e (dispatchAux mode hs none e)
  | resume {d : Nat} {st : St σ} (w : σ) (h : Walk mode hs e (.incomplete d st)) :
      Walk mode hs e (dispatchAux mode hs
        (some { depth := d, imp := st.imp, status := st.status, subs := st.subs })
        { cells := st.cells, grant := st.grant, world := w, trace := st.trace })

/-- which actions contribute the answer positively -/
def Accepts (mode : Mode) (a : Int) : Prop :=
  a = ACT_OK ∨ a = ACT_DONE ∨ (mode ≠ .pleaseFreeze ∧ 0 < a)

/-- the code that selects the action -/
def deciding (mode : Mode) (i : Nat) (r : Int) (cells : Nat → Int) : Int :=
  match mode with
  | .pleaseFreeze => r
  | .mayBeFrozen => if cells i = INVALID_RETVAL then r else cells i
  | .mustBeFrozen => cells i


/-- A line whose answer `r` counts as a failure: its configured action is `bad` or `die`, or the
code is not a PAM return code at all.  (`d` is the code that selects the action.) -/
def Failing {σ : Type} (h : Handler σ) (d : Int) : Prop :=
  d < 0 ∨ 32 ≤ d ∨ h.actions d.toNat = ACT_BAD ∨ h.actions d.toNat = ACT_DIE

instance {σ : Type} (h : Handler σ) (d : Int) : Decidable (Failing h d) := by
  unfold Failing; infer_instance

/-- The code a failing answer `r` contributes: the answer itself, or PAM_PERM_DENIED if it is not
a failure code. -/
def failCode (r d : Int) : Int :=
  if d < 0 ∨ 32 ≤ d ∨ r = PAM_IGNORE ∨ r = PAM_SUCCESS then PAM_PERM_DENIED else r

end Pam.Dispatch
