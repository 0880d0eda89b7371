import Verif.Core.Codes
/-
Model of libpam/pam_dispatch.c: walking a stack of modules.
-/
namespace Pam.Dispatch

/-- `_PAM_UNDEF`, `_PAM_POSITIVE`, `_PAM_NEGATIVE`: libpam/pam_dispatch.c:20-22. -/
inductive Impression
  | undef | positive | negative
deriving DecidableEq, Repr

/-- Handler types: libpam/pam_private.h:68-71. -/
inductive HType
  | module | mustFail | substack | silentModule
deriving DecidableEq, Repr

/-- Frozen-chain modes: libpam/pam_dispatch.c:25-27. -/
inductive Mode
  | pleaseFreeze | mayBeFrozen | mustBeFrozen
deriving DecidableEq, Repr

/-- `struct handler`: libpam/pam_private.h:53-66.
Simplifications: the immutable part only.  The mutable fields `cached_retval` and `grantor`
live in `St.cells` / `St.grant`, indexed by the position of the handler in its list; the second
handler of an auth/session pair (`cached_retval_p`, libpam/pam_handlers.c:849-850) reads the same
cells.  `func` is an arbitrary function on an arbitrary world (flags, argc and argv are closed
over); `none` is a NULL function pointer.  `actions` is total, only indices 0..31 are used. -/
structure Handler (σ : Type) where
  htype : HType
  func : Option (σ → Int × σ)
  actions : Nat → Int
  level : Nat

/-- `struct _pam_substack_state`: libpam/pam_private.h:129-132. -/
structure Sub where
  imp : Impression
  status : Int
deriving DecidableEq, Repr

/-- Local variables of `_pam_dispatch_aux` (libpam/pam_dispatch.c:37-38), the mutable handler
fields, the world, and a ghost trace (position, returned code) of the module functions really
called, in call order.  A `none` in `subs` is an uninitialised slot of the malloc'ed array. -/
structure St (σ : Type) where
  imp : Impression
  status : Int
  subs : Nat → Option Sub
  cells : Nat → Int
  grant : Nat → Bool
  world : σ
  trace : List (Nat × Int)

/-- Result of a walk.  `incomplete` carries what is saved in `pamh->former`
(libpam/pam_dispatch.c:124-132); `ub` is an out-of-bounds or uninitialised access of
`substates`. -/
inductive Outcome (σ : Type)
  | done (status : Int) (st : St σ)
  | incomplete (depth : Nat) (st : St σ)
  | ub

/-- point update of a function -/
def upd {α : Type} (f : Nat → α) (i : Nat) (a : α) : Nat → α :=
  fun j => if j = i then a else f j

/-- Calling the module: libpam/pam_dispatch.c:95-115 (not used for `substack` handlers).
Returns the answer and the new world. -/
def callModule {σ : Type} (h : Handler σ) (w : σ) : Int × σ :=
  if h.htype = .mustFail then (PAM_PERM_DENIED, w)
  else match h.func with
    | none => (PAM_MODULE_UNKNOWN, w)
    | some f => f w

/-- The frozen-chain lookup: libpam/pam_dispatch.c:140-175.  Returns `cached_retval`. -/
def cachedRetval {σ : Type} (mode : Mode) (i : Nat) (retval : Int) (st : St σ) : Int × St σ :=
  match mode with
  | .pleaseFreeze => (retval, { st with cells := upd st.cells i retval })
  | .mayBeFrozen => (if st.cells i = INVALID_RETVAL then retval else st.cells i, st)
  | .mustBeFrozen => (st.cells i, st)

/-- What the loop does after an action: go on, `goto decision_made`, or skip `n` entries. -/
inductive Next
  | cont | decided | jump (n : Nat)
deriving DecidableEq, Repr

/-- The action switch, libpam/pam_dispatch.c:201-299, apart from the pointer walk of a jump
(lines 281-287) and the bad-jump check (294-298), which are in `loop`.  A negative action that is
none of the listed ones (`_PAM_ACTION_UNDEF`) falls in `default:` with a non-zero value and is
handled like a jump error, lines 294-298.  `none` = uninitialised/out-of-bounds slot read. -/
def act {σ : Type} (mode : Mode) (L i : Nat) (action retval cached : Int) (st : St σ) :
    Option (St σ × Next) :=
  if action = ACT_RESET then
    if L < SUBSTACK_MAX_LEVEL then
      match st.subs L with
      | none => none
      | some s => some ({ st with imp := s.imp, status := s.status }, .cont)
    else none
  else if action = ACT_OK ∨ action = ACT_DONE then
    let st1 : St σ :=
      if st.imp = .undef ∨ (st.imp = .positive ∧ st.status = PAM_SUCCESS) then
        if retval ≠ PAM_IGNORE ∨ cached = retval then
          { st with imp := .positive, status := retval }
        else st
      else st
    if st1.imp = .positive then
      let st2 : St σ :=
        if retval = PAM_SUCCESS then { st1 with grant := upd st1.grant i true } else st1
      some (st2, if action = ACT_DONE then .decided else .cont)
    else some (st1, .cont)
  else if action = ACT_BAD ∨ action = ACT_DIE then
    let st1 : St σ :=
      if st.imp ≠ .negative then
        { st with imp := .negative,
                  status := if retval = PAM_IGNORE then PAM_PERM_DENIED else retval }
      else st
    some (st1, if action = ACT_DIE then .decided else .cont)
  else if action = ACT_IGNORE then some (st, .cont)
  else if 0 < action then
    let st1 : St σ :=
      if mode ≠ .pleaseFreeze then
        if st.imp = .undef ∨ (st.imp = .positive ∧ st.status = PAM_SUCCESS) then
          if retval ≠ PAM_IGNORE ∨ cached = retval then
            { st with
              grant := if st.imp = .undef ∧ retval = PAM_SUCCESS
                       then upd st.grant i true else st.grant,
              imp := .positive, status := retval }
          else st
        else st
      else st
    some (st1, .jump action.toNat)
  else some ({ st with imp := .negative, status := PAM_PERM_DENIED }, .cont)

/-- The pointer walk of a jump, libpam/pam_dispatch.c:281-287, on the list of handlers following
the jumping one: returns the remaining list and the leftover `action`. -/
def skipJump {σ : Type} (L : Nat) : List (Handler σ) → Nat → List (Handler σ) × Nat
  | [], n => ([], n)
  | h :: t, 0 => (h :: t, 0)
  | h :: t, n + 1 =>
    if h.level ≥ L then skipJump L (t.dropWhile (fun h' => decide (h'.level > L))) n
    else (h :: t, n + 1)
termination_by l => l.length
decreasing_by
  simp only [List.length_cons]
  exact Nat.lt_succ_of_le (List.dropWhile_sublist _).length_le

/-- The walk at `decision_made:`, libpam/pam_dispatch.c:302-306. -/
def skipDecided {σ : Type} (L : Nat) (hs : List (Handler σ)) : List (Handler σ) :=
  hs.dropWhile (fun h' => decide (h'.level ≥ L))

theorem skipJump_length {σ : Type} (L : Nat) (hs : List (Handler σ)) (n : Nat) :
    (skipJump L hs n).1.length ≤ hs.length := by
  fun_induction skipJump L hs n with
  | case1 => simp
  | case2 => simp
  | case3 h t n hge ih =>
    have := (List.dropWhile_sublist (fun h' : Handler σ => decide (h'.level > L)) (l := t)).length_le
    simp only [List.length_cons]; omega
  | case4 => simp

theorem skipDecided_length {σ : Type} (L : Nat) (hs : List (Handler σ)) :
    (skipDecided L hs).length ≤ hs.length := (List.dropWhile_sublist _).length_le

/-- Final sanity check: libpam/pam_dispatch.c:309-317. -/
def finish {σ : Type} (st : St σ) : Outcome σ :=
  .done (if st.status = PAM_SUCCESS ∧ st.imp ≠ .positive then PAM_PERM_DENIED else st.status) st

/-- One iteration for a handler that is not skipped, after the level bookkeeping: call, caching,
range check and action, libpam/pam_dispatch.c:95-299.  `inl` = PAM_INCOMPLETE (line 124). -/
def visit {σ : Type} (mode : Mode) (h : Handler σ) (i : Nat) (st : St σ) :
    Option (St σ ⊕ (St σ × Next)) :=
  let r := callModule h st.world
  if r.1 = PAM_INCOMPLETE then some (.inl { st with world := r.2 })
  else
    let c := cachedRetval mode i r.1 { st with world := r.2, trace := st.trace ++ [(i, r.1)] }
    if c.1 < 0 ∨ (PAM_RETURN_VALUES : Int) ≤ c.1 then
      (act mode h.level i ACT_BAD PAM_PERM_DENIED c.1 c.2).map .inr
    else
      (act mode h.level i (h.actions c.1.toNat) r.1 c.1 c.2).map .inr

/-- "remember state if we are entering a substack": libpam/pam_dispatch.c:89-93.
`none` = out-of-bounds write. -/
def enter {σ : Type} (prev L : Nat) (st : St σ) : Option (St σ) :=
  if prev < L then
    if L < SUBSTACK_MAX_LEVEL then
      some { st with subs := upd st.subs L (some ⟨st.imp, st.status⟩) }
    else none
  else some st

/-- The loop of `_pam_dispatch_aux`: libpam/pam_dispatch.c:78-307, then 309-317.
`skip` is `skip_depth`, `depth` the position of the first handler of the list, `prev` is
`prev_level`. -/
def loop {σ : Type} (mode : Mode) (skip : Nat) :
    List (Handler σ) → Nat → Nat → St σ → Outcome σ
  | [], _, _, st => finish st
  | h :: t, depth, prev, st =>
    if depth < skip then loop mode skip t (depth + 1) h.level st
    else
      match enter prev h.level st with
      | none => .ub
      | some st0 =>
        if h.htype = .substack then loop mode skip t (depth + 1) h.level st0
        else
          match visit mode h depth st0 with
          | none => .ub
          | some (.inl st1) => .incomplete depth st1
          | some (.inr (st1, .cont)) => loop mode skip t (depth + 1) h.level st1
          | some (.inr (st1, .decided)) =>
            loop mode skip (skipDecided h.level t)
              (depth + 1 + (t.length - (skipDecided h.level t).length)) h.level st1
          | some (.inr (st1, .jump n)) =>
            loop mode skip (skipJump h.level t n).1
              (depth + 1 + (t.length - (skipJump h.level t n).1.length)) h.level
              (if (skipJump h.level t n).2 = 0 then st1
               else { st1 with imp := .negative, status := PAM_PERM_DENIED })
termination_by l => l.length
decreasing_by
  all_goals simp only [List.length_cons]
  · omega
  · omega
  · omega
  · have := skipDecided_length h.level t; omega
  · have := skipJump_length h.level t n; omega

/-- What `pamh->former` remembers of an interrupted walk: libpam/pam_private.h:138-142. -/
structure Former where
  depth : Nat
  imp : Impression
  status : Int
  subs : Nat → Option Sub

/-- Mutable state that survives a walk: cached cells, grantor flags, world, ghost trace. -/
structure Env (σ : Type) where
  cells : Nat → Int
  grant : Nat → Bool
  world : σ
  trace : List (Nat × Int)

/-- Local state of a fresh walk: libpam/pam_dispatch.c:65-74.  (malloc failure, lines 67-71, is
not modelled: it returns PAM_BUF_ERR before anything happens.) -/
def freshSt {σ : Type} (e : Env σ) : St σ :=
  { imp := .undef, status := PAM_PERM_DENIED,
    subs := upd (fun _ => none) 0 (some ⟨.undef, PAM_PERM_DENIED⟩),
    cells := e.cells, grant := e.grant, world := e.world, trace := e.trace }

/-- Local state of a resumed walk: libpam/pam_dispatch.c:54-63. -/
def resumedSt {σ : Type} (f : Former) (e : Env σ) : St σ :=
  { imp := f.imp, status := f.status, subs := f.subs,
    cells := e.cells, grant := e.grant, world := e.world, trace := e.trace }

/-- `_pam_dispatch_aux`: libpam/pam_dispatch.c:34-318.  An empty list is `h == NULL`
(lines 42-50). -/
def dispatchAux {σ : Type} (mode : Mode) (hs : List (Handler σ)) (former : Option Former)
    (e : Env σ) : Outcome σ :=
  match hs with
  | [] => .done PAM_PERM_DENIED (match former with | none => freshSt e | some f => resumedSt f e)
  | h :: t =>
    match former with
    | none => loop mode 0 (h :: t) 0 0 (freshSt e)
    | some f => loop mode f.depth (h :: t) 0 0 (resumedSt f e)

end Pam.Dispatch
