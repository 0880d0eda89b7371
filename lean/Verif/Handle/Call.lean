import Verif.Handle.Model
import Verif.Config.Load
/-
Model of the interface as a whole: what modules and applications can call, `_pam_dispatch`
(libpam/pam_dispatch.c:334-448), pam_auth.c, pam_account.c, pam_session.c, pam_password.c,
pam_start.c and pam_end.c.

Built without libaudit (`_pam_auditlog` could replace a result) and without prelude.  Running out
of memory in `_pam_dispatch_aux` and while loading handlers is not modelled.
-/
namespace Pam.Handle
open Pam.Config (Fn MType Tables Entry Sys)
open Pam.Dispatch (Former Handler Outcome Env St Mode dispatchAux)

/-! ### Calls that modules and applications make -/

/-- A call of an interface function.  Booleans are the success of allocations.  pam_get_authtok is
called for one of the two tokens, as its documentation demands. -/
inductive Op
  | setItem (item : Int) (v : Value) (ok ok2 : Bool)
  | getItem (item : Int)
  | putenv (nameValue : Option Str) (ok1 ok2 : Bool)
  | getenv (name : Option Str)
  | getenvlist (ok : Nat → Bool)
  | setData (name : Option Str) (data : Nat) (cleanup ok : Bool)
  | getData (name : Option Str)
  | failDelay (usec : Nat)
  | getUser (prompt : Option Str) (okPrompt okUser : Bool)
  | getAuthtok (old : Bool) (prompt : Option Str) (noverify : Bool) (ok : AuthtokOk)
  | getAuthtokVerify (given : Str) (prompt : Option Str) (okP okSet : Bool)
  | prompt (msg : Str) (ok : Bool)
  /-- pam_info and pam_error: libpam/include/security/pam_ext.h:69-75 -/
  | say (error : Bool) (msg : Str)
  /-- pam_authenticate, pam_setcred, ... with flags -/
  | run (fn : Fn) (flags : Nat)
  | pamEnd (status : Int)

/-- What a call gives back: the code (0 for functions without), a pointer written through or
returned, a datum, a list of strings. -/
structure Ans where
  code : Int
  value : Value := .null
  data : Option Nat := none
  list : Option (List Str) := none
deriving DecidableEq, Repr

/-- One pass of the dispatcher over a stack (ghost): operation, flags given to the modules,
resumed or not, result, and the module functions that completed: position and code. -/
structure Pass where
  fn : Fn
  flags : Nat
  resumed : Bool
  code : Int
  trace : List (Nat × Int)
deriving DecidableEq, Repr

/-- The ghost history of a handle. -/
inductive Event
  /-- an interface function other than the dispatching ones was called by a module or the
  application; with the conversations held meanwhile -/
  | call (caller : Caller) (op : Op) (ans : Ans) (talk : List Talk)
  /-- the dispatcher ran a stack -/
  | pass (p : Pass)
  /-- end of an operation with that result -/
  | waited (status : Int) (w : Wait)

/-- The state modules work on, with its ghost history.  `reentered`: a module got past the checks
of a dispatching function.  `broken`: bad memory access in the environment functions. -/
structure M (W : Type) where
  s : S W
  hist : List Event := []
  reentered : Bool := false
  broken : Bool := false

variable {W : Type}

/-- The checks at the entry of the dispatching functions and pam_end that return at once:
pam_auth.c:21-24, 60-63, pam_account.c:16-19, pam_session.c:19-22, 37-40, pam_password.c:19-29,
pam_end.c:19-22.  (`_pam_dispatch` checks the caller once more.) -/
def refused (h : Inner) : Op → Option Int
  | .run .chauthtok flags =>
    if h.caller = .module then some PAM_SYSTEM_ERR
    -- PAM_PRELIM_CHECK 0x4000, PAM_UPDATE_AUTHTOK 0x2000: pam_modules.h:60, 64
    else if flags.testBit 14 ∨ flags.testBit 13 then some PAM_SYSTEM_ERR
    else none
  | .run _ _ => if h.caller = .module then some PAM_SYSTEM_ERR else none
  | .pamEnd _ => if h.caller = .module then some PAM_SYSTEM_ERR else none
  | _ => none

/-- The effect of a call on handle and world.  For the dispatching functions and pam_end only the
refusal is modelled here: `none` if there is none.  The environment functions give `none` too on a
bad memory access. -/
def effect (cv : Convs W) (op : Op) (m : S W) : Option (Ans × S W) :=
  match op with
  | .setItem i v ok ok2 =>
    let r := setItem m.inner i v ok ok2
    some ({ code := r.1 }, { m with inner := r.2 })
  | .getItem i =>
    let r := getItem m.inner i
    some ({ code := r.1, value := r.2 }, m)
  | .putenv nv ok1 ok2 =>
    (m.inner.env.putenv nv ok1 ok2).map (fun r => ({ code := r.1 }, { m with inner := { m.inner with env := r.2 } }))
  | .getenv n => (m.inner.env.getenv n).map (fun r => ({ code := 0, value := .ofStr r }, m))
  | .getenvlist ok => (m.inner.env.getenvlist ok).map (fun r => ({ code := 0, list := r }, m))
  | .setData n d c ok =>
    let r := setData m.inner n d c ok
    some ({ code := r.1 }, { m with inner := r.2 })
  | .getData n =>
    let r := getData m.inner n
    some ({ code := r.1, data := r.2 }, m)
  | .failDelay u =>
    let r := failDelay m.inner u
    some ({ code := r.1 }, { m with inner := r.2 })
  | .getUser p ok1 ok2 =>
    let r := getUser cv p ok1 ok2 m
    some ({ code := r.1, value := .ofStr r.2.1 }, r.2.2)
  | .getAuthtok old p nv ok =>
    let r := getAuthtok cv (if old then PAM_OLDAUTHTOK else PAM_AUTHTOK) p nv ok m
    some ({ code := r.1, value := r.2.1.getD .null }, r.2.2)
  | .getAuthtokVerify g p ok1 ok2 =>
    let r := getAuthtokVerify cv g p ok1 ok2 m
    some ({ code := r.1, value := r.2.1.getD .null }, r.2.2)
  | .prompt msg ok =>
    let r := promptFor cv msg ok m
    some ({ code := r.1, value := .ofStr r.2.1 }, r.2.2)
  | .say error msg =>
    let r := converse cv (if error then .error else .info) msg m
    some ({ code := r.1.1 }, r.2)
  | .run fn flags => (refused m.inner (.run fn flags)).map (fun c => ({ code := c }, m))
  | .pamEnd st => (refused m.inner (.pamEnd st)).map (fun c => ({ code := c }, m))

/-- is it a function that dispatches, or pam_end? -/
def Op.isRun : Op → Bool
  | .run _ _ | .pamEnd _ => true
  | _ => false

/-- A call, recorded in the history. -/
def step (cv : Convs W) (op : Op) (m : M W) : Ans × M W :=
  match effect cv op m.s with
  | some (a, s') =>
    (a, { m with s := s', hist := m.hist ++ [.call m.s.inner.caller op a (s'.talk.drop m.s.talk.length)] })
  | none => ({ code := PAM_SYSTEM_ERR },
      if op.isRun then { m with reentered := true } else { m with broken := true })

/-- A module function as a program: it computes, calls interface functions, acts on the world, and
returns.  (Programs that do not end are not modelled.) -/
inductive Prog (W : Type)
  | ret (code : Int)
  | api (op : Op) (k : Ans → Prog W)
  | ext (f : W → W) (k : W → Prog W)

/-- running a program -/
def Prog.exec (cv : Convs W) : Prog W → M W → Int × M W
  | .ret c, m => (c, m)
  | .api op k, m =>
    let r := step cv op m
    (k r.1).exec cv r.2
  | .ext f k, m =>
    let w := f m.s.world
    (k w).exec cv { m with s := { m.s with world := w } }

/-- The surroundings of the library at one moment: the application's conversation functions, the
files, and the module functions found for an operation and a path (flags, arguments). -/
structure Lib (W : Type) where
  conv : Convs W
  sys : Sys
  modules : Fn → Str → Option (Nat → List Str → Prog W)

/-- Calling a module function: libpam/pam_dispatch.c:107-113. -/
def callProg (lib : Lib W) (prog : Prog W) (argv : List Str) (m : M W) : Int × M W :=
  let r := prog.exec lib.conv { m with s := { m.s with inner := { m.s.inner with modArgs := argv } } }
  (r.1, { r.2 with s := { r.2.s with inner := { r.2.s.inner with modArgs := [] } } })

/-- the functions found for an operation -/
def linker (lib : Lib W) (fn : Fn) (flags : Nat) : Str → List Str → Option (M W → Int × M W) :=
  fun path argv => (lib.modules fn path).map (fun f => callProg lib (f flags argv) argv)

/-! ### The handle -/

/-- `struct pam_handle` (libpam/pam_private.h:153-183).  `cells` and `grant` are the mutable fields
of the handlers (`other` side or not); a second function shares its `cells` with the first,
libpam/pam_handlers.c:849-850.  `former` is `former.choice` with the saved walk.  `loadFailed` is a
ghost field: loading the configuration failed at some time. -/
structure Handle (W : Type) where
  m : M W
  tables : Tables
  cells : Bool → MType → Nat → Int
  grant : Bool → Fn → Nat → Bool
  former : Option (Fn × Former)
  update : Bool
  loadFailed : Bool := false

/-- change the fields reachable by modules -/
def Handle.onInner (h : Handle W) (f : Inner → Inner) : Handle W :=
  { h with m := { h.m with s := { h.m.s with inner := f h.m.s.inner } } }

/-- the fields reachable by modules -/
abbrev Handle.inner (h : Handle W) : Inner := h.m.s.inner

/-- `_pam_init_handlers`: libpam/pam_handlers.c:405-575.  `false` = PAM_ABORT. -/
def load (lib : Lib W) (h : Handle W) : Bool × Handle W :=
  if h.inner.loaded then (true, h)
  else match Config.initHandlers lib.sys h.inner.service with
    | none => (false, { h with tables := {}, cells := fun _ _ _ => INVALID_RETVAL, grant := fun _ _ _ => false, loadFailed := true })
    | some T => (true,
      { h with tables := T, cells := fun _ _ _ => INVALID_RETVAL, grant := fun _ _ _ => false }.onInner
        (fun i => { i with loaded := true }))

/-- `use_cached_chain`: libpam/pam_dispatch.c:354-381 -/
def modeOf : Fn → Mode
  | .setcred | .closeSession => .mayBeFrozen
  | _ => .pleaseFreeze

/-- The position in the first list of a type of entry `j` of the second list: entries without a
name are missing in the second list, libpam/pam_handlers.c:829-837. -/
def firstPos : List Entry → Nat → Nat
  | [], j => j
  | e :: es, 0 => if Config.named e then 0 else firstPos es 0 + 1
  | e :: es, j + 1 => if Config.named e then firstPos es j + 1 else firstPos es (j + 1) + 1

/-- the first function of the type of a function -/
def firstOf : Fn → Fn
  | .setcred => .authenticate
  | .closeSession => .openSession
  | f => f

/-- The part of `_pam_dispatch` from the call of `_pam_dispatch_aux` on, without audit:
libpam/pam_dispatch.c:422-437.  `f` is the saved walk if this is a resumption.  `none` is an
access outside the table of substacks. -/
def runStack (lib : Lib W) (fn : Fn) (flags : Nat) (f : Option Former) (h : Handle W) : Option (Int × Handle W) :=
  let other := (h.tables.conf.get fn).isEmpty
  let es := (h.tables.side other).get fn
  let pos : Nat → Nat := if fn.first then id else firstPos ((h.tables.side other).get (firstOf fn))
  let inner := { h.inner with caller := .module, chauthtok := decide (fn = .chauthtok) }
  let env : Env (M W) := {
    cells := fun j => h.cells other fn.mtype (pos j)
    grant := if f.isSome then h.grant other fn else fun _ => false
    world := { h.m with s := { h.m.s with inner := inner } }
    trace := [] }
  let finish (code : Int) (former : Option (Fn × Former)) (st : St (M W)) : Int × Handle W :=
    (code, { h with
      m := { st.world with
        s := { st.world.s with inner := { st.world.s.inner with caller := .app } }
        hist := st.world.hist ++ [.pass ⟨fn, flags, f.isSome, code, st.trace⟩] }
      cells := fun o t => if o = other ∧ t = fn.mtype ∧ fn.first then st.cells else h.cells o t
      grant := fun o g => if o = other ∧ g = fn then st.grant else h.grant o g
      former := former })
  match dispatchAux (modeOf fn) (es.map (Config.link (linker lib fn flags))) f env with
  | .ub => none
  | .done s st => some (finish s none st)
  | .incomplete d st => some (finish PAM_INCOMPLETE (some (fn, ⟨d, st.imp, st.status, st.subs⟩)) st)

/-- `_pam_dispatch`: libpam/pam_dispatch.c:334-448 -/
def dispatch (lib : Lib W) (fn : Fn) (flags : Nat) (h : Handle W) : Option (Int × Handle W) :=
  if h.inner.caller = .module then some (PAM_SYSTEM_ERR, h)
  else
    let (ok, h) := load lib h
    if ok then
      match h.former with
      | some (g, f) => if g = fn then runStack lib fn flags (some f) h else some (PAM_ABORT, h)
      | none => runStack lib fn flags none h
    else some (PAM_ABORT, h)

/-- `_pam_await_timer` on the handle, recorded -/
def await (status : Int) (h : Handle W) : Handle W :=
  let r := awaitTimer h.inner status
  { h.onInner (fun _ => r.2) with m := { (h.onInner (fun _ => r.2)).m with hist := h.m.hist ++ [.waited status r.1] } }

/-- The start of pam_authenticate and pam_chauthtok: libpam/pam_auth.c:27-32,
libpam/pam_password.c:32-38 (for pam_authenticate `update` plays no role and is not changed). -/
def begin (clearUpdate : Bool) (h : Handle W) : Handle W :=
  match h.former with
  | none => { h.onInner sanitize with update := if clearUpdate then false else h.update }
  | some _ => h

/-- `pam_authenticate` after its entry check: libpam/pam_auth.c:27-49 (without prelude) -/
def authenticate (lib : Lib W) (flags : Nat) (h : Handle W) : Option (Int × Handle W) :=
  (dispatch lib .authenticate flags (begin false h)).map (fun r =>
    if r.1 ≠ PAM_INCOMPLETE then (r.1, await r.1 (r.2.onInner sanitize)) else r)

/-- The end of `pam_chauthtok`: libpam/pam_password.c:50-60 -/
def chauthtokEnd (r : Int × Handle W) : Int × Handle W :=
  if r.1 ≠ PAM_INCOMPLETE then
    (r.1, await r.1 { r.2.onInner sanitize with update := false })
  else r

/-- The second pass of `pam_chauthtok`: libpam/pam_password.c:44-60 -/
def updatePass (lib : Lib W) (flags : Nat) (h : Handle W) : Option (Int × Handle W) :=
  (dispatch lib .chauthtok (flags ||| 2 ^ 13) { h with update := true }).map chauthtokEnd

/-- `pam_chauthtok` after its entry checks: libpam/pam_password.c:32-61.  PAM_PRELIM_CHECK is
2^14, PAM_UPDATE_AUTHTOK 2^13. -/
def chauthtok (lib : Lib W) (flags : Nat) (h : Handle W) : Option (Int × Handle W) :=
  if (begin true h).update then updatePass lib flags (begin true h)
  else
    match dispatch lib .chauthtok (flags ||| 2 ^ 14) (begin true h) with
    | none => none
    | some (code, h1) =>
      if code = PAM_SUCCESS then updatePass lib flags h1
      else some (chauthtokEnd (code, h1))

/-- The dispatching functions called by the application: pam_auth.c, pam_account.c, pam_session.c,
pam_password.c.  pam_setcred without flags means PAM_ESTABLISH_CRED (2), pam_auth.c:65-67. -/
def run (lib : Lib W) (fn : Fn) (flags : Nat) (h : Handle W) : Option (Int × Handle W) :=
  match refused h.inner (.run fn flags) with
  | some c => some (c, h)
  | none =>
    match fn with
    | .authenticate => authenticate lib flags h
    | .setcred => dispatch lib .setcred (if flags = 0 then 2 else flags) h
    | .chauthtok => chauthtok lib flags h
    | fn => dispatch lib fn flags h

/-- `_pam_start_internal` with memory available: libpam/pam_start.c:19-175.  `none` = PAM_ABORT.
`pamh->confdir` is part of `lib.sys`. -/
def start (lib : Lib W) (service : Str) (user : Option Str) (conv : Nat) (w : W) : Option (Handle W) :=
  let h : Handle W := {
    m := { s := { inner := { service := (Config.afterLast '/' service).map lower, user := user, conv := conv }, world := w } }
    tables := {}, cells := fun _ _ _ => INVALID_RETVAL, grant := fun _ _ _ => false, former := none, update := false }
  match load lib h with
  | (true, h) => some h
  | (false, _) => none

/-- `pam_end`: libpam/pam_end.c:12-99: the code and the final state of the module data. -/
def pamEnd (status : Int) (h : Handle W) : Int × Inner :=
  match refused h.inner (.pamEnd status) with
  | some c => (c, h.inner)
  | none => (PAM_SUCCESS, freeData h.inner status)

/-- What happens to a handle in the hands of the application: a call (of a function other than
pam_end), or a change of the world.  `none`: bad memory access, or not a step. -/
inductive Act (W : Type)
  | call (op : Op)
  | world (f : W → W)

/-- one such step -/
def Act.apply (lib : Lib W) (a : Act W) (h : Handle W) : Option (Ans × Handle W) :=
  match a with
  | .call (.run fn flags) => (run lib fn flags h).map (fun r => ({ code := r.1 }, r.2))
  | .call (.pamEnd _) => none
  | .call op =>
    let r := step lib.conv op h.m
    some (r.1, { h with m := r.2 })
  | .world f => some ({ code := 0 }, { h with m := { h.m with s := { h.m.s with world := f h.m.s.world } } })

/-- The handles reachable from pam_start by any sequence of calls of the application, with any
modules; files and modules may change from call to call. -/
inductive Reach : Handle W → Prop
  | start (lib : Lib W) (service : Str) (user : Option Str) (conv : Nat) (w : W) (h : Handle W) :
      start lib service user conv w = some h → Reach h
  | step (h h' : Handle W) (lib : Lib W) (a : Act W) (ans : Ans) : Reach h → a.apply lib h = some (ans, h') → Reach h'

/-- The handles reachable from a given one in the same way. -/
inductive Since (h0 : Handle W) : Handle W → Prop
  | refl : Since h0 h0
  | step (h h' : Handle W) (lib : Lib W) (a : Act W) (ans : Ans) : Since h0 h → a.apply lib h = some (ans, h') → Since h0 h'

end Pam.Handle
