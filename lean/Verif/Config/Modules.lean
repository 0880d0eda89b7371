import Verif.Core.Codes
import Verif.Core.Text
/-
Loading and unloading modules: `_pam_load_module` and what concerns it in `_pam_add_handler`, `_pam_init_handlers` and `_pam_free_handlers` of libpam/pam_handlers.c.
`dlopen` gives a new handle each time it succeeds; whether it does, and whether memory can be had, is given by oracles.  Reading through a NULL pointer is `crash`.
-/
namespace Pam.Modules
open Pam

abbrev Str := List Char

/-- `struct loaded_module`: libpam/pam_private.h:73-81; `handle` is `none` for a faulty module (PAM_MT_FAULTY_MOD) -/
structure Mod where
  name : Option Str
  handle : Option Nat
deriving DecidableEq, Repr

/-- `MODULE_CHUNK`: libpam/pam_handlers.c:23 -/
def CHUNK : Nat := 4

/-- the part of the handle that is about modules, and what was opened and closed so far -/
structure State where
  /-- the entries in use -/
  mods : List Mod := []
  /-- `module` is not NULL -/
  table : Bool := false
  allocated : Nat := 0
  /-- successful calls of `dlopen`: handle and path -/
  opened : List (Nat × Str) := []
  closed : List Nat := []
  /-- module data with cleanup functions: the handle of the module whose code that is -/
  data : List Nat := []
  /-- cleanup functions that were called: the module, and whether its code was still loaded -/
  cleaned : List (Nat × Bool) := []
  next : Nat := 0
deriving DecidableEq, Repr

inductive Out (α : Type)
  | ok (a : α)
  | crash
deriving DecidableEq, Repr

/-- what the outside does during the loading of one module -/
structure Oracle where
  realloc : Bool
  /-- `dlopen` of a path works -/
  dl : Str → Bool
  isaMem : Bool
  strdup : Bool

/-- the search for a module of that name: libpam/pam_handlers.c:615-621 -/
def locate (path : Str) : List Mod → Out Bool
  | [] => .ok false
  | ⟨none, _⟩ :: _ => .crash
  | ⟨some n, _⟩ :: t => if n = path then .ok true else locate path t

/-- `strstr(mod_path, "$ISA")`: what is before and after -/
def splitIsa : Str → Option (Str × Str)
  | '$' :: 'I' :: 'S' :: 'A' :: t => some ([], t)
  | [] => none
  | c :: t => (splitIsa t).map (fun p => (c :: p.1, p.2))

/-- one call of `_pam_dlopen` -/
def dlopen (o : Oracle) (path : Str) (s : State) : State × Option Nat :=
  if o.dl path then ({ s with opened := s.opened ++ [(s.next, path)], next := s.next + 1 }, some s.next) else (s, none)

/-- the second attempt with `$ISA` replaced: libpam/pam_handlers.c:646-663.  `isa` is `_PAM_ISA`, lines 25-26. -/
def secondTry (isa : Str) (o : Oracle) (path : Str) (r : State × Option Nat) : State × Option Nat :=
  match r.2 with
  | some h => (r.1, some h)
  | none =>
    match splitIsa path with
    | none => r
    | some (a, b) => if o.isaMem then dlopen o (a ++ isa ++ b) r.1 else r

/-- `_pam_load_module`: libpam/pam_handlers.c:604-699.  `false` is a NULL result.  The table has room for one more entry after lines 624-637; a write without room
is a crash. -/
def loadModule (isa : Str) (o : Oracle) (path : Str) (s : State) : Out (State × Bool) :=
  match locate path s.mods with
  | .crash => .crash
  | .ok true => .ok (s, true)
  | .ok false =>
    if s.allocated = s.mods.length ∧ o.realloc = false then .ok (s, false)
    else
      let s := if s.allocated = s.mods.length then { s with table := true, allocated := s.allocated + CHUNK } else s
      if s.table = true ∧ s.mods.length < s.allocated then
        let (s, h) := secondTry isa o path (dlopen o path s)
        .ok ({ s with mods := s.mods ++ [⟨if o.strdup then some path else none, h⟩] }, o.strdup)
      else .crash

/-- the path for what is written in a configuration: libpam/pam_handlers.c:723-729 -/
def fullPath (dir m : Str) : Str :=
  match m with
  | '/' :: _ => m
  | _ => dir ++ m

/-- a request of the parser -/
structure Request where
  text : Str
  /-- memory for the full path (only used if it is not absolute) -/
  mem : Bool
  oracle : Oracle

/-- the modules' part of `_pam_add_handler`: libpam/pam_handlers.c:721-737; `false` is PAM_ABORT -/
def request (dir isa : Str) (q : Request) (s : State) : Out (State × Bool) :=
  if q.text.head? ≠ some '/' ∧ q.mem = false then .ok (s, false)
  else loadModule isa q.oracle (fullPath dir q.text) s

/-- the parser's requests, one after the other.  It goes on after a request that failed in an included file (libpam/pam_handlers.c:212-222), so it may do so after any. -/
def requests (dir isa : Str) : List Request → State → Out State
  | [], s => .ok s
  | q :: qs, s =>
    match request dir isa q s with
    | .crash => .crash
    | .ok (s, _) => requests dir isa qs s

/-- the modules' part of `_pam_free_handlers`: libpam/pam_handlers.c:876-888 and 908 -/
def freeModules (s : State) : State :=
  { s with closed := s.closed ++ s.mods.filterMap Mod.handle, mods := [], table := false }

/-- what happens to a handle -/
inductive Ev
  /-- `_pam_init_handlers` reads the configuration (again): whether there is memory for the table, and the requests -/
  | init (mem : Bool) (qs : List Request)
  /-- a module that is loaded stores data with a cleanup function -/
  | store (k : Nat)
  /-- `pam_end` -/
  | fin

/-- the handle is among the modules in use -/
def loaded (s : State) (h : Nat) : Bool := s.mods.any (fun m => m.handle == some h)

/-- `_pam_free_data`: all cleanup functions are called (libpam/pam_data.c; see Handle/Model for the data themselves) -/
def freeData (s : State) : State :=
  { s with cleaned := s.cleaned ++ s.data.map (fun h => (h, loaded s h)), data := [] }

/-- libpam/pam_handlers.c:422-432; libpam/pam_end.c:29-38 -/
def step (dir isa : Str) (s : State) : Ev → Out State
  | .init mem qs =>
    let s := freeModules s
    if mem then requests dir isa qs { s with table := true, allocated := CHUNK } else .ok s
  | .store k =>
    match (s.mods.filterMap Mod.handle)[k]? with
    | some h => .ok { s with data := h :: s.data }
    | none => .ok s
  | .fin => .ok (freeModules (freeData s))

def run (dir isa : Str) : List Ev → State → Out State
  | [], s => .ok s
  | e :: es, s =>
    match step dir isa s e with
    | .crash => .crash
    | .ok s => run dir isa es s

end Pam.Modules
