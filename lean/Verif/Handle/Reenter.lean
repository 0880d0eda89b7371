import Verif.Core.Codes
/-
libpam/pam_data.c with cleanup functions that call `pam_set_data` and `pam_get_data` themselves.

Handle/Model.lean takes a cleanup function for something that leaves the handle alone.  Here it is a program: the calls it makes on the same handle.  An entry of the list is a piece of memory
with an address, so that reading one that was released is seen.  Left out: the other calls that a cleanup function may make; a program does not depend on what its calls return.
-/
namespace Pam.Handle.Reenter

abbrev Str := List Char

/-- a call that a module or a cleanup function makes.  A cleanup function is named by a number; `mem` says whether the allocations succeed. -/
inductive Op
  | set (name : Str) (data : Nat) (cleanup : Option Nat) (mem : Bool)
  | get (name : Str)
  deriving DecidableEq

/-- what a cleanup function does with its datum and its status -/
abbrev Code := Nat → Nat → Int → List Op

/-- `struct pam_data`: libpam/pam_private.h:261-266.  `at_` is the address; `id` is a ghost number, one for each successful call of `pam_set_data`. -/
structure Entry where
  at_ : Nat
  name : Str
  data : Nat
  cleanup : Option Nat
  id : Nat
  deriving DecidableEq

/-- the handle: the list, the addresses that were released, and who calls.  `taken` (ghost) are the successful calls of `pam_set_data` with their name, datum and cleanup function, by number;
    `log` (ghost) are the calls of cleanup functions: the number of the call that gave the datum. -/
structure St where
  list : List Entry := []
  freed : List Nat := []
  app : Bool := false
  taken : List (Str × Nat × Option Nat) := []
  log : List Nat := []
  deriving DecidableEq

/-- how a call ends: it reads released memory, or it nests deeper than the stack allows -/
inductive Out (α : Type)
  | ok (a : α)
  | fault
  | deep
  deriving DecidableEq

/-- `_pam_locate_data`: libpam/pam_data.c:39-58.  It reads one entry after the other. -/
def locate (freed : List Nat) (n : Str) : List Entry → Out (Option Entry)
  | [] => .ok none
  | e :: r => if freed.contains e.at_ then .fault else if e.name = n then .ok (some e) else locate freed n r

/-- `pam_get_data`: libpam/pam_data.c:114-143 -/
def getData (s : St) (n : Str) : Out (Int × Option Nat) :=
  if s.app then .ok (PAM_SYSTEM_ERR, none)
  else match locate s.freed n s.list with
    | .ok (some e) => .ok (PAM_SUCCESS, some e.data)
    | .ok none => .ok (PAM_NO_MODULE_DATA, none)
    | .fault => .fault
    | .deep => .deep

/-- the calls of a cleanup function, one after the other -/
def runOps (set : St → Str → Nat → Option Nat → Bool → Out (Int × St)) : List Op → St → Out St
  | [], s => .ok s
  | .set n d c mem :: r, s =>
    match set s n d c mem with
    | .ok (_, s) => runOps set r s
    | .fault => .fault
    | .deep => .deep
  | .get n :: r, s =>
    match getData s n with
    | .ok _ => runOps set r s
    | .fault => .fault
    | .deep => .deep

/-- write the fields `data` and `cleanup` of the entry at an address: libpam/pam_data.c:108-109 -/
def store (l : List Entry) (a : Nat) (d : Nat) (c : Option Nat) (id : Nat) : List Entry :=
  l.map (fun e => if e.at_ = a then { e with data := d, cleanup := c, id := id } else e)

/-- call the cleanup function of an entry: libpam/pam_data.c:86-89 and 158-160 -/
def cleanEntry (set : St → Str → Nat → Option Nat → Bool → Out (Int × St)) (code : Code) (status : Int) (e : Entry) (s : St) : Out St :=
  match e.cleanup with
  | none => .ok s
  | some c => runOps set (code c e.data status) { s with log := s.log ++ [e.id] }

/-- `pam_set_data`: libpam/pam_data.c:60-112.  `fuel` bounds how deep the calls may nest. -/
def setData (code : Code) : (fuel : Nat) → St → Str → Nat → Option Nat → Bool → Out (Int × St)
  | 0, _, _, _, _, _ => .deep
  | fuel + 1, s, n, d, c, mem =>
    if s.app then .ok (PAM_SYSTEM_ERR, s)
    else match locate s.freed n s.list with
      | .fault => .fault
      | .deep => .deep
      | .ok (some e) =>
        match cleanEntry (setData code fuel) code 0x20000000 e s with
        | .ok s => .ok (PAM_SUCCESS, { s with list := store s.list e.at_ d c s.taken.length, taken := s.taken ++ [(n, d, c)] })
        | .fault => .fault
        | .deep => .deep
      | .ok none =>
        if mem then .ok (PAM_SUCCESS, { s with list := ⟨s.list.length, n, d, c, s.taken.length⟩ :: s.list, taken := s.taken ++ [(n, d, c)] })
        else .ok (PAM_BUF_ERR, s)

/-- the loop of `_pam_free_data` over the addresses from `data` on: libpam/pam_data.c:155-163.  An entry is read when its turn comes; `pamh->data` stays as it is. -/
def freeLoop (code : Code) (fuel : Nat) (status : Int) : List Nat → St → Out St
  | [], s => .ok s
  | a :: r, s =>
    if s.freed.contains a then .fault
    else match s.list.find? (fun e => e.at_ = a) with
      | none => .fault
      | some e =>
        match cleanEntry (setData code fuel) code status e s with
        | .ok s => freeLoop code fuel status r { s with freed := s.freed ++ [a] }
        | .fault => .fault
        | .deep => .deep

/-- the module data at `pam_end`, which the application calls: libpam/pam_end.c:20-32.  While a module runs the call is refused. -/
def endData (code : Code) (fuel : Nat) (status : Int) (s : St) : Out St :=
  if s.app then freeLoop code fuel status (s.list.map (·.at_)) s else .ok s

/-- the calls that modules make during a transaction; the application has the word at the end: `__PAM_TO_APP`, libpam/pam_private.h:315-316 -/
def transaction (code : Code) (fuel : Nat) (ops : List Op) : Out St :=
  match runOps (setData code fuel) ops {} with
  | .ok s => .ok { s with app := true }
  | .fault => .fault
  | .deep => .deep

end Pam.Handle.Reenter
