import Verif.Core.Codes
/-
modules/pam_unix/support.c: what is written to the log about passwords that do not fit.

The data of the handle are those of this module, in their order (libpam/pam_data.c).  An attempt comes with the code of the check, and with the name for the log, which is empty if the user is not
known.  What the line says about tty, ruser and rhost is left out.  Memory may not be there.
-/
namespace Pam.Unix.Failures
open Pam

/-- a C string -/
abbrev Str := List Char

/-- whom a failure is about, for the log: modules/pam_unix/support.c:274-277 -/
structure Who where
  user : Str
  logname : Str
  uid : Nat
  euid : Nat
  deriving DecidableEq

/-- `struct _pam_failed_auth`: modules/pam_unix/support.c:273-279 -/
structure Rec where
  who : Who
  count : Nat
  deriving DecidableEq

/-- a line of the log: modules/pam_unix/support.c:829-841, 314-326, 329-333, 848-849 -/
inductive Line
  | failure (w : Who)
  | more (n : Nat) (w : Who)
  | ignoring (n : Nat)
  | noMemory
  deriving DecidableEq

/-- UNIX_MAX_RETRIES: modules/pam_unix/support.c:271 -/
def MAX_RETRIES : Nat := 3

/-- the data of the handle: a name, which follows FAIL_PREFIX, and the record, which may be NULL -/
abbrev Data := List (Str × Option Rec)

/-- `_cleanup_failures`: modules/pam_unix/support.c:285-341 -/
def cleanup (quiet replace : Bool) : Option Rec → List Line
  | none => []
  | some f =>
    if !quiet && !replace then
      if f.count > 1 then .more (f.count - 1) f.who :: (if f.count > MAX_RETRIES then [.ignoring f.count] else []) else []
    else []

/-- `pam_get_data`: libpam/pam_data.c:114-143; NULL if there is none -/
def getData (n : Str) : Data → Option Rec
  | [] => none
  | (k, r) :: d => if k = n then r else getData n d

/-- an entry that is there gets new data, after the cleanup of the old: libpam/pam_data.c:85-90, 108-109 -/
def replaceData (n : Str) (r : Option Rec) : Data → Option (Data × List Line)
  | [] => none
  | (k, old) :: d => if k = n then some ((k, r) :: d, cleanup false true old) else (replaceData n r d).map (fun x => ((k, old) :: x.1, x.2))

/-- `pam_set_data`: libpam/pam_data.c:60-112; `mem`: there is memory for a new entry -/
def setData (mem : Bool) (n : Str) (r : Option Rec) (d : Data) : Data × List Line :=
  match replaceData n r d with
  | some x => x
  | none => if mem then ((n, r) :: d, []) else (d, [])

/-- an attempt: the name, whom it is about, the code of the check, and whether there is memory for the name of the data, the record, and a new entry -/
structure Attempt where
  name : Str
  who : Who
  rv : Int
  memName : Bool := true
  memRec : Bool := true
  memEntry : Bool := true

/-- the end of `_unix_verify_password`: modules/pam_unix/support.c:773-852 -/
def attempt (a : Attempt) (d : Data) : Int × Data × List Line :=
  if a.rv = PAM_SUCCESS then
    if a.memName then (a.rv, setData a.memEntry a.name none d) else (a.rv, d, [])
  else if a.memName then
    if a.memRec then
      match getData a.name d with
      | some old =>
        (if old.count + 1 ≥ MAX_RETRIES then PAM_MAXTRIES else a.rv, setData a.memEntry a.name (some ⟨a.who, old.count + 1⟩) d)
      | none =>
        let (d', l) := setData a.memEntry a.name (some ⟨a.who, 1⟩) d
        (a.rv, d', .failure a.who :: l)
    else (a.rv, d, [.noMemory])
  else (a.rv, d, [])

/-- attempts one after the other, with the codes and what each writes -/
def attempts : List Attempt → Data → List (Int × List Line) × Data
  | [], d => ([], d)
  | a :: as, d =>
    let (r, d', l) := attempt a d
    let (rs, d'') := attempts as d'
    ((r, l) :: rs, d'')

/-- `_pam_free_data`, called by `pam_end`: libpam/pam_data.c:145-164; `quiet`: the status has PAM_DATA_SILENT -/
def finish (quiet : Bool) (d : Data) : List Line := d.flatMap (fun x => cleanup quiet false x.2)

end Pam.Unix.Failures
