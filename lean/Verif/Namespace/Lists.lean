import Verif.Core.Codes
/-
modules/pam_namespace/pam_namespace.c: who owns the list of directories and the list of protected directories: the functions of the session, or the handle, to which
they are given with `pam_set_data`.

A list is a number; the number tells when it was made.  An empty list is the null pointer.  What is in the lists is left out, and so is what is mounted.
-/
namespace Pam.Namespace.Lists
open Pam

/-- what the handle has for a name of `pam_set_data`: nothing; or data, which may be a null pointer -/
abbrev Slot := Option (Option Nat)

/-- how many lists were made, which were freed (the last first), and what the handle has -/
structure Own where
  next : Nat := 0
  freed : List Nat := []
  /-- NAMESPACE_POLYDIR_DATA -/
  poly : Slot := none
  /-- NAMESPACE_PROTECT_DATA -/
  prot : Slot := none
deriving DecidableEq, Repr

/-- `del_polydir_list`, `unprotect_dirs`: modules/pam_namespace/pam_namespace.c:451-473; a null pointer does nothing -/
def Own.free (s : Own) (l : Option Nat) : Own := { s with freed := l.toList ++ s.freed }

/-- `pam_set_data`: libpam/pam_data.c:60-112; `mem`: is there memory for a new entry.  The old data are freed by their cleanup function (475-483 of pam_namespace.c). -/
def setPoly (mem : Bool) (v : Option Nat) (s : Own) : Bool × Own :=
  match s.poly with
  | some old => (true, { s.free old with poly := some v })
  | none => if mem then (true, { s with poly := some v }) else (false, s)

/-- the same for NAMESPACE_PROTECT_DATA: libpam/pam_data.c:60-112 -/
def setProt (mem : Bool) (v : Option Nat) (s : Own) : Bool × Own :=
  match s.prot with
  | some old => (true, { s.free old with prot := some v })
  | none => if mem then (true, { s with prot := some v }) else (false, s)

/-- what happens while a session is opened -/
structure Course where
  /-- the value of `get_user_data` -/
  user : Int
  /-- are there directories in the configuration, or before the place where it is wrong -/
  entries : Bool
  /-- the value of `parse_config_file` -/
  config : Int
  /-- is anything to be done for this user -/
  need : Bool
  /-- do `unshare` and the `mount` after it work -/
  unshare : Bool
  /-- was any directory protected -/
  protects : Bool
  /-- the code after the loop over the directories -/
  loop : Int
  /-- is there memory for the first and second entry in the handle, and for that which takes the first away again -/
  mem1 : Bool
  mem2 : Bool
  mem3 : Bool

/-- a list is made, or it is empty -/
def make (nonempty : Bool) (s : Own) : Option Nat × Own := if nonempty then (some s.next, { s with next := s.next + 1 }) else (none, s)

/-- `setup_namespace`: modules/pam_namespace/pam_namespace.c:2179-2352 -/
def setupLists (o : Course) (l : Nat) (s : Own) : Int × Own :=
  if ¬ o.need then (PAM_SUCCESS, s.free (some l))
  else if ¬ o.unshare then (PAM_SESSION_ERR, s)
  else
    let p := (make o.protects s).1
    let s := (make o.protects s).2
    if o.loop ≠ PAM_SUCCESS then (o.loop, s.free p)
    else
      match setProt o.mem1 p s with
      | (false, s) => (PAM_SYSTEM_ERR, s.free p)
      | (true, s) =>
        match setPoly o.mem2 (some l) s with
        | (false, s) => (PAM_SYSTEM_ERR, (setProt o.mem3 none s).2)
        | (true, s) => (PAM_SUCCESS, s)

/-- `pam_sm_open_session`: modules/pam_namespace/pam_namespace.c:2577-2612 -/
def openLists (o : Course) (s : Own) : Int × Own :=
  if o.user ≠ PAM_SUCCESS then (o.user, s)
  else
    let l := (make o.entries s).1
    let s := (make o.entries s).2
    if o.config ≠ PAM_SUCCESS then (PAM_SESSION_ERR, s.free l)
    else
      match l with
      | none => (PAM_SUCCESS, s)
      | some l =>
        if (setupLists o l s).1 ≠ PAM_SUCCESS then ((setupLists o l s).1, (setupLists o l s).2.free (some l)) else setupLists o l s

/-- `pam_sm_close_session`: modules/pam_namespace/pam_namespace.c:2658-2699.  `unmount`: is unmount_on_close set; `user`: the value of `get_user_data`; `mem1`, `mem2`: is
there memory for the entries -/
def closeLists (unmount : Bool) (user : Int) (mem1 mem2 : Bool) (s : Own) : Int × Own :=
  if ¬ unmount then (PAM_SUCCESS, (setProt mem2 none (setPoly mem1 none s).2).2)
  else if user ≠ PAM_SUCCESS then (user, s)
  else
    match s.poly with
    | none => (PAM_SUCCESS, s)
    | some none => (PAM_SUCCESS, s)
    | some (some _) => (PAM_SUCCESS, (setProt mem2 none (setPoly mem1 none s).2).2)

/-- `_pam_free_data` at the end of the transaction: libpam/pam_data.c:145-164 -/
def endLists (s : Own) : Own :=
  let f := fun (x : Slot) => x.getD none
  { ((s.free (f s.poly)).free (f s.prot)) with poly := none, prot := none }

/-- a call of the application -/
inductive Call
  | opens (o : Course)
  | closes (unmount : Bool) (user : Int) (mem1 mem2 : Bool)

/-- one call after another -/
def runCalls : List Call → Own → Own
  | [], s => s
  | .opens o :: r, s => runCalls r (openLists o s).2
  | .closes u c m1 m2 :: r, s => runCalls r (closeLists u c m1 m2 s).2

end Pam.Namespace.Lists
