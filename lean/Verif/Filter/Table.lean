import Verif.Helper.Props
/-
The descriptors of the three processes of pam_filter: the application (the first child), the filter (the second child) and the process that waits.

The process and its table are those of Misc/Sanitize.lean; Filter/Model.lean only counts descriptors.  A child's own system calls fail as a list of faults of its own says.
-/
namespace Pam.Filter.Table
open Pam Pam.Misc Pam.Helper

/-- the filter's end of the line, `fd[0]`: the master terminal or one socket -/
def filterEnd : File := .ours .toWrite
/-- the application's end, `fd[1]`: the slave terminal or the other socket -/
def appEnd : File := .ours .toRead

/-- a system call that needs a descriptor and leaves the table alone: `setsid`, `grantpt`, `unlockpt`, `ptsname`, `tcsetattr`, `fcntl`; true: it fails -/
def call (p : Proc) (fd : Option Nat) : Bool × Proc :=
  let (bad, p) := p.next
  match fd with
  | none => (bad, p)
  | some fd => (bad || (p.fds.get fd).isNone, p)

/-- one call after the other until one fails: true -/
def calls : List (Option Nat) → Proc → Bool × Proc
  | [], p => (false, p)
  | fd :: r, p =>
    match call p fd with
    | (true, p) => (true, p)
    | (false, p) => calls r p

/-- `dup2` to the three descriptors from `base` on, until one fails: true.  modules/pam_filter/pam_filter.c:381-383, 430-432 -/
def dups (fd : Nat) : List Nat → Proc → Bool × Proc
  | [], p => (false, p)
  | n :: r, p =>
    match p.dup2 fd n with
    | (none, p) => (true, p)
    | (some _, p) => dups fd r p

/-- opening the line: modules/pam_filter/pam_filter.c:233-292.  The second descriptor is there already if it is no terminal. -/
def openLine (tty : Bool) (p : Proc) : Option (Nat × Option Nat) × Proc :=
  if tty then
    let (bad, p) := p.next
    if bad then (none, p)
    else
      let (fd0, p) := p.alloc filterEnd
      match calls [some 0, some 0] p with
      | (true, p) => (none, p.close fd0)
      | (false, p) => (some (fd0, none), p)
  else
    match pipe filterEnd appEnd p with
    | (none, p) => (none, p)
    | (some (a, b), p) => (some (a, some b), p)

/-- leaving the old terminal: modules/pam_filter/pam_filter.c:316-320 -/
def leaveTty (p : Proc) : Proc :=
  let (bad, p) := p.next
  if bad then p
  else
    let (t, p) := p.alloc (.inherited 0)
    p.close t

/-- the application gets its end and gives up the other one: modules/pam_filter/pam_filter.c:313-377; `none`: PAM_ABORT -/
def ownEnd (fd0 : Nat) (fd1 : Option Nat) (p : Proc) : Option Nat × Proc :=
  match fd1 with
  | some fd1 => (some fd1, p.close fd0)
  | none =>
    match calls [none, some fd0, some fd0, some fd0] (leaveTty p) with
    | (true, p) => (none, p.close fd0)
    | (false, p) =>
      let (bad, p) := p.next
      if bad then (none, p.close fd0)
      else
        let (fd1, p) := p.alloc appEnd
        let p := p.close fd0
        match calls [some fd1] p with
        | (true, p) => (none, p.close fd1)
        | (false, p) => (some fd1, p)

/-- the first child, which goes on as the application: modules/pam_filter/pam_filter.c:311-408 -/
def appSide (fd0 : Nat) (fd1 : Option Nat) (p : Proc) : Int × Proc :=
  match ownEnd fd0 fd1 p with
  | (none, p) => (PAM_ABORT, p)
  | (some fd1, p) =>
    match dups fd1 [0, 1, 2] p with
    | (true, p) => (PAM_ABORT, p.close fd1)
    | (false, p) =>
      match calls [some 0, some 1, some 2] (p.close fd1) with
      | (true, p) => (PAM_ABORT, p)
      | (false, p) => (PAM_SUCCESS, p)

/-- the second child, up to the start of the filter's program: modules/pam_filter/pam_filter.c:428-455; `none`: `_exit` -/
def filterSide (fd0 : Nat) (p : Proc) : Option Proc :=
  match dups fd0 [3, 4, 5] p with
  | (true, _) => none
  | (false, p) =>
    match calls [some 3, some 4, some 5] p with
    | (true, _) => none
    | (false, p) => some p

/-- the other end is closed before the second fork: modules/pam_filter/pam_filter.c:410-411 -/
def beforeFork (fd1 : Option Nat) (p : Proc) : Proc :=
  match fd1 with
  | some fd1 => p.close fd1
  | none => p

/-- what becomes of the processes -/
inductive Result
  /-- the module returns in the one process there is, with an error (which one is in Filter/Model.lean) -/
  | failed (p : Proc)
  /-- the application with the code that the module returns; the filter when its program starts; the process that waits, meanwhile and at the end -/
  | running (code : Int) (app : Proc) (filter : Option Proc) (waits ends : Proc)

/-- `set_filter` for a filter with an absolute name: modules/pam_filter/pam_filter.c:226-548.  `cf` and `cf2` are the faults of the two children. -/
def setFilter (tty : Bool) (cf cf2 : List Bool) (p : Proc) : Result :=
  match openLine tty p with
  | (none, p) => .failed p
  | (some (fd0, fd1), p) =>
    let (bad, p) := p.next
    if bad then .failed (beforeFork fd1 (p.close fd0))
    else
      let (code, app) := appSide fd0 fd1 { p with faults := cf }
      let p := beforeFork fd1 p
      let (bad, p) := p.next
      let filter := if bad then none else filterSide fd0 { p with faults := cf2 }
      .running code app filter p (p.close fd0)

end Pam.Filter.Table
