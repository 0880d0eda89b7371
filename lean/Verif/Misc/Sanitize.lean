import Verif.Core.Codes
/-
libpam/pam_modutil_sanitize.c: the descriptors of a helper program.

The table of descriptors is a list: entry `i` is what descriptor `i` refers to.  A new descriptor is the lowest one that is free.  Every system call
may fail: `faults` says so in the order in which they are made (it need not be complete: the calls that are not mentioned succeed).
-/
namespace Pam.Misc
open Pam

/-- what a module opens for its helper: the ends of a pipe to it and of a pipe from it, and a log file -/
inductive End where
  | toRead
  | toWrite
  | fromRead
  | fromWrite
  | log
deriving DecidableEq, Repr

/-- what a descriptor refers to: the ends of the pipes made here, /dev/null opened for writing, what the caller had open, or what a module has
opened for its helper -/
inductive File where
  | pipeRead
  | pipeWrite
  | null
  | inherited (n : Nat)
  | ours (e : End)
deriving DecidableEq, Repr

/-- the table of descriptors -/
abbrev Table := List (Option File)

/-- what descriptor `fd` refers to -/
def Table.get (t : Table) (fd : Nat) : Option File := (t[fd]?).bind id

/-- the table with another entry -/
def Table.put : Table → Nat → Option File → Table
  | [], 0, v => [v]
  | [], fd + 1, v => none :: Table.put [] fd v
  | _ :: t, 0, v => v :: t
  | x :: t, fd + 1, v => x :: Table.put t fd v

/-- the lowest free descriptor -/
def Table.free : Table → Nat
  | [] => 0
  | none :: _ => 0
  | some _ :: t => Table.free t + 1

/-- the process -/
structure Proc where
  fds : Table
  faults : List Bool
deriving DecidableEq, Repr

/-- does the next system call fail -/
def Proc.next (p : Proc) : Bool × Proc := match p.faults with | [] => (false, p) | b :: l => (b, { p with faults := l })

/-- `close`: the descriptor is free afterwards, whatever is returned -/
def Proc.close (p : Proc) (fd : Nat) : Proc := { p with fds := p.fds.put fd none }

/-- `open` or one of the two descriptors of `pipe` -/
def Proc.alloc (p : Proc) (f : File) : Nat × Proc := (p.fds.free, { p with fds := p.fds.put p.fds.free (some f) })

/-- `dup2`; `none`: it fails -/
def Proc.dup2 (p : Proc) (old new : Nat) : Option Unit × Proc :=
  let (bad, p) := p.next
  match p.fds.get old with
  | none => (none, p)
  | some f => if bad then (none, p) else (some (), { p with fds := p.fds.put new (some f) })

/-- `dup2` and closing the first one, as both redirections do: libpam/pam_modutil_sanitize.c:35-44, 60-69 -/
def Proc.moveTo (p : Proc) (old fd : Nat) : Option Unit × Proc :=
  if old = fd then (some (), p)
  else
    let (r, p) := p.dup2 old fd
    (r, p.close old)

/-- `redirect_in_pipe`: libpam/pam_modutil_sanitize.c:22-44 -/
def redirectInPipe (p : Proc) (fd : Nat) : Option Unit × Proc :=
  let (bad, p) := p.next
  if bad then (none, p)
  else
    let (r, p) := p.alloc .pipeRead
    let (w, p) := p.alloc .pipeWrite
    let p := p.close w
    p.moveTo r fd

/-- `redirect_out_null`: libpam/pam_modutil_sanitize.c:51-70 -/
def redirectOutNull (p : Proc) (fd : Nat) : Option Unit × Proc :=
  let (bad, p) := p.next
  if bad then (none, p)
  else
    let (n, p) := p.alloc .null
    p.moveTo n fd

/-- `enum pam_modutil_redirect_fd`: libpam/include/security/pam_modutil.h:137-141 -/
inductive RMode where
  | ignore
  | pipe
  | null
deriving DecidableEq, Repr

/-- `redirect_out`: libpam/pam_modutil_sanitize.c:72-89 -/
def redirectOut (mode : RMode) (p : Proc) (fd : Nat) : Option Unit × Proc :=
  match mode with
  | .pipe => redirectInPipe p fd
  | .null => redirectOutNull p fd
  | .ignore => (some (), p)

/-- the last descriptor that is closed one by one: libpam/pam_modutil_sanitize.c:91-111; `none`: `getrlimit` fails -/
def lastFd (rlimMax : Option Nat) : Nat :=
  match rlimMax with
  | none => 65535
  | some m => if m > 65535 then 65535 else if m < 20 then 20 else m - 1

/-- `for (; fd > STDERR_FILENO; --fd) close(fd);`: libpam/pam_modutil_sanitize.c:113-114 -/
def closeDown : (fd : Nat) → Proc → Proc
  | 0, p => p
  | fd + 1, p => if fd + 1 > 2 then closeDown fd (p.close (fd + 1)) else p

/-- `close_fds`: libpam/pam_modutil_sanitize.c:118-127; `range`: there is a `close_range` and it works -/
def closeFds (range : Bool) (rlimMax : Option Nat) (p : Proc) : Proc :=
  if range then { p with fds := p.fds.take 3 } else closeDown (lastFd rlimMax) p

/-- `pam_modutil_sanitize_helper_fds`: libpam/pam_modutil_sanitize.c:129-162 -/
def sanitize (inMode outMode errMode : RMode) (range : Bool) (rlimMax : Option Nat) (p : Proc) : Int × Proc :=
  let (r, p) := if inMode ≠ .ignore then redirectInPipe p 0 else (some (), p)
  if r = none then (-1, p)
  else
    let (r, p) := redirectOut outMode p 1
    if r = none then (-1, p)
    else
      let (r, p) := if errMode ≠ .ignore ∧ outMode = errMode then p.dup2 1 2 else redirectOut errMode p 2
      if r = none then (-1, p)
      else (0, closeFds range rlimMax p)

end Pam.Misc
