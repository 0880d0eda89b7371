import Verif.Misc.SanitizeProps
/-
How modules run their helpers: the descriptors of the helper, and what is left of it in the application's process.

The process is that of `Misc.Sanitize`.  A helper is a new process with a copy of the table; its own system calls fail or not as a second list of
faults says.  Not modelled: what is written and read through the pipes, the program that is run, and the codes that are returned.
-/
namespace Pam.Helper
open Pam Pam.Misc

/-- `pipe`: the two lowest descriptors that are free, the read end first; `none`: it fails -/
def pipe (r w : File) (p : Proc) : Option (Nat × Nat) × Proc :=
  let (bad, p) := p.next
  if bad then (none, p)
  else
    let (a, p) := p.alloc r
    let (b, p) := p.alloc w
    (some (a, b), p)

/-- `dup`: another descriptor for the same file, the lowest that is free; `none`: it fails -/
def dup (p : Proc) (fd : Nat) : Option Nat × Proc :=
  let (bad, p) := p.next
  match p.fds.get fd with
  | none => (none, p)
  | some f =>
    if bad then (none, p)
    else
      let (n, p) := p.alloc f
      (some n, p)

/-- what is left of a helper when the function that ran it returns -/
structure Ran where
  /-- the helper when its program starts; `none`: no program was started -/
  child : Option Proc
  /-- the descriptors of the application -/
  fds : Table
  /-- the application's own action for SIGCHLD is in force -/
  handler : Bool
  /-- there was a new process -/
  forked : Bool
deriving DecidableEq, Repr

/-- how descriptors can be closed: `close_range` works, or else the limit on descriptors (`none`: not known) -/
structure Closing where
  range : Bool
  lim : Option Nat
deriving DecidableEq, Repr

/-- the end of all children: `pam_modutil_sanitize_helper_fds`, or `_exit` -/
def tidy (im om em : RMode) (c : Closing) (p : Proc) : Option Proc :=
  let (code, p) := sanitize im om em c.range c.lim p
  if code < 0 then none else some p

/-! ### pam_unix, pam_pwhistory, pam_mkhomedir -/

/-- the child that reads a password: modules/pam_unix/support.c:557-567, pam_unix_passwd.c:246-256, modules/pam_pwhistory/pam_pwhistory.c:212-224 -/
def readerChild (c : Closing) (fds : Nat × Nat) (p : Proc) : Option Proc :=
  match p.dup2 fds.1 0 with
  | (none, _) => none
  | (some _, p) => tidy .ignore .pipe .pipe c p

/-- `_unix_run_helper_binary`, `_unix_run_update_binary` and `run_check_helper`: modules/pam_unix/support.c:522-637, pam_unix_passwd.c:210-320,
modules/pam_pwhistory/pam_pwhistory.c:189-281.  `reap`: no argument `noreap` (pam_pwhistory has none). -/
def runReader (reap : Bool) (c : Closing) (cf : List Bool) (p : Proc) : Ran :=
  match pipe (.ours .toRead) (.ours .toWrite) p with
  | (none, p) => ⟨none, p.fds, true, false⟩
  | (some fds, p) =>
    let handler := !reap
    let (bad, p) := p.next
    let child := if bad then none else readerChild c fds { p with faults := cf }
    let p := (p.close fds.1).close fds.2
    ⟨child, p.fds, if reap then true else handler, !bad⟩

/-- the child that tells the age of a password: modules/pam_unix/pam_unix_acct.c:102-112 -/
def writerChild (c : Closing) (fds : Nat × Nat) (p : Proc) : Option Proc :=
  match p.dup2 fds.2 1 with
  | (none, _) => none
  | (some _, p) => tidy .pipe .ignore .pipe c p

/-- `_unix_run_verify_binary`: modules/pam_unix/pam_unix_acct.c:65-181 -/
def runWriter (reap : Bool) (c : Closing) (cf : List Bool) (p : Proc) : Ran :=
  match pipe (.ours .fromRead) (.ours .fromWrite) p with
  | (none, p) => ⟨none, p.fds, true, false⟩
  | (some fds, p) =>
    let handler := !reap
    let (bad, p) := p.next
    let child := if bad then none else writerChild c fds { p with faults := cf }
    let p := (p.close fds.2).close fds.1
    ⟨child, p.fds, if reap then true else handler, !bad⟩

/-- `run_save_helper` and `create_homedir`: modules/pam_pwhistory/pam_pwhistory.c:115-187, modules/pam_mkhomedir/pam_mkhomedir.c:149-203 -/
def runSilent (c : Closing) (cf : List Bool) (p : Proc) : Ran :=
  let (bad, p) := p.next
  ⟨if bad then none else tidy .pipe .pipe .pipe c { p with faults := cf }, p.fds, true, !bad⟩

/-! ### pam_xauth -/

/-- the child: modules/pam_xauth/pam_xauth.c:139-183.  `drops`: the privileges can be dropped. -/
def xauthChild (drops : Bool) (c : Closing) (ipipe opipe : Nat × Nat) (p : Proc) : Option Proc :=
  if drops = false then none
  else
    match p.dup2 ipipe.1 0 with
    | (none, _) => none
    | (some _, p) =>
      match p.dup2 opipe.2 1 with
      | (none, _) => none
      | (some _, p) => tidy .ignore .ignore .null c p

/-- `run_coprocess`: modules/pam_xauth/pam_xauth.c:91-226.  For lack of memory it returns early (lines 201-208), but closes and restores the same. -/
def runXauth (drops : Bool) (c : Closing) (cf : List Bool) (p : Proc) : Ran :=
  match pipe (.ours .toRead) (.ours .toWrite) p with
  | (none, p) => ⟨none, p.fds, true, false⟩
  | (some i, p) =>
    match pipe (.ours .fromRead) (.ours .fromWrite) p with
    | (none, p) => ⟨none, ((p.close i.1).close i.2).fds, true, false⟩
    | (some o, p) =>
      let (badSig, p) := p.next
      if badSig then ⟨none, ((((p.close i.1).close i.2).close o.1).close o.2).fds, true, false⟩
      else
        let (bad, p) := p.next
        if bad then ⟨none, ((((p.close i.1).close i.2).close o.1).close o.2).fds, false, false⟩
        else
          let child := xauthChild drops c i o { p with faults := cf }
          let p := p.close o.2
          let p := (p.close i.1).close i.2
          ⟨child, (p.close o.1).fds, true, true⟩

/-! ### pam_exec -/

/-- `move_fd_to_non_stdio`: modules/pam_exec/pam_exec.c:73-87; `none`: `_exit`.  The first argument bounds the rounds of the loop: three are enough
(`C183_moved`), since each leaves one less of the descriptors 0 to 2 free. -/
def moveOff : Nat → Proc → Nat → Option Nat × Proc
  | 0, p, fd => (some fd, p)
  | n + 1, p, fd =>
    if fd < 3 then
      match dup p fd with
      | (none, p) => (none, p)
      | (some fd', p) => moveOff n p fd'
    else (some fd, p)

/-- the arguments that matter here: `expose_authtok`, `stdout`, `log=` -/
structure Wants where
  expose : Bool
  stdout : Bool
  log : Bool
deriving DecidableEq, Repr

/-- the pipe to the command moved out of the way: modules/pam_exec/pam_exec.c:342-346 -/
def moveIn (o : Wants) (fds : Nat × Nat) (p : Proc) : Option (Nat × Proc) :=
  if o.expose then
    match moveOff 3 p fds.1 with
    | (none, _) => none
    | (some r, p) => some (r, p.close fds.2)
  else some (fds.1, p)

/-- the pipe from the command moved out of the way: modules/pam_exec/pam_exec.c:348-352 -/
def moveOut (o : Wants) (out : Nat × Nat) (p : Proc) : Option (Nat × Proc) :=
  if o.stdout then
    match moveOff 3 p out.2 with
    | (none, _) => none
    | (some w, p) => some (w, p.close out.1)
  else some (out.2, p)

/-- stdin: modules/pam_exec/pam_exec.c:356-365 -/
def setIn (o : Wants) (r : Nat) (p : Proc) : Option Proc :=
  if o.expose then
    match p.dup2 r 0 with
    | (none, _) => none
    | (some _, p) => some p
  else some p

/-- the log file: modules/pam_exec/pam_exec.c:383-402 -/
def openLog (p : Proc) : Option Proc :=
  let p := p.close 1
  let (bad, p) := p.next
  if bad then none
  else
    let (i, p) := p.alloc (.ours .log)
    if i ≠ 1 then
      match p.dup2 i 1 with
      | (none, _) => none
      | (some _, p) => some (p.close i)
    else some p

/-- stdout: modules/pam_exec/pam_exec.c:369-407 -/
def setOut (o : Wants) (w : Nat) (p : Proc) : Option Proc :=
  if o.stdout then
    match p.dup2 w 1 with
    | (none, _) => none
    | (some _, p) => some p
  else if o.log then openLog p
  else some p

/-- stderr: modules/pam_exec/pam_exec.c:409-415 -/
def setErr (o : Wants) (p : Proc) : Option Proc :=
  if o.stdout ∨ o.log then
    match p.dup2 1 2 with
    | (none, _) => none
    | (some _, p) => some p
  else some p

/-- the child, up to its last descriptor: modules/pam_exec/pam_exec.c:326-419.  What follows (`setuid`, `setsid`, memory) can
only end it. -/
def execChild (o : Wants) (c : Closing) (fds out : Nat × Nat) (p : Proc) : Option Proc :=
  (moveIn o fds p).bind fun (r, p) => (moveOut o out p).bind fun (w, p) => (setIn o r p).bind fun p => (setOut o w p).bind fun p =>
    (setErr o p).bind fun p =>
      let inMode := if o.expose then .ignore else .pipe
      let outMode := if o.stdout ∨ o.log then .ignore else .null
      tidy inMode outMode outMode c p

/-- `call_exec` from its first pipe on: modules/pam_exec/pam_exec.c:204-303.  `path`: there is a command among the arguments; `stream`: `fdopen`
works.  Where the function gives up before there is a child, it closes nothing. -/
def runExec (o : Wants) (path stream : Bool) (c : Closing) (cf : List Bool) (p : Proc) : Ran :=
  match (if o.expose then pipe (.ours .toRead) (.ours .toWrite) p else (some (0, 0), p)) with
  | (none, p) => ⟨none, p.fds, true, false⟩
  | (some fds, p) =>
    match (if o.stdout then pipe (.ours .fromRead) (.ours .fromWrite) p else (some (0, 0), p)) with
    | (none, p) => ⟨none, p.fds, true, false⟩
    | (some out, p) =>
      if o.stdout ∧ stream = false then ⟨none, p.fds, true, false⟩
      else if path = false then ⟨none, p.fds, true, false⟩
      else
        let (badSig, p) := p.next
        if badSig then ⟨none, p.fds, true, false⟩
        else
          let (bad, p) := p.next
          if bad then ⟨none, p.fds, false, false⟩
          else
            let child := execChild o c fds out { p with faults := cf }
            let p := if o.expose then (p.close fds.1).close fds.2 else p
            let p := if o.stdout then (p.close out.2).close out.1 else p
            ⟨child, p.fds, true, true⟩

end Pam.Helper
