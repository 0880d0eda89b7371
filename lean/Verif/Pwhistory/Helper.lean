import Verif.Pwhistory.Model
import Verif.Util.Inline
/-
Model of modules/pam_pwhistory built with SELinux, where the history is read and written by the program pwhistory_helper:
modules/pam_pwhistory/pwhistory_helper.c, run_save_helper and run_check_helper of modules/pam_pwhistory/pam_pwhistory.c.  Logging is left
out, memory is available.  A password that does not fit
into the pipe is not modelled: the write works or fails as a whole (see `write`).
-/
namespace Pam.Pwh
open Pam Pam.Util

/-- How a run of the helper goes: the system calls of module and child, the standard input of the helper being a terminal, how its reads are
answered, and what its buffer held. -/
structure HRun where
  pipe : Bool := true
  fork : Bool := true
  dup : Bool := true
  sanitize : Bool := true
  exec : Bool := true
  /-- the whole password is written, or nothing -/
  write : Bool := true
  wait : Bool := true
  /-- the helper ends by itself -/
  exits : Bool := true
  tty : Bool := false
  sched : List Ev := []
  buf : List Char := []

/-- `atoi` -/
def atoi (s : Str) : Int := toInt (strtol s)

/-- `check_history`: modules/pam_pwhistory/pwhistory_helper.c:53-76.  `none`: still waiting for the password. -/
def checkHistory (crypt : Str → Str → Option Str) (file : Option Str) (r : HRun) (stdin : List Char) (user : Str) : Option Int :=
  match readPasswords [r.buf] 1 stdin r.sched with
  | .ret ((n, b :: _), _) => if n ≠ 1 then some PAM_AUTHTOK_ERR else some (checkOld crypt file user (cstr b))
  | _ => none

/-- `main`: modules/pam_pwhistory/pwhistory_helper.c:90-121 with `save_history`: 78-88.  `args`: without the name of the program; `file`: the
history in the named file (`none`: the default) when it is opened for checking, `main`: when it is read for saving. -/
def helperMain (crypt : Str → Str → Option Str) (sys : Sys) (file main : Option Str → Option Str) (r : HRun) (stdin : List Char) (args : List Str) :
    Option (Int × List Op) :=
  if r.tty then some (PAM_SYSTEM_ERR, [])
  else
    let name := fun (s : Str) => if s = [] then none else some s
    match args with
    | [option, user, filename, _] =>
      if option = "check".toList then (checkHistory crypt (file (name filename)) r stdin user).map (fun k => (k, []))
      else some (PAM_SYSTEM_ERR, [])
    | [option, user, filename, howmany, _] =>
      if option = "save".toList then some (saveOld sys (atoi howmany) user (main (name filename)))
      else some (PAM_SYSTEM_ERR, [])
    | _ => some (PAM_SYSTEM_ERR, [])

/-- `%d` -/
def showInt (n : Int) : Str := if n < 0 then '-' :: Nat.toDigits 10 n.natAbs else Nat.toDigits 10 n.toNat

/-- what waitpid tells of a program that exits with this code: WEXITSTATUS -/
def status (k : Int) : Int := k % 256

/-- `run_save_helper`: modules/pam_pwhistory/pam_pwhistory.c:115-189 -/
def runSave (crypt : Str → Str → Option Str) (sys : Sys) (file main : Option Str → Option Str) (r : HRun) (user : Str) (howmany : Int)
    (filename : Option Str) : Option (Int × List Op) :=
  if !r.fork then some (PAM_SYSTEM_ERR, [])
  else
    let child := if !r.sanitize then some (PAM_SYSTEM_ERR, [])
      else if !r.exec then some (PAM_SYSTEM_ERR, [])
      else helperMain crypt sys file main r [] ["save".toList, user, filename.getD [], showInt howmany, ['0']]
    child.map (fun x => if !r.wait then (PAM_SYSTEM_ERR, x.2) else if !r.exits then (PAM_SYSTEM_ERR, x.2) else (status x.1, x.2))

/-- `run_check_helper`: modules/pam_pwhistory/pam_pwhistory.c:191-289 -/
def runCheck (crypt : Str → Str → Option Str) (sys : Sys) (file main : Option Str → Option Str) (r : HRun) (user newpass : Str)
    (filename : Option Str) : Option Int :=
  if !r.pipe then some PAM_SYSTEM_ERR
  else if !r.fork then some PAM_SYSTEM_ERR
  else
    let child := if !r.dup then some (PAM_SYSTEM_ERR, [])
      else if !r.sanitize then some (PAM_SYSTEM_ERR, [])
      else if !r.exec then some (PAM_SYSTEM_ERR, [])
      else helperMain crypt sys file main r (if r.write then newpass ++ [NUL] else []) ["check".toList, user, filename.getD [], ['0']]
    child.map (fun x => if !r.wait then PAM_SYSTEM_ERR else if !r.exits then PAM_SYSTEM_ERR else status x.1)

/-- the loop that asks for a password, with a check that may wait: modules/pam_pwhistory/pam_pwhistory.c:346-392 -/
def askLoopSe (c : Call) (enforce : Bool) (check : Nat → Str → Option Int) : (left : Nat) → (i : Nat) → Option (Int × Option Str × Nat)
  | 0, i => some (PAM_MAXTRIES, none, i)
  | left + 1, i =>
    match c.answers i with
    | .code k =>
      if k ≠ PAM_SUCCESS ∧ k ≠ PAM_TRY_AGAIN then some (if k = PAM_CONV_AGAIN then PAM_INCOMPLETE else k, none, i + 1)
      else askLoopSe c enforce check left (i + 1)
    | .got p =>
      match check i p with
      | none => none
      | some k =>
        if k ≠ PAM_SUCCESS then
          if c.ruid ≠ 0 ∨ enforce ∨ c.expired then askLoopSe c enforce check left (i + 1)
          else some (PAM_SUCCESS, some p, i + 1)
        else some (PAM_SUCCESS, some p, i + 1)

/-- Saving the old password: modules/pam_pwhistory/pam_pwhistory.c:334-339 with the beginning of `save_old_pass`:
modules/pam_pwhistory/opasswd.c:246-272 -/
def saveSe (crypt : Str → Str → Option Str) (sys : Sys) (o : Options) (fsOf : Option Str → Fs) (save : HRun) (user : Str) : Option (Int × List Op) :=
  match sys.pw user with
  | none => some (PAM_USER_UNKNOWN, [])
  | some _ =>
    if o.remember ≤ 0 then some (PAM_SUCCESS, [])
    else runSave crypt sys (fun _ => none) (fun n => (fsOf n).main) save user o.remember o.filename

/-- `pam_sm_chauthtok` with SELinux in force: modules/pam_pwhistory/pam_pwhistory.c:294-402, and the beginning of
`check_old_pass`: modules/pam_pwhistory/opasswd.c:158-161.  `fsOf`: the files for each file name; `save`, `check i`: how the runs of
the helper go. -/
def chauthtokSe (crypt : Str → Str → Option Str) (sys : Sys) (o : Options) (c : Call) (fsOf : Option Str → Fs) (save : HRun) (check : Nat → HRun) :
    Option Result :=
  if o.remember = 0 then some ⟨PAM_IGNORE, none, 0, []⟩
  else
    match c.user with
    | .error k => some ⟨k, none, 0, []⟩
    | .ok user =>
      if c.prelim then some ⟨PAM_SUCCESS, none, 0, []⟩
      else
        match saveSe crypt sys o fsOf save user with
        | none => none
        | some s =>
          if s.1 ≠ PAM_SUCCESS then some ⟨s.1, none, 0, s.2⟩
          else
            let main := fun n => if n = o.filename then (s.2.foldl Op.apply (fsOf n)).main else (fsOf n).main
            let look := fun i p => runCheck crypt sys (fun n => if sys.opensAgain i then main n else none) main (check i) user p o.filename
            (askLoopSe c o.enforceForRoot look o.tries.toNat 0).map (fun r => ⟨r.1, r.2.1, r.2.2, s.2⟩)

end Pam.Pwh
