import Verif.Unix.Update
import Verif.Pwhistory.Helper
/-
The password service of pam_unix built with SELinux, on a system where SELinux is in force: the module leaves the files to the helper unix_update.  modules/pam_unix/pam_unix_passwd.c:208-323 and 468-471, modules/pam_unix/passverify.c:539-595.

Left out: the handler of SIGCHLD, the labels of the files (modules/pam_unix/passverify.c:643-660 and the like).
-/
namespace Pam.Unix
open Pam Util

/-- how the run of the helper goes: the system calls of the module and of the child, the writes into the pipe, and what the helper meets besides its input -/
structure URun where
  pipe : Bool := true
  fork : Bool := true
  dup : Bool := true
  sanitize : Bool := true
  exec : Bool := true
  write : Nat → Bool := fun _ => true
  wait : Bool := true
  exits : Bool := true
  sched : List Ev
  buf1 : List Char
  buf2 : List Char
  tries : Nat → Bool
  l : SLuck

/-- what is written into the pipe: modules/pam_unix/pam_unix_passwd.c:281-296.  `PAM_MAX_RESP_SIZE` is 512.  It fits into the pipe, so the writes do not wait for the helper. -/
def pipeBytes (write : Nat → Bool) (old : Option Str) (new : Str) : List Char :=
  (if write 0 then (old.getD []).take 512 else []) ++ (if write 1 then [NUL] else []) ++ (if write 2 then new.take 512 else []) ++ (if write 3 then [NUL] else [])

/-- `_unix_run_update_binary`: modules/pam_unix/pam_unix_passwd.c:210-323; `none`: the helper waits for more -/
def runUpdate (w : World) (e : Etc) (p : Proc) (r : URun) (ctrl : Ctrl) (user : Str) (old : Option Str) (new : Str) (remember : Int) : Option (Int × List Act) :=
  if !r.pipe then some (PAM_AUTH_ERR, [])
  else if !r.fork then some (PAM_AUTH_ERR, [])
  else
    let child := if !r.dup then some (PAM_AUTHINFO_UNAVAIL, [])
      else if !r.sanitize then some (PAM_AUTHINFO_UNAVAIL, [])
      else if !r.exec then some (PAM_AUTHINFO_UNAVAIL, [])
      else unixUpdate w e p ⟨pipeBytes r.write old new, r.sched, r.buf1, r.buf2, r.tries, r.l⟩ false
        [user, "update".toList, if on UNIX_SHADOW ctrl then "1".toList else "0".toList, Pwh.showInt remember]
    child.map (fun x => (if !r.wait then PAM_AUTHTOK_ERR else if !r.exits then PAM_AUTHTOK_ERR else Pwh.status x.1, x.2))

/-- `_do_setpass` with SELinux in force: modules/pam_unix/pam_unix_passwd.c:367-492; `lock_pwdf` and `unlock_pwdf` do nothing in the module then (modules/pam_unix/passverify.c:564-568, 589-593) -/
def doSetpassSe (w : World) (e : Etc) (p : Proc) (r : URun) (ctrl : Ctrl) (forwho : Str) (fromwhat : Option Str) (towhat : Str) (remember : Int) :
    Option (Int × List Act) :=
  match (e.sys w).pwnam forwho with
  | none => some (PAM_AUTHTOK_ERR, [])
  | some _ =>
    if (e.findPw forwho).isSome then runUpdate w e p r ctrl forwho fromwhat towhat remember
    else some (0, [])

end Pam.Unix
