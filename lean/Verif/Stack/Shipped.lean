import Verif.Stack.Su
import Verif.Stack.Pure
import Verif.Small.Listfile
/-
The configuration file that comes with Linux-PAM, with the models of the modules it names.
-/
namespace Pam.Stack
open Pam Pam.Config
open Pam.Small (Accounts)

/-- /etc/pam.conf as it is shipped: conf/pam.conf:1-120 -/
def shipped : Str := text [
  "# ---------------------------------------------------------------------------#",
  "# /etc/pam.conf\t\t\t\t\t\t\t\t     #",
  "#\t\t\t\t\t\t\t\t\t     #",
  "# Last modified by Andrew G. Morgan <morgan@kernel.org>\t\t             #",
  "# ---------------------------------------------------------------------------#",
  "# $Id$",
  "# ---------------------------------------------------------------------------#",
  "# serv.\tmodule\t   ctrl\t      module [path]\t...[args..]\t\t     #",
  "# name\ttype\t   flag\t\t\t\t\t\t\t     #",
  "# ---------------------------------------------------------------------------#",
  "#",
  "# The PAM configuration file for the `chfn' service",
  "#",
  "chfn\tauth       required   pam_unix.so",
  "chfn\taccount    required   pam_unix.so",
  "chfn\tpassword   required   pam_unix.so shadow md5 use_authtok",
  "#",
  "# The PAM configuration file for the `chsh' service",
  "#",
  "chsh\tauth       required   pam_unix.so",
  "chsh\taccount    required   pam_unix.so",
  "chsh\tpassword   required   pam_unix.so shadow md5 use_authtok",
  "#",
  "# The PAM configuration file for the `ftp' service",
  "#",
  "ftp\tauth       requisite  pam_listfile.so \\",
  "\t\titem=user sense=deny file=/etc/ftpusers onerr=succeed",
  "ftp\tauth       requisite  pam_shells.so",
  "ftp\tauth       required   pam_unix.so",
  "ftp\taccount    required   pam_unix.so",
  "#",
  "# The PAM configuration file for the `imap' service",
  "#",
  "imap\tauth       required   pam_unix.so",
  "imap\taccount    required   pam_unix.so",
  "#",
  "# The PAM configuration file for the `login' service",
  "#",
  "login\tauth       requisite  pam_securetty.so",
  "login\tauth       required   pam_unix.so",
  "login\tauth       optional   pam_group.so",
  "login\taccount    requisite  pam_time.so",
  "login\taccount    required   pam_unix.so",
  "login\tpassword   required   pam_unix.so shadow md5 use_authtok",
  "login\tsession    required   pam_unix.so",
  "#",
  "# The PAM configuration file for the `netatalk' service",
  "#",
  "netatalk\tauth       required   pam_unix.so",
  "netatalk\taccount    required   pam_unix.so",
  "#",
  "# The PAM configuration file for the `other' service",
  "#",
  "other\tauth       required   pam_deny.so",
  "other\tauth       required   pam_warn.so",
  "other\taccount    required   pam_deny.so",
  "other\tpassword   required   pam_deny.so",
  "other\tpassword   required   pam_warn.so",
  "other\tsession    required   pam_deny.so",
  "#",
  "# The PAM configuration file for the `passwd' service",
  "#",
  "passwd\tpassword   required   pam_unix.so shadow md5 use_authtok",
  "#",
  "# The PAM configuration file for the `rexec' service",
  "#",
  "rexec\tauth       requisite  pam_securetty.so",
  "rexec\tauth       requisite  pam_nologin.so",
  "rexec\tauth       sufficient pam_rhosts_auth.so",
  "rexec\tauth       required   pam_unix.so",
  "rexec\taccount    required   pam_unix.so",
  "rexec\tsession    required   pam_unix.so",
  "rexec\tsession    required   pam_limits.so",
  "#",
  "# The PAM configuration file for the `rlogin' service",
  "# this application passes control to `login' if it fails",
  "#",
  "rlogin\tauth       requisite  pam_securetty.so",
  "rlogin\tauth       requisite  pam_nologin.so",
  "rlogin\tauth       required   pam_rhosts_auth.so",
  "rlogin\taccount    required   pam_unix.so",
  "rlogin\tpassword   required   pam_unix.so shadow md5 use_authtok",
  "rlogin\tsession    required   pam_unix.so",
  "rlogin\tsession    required   pam_limits.so",
  "#",
  "# The PAM configuration file for the `rsh' service",
  "#",
  "rsh\tauth       requisite  pam_securetty.so",
  "rsh\tauth       requisite  pam_nologin.so",
  "rsh\tauth       sufficient pam_rhosts_auth.so",
  "rsh\tauth       required   pam_unix.so",
  "rsh\taccount    required   pam_unix.so",
  "rsh\tsession    required   pam_unix.so",
  "rsh\tsession    required   pam_limits.so",
  "#",
  "# The PAM configuration file for the `samba' service",
  "#",
  "samba\tauth       required   pam_unix.so",
  "samba\taccount    required   pam_unix.so",
  "#",
  "# The PAM configuration file for the `su' service",
  "#",
  "su\tauth       required   pam_wheel.so",
  "su\tauth       sufficient pam_rootok.so",
  "su\tauth       required   pam_unix.so",
  "su\taccount    required   pam_unix.so",
  "su\tsession    required   pam_unix.so",
  "#",
  "# The PAM configuration file for the `vlock' service",
  "#",
  "vlock\tauth       required   pam_unix.so",
  "#",
  "# The PAM configuration file for the `xdm' service",
  "#",
  "xdm\tauth       required   pam_unix.so",
  "xdm\taccount    required   pam_unix.so",
  "#",
  "# The PAM configuration file for the `xlock' service",
  "#",
  "xlock\tauth       required   pam_unix.so"]

/-- What the modules meet, for a user known to libpam (`pam_get_user` gives `user`): the accounts; who calls the application; the
files; and what pam_unix and the modules without a model here answer. -/
structure Scene where
  accounts : Accounts
  user : Str
  /-- the real user id of the application, the name of who is logged in on the terminal, the items PAM_RHOST and PAM_RUSER -/
  uid : Nat
  login : Option Str
  rhost : Option Str
  ruser : Option Str
  /-- what SELinux says of the caller, for pam_rootok -/
  selinux : Option Bool
  /-- PAM_TTY -/
  tty : Option Str
  /-- the lists of pam_listfile: writable for everybody, regular file; content -/
  lstat : Str → Option (Bool × Bool)
  list : Str → Option Str
  /-- the files of pam_nologin -/
  nologin : Str → Option Small.Opened
  /-- /etc/securetty, the command line of the kernel, the active consoles -/
  secureStat : Option (Bool × Bool)
  secureText : Option Str
  cmdline : Option Str
  active : Option Str
  /-- /etc/shells -/
  shellsStat : Option (Bool × Bool)
  shellsText : Option Str
  /-- pam_unix, and pam_group, pam_time and pam_limits -/
  unix : Int
  rest : Str → List Str → Int

/-- for pam_wheel -/
def Scene.wheelCall (c : Scene) : Small.WheelCall := ⟨(PAM_SUCCESS, c.user), c.uid, c.login, c.rhost, c.ruser⟩

/-- for pam_listfile; only the items it may look at here -/
def Scene.listCall (c : Scene) : Small.LCall where
  user := (PAM_SUCCESS, c.user)
  item := fun i => (PAM_SUCCESS, match i with
    | .user => some c.user
    | .tty => c.tty
    | .rhost => c.rhost
    | .ruser => c.ruser)
  lstat := c.lstat
  open_ := c.list

/-- for pam_nologin -/
def Scene.nologinCall (c : Scene) : Small.NologinCall := ⟨(PAM_SUCCESS, c.user), c.nologin⟩

/-- for pam_shells -/
def Scene.shellsCall (c : Scene) : Small.ShellsCall := ⟨(PAM_SUCCESS, c.user), c.shellsStat, c.shellsText⟩

/-- for pam_securetty -/
def Scene.ttyCall (c : Scene) : Small.TtyCall := ⟨(PAM_SUCCESS, c.user), (PAM_SUCCESS, c.tty), c.secureStat, c.secureText, c.cmdline, c.active⟩

/-- What the modules answer.  pam_wheel: modules/pam_wheel/pam_wheel.c:236-265; pam_rootok: modules/pam_rootok/pam_rootok.c:112-129;
pam_listfile: modules/pam_listfile/pam_listfile.c:47-352; pam_nologin: modules/pam_nologin/pam_nologin.c:63-158; pam_shells:
modules/pam_shells/pam_shells.c:34-153; pam_securetty: modules/pam_securetty/pam_securetty.c:63-274 (a read beyond the end of the
kernel's command line counts as PAM_ABORT here; the theorems exclude it); pam_warn: modules/pam_warn/pam_warn.c:45-97; pam_deny:
modules/pam_deny/pam_deny.c:12-58.  pam_rhosts_auth does not exist any more, see modules/; its function is NULL, which counts as
PAM_MODULE_UNKNOWN: libpam/pam_dispatch.c:102-104. -/
def Scene.answer (c : Scene) (fn : Fn) (path : Str) (args : List Str) : Int :=
  if path = "pam_unix.so".toList then c.unix
  else if path = "pam_deny.so".toList then Simple.deny (denyFn fn)
  else if path = "pam_warn.so".toList then PAM_IGNORE
  else if path = "pam_wheel.so".toList then Small.wheel c.accounts c.wheelCall args
  else if path = "pam_rootok.so".toList then Small.rootok c.uid c.selinux
  else if path = "pam_listfile.so".toList then Small.listfile c.accounts c.listCall args
  else if path = "pam_nologin.so".toList then (Small.nologin c.accounts c.nologinCall args).1
  else if path = "pam_shells.so".toList then Small.shells c.accounts c.shellsCall
  else if path = "pam_securetty.so".toList then (Small.securettyArgs c.accounts c.ttyCall args).getD PAM_ABORT
  else if path = "pam_group.so".toList ∨ path = "pam_time.so".toList ∨ path = "pam_limits.so".toList then c.rest path args
  else PAM_MODULE_UNKNOWN

/-- a call of an application: the code, and the modules called in their order -/
def Scene.call (c : Scene) (sys : Sys) (svc : Str) (fn : Fn) : Option (Int × List Str) :=
  pass sys svc fn (fun p a => some (traced (c.answer fn) p a)) []

end Pam.Stack
