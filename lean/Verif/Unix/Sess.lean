import Verif.Unix.Ctrl
import Verif.Core.Codes
/-
The session service of pam_unix: modules/pam_unix/pam_unix_sess.c.
-/
namespace Pam.Unix.Sess
open Pam Unix

/-- what the module finds: the items, the name of who is logged in on the terminal (`pam_modutil_getlogin`), the id of the caller, and the accounts -/
structure Env where
  user : Option Str
  service : Option Str
  login : Option Str
  uid : Nat
  pwnam : Str → Option Nat

/-- priorities of syslog -/
inductive Prio | crit | err | info
deriving DecidableEq, Repr

/-- `NULL` or empty: modules/pam_unix/pam_unix_sess.c:76, 83 -/
def missing (s : Option Str) : Bool := match s with
  | none => true
  | some s => s.isEmpty

/-- the line on opening: modules/pam_unix/pam_unix_sess.c:88-101 -/
def openLine (v : Env) (user : Str) : Str :=
  let login := v.login.getD []
  let uid := match v.pwnam user with
    | none => "getpwnam error".toList
    | some n => Nat.toDigits 10 n
  "session opened for user ".toList ++ user ++ "(uid=".toList ++ uid ++ ") by ".toList ++ login ++ "(uid=".toList ++ Nat.toDigits 10 v.uid ++ ")".toList

/-- the line on closing: modules/pam_unix/pam_unix_sess.c:130-131 -/
def closeLine (user : Str) : Str := "session closed for user ".toList ++ user

/-- `pam_sm_open_session` after `_set_ctrl`: modules/pam_unix/pam_unix_sess.c:75-103 -/
def openWith (v : Env) (ctrl : Ctrl) : Int × List (Prio × Str) :=
  if missing v.user then (PAM_SESSION_ERR, [(.err, "open_session - error recovering username".toList)])
  else if missing v.service then (PAM_SESSION_ERR, [(.crit, "open_session - error recovering service".toList)])
  else if off UNIX_QUIET ctrl then (PAM_SUCCESS, [(.info, openLine v (v.user.getD []))])
  else (PAM_SUCCESS, [])

/-- `pam_sm_close_session` after `_set_ctrl`: modules/pam_unix/pam_unix_sess.c:117-134 -/
def closeWith (v : Env) (ctrl : Ctrl) : Int × List (Prio × Str) :=
  if missing v.user then (PAM_SESSION_ERR, [(.err, "close_session - error recovering username".toList)])
  else if missing v.service then (PAM_SESSION_ERR, [(.crit, "close_session - error recovering service".toList)])
  else if off UNIX_QUIET ctrl then (PAM_SUCCESS, [(.info, closeLine (v.user.getD []))])
  else (PAM_SUCCESS, [])

/-- `pam_sm_open_session`: modules/pam_unix/pam_unix_sess.c:63-104; the lines `_set_ctrl` logs about bad arguments are left out -/
def openSession (v : Env) (fl : Flags) (defs : Option Str) (argv : List Str) : Option (Int × List (Prio × Str)) :=
  (setCtrl (v.uid = 0) fl defs none none none argv).map (fun o => openWith v o.ctrl)
/-- `pam_sm_close_session`: modules/pam_unix/pam_unix_sess.c:106-135 -/
def closeSession (v : Env) (fl : Flags) (defs : Option Str) (argv : List Str) : Option (Int × List (Prio × Str)) :=
  (setCtrl (v.uid = 0) fl defs none none none argv).map (fun o => closeWith v o.ctrl)

end Pam.Unix.Sess
