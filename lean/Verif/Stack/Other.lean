import Verif.Stack.Walk
/-
The configurations for the service `other` that the manuals recommend, and pam_warn.
-/
namespace Pam.Stack
open Pam Pam.Config

/-- /etc/pam.d/other: doc/sag/Linux-PAM_SAG.xml:278-286 -/
def otherText : Str := text [
  "#",
  "# default configuration: /etc/pam.d/other",
  "#",
  "auth     required       pam_warn.so",
  "auth     required       pam_deny.so",
  "account  required       pam_deny.so",
  "password required       pam_warn.so",
  "password required       pam_deny.so",
  "session  required       pam_deny.so"]

/-- /etc/pam.d/other: doc/sag/Linux-PAM_SAG.xml:359-369 -/
def otherText' : Str := text [
  "#",
  "# The PAM configuration file for the `other' service",
  "#",
  "auth      required   pam_deny.so",
  "auth      required   pam_warn.so",
  "account   required   pam_deny.so",
  "account   required   pam_warn.so",
  "password  required   pam_deny.so",
  "password  required   pam_warn.so",
  "session   required   pam_deny.so",
  "session   required   pam_warn.so"]

/-- /etc/pam.conf: modules/pam_deny/pam_deny.8.xml:94-106, modules/pam_warn/pam_warn.8.xml -/
def otherConf : Str := text [
  "#%PAM-1.0",
  "#",
  "# If we don't have config entries for a service, the",
  "# OTHER entries are used. To be secure, warn and deny",
  "# access to everything.",
  "other auth     required       pam_warn.so",
  "other auth     required       pam_deny.so",
  "other account  required       pam_warn.so",
  "other account  required       pam_deny.so",
  "other password required       pam_warn.so",
  "other password required       pam_deny.so",
  "other session  required       pam_warn.so",
  "other session  required       pam_deny.so"]

/-- what pam_warn finds on the handle: modules/pam_warn/pam_warn.c:29-33 (`pam_get_item` gives NULL if the item is not set) -/
structure Items where
  service : Option Str
  tty : Option Str
  user : Option Str
  ruser : Option Str
  rhost : Option Str

/-- the name of a service function: `__FUNCTION__` in modules/pam_warn/pam_warn.c:45-97 -/
def functionName : Fn → Str
  | .authenticate => "pam_sm_authenticate".toList
  | .setcred => "pam_sm_setcred".toList
  | .acctMgmt => "pam_sm_acct_mgmt".toList
  | .openSession => "pam_sm_open_session".toList
  | .closeSession => "pam_sm_close_session".toList
  | .chauthtok => "pam_sm_chauthtok".toList

/-- a value, or the default of `OBTAIN`: modules/pam_warn/pam_warn.c:19-22 -/
def obtain (v : Option Str) : Str := v.getD "<unknown>".toList

/-- the message of `log_items`: modules/pam_warn/pam_warn.c:24-41.  `flags`: the flags as "%#x" prints them. -/
def warnText (i : Items) (fn : Fn) (flags : Str) : Str :=
  "function=[".toList ++ functionName fn ++ "] flags=".toList ++ flags ++ " service=[".toList ++ obtain i.service ++
    "] terminal=[".toList ++ obtain i.tty ++ "] user=[".toList ++ obtain i.user ++ "] ruser=[".toList ++ obtain i.ruser ++
    "] rhost=[".toList ++ obtain i.rhost ++ "]\n".toList

/-- pam_warn: modules/pam_warn/pam_warn.c:45-97.  The world is what was logged. -/
def warn (i : Items) (fn : Fn) (flags : Str) (log : List Str) : Int × List Str := (PAM_IGNORE, log ++ [warnText i fn flags])

/-- the function of pam_deny that is called: the first pass of pam_chauthtok is the preliminary check -/
def denyFn : Fn → Simple.Fn
  | .authenticate => .auth
  | .setcred => .setcred
  | .acctMgmt => .acct
  | .openSession => .open
  | .closeSession => .close
  | .chauthtok => .prelim

/-- pam_warn, pam_deny (modules/pam_deny/pam_deny.c:12-58), and others with arbitrary answers -/
def warnDeny (i : Items) (fn : Fn) (flags : Str) (other : Str → List Str → List Str → Int × List Str) :
    Str → List Str → List Str → Int × List Str := fun path args log =>
  if path = "pam_warn.so".toList then warn i fn flags log
  else if path = "pam_deny.so".toList then (Simple.deny (denyFn fn), log)
  else other path args log

end Pam.Stack
