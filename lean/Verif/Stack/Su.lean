import Verif.Stack.Other
import Verif.Small.UsertypeProps
import Verif.Small.WheelProps
/-
The configurations of su in pam_rootok(8), pam_wheel(8) and pam_localuser(8), with the models of these modules.
-/
namespace Pam.Stack
open Pam Pam.Config
open Pam.Small (Accounts WheelCall wheel rootok localuser)

/-- /etc/pam.d/su: modules/pam_rootok/pam_rootok.8.xml:96-98 -/
def rootokText : Str := text [
  "# su authentication. Root is granted access by default.",
  "auth  sufficient   pam_rootok.so",
  "auth  required     pam_unix.so"]

/-- /etc/pam.conf: modules/pam_wheel/pam_wheel.8.xml:211-213 -/
def wheelConf : Str := text [
  "su      auth     sufficient     pam_rootok.so",
  "su      auth     required       pam_wheel.so",
  "su      auth     required       pam_unix.so"]

/-- lines for /etc/pam.d/su: modules/pam_localuser/pam_localuser.8.xml:159-160 -/
def localText : Str := text [
  "account sufficient pam_localuser.so",
  "account required pam_wheel.so"]

/-- What the modules meet: the accounts, what pam_wheel sees, what SELinux says of the caller, the password file, and what
pam_unix answers. -/
structure SuCall where
  accounts : Accounts
  call : WheelCall
  selinux : Option Bool
  passwd : Str → Option Str
  unix : Int

/-- The modules of su; the world says whether pam_unix was called.  pam_rootok: modules/pam_rootok/pam_rootok.c:112-129,
pam_wheel: modules/pam_wheel/pam_wheel.c:236-265, pam_localuser: modules/pam_localuser/pam_localuser.c:52-94.  Other modules
cannot be loaded. -/
def suModules (c : SuCall) : Str → List Str → Bool → Int × Bool := fun path args asked =>
  if path = "pam_rootok.so".toList then (rootok c.call.uid c.selinux, asked)
  else if path = "pam_wheel.so".toList then (wheel c.accounts c.call args, asked)
  else if path = "pam_localuser.so".toList then (localuser c.call.user c.passwd args, asked)
  else if path = "pam_unix.so".toList then (c.unix, true)
  else (PAM_MODULE_UNKNOWN, asked)

/-- pam_authenticate or pam_acct_mgmt in su: the code, and whether pam_unix was called -/
def su (sys : Sys) (fn : Fn) (c : SuCall) : Option (Int × Bool) :=
  pass sys "su".toList fn (fun p a => some (suModules c p a)) false

end Pam.Stack
