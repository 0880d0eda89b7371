import Verif.Stack.Pass
import Verif.Faillock.Config
import Verif.Faillock.Props
import Verif.Simple.Login
/-
The two stacks of pam_faillock(8), and the modules in them.
-/
namespace Pam.Stack
open Pam Pam.Config
open Pam.Faillock (File Conf Opts Kind argsParse)

/-- a file with the given lines -/
def text (lines : List String) : Str := (lines.map (fun l => l.toList ++ ['\n'])).flatten

/-- The first example: modules/pam_faillock/pam_faillock.8.xml:283-298 -/
def firstText : Str := text [
  "auth     required       pam_securetty.so",
  "auth     required       pam_env.so",
  "auth     required       pam_nologin.so",
  "# optionally call: auth requisite pam_faillock.so preauth",
  "# to display the message about account being locked",
  "auth     [success=1 default=bad] pam_unix.so",
  "auth     [default=die]  pam_faillock.so authfail",
  "auth     sufficient     pam_faillock.so authsucc",
  "auth     required       pam_deny.so",
  "account  required       pam_unix.so",
  "password required       pam_unix.so shadow",
  "session  required       pam_selinux.so close",
  "session  required       pam_loginuid.so",
  "session  required       pam_unix.so",
  "session  required       pam_selinux.so open"]

/-- The second example: modules/pam_faillock/pam_faillock.8.xml:306-324 -/
def secondText : Str := text [
  "auth     required       pam_securetty.so",
  "auth     required       pam_env.so",
  "auth     required       pam_nologin.so",
  "auth     required       pam_faillock.so preauth",
  "# optionally use requisite above if you do not want to prompt for the password",
  "# on locked accounts",
  "auth     sufficient     pam_unix.so",
  "auth     [default=die]  pam_faillock.so authfail",
  "auth     required       pam_deny.so",
  "account  required       pam_faillock.so",
  "# if you drop the above call to pam_faillock.so the lock will be done also",
  "# on non-consecutive authentication failures",
  "account  required       pam_unix.so",
  "password required       pam_unix.so shadow",
  "session  required       pam_selinux.so close",
  "session  required       pam_loginuid.so",
  "session  required       pam_unix.so",
  "session  required       pam_selinux.so open"]

/-- faillock.conf for both: modules/pam_faillock/pam_faillock.8.xml:275-277 -/
def confLines : List Str := ["deny=4\n".toList, "unlock_time=1200\n".toList, "silent\n".toList]

/-- What the modules of a login share: the tally of the user, and whether pam_faillock left its mark on the handle
(FAILLOCK_AUTH_EXECUTED, modules/pam_faillock/pam_faillock.c:482). -/
structure World where
  tally : File
  executed : Bool

/-- One attempt to log in as a user: when, from where, and what the modules other than pam_faillock and pam_deny answer, by
operation and path.  `acctTime`: the time of the account phase. -/
structure Attempt where
  now : Nat
  acctTime : Nat
  src : Kind × Str
  answer : Fn → Str → Int

/-- the user; `isLocal`: check_local_user finds the name (modules/pam_faillock/pam_faillock.c:190-196) -/
structure User where
  isAdmin : Bool
  isLocal : Bool

/-- the options of a user -/
def optsOf (c : Conf) (u : User) : Opts := ⟨c.deny, c.failInterval, c.unlockTime, c.rootUnlockTime, u.isAdmin, c.denyRoot⟩

/-- pam_faillock as a module: modules/pam_faillock/pam_faillock.c:461-573.  Nothing goes wrong with files; the user is known.
`lines`: faillock.conf. -/
def faillockFn (lines : List Str) (u : User) (a : Attempt) (fn : Fn) (args : List Str) (w : World) : Int × World :=
  match argsParse (fun _ => .ok lines) false args with
  | .error k => (k, w)
  | .ok c =>
    match fn with
    | .authenticate =>
      let r := Faillock.authenticate (optsOf c u) .fine c.action a.now a.src (.ok []) (!c.localOnly || u.isLocal) w.tally
      (r.1, ⟨r.2, true⟩)
    | .acctMgmt =>
      let r := Faillock.acctMgmt (optsOf c u) .fine a.acctTime w.executed (.ok []) (!c.localOnly || u.isLocal) w.tally
      (r.1, { w with tally := r.2 })
    | _ => (PAM_SUCCESS, w)

/-- the modules: pam_faillock, pam_deny (modules/pam_deny/pam_deny.c:12-58), and others with arbitrary answers that leave
the tally alone -/
def modules (lines : List Str) (u : User) (a : Attempt) (fn : Fn) : Linker World := fun path args =>
  if path = "pam_faillock.so".toList then some (faillockFn lines u a fn args)
  else if path = "pam_deny.so".toList then some (fun w => (Simple.deny .auth, w))
  else some (fun w => (a.answer fn path, w))

/-- pam_start, pam_authenticate: the code and the world afterwards -/
def login (sys : Sys) (svc : Str) (lines : List Str) (u : User) (a : Attempt) (tally : File) : Option (Int × World) :=
  pass sys svc .authenticate (modules lines u a .authenticate) ⟨tally, false⟩

/-- pam_acct_mgmt on the same handle -/
def account (sys : Sys) (svc : Str) (lines : List Str) (u : User) (a : Attempt) (w : World) : Option (Int × World) :=
  pass sys svc .acctMgmt (modules lines u a .acctMgmt) w

end Pam.Stack
