import Verif.Core.Codes
import Verif.Core.Text
/-
modules/pam_loginuid.

Left out: messages to the log.
-/
namespace Pam.Session
open Pam

/-- a C string, without its NUL -/
abbrev Str := List Char

/-- an answer of the audit system: modules/pam_loginuid/pam_loginuid.c:141-162 -/
inductive Reply
  /-- nothing yet -/
  | nothing
  /-- done or an error -/
  | last
  /-- another answer -/
  | other
  /-- the status, with the pid of the daemon -/
  | status (pid : Nat)
deriving DecidableEq, Repr

/-- what asking for the status gives: modules/pam_loginuid/pam_loginuid.c:114-125 and 165-180 -/
inductive Request
  /-- it was sent -/
  | sent
  /-- `-ECONNREFUSED` -/
  | refused
  /-- `-EPERM` -/
  | denied
  /-- 0 or another error -/
  | failed
deriving DecidableEq, Repr

/-- the system -/
structure LWorld where
  /-- the user id of the account, if there is a user and an account -/
  uid : Option Nat
  /-- what can be read of /proc/self/uid_map; `none` if it cannot be opened -/
  uidMap : Option Str
  /-- what can be read of /proc/self/loginuid; `none` if it cannot be opened -/
  loginuid : Option Str
  /-- /proc/self/loginuid does not exist -/
  missing : Bool
  /-- seeking, truncating and writing succeed -/
  writable : Bool
  /-- `audit_open` succeeds -/
  audit : Bool
  /-- it failed as the kernel has no audit system -/
  noAudit : Bool
  request : Request
  replies : List Reply
  /-- `getuid() == 0` -/
  root : Bool

/-- modules/pam_loginuid/pam_loginuid.c:57 -/
def hostMap : Str := "         0          0 4294967295\n".toList

/-- the process is in a user namespace: modules/pam_loginuid/pam_loginuid.c:63-69; at most 34 bytes are read, and compared with `strncmp` -/
def namespaced (w : LWorld) : Bool :=
  match w.uidMap with
  | none => false
  | some m => decide (m.take 34 = [] ∨ m.take 34 ≠ (hostMap ++ [NUL]).take (m.take 34).length)

/-- `set_loginuid`: modules/pam_loginuid/pam_loginuid.c:53-101; the result and what is written -/
def setLoginuid (w : LWorld) (uid : Nat) : Int × Option Str :=
  let rc := if namespaced w then PAM_IGNORE else PAM_SESSION_ERR
  match w.loginuid with
  | none => (if w.missing then PAM_IGNORE else rc, none)
  | some cur =>
    let new := Nat.toDigits 10 uid
    if (cur.take 24).length = new.length ∧ (cur.take 24).take new.length = new then (PAM_SUCCESS, none)
    else if w.writable then (PAM_SUCCESS, some new)
    else (rc, none)

/-- the loop of `check_auditd`: modules/pam_loginuid/pam_loginuid.c:135-163; at most 30 answers are looked at -/
def auditLoop : List Reply → Option Int
  | [] => none
  | .nothing :: r => auditLoop r
  | .last :: _ => none
  | .other :: r => auditLoop r
  | .status pid :: _ => some (if pid = 0 then PAM_SESSION_ERR else PAM_SUCCESS)

/-- `check_auditd`: modules/pam_loginuid/pam_loginuid.c:110-181 -/
def checkAuditd (w : LWorld) : Int :=
  if w.audit = false then (if w.noAudit then PAM_SUCCESS else PAM_SESSION_ERR)
  else
    match (if w.request = .sent then auditLoop (w.replies.take 30) else none) with
    | some r => r
    | none =>
      if w.request = .refused then PAM_SUCCESS
      else if w.request = .denied ∧ w.root = false then PAM_SUCCESS
      else PAM_SESSION_ERR

/-- `_pam_loginuid`: modules/pam_loginuid/pam_loginuid.c:187-241, with libaudit; the result and what is written to /proc/self/loginuid -/
def loginuid (w : LWorld) (argv : List Str) : Int × Option Str :=
  match w.uid with
  | none => (PAM_SESSION_ERR, none)
  | some uid =>
    match setLoginuid w uid with
    | (ret, out) =>
      if ret ≠ PAM_SUCCESS ∧ ret ≠ PAM_IGNORE then (ret, out)
      else if "require_auditd".toList ∈ argv then
        (if checkAuditd w ≠ PAM_SUCCESS then checkAuditd w else ret, out)
      else (ret, out)

end Pam.Session
