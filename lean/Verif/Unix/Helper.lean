import Verif.Unix.Crypt
import Verif.Unix.Shadow
import Verif.Util.Inline
/-
Model of the helper unix_chkpwd and of the functions it shares with pam_unix: modules/pam_unix/unix_chkpwd.c and passverify.c.
Built without libaudit and without pwaccess.
-/
namespace Pam.Unix
open Pam Util

/-- a line of the user database -/
structure Pw where
  name : Str
  passwd : Str
  uid : Nat
deriving DecidableEq, Repr

/-- a line of the shadow database -/
structure Sp where
  hash : Str
  aging : Aging
deriving DecidableEq, Repr

/-- the identity of a process: real, effective and saved ids -/
structure Proc where
  uid : Nat
  euid : Nat
  suid : Nat
  gid : Nat
  egid : Nat
  sgid : Nat
deriving DecidableEq, Repr

/-- The system: `getpwnam`, `getpwuid`, `getspnam` as a process with an identity sees it (a password field that is NULL counts as no
entry), the days since 1970 and the hash functions. -/
structure Sys where
  pwnam : Str → Option Pw
  pwuid : Nat → Option Pw
  spnam : Proc → Str → Option Sp
  today : Int
  crypts : Crypts

/-- `is_pwd_shadowed`: modules/pam_unix/passverify.c:183-197 -/
def isShadowed (pw : Pw) : Bool :=
  pw.passwd == "x".toList || (pw.passwd.take 2 == "##".toList && pw.passwd.drop 2 == pw.name)

/-- `get_account_info` in a helper: modules/pam_unix/passverify.c:199-253 with HELPER_COMPILE -/
def accountInfo (s : Sys) (p : Proc) (name : Str) : Int × Option Pw × Option Sp :=
  match s.pwnam name with
  | none => (PAM_USER_UNKNOWN, none, none)
  | some pw =>
    if isShadowed pw then
      match s.spnam p name with
      | none => (PAM_AUTHINFO_UNAVAIL, some pw, none)
      | some sp => (PAM_SUCCESS, some pw, some sp)
    else (PAM_SUCCESS, some pw, none)

/-- `get_pwd_hash` in a helper: modules/pam_unix/passverify.c:255-274 -/
def pwdHash (s : Sys) (p : Proc) (name : Str) : Option Str :=
  match accountInfo s p name with
  | (rv, pw, sp) =>
    if rv ≠ PAM_SUCCESS then none
    else match sp, pw with
      | some sp, _ => some sp.hash
      | none, some pw => some pw.passwd
      | none, none => none

/-- `helper_verify_password`: modules/pam_unix/passverify.c:1052-1076.  There is a hash only if there is an account. -/
def helperVerify (s : Sys) (p : Proc) (name pass : Str) (nullok : Bool) : Int :=
  match pwdHash s p name with
  | none => PAM_USER_UNKNOWN
  | some hash => verifyHash s.crypts (some pass) hash nullok

/-- `setreuid(2)`, both ids given; `no`: refused for another reason -/
def Proc.setreuid (p : Proc) (r e : Nat) (no : Bool) : Option Proc :=
  if no then none
  else if p.euid = 0 ∨ ((r = p.uid ∨ r = p.euid) ∧ (e = p.uid ∨ e = p.euid ∨ e = p.suid)) then
    some { p with uid := r, euid := e, suid := e }
  else none

/-- `setregid(2)`, both ids given -/
def Proc.setregid (p : Proc) (r e : Nat) (no : Bool) : Option Proc :=
  if no then none
  else if p.euid = 0 ∨ ((r = p.gid ∨ r = p.egid) ∧ (e = p.gid ∨ e = p.egid ∨ e = p.sgid)) then
    some { p with gid := r, egid := e, sgid := e }
  else none

/-- `seteuid(2)` -/
def Proc.seteuid (p : Proc) (e : Nat) : Option Proc :=
  if p.euid = 0 ∨ e = p.uid ∨ e = p.euid ∨ e = p.suid then some { p with euid := e } else none

/-- `setegid(2)` -/
def Proc.setegid (p : Proc) (e : Nat) : Option Proc :=
  if p.euid = 0 ∨ e = p.gid ∨ e = p.egid ∨ e = p.sgid then some { p with egid := e } else none

/-- the permanent change to the real user: modules/pam_unix/unix_chkpwd.c:111-127.  `none`: exit with PAM_AUTH_ERR. -/
def Proc.dropAll (p : Proc) (noG noU : Bool) : Option Proc := do
  let ruid := p.uid
  let euid := p.euid
  let rgid := p.gid
  let egid := p.egid
  let p ← if rgid ≠ egid then p.setregid rgid rgid noG else some p
  let p ← if ruid ≠ euid then p.setreuid ruid ruid noU else some p
  if rgid ≠ egid ∧ (p.setegid egid).isSome then none
  else if ruid ≠ euid ∧ (p.seteuid euid).isSome then none
  else some p

/-- what a run of a program comes to: its exit status and the number it prints -/
structure Exit where
  code : Int
  out : Option Int
deriving DecidableEq, Repr

/-- `_check_expiry`: modules/pam_unix/unix_chkpwd.c:39-61; `none`: undefined behaviour of the aging arithmetic -/
def checkExpiryOf (s : Sys) (p : Proc) (name : Str) : Option Exit :=
  match accountInfo s p name with
  | (rv, _, sp) =>
    if rv ≠ PAM_SUCCESS then some ⟨rv, some (-1)⟩
    else match sp with
      | none => some ⟨rv, some (-1)⟩
      | some sp => (checkExpiry sp.aging s.today).map (fun r => ⟨r.1, some r.2⟩)

/-- what the helper meets: its standard input, how it is read, what its buffer held, and calls that are refused -/
structure Stdin where
  bytes : List Char
  sched : List Ev
  buf : List Char
  noG : Bool := false
  noU : Bool := false

/-- the password: modules/pam_unix/unix_chkpwd.c:150-155; `none`: still waiting for it -/
def readPass (i : Stdin) : Option Str :=
  match readPasswords [i.buf] 1 i.bytes i.sched with
  | .ret ((n, b :: _), _) => some (if n ≠ 1 then [] else cstr b)
  | _ => none

/-- with the identity it goes on with: modules/pam_unix/unix_chkpwd.c:131-193 -/
def chkpwdAs (s : Sys) (p : Proc) (i : Stdin) (user option : Str) : Option Exit :=
  if option = "chkexpiry".toList then checkExpiryOf s p user
  else if option = "nullok".toList ∨ option = "nonull".toList then
    match readPass i with
    | none => none
    | some pass =>
      let rv := helperVerify s p user pass (option == "nullok".toList)
      if rv ≠ PAM_SUCCESS then
        if rv = PAM_USER_UNKNOWN then some ⟨PAM_AUTHINFO_UNAVAIL, none⟩ else some ⟨PAM_AUTH_ERR, none⟩
      else some ⟨PAM_SUCCESS, none⟩
  else some ⟨PAM_SYSTEM_ERR, none⟩

/-- `main` of unix_chkpwd: modules/pam_unix/unix_chkpwd.c:63-194.  `args` without the name of the program. -/
def chkpwd (s : Sys) (p : Proc) (i : Stdin) (tty : Bool) (args : List Str) : Option Exit :=
  match tty, args with
  | false, [user, option] =>
    if p.uid ≠ 0 ∧ (s.pwuid p.uid).map Pw.name ≠ some user then
      match p.dropAll i.noG i.noU with
      | none => some ⟨PAM_AUTH_ERR, none⟩
      | some p => chkpwdAs s p i user option
    else chkpwdAs s p i user option
  | _, _ => some ⟨PAM_SYSTEM_ERR, none⟩

end Pam.Unix
