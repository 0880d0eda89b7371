import Verif.Unix.Helper
import Verif.Unix.Ctrl
/-
Model of authentication and account management by pam_unix: modules/pam_unix/support.c, pam_unix_auth.c and pam_unix_acct.c, built
without PAM_UNIX_TRY_GETSPNAM, NIS and SELinux.  Memory is available.
-/
namespace Pam.Unix
open Pam Util

/-- how the helper binary is installed -/
structure Bin where
  setuidRoot : Bool
  setgid : Option Nat

/-- what goes right and wrong while the helper is run; `false` in `child` is a failure of dup2 or of closing descriptors, in `setuid` a
refusal for a reason other than missing rights, in `exited` a helper that is killed -/
structure Luck where
  pipe : Bool := true
  fork : Bool := true
  write1 : Bool := true
  write2 : Bool := true
  child : Bool := true
  setuid : Bool := true
  exec : Bool := true
  noG : Bool := false
  noU : Bool := false
  sched : List Ev
  buf : List Char
  wait : Bool := true
  exited : Bool := true
  read : Bool := true

/-- `setuid(0)`; `no`: refused for another reason -/
def Proc.setuid0 (p : Proc) (no : Bool) : Option Proc :=
  if no then none
  else if p.euid = 0 then some { p with uid := 0, euid := 0, suid := 0 }
  else if p.uid = 0 ∨ p.suid = 0 then some { p with euid := 0 }
  else none

/-- `execve` of the helper -/
def Proc.exec (p : Proc) (b : Bin) : Proc :=
  let e := if b.setuidRoot then 0 else p.euid
  let g := b.setgid.getD p.egid
  { p with euid := e, suid := e, egid := g, sgid := g }

/-- the child: modules/pam_unix/support.c:551-593 and pam_unix_acct.c:95-139.  `print`: what it prints if it cannot start the helper.
Its standard input is a pipe. -/
def childRun (s : Sys) (b : Bin) (l : Luck) (p : Proc) (bytes : List Char) (args : List Str) (print : Option Int) : Option Exit :=
  let go (p : Proc) : Option Exit :=
    if !l.exec then some ⟨PAM_AUTHINFO_UNAVAIL, print⟩
    else chkpwd s (p.exec b) ⟨bytes, l.sched, l.buf, l.noG, l.noU⟩ false args
  if !l.child then some ⟨PAM_AUTHINFO_UNAVAIL, none⟩
  else match p.setuid0 (!l.setuid) with
    | none => if p.euid = 0 then some ⟨PAM_AUTHINFO_UNAVAIL, print⟩ else go p
    | some p => go p

/-- what is written to the helper: modules/pam_unix/support.c:598-614.  A pipe takes 513 bytes at once. -/
def sent (l : Luck) : Option Str → List Char
  | some pw => if l.write1 then pw.take 512 ++ (if l.write2 then [NUL] else []) else []
  | none => if l.write2 then [NUL] else []

/-- `_unix_run_helper_binary`: modules/pam_unix/support.c:522-641.  The exit status is a PAM code, so below 256. -/
def runHelper (s : Sys) (b : Bin) (l : Luck) (p : Proc) (passwd : Option Str) (ctrl : Ctrl) (user : Str) : Option Int :=
  if !l.pipe then some PAM_AUTH_ERR
  else if !l.fork then some PAM_AUTH_ERR
  else
    let opt := if off UNIX__NONULL ctrl then "nullok".toList else "nonull".toList
    match childRun s b l p (sent l passwd) [user, opt] none with
    | none => none
    | some e => some (if !l.wait then PAM_AUTH_ERR else if !l.exited then PAM_AUTH_ERR else e.code)

/-- `_unix_run_verify_binary`: modules/pam_unix/pam_unix_acct.c:65-181: the code, and what `*daysleft` is set to -/
def runVerify (s : Sys) (b : Bin) (l : Luck) (p : Proc) (user : Str) : Option (Int × Option Int) :=
  if !l.pipe then some (PAM_AUTH_ERR, none)
  else if !l.fork then some (PAM_AUTH_ERR, none)
  else
    match childRun s b l p [] [user, "chkexpiry".toList] (some (-1)) with
    | none => none
    | some e =>
      some (if !l.wait then (PAM_AUTH_ERR, none)
        else if !l.exited then (PAM_AUTH_ERR, none)
        else if !l.read then (PAM_AUTH_ERR, none)
        else match e.out with
          | none => (PAM_AUTH_ERR, none)
          | some d => (e.code, some d))

/-- `PAM_UNIX_RUN_HELPER`: modules/pam_unix/passverify.h:10 -/
abbrev RUN_HELPER : Int := PAM_CRED_INSUFFICIENT

/-- `get_pwd_hash` in the module: modules/pam_unix/passverify.c:199-274 -/
def moduleHash (s : Sys) (name : Str) : Int × Str :=
  match s.pwnam name with
  | none => (PAM_USER_UNKNOWN, [])
  | some pw => if isShadowed pw then (RUN_HELPER, []) else (PAM_SUCCESS, pw.passwd)

/-- `_unix_verify_user`: modules/pam_unix/support.c:866-901 -/
def verifyUser (s : Sys) (b : Bin) (l : Luck) (p : Proc) (ctrl : Ctrl) (name : Str) : Option (Int × Option Int) :=
  match moduleHash s name with
  | (rv, _) =>
    if rv = PAM_USER_UNKNOWN then some (rv, none)
    else if rv = PAM_SUCCESS then some (PAM_SUCCESS, none)
    else
      match runVerify s b l p name with
      | none => none
      | some (rv, d) => some (if rv = PAM_AUTHINFO_UNAVAIL ∧ on UNIX_BROKEN_SHADOW ctrl then PAM_SUCCESS else rv, d)

/-- one round of the loop: modules/pam_unix/support.c:689-705.  `runs`: the names the helper has been run for. -/
structure Blank where
  name : Str
  check : Bool
  blank : Bool
  runs : List Str
deriving DecidableEq

def blankStep (s : Sys) (b : Bin) (l : Luck) (p : Proc) (ctrl : Ctrl) (st : Blank) : Option Blank :=
  let next := "pam_unix_non_existent:".toList
  match moduleHash s st.name with
  | (rv, salt) =>
    if rv = RUN_HELPER then
      match runHelper s b l p none ctrl st.name with
      | none => none
      | some r => some { st with blank := if r = PAM_SUCCESS then st.check else st.blank, name := next, runs := st.runs ++ [st.name] }
    else if rv = PAM_USER_UNKNOWN then some { st with name := "root".toList, check := false }
    else some { st with blank := if salt.length = 0 then st.check else st.blank, name := next }

/-- modules/pam_unix/support.c:669-676 -/
def resetCtrl (s : Sys) (b : Bin) (l : Luck) (p : Proc) (ctrl : Ctrl) (name : Str) : Option Ctrl :=
  if on UNIX_NULLRESETOK ctrl then
    match verifyUser s b l p ctrl name with
    | none => none
    | some (rv, _) => some (if rv = PAM_NEW_AUTHTOK_REQD then set UNIX__NULLOK ctrl else ctrl)
  else some ctrl

/-- `_unix_blankpasswd`: modules/pam_unix/support.c:650-712: the answer, and the names the helper is run for.  `l`: what happens to each of
the helpers. -/
def blankPasswd (s : Sys) (b : Bin) (l : Nat → Luck) (p : Proc) (ctrl : Ctrl) (name : Str) : Option (Bool × List Str) := do
  let ctrl ← resetCtrl s b (l 0) p ctrl name
  if on UNIX__NONULL ctrl then some (false, [])
  else
    let st ← blankStep s b (l 1) p ctrl ⟨name, true, false, []⟩
    let st ← blankStep s b (l 2) p ctrl st
    some (st.blank, st.runs)

/-- the verdict about a password, before failures are counted: modules/pam_unix/support.c:735-771 -/
def verdict (s : Sys) (b : Bin) (l : Luck) (p : Proc) (ctrl : Ctrl) (name pw : Str) : Option Int :=
  match moduleHash s name with
  | (rv, salt) =>
    if rv = RUN_HELPER then runHelper s b l p (some (pw.take 512)) ctrl name
    else if rv ≠ PAM_SUCCESS then some rv
    else some (verifyHash s.crypts (some (pw.take 512)) salt (off UNIX__NONULL ctrl))

/-- the failures of each name, kept with the handle; 0: none -/
abbrev Fails := Str → Nat

/-- failures are counted: modules/pam_unix/support.c:773-852 -/
def count (fails : Fails) (name : Str) (rv : Int) : Int × Fails :=
  if rv = PAM_SUCCESS then (rv, fun n => if n = name then 0 else fails n)
  else
    let f : Fails := fun n => if n = name then fails name + 1 else fails n
    if fails name ≠ 0 then (if fails name + 1 ≥ 3 then PAM_MAXTRIES else rv, f)
    else (rv, f)

/-- `_unix_verify_password`: modules/pam_unix/support.c:714-864 -/
def verifyPassword (s : Sys) (b : Bin) (l : Luck) (p : Proc) (ctrl : Ctrl) (fails : Fails) (name pw : Str) : Option (Int × Fails) :=
  (verdict s b l p ctrl name pw).map (count fails name)

/-- what an authentication comes to: the code, which is also kept for later, the failures, and whether a password was asked for -/
structure AuthRes where
  code : Int
  fails : Fails
  asked : Bool

/-- `pam_sm_authenticate`: modules/pam_unix/pam_unix_auth.c:91-175.  `user` and `tok` are what `pam_get_user` and `pam_get_authtok`
come to. -/
def authenticate (s : Sys) (b : Bin) (l : Nat → Luck) (p : Proc) (ctrl : Ctrl) (fails : Fails) (user tok : Int × Str) : Option AuthRes :=
  if user.1 = PAM_SUCCESS then
    if user.2.head? = some '-' ∨ user.2.head? = some '+' then some ⟨PAM_USER_UNKNOWN, fails, false⟩
    else
      match blankPasswd s b l p ctrl user.2 with
      | none => none
      | some (true, _) => some ⟨PAM_SUCCESS, fails, false⟩
      | some (false, _) =>
        if tok.1 ≠ PAM_SUCCESS then some ⟨if tok.1 ≠ PAM_CONV_AGAIN then tok.1 else PAM_INCOMPLETE, fails, true⟩
        else (verifyPassword s b (l 3) p ctrl fails user.2 tok.2).map (fun r => ⟨r.1, r.2, true⟩)
  else some ⟨if user.1 = PAM_CONV_AGAIN then PAM_INCOMPLETE else user.1, fails, false⟩

/-- `pam_sm_setcred`: modules/pam_unix/pam_unix_auth.c:187-213.  `saved`: the code kept by the last authentication. -/
def setcred (ctrl : Ctrl) (saved : Option Int) : Int × Option Int :=
  match saved with
  | some rv => if on UNIX_LIKE_AUTH ctrl then (rv, none) else (PAM_SUCCESS, saved)
  | none => (PAM_SUCCESS, saved)

/-- what the user is told: modules/pam_unix/pam_unix_acct.c:227-289 -/
inductive Remark where
  | accountExpired
  | enforced
  | aged
  | warn (days : Int)
deriving DecidableEq, Repr

/-- `_make_remark`: modules/pam_unix/support.c:38-47 -/
def remark (ctrl : Ctrl) (r : Remark) : Option Remark := if off UNIX__QUIET ctrl then some r else none

/-- modules/pam_unix/pam_unix_acct.c:227-289 -/
def report (ctrl : Ctrl) (rv daysleft : Int) : Int × Option Remark :=
  if rv = PAM_ACCT_EXPIRED then (rv, remark ctrl .accountExpired)
  else if rv = PAM_NEW_AUTHTOK_REQD then (rv, remark ctrl (if daysleft = 0 then .enforced else .aged))
  else if rv = PAM_AUTHTOK_EXPIRED then (rv, remark ctrl .accountExpired)
  else if rv = PAM_AUTHTOK_ERR ∨ rv = PAM_SUCCESS then (PAM_SUCCESS, if daysleft ≥ 0 then remark ctrl (.warn daysleft) else none)
  else (rv, none)

/-- `pam_sm_acct_mgmt`: modules/pam_unix/pam_unix_acct.c:188-294 -/
def acctMgmt (s : Sys) (b : Bin) (l : Luck) (p : Proc) (ctrl : Ctrl) (saved : Option Int) (user : Option Str) : Option (Int × Option Remark) :=
  match user with
  | none => some (PAM_USER_UNKNOWN, none)
  | some uname =>
    match verifyUser s b l p ctrl uname with
    | none => none
    | some (rv, d) =>
      let rv := if on UNIX_NO_PASS_EXPIRY ctrl ∧ saved.getD PAM_AUTHINFO_UNAVAIL ≠ PAM_SUCCESS ∧
          (rv = PAM_NEW_AUTHTOK_REQD ∨ rv = PAM_AUTHTOK_EXPIRED) then PAM_SUCCESS else rv
      some (report ctrl rv (d.getD (-1)))

end Pam.Unix
