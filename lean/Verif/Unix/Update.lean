import Verif.Unix.Files
/-
Model of the helper unix_update and of the password service of pam_unix: modules/pam_unix/unix_update.c and pam_unix_passwd.c, built without
NIS, SELinux and libaudit.
-/
namespace Pam.Unix
open Pam Util

/-- modules/pam_unix/support.h:71 -/
abbrev UNIX_USE_FIRST_PASS : Nat := 4

/-- `lock_pwdf`: modules/pam_unix/passverify.c:558-584.  `tries`: does the n-th `lckpwdf` work. -/
def lockPwdf (tries : Nat → Bool) : Bool := (List.range 101).any tries

/-- what unix_update meets: standard input, how it is read, what its buffers held, the lock, and what works -/
structure UpdIn where
  bytes : List Char
  sched : List Ev
  buf1 : List Char
  buf2 : List Char
  tries : Nat → Bool
  l : SLuck

/-- may this password be set: modules/pam_unix/unix_update.c:76-105: the code and the account -/
def mayUpdate (s : Sys) (p : Proc) (forwho pass : Str) : Int × Option Pw :=
  match s.pwnam forwho with
  | none => (PAM_USER_UNKNOWN, none)
  | some pw =>
    if p.uid ≠ 0 then
      if pw.uid ≠ p.uid then (PAM_AUTHTOK_ERR, none)
      else if helperVerify s p forwho pass true ≠ PAM_SUCCESS then (helperVerify s p forwho pass true, none)
      else (PAM_SUCCESS, some pw)
    else (PAM_SUCCESS, some pw)

/-- `set_password`: modules/pam_unix/unix_update.c:41-138; `none`: still waiting for the passwords -/
def setPassword (w : World) (e : Etc) (p : Proc) (i : UpdIn) (forwho shadow remember : Str) : Option (Int × List Act) :=
  let doshadow := Pwh.toInt (Pwh.strtol shadow)
  let nremember := Pwh.toInt (Pwh.strtol remember)
  match readPasswords [i.buf1, i.buf2] 2 i.bytes i.sched with
  | .ret ((n, [b1, b2]), _) =>
    if n ≠ 2 then some (PAM_AUTHTOK_ERR, [])
    else if !lockPwdf i.tries then some (PAM_AUTHTOK_LOCK_BUSY, [])
    else
      match mayUpdate (e.sys w) p forwho (cstr b1) with
      | (_, none) => some (PAM_AUTHTOK_ERR, [.lock, .unlock])
      | (_, some pw) =>
        let r := setFiles w e p i.l pw forwho (some (cstr b1)) (cstr b2) (doshadow ≠ 0) nremember
        some (if r.1 = PAM_SUCCESS then PAM_SUCCESS else PAM_AUTHTOK_ERR, [.lock] ++ r.2 ++ [.unlock])
  | _ => none

/-- `main` of unix_update: modules/pam_unix/unix_update.c:140-186.  `args` without the name of the program. -/
def unixUpdate (w : World) (e : Etc) (p : Proc) (i : UpdIn) (tty : Bool) (args : List Str) : Option (Int × List Act) :=
  match tty, args with
  | false, [user, option, shadow, remember] =>
    if p.euid ≠ 0 then some (PAM_CRED_INSUFFICIENT, [])
    else if option = "update".toList then setPassword w e p i user shadow remember
    else some (PAM_SYSTEM_ERR, [])
  | _, _ => some (PAM_SYSTEM_ERR, [])

/-- `_do_setpass`: modules/pam_unix/pam_unix_passwd.c:367-492.  It gives up the lock its caller has taken. -/
def doSetpass (w : World) (e : Etc) (p : Proc) (l : SLuck) (ctrl : Ctrl) (forwho : Str) (fromwhat : Option Str) (towhat : Str) (remember : Int) :
    Int × List Act :=
  match (e.sys w).pwnam forwho with
  | none => (PAM_AUTHTOK_ERR, [.unlock])
  | some pw =>
    if (e.findPw forwho).isSome then
      let r := setFiles w e p l pw forwho fromwhat towhat (on UNIX_SHADOW ctrl) remember
      (r.1, r.2 ++ [.unlock])
    else (0, [.unlock])

/-- `_unix_verify_shadow`: modules/pam_unix/pam_unix_passwd.c:494-525 -/
def verifyShadow (s : Sys) (b : Bin) (l : Luck) (p : Proc) (ctrl : Ctrl) (user : Str) : Option Int :=
  match moduleHash s user with
  | (rv, _) =>
    if rv = PAM_USER_UNKNOWN then some rv
    else if rv = PAM_SUCCESS then some PAM_SUCCESS
    else
      match runVerify s b l p user with
      | none => none
      | some (rv, _) =>
        some (if rv = PAM_AUTH_ERR ∨ rv = PAM_USER_UNKNOWN then rv
          else if on UNIX_EXPIRED_ONLY ctrl then (if rv = PAM_NEW_AUTHTOK_REQD then PAM_SUCCESS else PAM_AUTHTOK_ERR)
          else if on UNIX__IAMROOT ctrl ∨ rv = PAM_NEW_AUTHTOK_REQD then PAM_SUCCESS
          else rv)

/-- `_pam_unix_approve_pass`: modules/pam_unix/pam_unix_passwd.c:527-586.  `file`: the old passwords, `none` if the file cannot be opened.
The user's name is always known. -/
def approvePass (c : Crypts) (file : Option (List Str)) (ctrl : Ctrl) (user : Str) (old new : Option Str) (minlen : Int) : Int :=
  match new with
  | none => PAM_AUTHTOK_ERR
  | some new =>
    if old = some new then PAM_AUTHTOK_ERR
    else if new.length > 512 then PAM_AUTHTOK_ERR
    else if off UNIX__IAMROOT ctrl then
      let short := (new.length : Int) < minlen
      if on UNIX_REMEMBER_PASSWD ctrl then
        let rv := checkOldPassword c file user new
        if rv = PAM_ABORT then rv
        else if short ∨ rv = PAM_AUTHTOK_ERR then PAM_AUTHTOK_ERR
        else rv
      else if short then PAM_AUTHTOK_ERR
      else PAM_SUCCESS
    else PAM_SUCCESS

/-- one call of `pam_sm_chauthtok`: the options as C72 reads them, the answers of libpam and of the conversation, and what works -/
structure ChCall where
  ctrl : Ctrl
  remember : Int
  rounds : Int
  minlen : Int
  /-- pam_get_user -/
  user : Int × Str
  /-- pam_info -/
  info : Int
  /-- pam_get_authtok for the old password -/
  oldTok : Int × Str
  /-- pam_get_item for the old password -/
  oldItem : Int × Option Str
  /-- pam_get_authtok for the new one, for each time it is called -/
  newTok : Nat → Int × Str
  /-- the file of old passwords can be opened, for each time it is read -/
  opens : Nat → Bool
  luck : Nat → Luck
  tries : Nat → Bool
  l : SLuck
  rnd : Nat → Nat
  gensalt : Str → Int → Str

/-- the outcome: the code, the failures, how often a new password was asked for, and what was done to the files -/
structure ChRes where
  code : Int
  fails : Fails
  asked : Nat
  acts : List Act

/-- an empty password counts as none: modules/pam_unix/pam_unix_passwd.c:775-777 -/
def nonEmpty (s : Str) : Option Str := if s = [] then none else some s

/-- the loop that asks for a new password: modules/pam_unix/pam_unix_passwd.c:750-784: the code, the password and how often it asked. -/
def askNew (c : ChCall) (cr : Crypts) (file : Nat → Option (List Str)) (old : Option Str) :
    (left : Nat) → (i : Nat) → (rv : Int) → Int × Option Str × Nat
  | 0, i, rv => (rv, none, i)
  | left + 1, i, _ =>
    let t := c.newTok i
    if t.1 ≠ PAM_SUCCESS then (t.1, none, i + 1)
    else
      let rv := approvePass cr (file i) c.ctrl c.user.2 old (nonEmpty t.2) c.minlen
      if rv = PAM_SUCCESS then (rv, nonEmpty t.2, i + 1)
      else askNew c cr file old left (i + 1) rv

/-- the preliminary check: modules/pam_unix/pam_unix_passwd.c:660-709.  `ctrl`: that of the call after line 658. -/
def prelim (w : World) (e : Etc) (b : Bin) (p : Proc) (c : ChCall) (ctrl : Ctrl) (fails : Fails) : Option ChRes :=
  let s := e.sys w
  let shadow (fails : Fails) : Option ChRes :=
    (verifyShadow s b (c.luck 4) p ctrl c.user.2).map (fun rv =>
      ⟨if rv = PAM_AUTHTOK_ERR ∧ off UNIX_EXPIRED_ONLY ctrl ∧ on UNIX__IAMROOT ctrl then PAM_SUCCESS else rv, fails, 0, []⟩)
  match blankPasswd s b c.luck p ctrl c.user.2 with
  | none => none
  | some (true, _) => some ⟨PAM_SUCCESS, fails, 0, []⟩
  | some (false, _) =>
    if off UNIX__IAMROOT ctrl then
      if off UNIX__QUIET ctrl ∧ c.info ≠ PAM_SUCCESS then some ⟨c.info, fails, 0, []⟩
      else if c.oldTok.1 ≠ PAM_SUCCESS then some ⟨c.oldTok.1, fails, 0, []⟩
      else
        match verifyPassword s b (c.luck 3) p ctrl fails c.user.2 c.oldTok.2 with
        | none => none
        | some (rv, fails) => if rv ≠ PAM_SUCCESS then some ⟨rv, fails, 0, []⟩ else shadow fails
    else shadow fails

/-- with the lock taken and the old password checked: modules/pam_unix/pam_unix_passwd.c:805-849 -/
def changeIt (w : World) (e : Etc) (b : Bin) (p : Proc) (c : ChCall) (ctrl : Ctrl) (fails : Fails) (old : Option Str) (new : Str) (asked : Nat) : Option ChRes :=
  match verifyShadow (e.sys w) b (c.luck 4) p ctrl c.user.2 with
  | none => none
  | some rv =>
    if rv ≠ PAM_SUCCESS then some ⟨rv, fails, asked, [.lock, .unlock]⟩
    else
      let rv := approvePass w.crypts (if c.opens asked then e.op.main else none) ctrl c.user.2 old (some new) c.minlen
      if rv ≠ PAM_SUCCESS then some ⟨rv, fails, asked, [.lock, .unlock]⟩
      else
        match createHash w.crypts c.rnd c.gensalt (algoOf ctrl) c.rounds new with
        | none => some ⟨PAM_BUF_ERR, fails, asked, [.lock, .unlock]⟩
        | some h =>
          let r := doSetpass w e p c.l ctrl c.user.2 old h c.remember
          some ⟨r.1, fails, asked, .lock :: r.2⟩

/-- the change: modules/pam_unix/pam_unix_passwd.c:710-849 -/
def update (w : World) (e : Etc) (b : Bin) (p : Proc) (c : ChCall) (ctrl : Ctrl) (fails : Fails) : Option ChRes :=
  if c.oldItem.1 ≠ PAM_SUCCESS then some ⟨c.oldItem.1, fails, 0, []⟩
  else
    let old := c.oldItem.2
    let tries := if on UNIX_USE_AUTHTOK ctrl ∨ on UNIX_USE_FIRST_PASS ctrl then 1 else 3
    match askNew { c with ctrl := ctrl } w.crypts (fun i => if c.opens i then e.op.main else none) old tries 0 PAM_AUTHTOK_ERR with
    | (rv, new, asked) =>
      match new with
      | none => some ⟨rv, fails, asked, []⟩
      | some new =>
        if !lockPwdf c.tries then some ⟨PAM_AUTHTOK_LOCK_BUSY, fails, asked, []⟩
        else
          match old with
          | none => changeIt w e b p c ctrl fails none new asked
          | some o =>
            match verifyPassword (e.sys w) b (c.luck 3) p ctrl fails c.user.2 o with
            | none => none
            | some (rv, fails) =>
              if rv ≠ PAM_SUCCESS then some ⟨rv, fails, asked, [.lock, .unlock]⟩
              else changeIt w e b p c ctrl fails (some o) new asked

/-- `pam_sm_chauthtok`: modules/pam_unix/pam_unix_passwd.c:588-859 -/
def chauthtok (w : World) (e : Etc) (b : Bin) (p : Proc) (c : ChCall) (fails : Fails) : Option ChRes :=
  if c.user.1 ≠ PAM_SUCCESS then some ⟨c.user.1, fails, 0, []⟩
  else if c.user.2.head? = some '-' ∨ c.user.2.head? = some '+' then some ⟨PAM_USER_UNKNOWN, fails, 0, []⟩
  else
    match e.findPw c.user.2 with
    | none => some ⟨PAM_USER_UNKNOWN, fails, 0, []⟩
    | some _ =>
      let ctrl := if on UNIX__NONULL c.ctrl then set UNIX__NULLOK c.ctrl else c.ctrl
      if on UNIX__PRELIM ctrl then prelim w e b p c ctrl fails
      else if on UNIX__UPDATE ctrl then update w e b p c ctrl fails
      else some ⟨PAM_ABORT, fails, 0, []⟩

end Pam.Unix
