import Verif.Whole.Unix
import Verif.Unix.Update
/-
The password function of pam_unix as a program that calls the interface: modules/pam_unix/pam_unix_passwd.c.  The decisions are those of
Verif/Unix/Update.lean; here they read and write the items and the data of the handle, question the application and change the files.
Log entries are not modelled, messages are not translated, and memory is available.
-/
namespace Pam.Whole
open Pam Pam.Handle

variable {W : Type}

/-- what a change of a password finds on the machine: the clock and crypt, the three files, how the helpers are installed, what goes right
and wrong with them in each pass, the identity of the process, /etc/login.defs, whether the file of old passwords can be opened, the lock
obtained and the files written, and what salts are made of -/
structure Mach where
  world : Unix.World
  etc : Unix.Etc
  bin : Unix.Bin
  luck : Bool → Nat → Unix.Luck
  proc : Unix.Proc
  defs : Option Str
  opens : Nat → Bool
  tries : Nat → Bool
  files : Unix.SLuck
  rnd : Nat → Nat
  gensalt : Str → Int → Str

/-- the machine in a world, and how what is done to the three files changes the world -/
structure Disk (W : Type) where
  mach : W → Mach
  put : List Unix.Act → W → W

/-- what the functions that check a password find, in one of the passes -/
def Mach.host (M : Mach) (second : Bool) : Host := ⟨M.etc.sys M.world, M.bin, M.luck second, M.proc, M.defs⟩

/-- the file of old passwords, as it is read the i-th time -/
def Mach.opw (M : Mach) (i : Nat) : Option (List Str) := if M.opens i then M.etc.op.main else none

/-- `_make_remark` with an error: modules/pam_unix/support.c:38-47 -/
def remarkThen (ctrl : Unix.Ctrl) (msg : Option Str) (k : Prog W) : Prog W :=
  match msg with
  | none => k
  | some m => if Unix.off Unix.UNIX__QUIET ctrl then .api (.say true m) fun _ => k else k

/-- what `_pam_unix_approve_pass` says: modules/pam_unix/pam_unix_passwd.c:527-586 -/
def approveRemark (c : Unix.Crypts) (file : Option (List Str)) (ctrl : Unix.Ctrl) (user : Str) (old new : Option Str) (minlen : Int) : Option Str :=
  match new with
  | none => some "No password has been supplied.".toList
  | some new =>
    if old = some new then some "The password has not been changed.".toList
    else if new.length > 512 then some "You must choose a shorter password.".toList
    else if Unix.off Unix.UNIX__IAMROOT ctrl then
      let short := if (new.length : Int) < minlen then some "You must choose a longer password.".toList else none
      if Unix.on Unix.UNIX_REMEMBER_PASSWD ctrl then
        let rv := Unix.checkOldPassword c file user new
        if rv = PAM_ABORT then none
        else if rv = PAM_AUTHTOK_ERR then some "Password has been already used. Choose another.".toList
        else short
      else short
    else none

/-- `_unix_verify_shadow`: modules/pam_unix/pam_unix_passwd.c:494-525.  A helper that never ends is not modelled. -/
def unixShadow (D : Disk W) (second : Bool) (ctrl : Unix.Ctrl) (name : Str) (k : Int → Prog W) : Prog W :=
  .ext id fun w =>
    match Unix.verifyShadow ((D.mach w).etc.sys (D.mach w).world) (D.mach w).bin ((D.mach w).luck second 4) (D.mach w).proc ctrl name with
    | none => .ret PAM_SYSTEM_ERR
    | some rv => k rv

/-- the end of the preliminary check: modules/pam_unix/pam_unix_passwd.c:698-709 -/
def unixAge (D : Disk W) (ctrl : Unix.Ctrl) (name : Str) : Prog W :=
  unixShadow D false ctrl name fun rv =>
    if rv = PAM_AUTHTOK_ERR then
      if Unix.on Unix.UNIX_EXPIRED_ONLY ctrl then remarkThen ctrl (some "Your password is not expired.".toList) (.ret rv)
      else if Unix.off Unix.UNIX__IAMROOT ctrl then remarkThen ctrl (some "You must wait longer to change your password.".toList) (.ret rv)
      else .ret PAM_SUCCESS
    else .ret rv

/-- the current password is asked for and checked: modules/pam_unix/pam_unix_passwd.c:679-697 -/
def unixCurrent (D : Disk W) (ctrl : Unix.Ctrl) (name : Str) : Prog W :=
  .api (.getAuthtok true none false {}) fun t =>
    if t.code ≠ PAM_SUCCESS then .ret t.code
    else verifyPassword (fun w => (D.mach w).host false) ctrl name (textOf t.value) fun rv =>
      if rv ≠ PAM_SUCCESS then .ret rv else unixAge D ctrl name

/-- the preliminary check: modules/pam_unix/pam_unix_passwd.c:660-709 -/
def unixPrelim (D : Disk W) (ctrl : Unix.Ctrl) (name : Str) : Prog W :=
  .ext id fun w =>
    match Unix.blankPasswd ((D.mach w).etc.sys (D.mach w).world) (D.mach w).bin ((D.mach w).luck false) (D.mach w).proc ctrl name with
    | none => .ret PAM_SYSTEM_ERR
    | some (true, _) => .ret PAM_SUCCESS
    | some (false, _) =>
      if Unix.off Unix.UNIX__IAMROOT ctrl then
        if Unix.off Unix.UNIX__QUIET ctrl then
          .api (.say false ("Changing password for ".toList ++ name ++ ".".toList)) fun a =>
            if a.code ≠ PAM_SUCCESS then .ret a.code else unixCurrent D ctrl name
        else unixCurrent D ctrl name
      else unixAge D ctrl name

/-- what is done to the files, all at once, and the code -/
def unixPut (D : Disk W) (acts : List Unix.Act) (code : Int) : Prog W := .ext (D.put acts) fun _ => .ret code

/-- with the lock taken and the old password checked: modules/pam_unix/pam_unix_passwd.c:805-849.  The files change at the end, not one
after the other; what can be seen of them in between is C81. -/
def unixSet (D : Disk W) (o : Unix.Opts) (ctrl : Unix.Ctrl) (name : Str) (old : Option Str) (new : Str) (asked : Nat) : Prog W :=
  unixShadow D true ctrl name fun rv =>
    if rv ≠ PAM_SUCCESS then unixPut D [.lock, .unlock] rv
    else .ext id fun w =>
      let M := D.mach w
      let rv := Unix.approvePass M.world.crypts (M.opw asked) ctrl name old (some new) (o.minlen.getD 0)
      remarkThen ctrl (approveRemark M.world.crypts (M.opw asked) ctrl name old (some new) (o.minlen.getD 0))
        (if rv ≠ PAM_SUCCESS then unixPut D [.lock, .unlock] rv
        else
          match Unix.createHash M.world.crypts M.rnd M.gensalt (Unix.algoOf ctrl) (o.rounds.getD 0) new with
          | none => unixPut D [.lock, .unlock] PAM_BUF_ERR
          | some h =>
            let r := Unix.doSetpass M.world M.etc M.proc M.files ctrl name old h (o.remember.getD 0)
            unixPut D (.lock :: r.2) r.1)

/-- the lock and the old password: modules/pam_unix/pam_unix_passwd.c:792-804 -/
def unixLocked (D : Disk W) (o : Unix.Opts) (ctrl : Unix.Ctrl) (name : Str) (old : Option Str) (new : Str) (asked : Nat) : Prog W :=
  .ext id fun w =>
    if !Unix.lockPwdf (D.mach w).tries then .ret PAM_AUTHTOK_LOCK_BUSY
    else
      match old with
      | none => unixSet D o ctrl name old new asked
      | some p => verifyPassword (fun w => (D.mach w).host true) ctrl name p fun rv =>
        if rv ≠ PAM_SUCCESS then unixPut D [.lock, .unlock] rv else unixSet D o ctrl name old new asked

/-- the loop that asks for a new password: modules/pam_unix/pam_unix_passwd.c:750-791 -/
def unixAsk (D : Disk W) (o : Unix.Opts) (ctrl : Unix.Ctrl) (name : Str) (old : Option Str) : (left : Nat) → (i : Nat) → (rv : Int) → Prog W
  | 0, _, rv => .ret rv
  | left + 1, i, _ => .api (.getAuthtok false none false {}) fun t =>
    if t.code ≠ PAM_SUCCESS then .ret t.code
    else .ext id fun w =>
      let M := D.mach w
      let new := Unix.nonEmpty (textOf t.value)
      let rv := Unix.approvePass M.world.crypts (M.opw i) ctrl name old new (o.minlen.getD 0)
      remarkThen ctrl (approveRemark M.world.crypts (M.opw i) ctrl name old new (o.minlen.getD 0))
        (if rv = PAM_SUCCESS then
          match new with
          | none => .ret rv
          | some new => unixLocked D o ctrl name old new (i + 1)
        else .api (.setItem PAM_AUTHTOK .null true true) fun _ => unixAsk D o ctrl name old left (i + 1) rv)

/-- the old password kept with the handle -/
def storedOf : Value → Option Str
  | .str s => some s
  | _ => none

/-- the change: modules/pam_unix/pam_unix_passwd.c:710-849 -/
def unixRenew (D : Disk W) (o : Unix.Opts) (ctrl : Unix.Ctrl) (name : Str) : Prog W :=
  .api (.getItem PAM_OLDAUTHTOK) fun a =>
    if a.code ≠ PAM_SUCCESS then .ret a.code
    else unixAsk D o ctrl name (storedOf a.value)
      (if Unix.on Unix.UNIX_USE_AUTHTOK ctrl ∨ Unix.on Unix.UNIX_USE_FIRST_PASS ctrl then 1 else 3) 0 PAM_AUTHTOK_ERR

/-- from the name on: modules/pam_unix/pam_unix_passwd.c:612-859 -/
def unixChangeNamed (D : Disk W) (o : Unix.Opts) (name : Str) : Prog W :=
  if name.head? = some '-' ∨ name.head? = some '+' then .ret PAM_USER_UNKNOWN
  else .ext id fun w =>
    match (D.mach w).etc.findPw name with
    | none => .ret PAM_USER_UNKNOWN
    | some _ =>
      let ctrl := if Unix.on Unix.UNIX__NONULL o.ctrl then Unix.set Unix.UNIX__NULLOK o.ctrl else o.ctrl
      if Unix.on Unix.UNIX__PRELIM ctrl then unixPrelim D ctrl name
      else if Unix.on Unix.UNIX__UPDATE ctrl then unixRenew D o ctrl name
      else .ret PAM_ABORT

/-- `_set_ctrl` as the password function calls it: modules/pam_unix/pam_unix_passwd.c:593-595, 606-607 -/
def changeOpts (M : Mach) (flags : Nat) (args : List Str) : Option Unix.Opts :=
  Unix.setCtrl (decide (M.proc.uid = 0)) (unixFlags flags) M.defs (some (-1)) (some 0) (some 0) args

/-- `pam_sm_chauthtok`: modules/pam_unix/pam_unix_passwd.c:588-859 -/
def unixChange (D : Disk W) (flags : Nat) (args : List Str) : Prog W :=
  .ext id fun w =>
    match changeOpts (D.mach w) flags args with
    | none => .ret PAM_SYSTEM_ERR
    | some o => .api (.getUser none true true) fun a =>
      if a.code = PAM_SUCCESS then unixChangeNamed D o (textOf a.value) else .ret a.code

end Pam.Whole
