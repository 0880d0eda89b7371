import Verif.Handle.Call
import Verif.Unix.Auth
/-
The functions of pam_unix as programs that call the interface: modules/pam_unix/pam_unix_auth.c, pam_unix_acct.c and support.c.
The decisions are those of Verif/Unix/Auth.lean; here they read and write the items and the data of the handle, and question the
application.  Log entries are not modelled, messages are not translated, and memory is available.
-/
namespace Pam.Whole
open Pam Pam.Handle

variable {W : Type}

/-- what pam_unix finds on the machine: the user database, how the helper is installed, what goes right and wrong with it, the identity
of the process, and /etc/login.defs -/
structure Host where
  sys : Unix.Sys
  bin : Unix.Bin
  luck : Nat → Unix.Luck
  proc : Unix.Proc
  defs : Option Str

/-- the flags of a call that matter: modules/pam_unix/support.c:78-98 and 188.  PAM_DISALLOW_NULL_AUTHTOK is 2^0,
PAM_CHANGE_EXPIRED_AUTHTOK 2^5, PAM_UPDATE_AUTHTOK 2^13, PAM_PRELIM_CHECK 2^14, PAM_SILENT 2^15. -/
def unixFlags (n : Nat) : Unix.Flags where
  changeExpired := n.testBit 5
  update := n.testBit 13
  prelim := n.testBit 14
  silent := n.testBit 15
  disallowNull := n.testBit 0

/-- `_set_ctrl` as the authentication and account functions call it: modules/pam_unix/pam_unix_auth.c:101, pam_unix_acct.c:199 -/
def unixCtrl (H : Host) (flags : Nat) (args : List Str) : Option Unix.Ctrl :=
  (Unix.setCtrl (decide (H.proc.uid = 0)) (unixFlags flags) H.defs none none none args).map (·.ctrl)

/-- a string handed out by the library -/
def textOf : Value → Str
  | .str s => s
  | _ => []

/-- the name of the data that counts the failures of a user: modules/pam_unix/support.c:270, 737 -/
def failName (user : Str) : Str := "-UN*X-FAIL-".toList ++ user

/-- the name of the data that keeps the result of the authentication -/
def savedName : Str := "unix_setcred_return".toList

/-- `AUTH_RETURN`: modules/pam_unix/pam_unix_auth.c:73-82.  The datum is a pointer to the code; NULL is 0. -/
def authReturn (code : Int) : Prog W := .api (.setData (some savedName) (code.toNat + 1) true true) fun _ => .ret code

/-- the failures are counted: modules/pam_unix/support.c:773-852.  The datum is the record with its count; NULL is 0. -/
def countFailures (name : Str) (rv : Int) (k : Int → Prog W) : Prog W :=
  if rv = PAM_SUCCESS then .api (.setData (some (failName name)) 0 true true) fun _ => k rv
  else .api (.getData (some (failName name))) fun a =>
    let old := if a.code = PAM_SUCCESS then a.data.getD 0 else 0
    .api (.setData (some (failName name)) (if old ≠ 0 then old + 1 else 1) true true) fun _ =>
      k (if old ≠ 0 ∧ old + 1 ≥ 3 then PAM_MAXTRIES else rv)

/-- `_unix_verify_password`: modules/pam_unix/support.c:714-864.  A helper that never ends is not modelled. -/
def verifyPassword (host : W → Host) (ctrl : Unix.Ctrl) (name pw : Str) (k : Int → Prog W) : Prog W :=
  let check : Prog W := .ext id fun w =>
    match Unix.verdict (host w).sys (host w).bin ((host w).luck 3) (host w).proc ctrl name pw with
    | none => .ret PAM_SYSTEM_ERR
    | some rv => countFailures name rv k
  if Unix.off Unix.UNIX_NODELAY ctrl then .api (.failDelay 2000000) fun _ => check else check

/-- from the password on: modules/pam_unix/pam_unix_auth.c:149-174 -/
def unixToken (host : W → Host) (ctrl : Unix.Ctrl) (name : Str) : Prog W :=
  .api (.getAuthtok false none false {}) fun t =>
    if t.code ≠ PAM_SUCCESS then authReturn (if t.code ≠ PAM_CONV_AGAIN then t.code else PAM_INCOMPLETE)
    else verifyPassword host ctrl name (textOf t.value) authReturn

/-- from the name on: modules/pam_unix/pam_unix_auth.c:116-174 -/
def unixNamed (host : W → Host) (ctrl : Unix.Ctrl) (name : Str) : Prog W :=
  if name.head? = some '-' ∨ name.head? = some '+' then authReturn PAM_USER_UNKNOWN
  else .ext id fun w =>
    match Unix.blankPasswd (host w).sys (host w).bin (host w).luck (host w).proc ctrl name with
    | none => .ret PAM_SYSTEM_ERR
    | some (true, _) => authReturn PAM_SUCCESS
    | some (false, _) => unixToken host ctrl name

/-- `pam_sm_authenticate`: modules/pam_unix/pam_unix_auth.c:91-175 -/
def unixAuth (host : W → Host) (flags : Nat) (args : List Str) : Prog W :=
  .ext id fun w =>
    match unixCtrl (host w) flags args with
    | none => .ret PAM_SYSTEM_ERR
    | some ctrl => .api (.getUser none true true) fun a =>
      if a.code = PAM_SUCCESS then unixNamed host ctrl (textOf a.value)
      else authReturn (if a.code = PAM_CONV_AGAIN then PAM_INCOMPLETE else a.code)

/-- the code behind the datum -/
def savedCode (a : Ans) : Option Int :=
  if a.code = PAM_SUCCESS then
    match a.data.getD 0 with
    | 0 => none
    | n + 1 => some (n : Int)
  else none

/-- `pam_sm_setcred`: modules/pam_unix/pam_unix_auth.c:187-213 -/
def unixSetcred (host : W → Host) (flags : Nat) (args : List Str) : Prog W :=
  .ext id fun w =>
    match unixCtrl (host w) flags args with
    | none => .ret PAM_SYSTEM_ERR
    | some ctrl =>
      if Unix.on Unix.UNIX_LIKE_AUTH ctrl then .api (.getData (some savedName)) fun a =>
        match savedCode a with
        | some rv => .api (.setData (some savedName) 0 false true) fun _ => .ret rv
        | none => .ret PAM_SUCCESS
      else .ret PAM_SUCCESS

/-- whether it is an error, and the text: modules/pam_unix/pam_unix_acct.c:227-287 -/
def remarkOf : Unix.Remark → Bool × Str
  | .accountExpired => (true, "Your account has expired; please contact your system administrator.".toList)
  | .enforced => (true, "You are required to change your password immediately (administrator enforced).".toList)
  | .aged => (true, "You are required to change your password immediately (password expired).".toList)
  | .warn days => (false, "Warning: your password will expire in ".toList ++ (toString days).toList ++
      (if days = 1 then " day.".toList else " days.".toList))

/-- the end of account management: modules/pam_unix/pam_unix_acct.c:214-293, with `_make_remark` (modules/pam_unix/support.c:38-47) -/
def unixAged (host : W → Host) (ctrl : Unix.Ctrl) (name : Str) (saved : Option Int) : Prog W :=
  .ext id fun w =>
    match Unix.acctMgmt (host w).sys (host w).bin ((host w).luck 4) (host w).proc ctrl saved (some name) with
    | none => .ret PAM_SYSTEM_ERR
    | some (rv, none) => .ret rv
    | some (rv, some r) => .api (.say (remarkOf r).1 (remarkOf r).2) fun _ => .ret rv

/-- `pam_sm_acct_mgmt`: modules/pam_unix/pam_unix_acct.c:188-294.  The data are read before the user is looked up, not after: no other
call comes between. -/
def unixAcct (host : W → Host) (flags : Nat) (args : List Str) : Prog W :=
  .ext id fun w =>
    match unixCtrl (host w) flags args with
    | none => .ret PAM_SYSTEM_ERR
    | some ctrl => .api (.getItem PAM_USER) fun a =>
      if a.code ≠ PAM_SUCCESS ∨ a.value = .null then .ret PAM_USER_UNKNOWN
      else if Unix.on Unix.UNIX_NO_PASS_EXPIRY ctrl then .api (.getData (some savedName)) fun d =>
        unixAged host ctrl (textOf a.value) (savedCode d)
      else unixAged host ctrl (textOf a.value) none

/-- the functions pam_unix exports for authentication and account management -/
def unixModule (host : W → Host) : Config.Fn → Option (Nat → List Str → Prog W)
  | .authenticate => some (unixAuth host)
  | .setcred => some (unixSetcred host)
  | .acctMgmt => some (unixAcct host)
  | _ => none

end Pam.Whole
