import Verif.Core.Codes
import Verif.Core.Text
/-
Model of modules/pam_faillock/pam_faillock.c and modules/pam_faillock/faillock.c.  Auditing, logging, messages and
the delay are left out (with libaudit, a failing audit_open ends a call with PAM_SYSTEM_ERR: not modelled); memory is available.  The tally file is a list of whole records (a part of a record at the
end of the file is not modelled: reading drops it).
-/
namespace Pam.Faillock

/-- a C string -/
abbrev Str := List Char

/-- where a failure came from: TALLY_STATUS_RHOST, TALLY_STATUS_TTY or neither: modules/pam_faillock/faillock.h:50-53 -/
inductive Kind where
  | rhost
  | tty
  | service
deriving DecidableEq, Repr

/-- `struct tally`: modules/pam_faillock/faillock.h:55-61; `valid` is the bit TALLY_STATUS_VALID -/
structure Rec where
  kind : Kind
  source : Str
  valid : Bool
  time : Nat
deriving DecidableEq, Repr

/-- the fields of `struct options` that matter here: modules/pam_faillock/faillock_config.h:61-81.  `localOnly` and
`denyRoot` are flags. -/
structure Opts where
  deny : Nat
  failInterval : Nat
  unlockTime : Nat
  rootUnlockTime : Nat
  isAdmin : Bool
  denyRoot : Bool
deriving DecidableEq, Repr

/-- uint64_t arithmetic -/
def sub64 (a b : Nat) : Nat := (a + 2 ^ 64 - b % 2 ^ 64) % 2 ^ 64
def add64 (a b : Nat) : Nat := (a + b) % 2 ^ 64

/-- MAX_RECORDS: modules/pam_faillock/faillock.c:111 -/
abbrev maxRecords : Nat := 1024

/-- the errors of `open` told apart -/
inductive Errno where
  | eacces
  | enoent
  | other
deriving DecidableEq, Repr

/-- The answers of the system during one call.  `open1`: opening without O_CREAT, `open2`: with it (`none`: works;
without O_CREAT a missing file gives ENOENT anyway).  `write`: `some k` stops the update after `k` records with an
error. -/
structure IO where
  open1 : Option Errno
  read : Bool
  open2 : Option Errno
  write : Option Nat
  truncate : Bool
deriving DecidableEq, Repr

/-- nothing goes wrong -/
def IO.fine : IO := ⟨none, true, none, none, true⟩

/-- the tally file: `none` if it is not there -/
abbrev File := Option (List Rec)

/-- `read_tally`: modules/pam_faillock/faillock.c:113-146: chunks of 64 records until the end or 1024 records -/
def readTally (recs : List Rec) : List Rec := recs.take maxRecords

/-- The first loop of check_tally: modules/pam_faillock/pam_faillock.c:222-227 -/
def latestTime (acc : Nat) : List Rec → Nat
  | [] => acc
  | r :: rs => latestTime (if r.valid && decide (acc < r.time) then r.time else acc) rs

/-- The second loop: modules/pam_faillock/pam_faillock.c:231-237 -/
def countFailures (o : Opts) (latest : Nat) (acc : Nat) : List Rec → Nat
  | [] => acc
  | r :: rs => countFailures o latest (if r.valid && decide (sub64 latest r.time < o.failInterval) then acc + 1 else acc) rs

/-- "the lock has run out": modules/pam_faillock/pam_faillock.c:242-243 -/
def expired (o : Opts) (latest now : Nat) : Bool :=
  (!o.isAdmin && decide (o.unlockTime ≠ 0) && decide (add64 latest o.unlockTime < now)) ||
  (o.isAdmin && decide (o.rootUnlockTime ≠ 0) && decide (add64 latest o.rootUnlockTime < now))

/-- what check_tally leaves: its code, the records read, whether the file is open, and FAILLOCK_FLAG_UNLOCKED -/
structure Checked where
  code : Int
  recs : List Rec
  opened : Bool
  unlocked : Bool
deriving DecidableEq, Repr

/-- check_tally with the records read: modules/pam_faillock/pam_faillock.c:218-271 -/
def judge (o : Opts) (now : Nat) (recs : List Rec) : Checked :=
  if o.isAdmin && !o.denyRoot then ⟨PAM_SUCCESS, recs, true, false⟩
  else
    let latest := latestTime 0 recs
    let failures := countFailures o latest 0 recs
    if o.deny ≠ 0 ∧ o.deny ≤ failures then
      if expired o latest now then ⟨PAM_SUCCESS, recs, true, true⟩
      else ⟨PAM_AUTH_ERR, recs, true, false⟩
    else ⟨PAM_SUCCESS, recs, true, false⟩

/-- `check_tally`: modules/pam_faillock/pam_faillock.c:190-272 -/
def checkTally (o : Opts) (io : IO) (now : Nat) (file : File) : Checked :=
  match io.open1, file with
  | some .eacces, _ => ⟨PAM_SUCCESS, [], false, false⟩
  | some .enoent, _ => ⟨PAM_SUCCESS, [], false, false⟩
  | some .other, _ => ⟨PAM_SYSTEM_ERR, [], false, false⟩
  | none, none => ⟨PAM_SUCCESS, [], false, false⟩
  | none, some recs =>
    if io.read then judge o now (readTally recs) else ⟨PAM_SYSTEM_ERR, [], true, false⟩

/-- `reset_tally`: modules/pam_faillock/pam_faillock.c:274-289.  If the file is not open it is opened or created, but
not emptied. -/
def resetTally (io : IO) (opened : Bool) (file : File) : File :=
  if opened then
    if io.truncate then file.map (fun _ => []) else file
  else
    match io.open2 with
    | some _ => file
    | none => some (file.getD [])

/-- The search for the oldest record: modules/pam_faillock/pam_faillock.c:313-321 -/
def findOldest : (i oldtime oldest : Nat) → List Rec → Nat
  | _, _, oldest, [] => oldest
  | i, oldtime, oldest, r :: rs =>
    if oldtime = 0 ∨ r.time < oldtime then findOldest (i + 1) r.time i rs
    else findOldest (i + 1) oldtime oldest rs

/-- modules/pam_faillock/pam_faillock.c:322-327 -/
def invalidate (o : Opts) (now : Nat) (unlocked : Bool) (r : Rec) : Rec :=
  if unlocked || decide (o.failInterval ≤ sub64 now r.time) then { r with valid := false } else r

/-- The new record goes to the place of the oldest one, if that is not valid, or to the end:
modules/pam_faillock/pam_faillock.c:330-362 -/
def place (recs : List Rec) (oldest : Nat) (new : Rec) : List Rec :=
  match recs[oldest]? with
  | none => recs ++ [new]
  | some r => if r.valid then recs ++ [new] else recs.set oldest new

/-- The source of a failure: modules/pam_faillock/pam_faillock.c:345-360.  52 characters are kept. -/
def sourceOf (rhost tty service : Option Str) : Kind × Str :=
  match rhost with
  | some s => (.rhost, s.take 52)
  | none =>
    match tty with
    | some s => (.tty, s.take 52)
    | none => (.service, (service.getD []).take 52)

/-- the records after a failure -/
def addFailure (o : Opts) (now : Nat) (unlocked : Bool) (src : Kind × Str) (recs : List Rec) : List Rec :=
  place (recs.map (invalidate o now unlocked)) (findOldest 0 0 0 recs) ⟨src.1, src.2, true, now⟩

/-- `update_tally`: modules/pam_faillock/faillock.c:148-174 -/
def updateTally (io : IO) (recs : List Rec) (file : List Rec) : List Rec :=
  let data := recs.drop (recs.length - maxRecords)
  match io.write with
  | none => data
  | some k => data.take k ++ file.drop k

/-- `write_tally`: modules/pam_faillock/pam_faillock.c:291-403 (its value is not used) -/
def writeTally (o : Opts) (io : IO) (now : Nat) (src : Kind × Str) (c : Checked) (file : File) : File :=
  if c.opened then file.map (updateTally io (addFailure o now c.unlocked src c.recs))
  else
    match io.open2 with
    | some _ => file
    | none => some (updateTally io (addFailure o now c.unlocked src c.recs) (file.getD []))

/-- the actions: modules/pam_faillock/pam_faillock.c:61-63 -/
inductive Action where
  | preauth
  | authsucc
  | authfail
deriving DecidableEq, Repr

/-- `pam_sm_authenticate` once options and user are known and the user is one to be looked after:
modules/pam_faillock/pam_faillock.c:489-511 -/
def act (o : Opts) (io : IO) (a : Action) (now : Nat) (src : Kind × Str) (file : File) : Int × File :=
  let c := checkTally o io now file
  match a with
  | .preauth => (c.code, file)
  | .authsucc => if c.code = PAM_SUCCESS then (c.code, resetTally io c.opened file) else (c.code, file)
  | .authfail => if c.code = PAM_SUCCESS then (PAM_IGNORE, writeTally o io now src c file) else (c.code, file)

/-- what get_pam_user finds: modules/pam_faillock/pam_faillock.c:150-188.  `pamGetUser`: the code of pam_get_user or the
name; `known`: pam_modutil_getpwnam finds the user. -/
def getPamUser (pamGetUser : Except Int Str) (known : Str → Bool) : Except Int Str :=
  match pamGetUser with
  | .error k => .error (if k = PAM_CONV_AGAIN then PAM_INCOMPLETE else k)
  | .ok user => if user = [] then .error PAM_IGNORE else if known user then .ok user else .error PAM_IGNORE

/-- is_admin: modules/pam_faillock/pam_faillock.c:177-185 -/
def isAdmin (uid : Nat) (adminGroup : Option Str) (inGroup : Str → Bool) : Bool :=
  if uid = 0 then true
  else match adminGroup with
    | none => false
    | some g => decide (g ≠ []) && inGroup g

/-- `pam_sm_authenticate`: modules/pam_faillock/pam_faillock.c:461-520, with args_parse and pam_set_data successful.
`tracked`: the user is local, or local_users_only is not set. -/
def authenticate (o : Opts) (io : IO) (a : Action) (now : Nat) (src : Kind × Str) (user : Except Int Str) (tracked : Bool)
    (file : File) : Int × File :=
  match user with
  | .error k => (k, file)
  | .ok _ => if tracked then act o io a now src file else (PAM_SUCCESS, file)

/-- `pam_sm_acct_mgmt`: modules/pam_faillock/pam_faillock.c:533-573, with args_parse successful.  `executed`: this module
was called for authentication before. -/
def acctMgmt (o : Opts) (io : IO) (now : Nat) (executed : Bool) (user : Except Int Str) (tracked : Bool)
    (file : File) : Int × File :=
  if !executed then (PAM_SUCCESS, file)
  else match user with
    | .error k => (k, file)
    | .ok _ =>
      if tracked then (PAM_SUCCESS, resetTally io (checkTally o io now file).opened file) else (PAM_SUCCESS, file)

/-- `faillock --user u --reset`: modules/pam_faillock/main.c:210-285 -/
def command (io : IO) (file : File) : File :=
  match io.open2 with
  | some _ => file
  | none => if io.truncate then some [] else some (file.getD [])

end Pam.Faillock
