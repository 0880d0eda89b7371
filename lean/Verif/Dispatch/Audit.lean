import Verif.Core.Codes
import Verif.Core.Text
/-
The audit records of libpam: libpam/pam_audit.c and the end of `_pam_dispatch`, for a library built with libaudit.  Names of the record types are those of libaudit; the
`old_errno` that keeps a message in the log from being repeated is left out.
-/
namespace Pam.AuditLog
open Pam

abbrev Str := List Char

/-- the operations: libpam/pam_private.h:187-192 -/
inductive Op
  | authenticate | setcred | account | openSession | closeSession | chauthtok
deriving DecidableEq, Repr

/-- the types of records that are used (linux/audit.h) -/
inductive RecType
  | userAuth | userStart | userEnd | userAcct | userChauthtok | credAcq | credRefr | credDisp | userErr
deriving DecidableEq, Repr

/-- what is handed to `audit_log_acct_message` -/
structure Rec where
  type : RecType
  text : Str
  user : Str
  rhost : Option Str
  tty : Option Str
  ok : Bool
deriving DecidableEq, Repr

/-- `_pam_audit_open`: a descriptor, -2 (no audit in the kernel) or -1: libpam/pam_audit.c:67-87 -/
inductive Opened
  | fd | unsupported | failed
deriving DecidableEq, Repr

structure World where
  opened : Opened
  /-- memory for the list of modules -/
  listMem : Bool
  /-- memory for the text of the record -/
  textMem : Bool
  /-- what `audit_log_acct_message` returns -/
  rc : Int
deriving DecidableEq, Repr

/-- the items of the handle that are recorded -/
structure Items where
  user : Option Str
  rhost : Option Str
  tty : Option Str
deriving DecidableEq, Repr

/-- `EPERM` (Linux) -/
def EPERM : Int := 1
/-- `ENOMEM` (Linux) -/
def ENOMEM : Int := 12

/-- one name is added to the list: libpam/pam_audit.c:116-122 -/
def addName (p : Option Str) (name : Str) : Option Str :=
  match p with
  | none => some name
  | some s => some (s ++ [','] ++ name)

/-- `_pam_list_grantors`: libpam/pam_audit.c:89-128; the modules of the stack with their flags.  The first result is -1 if memory runs out; the outer `none` is a write
beyond the block. -/
def listGrantors (mem : Bool) (hl : List (Str × Bool)) (retval : Int) : Option (Int × Option Str) :=
  if retval = PAM_SUCCESS then
    let len := (hl.filter (·.2)).foldl (fun n h => n + h.1.length + 1) 0
    if len = 0 then some (0, none)
    else if mem = false then some (-1, none)
    else
      let text := (hl.filter (·.2)).foldl (fun p h => addName p h.1) none
      match text with
      | none => none
      | some s => if s.length + 1 ≤ len then some (0, some s) else none
  else some (0, none)

/-- `_pam_audit_writelog`: libpam/pam_audit.c:27-65: the result and the record that is sent, with what became of it -/
def writelog (w : World) (it : Items) (type : RecType) (message : Str) (grantors : Option Str) (retval : Int) : Int × List (Rec × Int) :=
  let (field, g) := match grantors with
    | none => ([], [])
    | some g => (" grantors=".toList, g)
  if w.textMem = false then (-ENOMEM, [])
  else
    let user := match it.user with
      | some u => if retval ≠ PAM_USER_UNKNOWN then u else "?".toList
      | none => "?".toList
    let r : Rec := ⟨type, "PAM:".toList ++ message ++ field ++ g, user, it.rhost, it.tty, decide (retval = PAM_SUCCESS)⟩
    (if w.rc < 0 ∧ w.rc = -EPERM then 0 else w.rc, [(r, w.rc)])

/-- the text and type for an operation: libpam/pam_audit.c:144-175.  PAM_ESTABLISH_CRED 2, PAM_DELETE_CRED 4, PAM_REINITIALIZE_CRED 8, PAM_REFRESH_CRED 16:
libpam/include/security/_pam_types.h:108-117 -/
def kind (op : Op) (flags : Nat) : Str × RecType :=
  match op with
  | .authenticate => ("authentication".toList, .userAuth)
  | .openSession => ("session_open".toList, .userStart)
  | .closeSession => ("session_close".toList, .userEnd)
  | .account => ("accounting".toList, .userAcct)
  | .chauthtok => ("chauthtok".toList, .userChauthtok)
  | .setcred =>
    ("setcred".toList,
     if flags.testBit 1 then .credAcq
     else if flags.testBit 3 ∨ flags.testBit 4 then .credRefr
     else if flags.testBit 2 then .credDisp
     else .userErr)

/-- the result of an audited step: what the application is told, what was sent, and whether `PAMAUDIT_LOGGED` is set by it -/
structure Result where
  code : Int
  sent : List (Rec × Int)
  logged : Bool
deriving DecidableEq, Repr

/-- `_pam_auditlog` from the text and type on: libpam/pam_audit.c:130-142 and 187-201 -/
def auditlog (w : World) (it : Items) (k : Str × RecType) (retval : Int) (hl : List (Str × Bool)) : Option Result :=
  match w.opened with
  | .failed => some ⟨PAM_SYSTEM_ERR, [], false⟩
  | .unsupported => some ⟨retval, [], false⟩
  | .fd =>
    match listGrantors w.listMem hl retval with
    | none => none
    | some (e, g) =>
      let retval := if e < 0 then PAM_SYSTEM_ERR else retval
      let (rc, sent) := writelog w it k.2 k.1 (some (g.getD "?".toList)) retval
      some ⟨if rc < 0 then PAM_SYSTEM_ERR else retval, sent, true⟩

/-- the end of `_pam_dispatch`: libpam/pam_dispatch.c:441-447.  PAM_UPDATE_AUTHTOK is 2^13: libpam/include/security/pam_modules.h:64 -/
def audited (w : World) (it : Items) (op : Op) (flags : Nat) (retval : Int) (hl : List (Str × Bool)) : Option Result :=
  if op ≠ .chauthtok ∨ flags.testBit 13 ∨ retval ≠ PAM_SUCCESS then auditlog w it (kind op flags) retval hl
  else some ⟨retval, [], false⟩

/-- `_pam_audit_end`, called from `pam_end`: libpam/pam_audit.c:203-215 with 176-179 -/
def auditEnd (w : World) (it : Items) (logged : Bool) : Option (List (Rec × Int)) :=
  if logged then some []
  else (auditlog w it ("bad_ident".toList, .userErr) PAM_USER_UNKNOWN []).map Result.sent

/-- one operation of a transaction, with all that it depends on -/
structure Call where
  world : World
  items : Items
  op : Op
  flags : Nat
  retval : Int
  handlers : List (Str × Bool)

/-- a transaction: operations one after the other, then `pam_end`; all that was sent.  `logged` is `audit_state`, libpam/pam_private.h:179, which starts at 0. -/
def transaction (fin : World × Items) (logged : Bool) : List Call → Option (List (Rec × Int))
  | [] => auditEnd fin.1 fin.2 logged
  | c :: cs => do
    let r ← audited c.world c.items c.op c.flags c.retval c.handlers
    let rest ← transaction fin (logged || r.logged) cs
    pure (r.sent ++ rest)

end Pam.AuditLog
