import Verif.Small.Basics
/-
Model of modules/pam_listfile/pam_listfile.c.
-/
namespace Pam.Small
open Pam

/-- the items a list can be about: modules/pam_listfile/pam_listfile.c:110-128.  `citem` there. -/
inductive Item where
  | user | tty | rhost | ruser
deriving DecidableEq, Repr

/-- modules/pam_listfile/pam_listfile.c:36-37 -/
inductive Ext where
  | group | shell
deriving DecidableEq, Repr

/-- modules/pam_listfile/pam_listfile.c:40-43, 129-137 -/
inductive Apply where
  | user (name : Str)
  | group (name : Str)
deriving DecidableEq, Repr

/-- the local variables of `pam_listfile`: lines 50-71; `retval` is `none` if it is still -1, `deny` if `sense` is -1 -/
structure LState where
  retval : Option Int := none
  onerr : Int := PAM_SERVICE_ERR
  citem : Option Item := none
  ext : Option Ext := none
  deny : Option Bool := none
  file : Option Str := none
  apply : Option Apply := none
deriving DecidableEq, Repr

/-- `if (retval == -1) retval = r` -/
def LState.fail (s : LState) (r : Int) : LState := if s.retval = none then { s with retval := some r } else s

/-- one argument: modules/pam_listfile/pam_listfile.c:73-144 (`quiet` concerns the log only) -/
def argStep (s : LState) (arg : Str) : LState :=
  if arg = "quiet".toList then s
  else if '=' ∉ arg then s
  else match skipPrefix arg "onerr=".toList with
  | some v =>
    if v = "succeed".toList then { s with onerr := PAM_SUCCESS }
    else if v = "fail".toList then { s with onerr := PAM_SERVICE_ERR }
    else s.fail PAM_SERVICE_ERR
  | none => match skipPrefix arg "sense=".toList with
    | some v =>
      if v = "allow".toList then { s with deny := some false }
      else if v = "deny".toList then { s with deny := some true }
      else s.fail s.onerr
    | none => match skipPrefix arg "file=".toList with
      | some v => { s with file := some v }
      | none => match skipPrefix arg "item=".toList with
        | some v =>
          if v = "user".toList then { s with citem := some .user }
          else if v = "tty".toList then { s with citem := some .tty }
          else if v = "rhost".toList then { s with citem := some .rhost }
          else if v = "ruser".toList then { s with citem := some .ruser }
          else if v = "group".toList then { s with citem := some .user, ext := some .group }
          else if v = "shell".toList then { s with citem := some .user, ext := some .shell }
          else { s with citem := none }
        | none => match skipPrefix arg "apply=".toList with
          | some v => { s with apply := some (match v with
              | '@' :: g => .group g
              | v => .user v) }
          | none => s.fail s.onerr

/-- the name given with `apply=` -/
def Apply.val : Apply → Str
  | .user n => n
  | .group n => n

/-- what is missing: modules/pam_listfile/pam_listfile.c:146-172 -/
def complete (s : LState) : LState :=
  let s := if s.citem = none then s.fail s.onerr else s
  let s := if s.file = none then s.fail s.onerr else s
  let s := if s.deny = none then s.fail s.onerr else s
  if s.apply.any (fun a => a.val = []) then s.fail s.onerr else s

/-- what the module meets: the answers of libpam and the file system -/
structure LCall where
  /-- `pam_get_user` -/
  user : Int × Str
  /-- `pam_get_item` -/
  item : Item → Int × Option Str
  /-- `lstat`: is the file writable for everybody, is it a regular file; `none` if it fails -/
  lstat : Str → Option (Bool × Bool)
  /-- `fopen` and what can be read -/
  open_ : Str → Option Str

/-- one line without its end: modules/pam_listfile/pam_listfile.c:313 -/
def entryOf (line : Str) : Str := (cstr line).takeWhile (fun c => c ≠ '\r' ∧ c ≠ '\n')

/-- is there a line that matches: modules/pam_listfile/pam_listfile.c:310-327 -/
def onList (a : Accounts) (citem : Item) (ext : Option Ext) (v content : Str) : Bool :=
  (Config.physLines content).any (fun line =>
    let e := entryOf line
    if e = [] then false
    else
      let e' := if citem = .tty then (skipPrefix e "/dev/".toList).getD e else e
      if ext = some .group then inGroupNamNam a v e else e' = v)

/-- with the value known: modules/pam_listfile/pam_listfile.c:247-352 -/
def lookup (a : Accounts) (c : LCall) (citem : Item) (ext : Option Ext) (onerr : Int) (deny : Bool) (file v : Str) : Int :=
  match (if ext = some .shell then (a.pwnam v).map User.shell else some v) with
  | none => onerr
  | some v =>
    match c.lstat file with
    | none => onerr
    | some (ww, reg) =>
      if ww || !reg then PAM_AUTH_ERR
      else match c.open_ file with
        | none => onerr
        | some content => if onList a citem ext v content = deny then PAM_AUTH_ERR else PAM_SUCCESS

/-- does the session concern this user: modules/pam_listfile/pam_listfile.c:177-222 -/
def applies (a : Accounts) (c : LCall) (citem : Item) (ext : Option Ext) (apply : Option Apply) : Bool :=
  let apply := if citem = .user ∨ citem = .ruser ∨ ext = some .group then none else apply
  if c.user.1 = PAM_SUCCESS ∧ c.user.2 ≠ [] then
    match apply with
    | none => true
    | some (.user n) => c.user.2 = n
    | some (.group g) => inGroupNamNam a c.user.2 g
  else true

/-- `pam_listfile`: modules/pam_listfile/pam_listfile.c:47-352.  A read error counts as the end of the list, as there -/
def listfile (a : Accounts) (c : LCall) (argv : List Str) : Int :=
  let s := complete (argv.foldl argStep {})
  match s.retval, s.citem, s.file, s.deny with
  | some r, _, _, _ => r
  | none, some citem, some file, some deny =>
    if !applies a c citem s.ext s.apply then PAM_IGNORE
    else if (c.item citem).1 ≠ PAM_SUCCESS then s.onerr
    else
      let look (v : Str) : Int :=
        let v := if citem = .tty then (skipPrefix v "/dev/".toList).getD v else v
        if v = [] then (if deny then PAM_SUCCESS else PAM_AUTH_ERR)
        else lookup a c citem s.ext s.onerr deny file v
      match (c.item citem).2 with
      | some v => look v
      | none =>
        if citem = .user then
          if c.user.1 ≠ PAM_SUCCESS then PAM_SERVICE_ERR else look c.user.2
        else if deny then PAM_SUCCESS else PAM_AUTH_ERR
  | none, _, _, _ => s.onerr

end Pam.Small
