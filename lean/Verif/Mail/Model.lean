import Verif.Small.Gates
/-
modules/pam_mail.

Left out: messages to the log, running out of memory, the option "debug" and translations.
-/
namespace Pam.Mail
open Pam Pam.Small

/-- the options: modules/pam_mail/pam_mail.c:42-51 -/
structure Opts where
  quiet : Bool := false
  standard : Bool := false
  empty : Bool := false
  newDir : Bool := false
  close : Bool := false
  nopen : Bool := false
  noenv : Bool := false
  dir : Str := []
  hash : Nat := 0
deriving DecidableEq, Repr

/-- one argument: modules/pam_mail/pam_mail.c:74-107 -/
def arg (o : Opts) (a : Str) : Opts :=
  if a = "debug".toList then o
  else if a = "quiet".toList then { o with quiet := true }
  else if a = "standard".toList then { o with standard := true, empty := true }
  else
    match skipPrefix a "dir=".toList with
    | some v => if v ≠ [] then { o with dir := v, newDir := true } else { o with dir := v }
    | none =>
      match skipPrefix a "hash=".toList with
      | some v => { o with hash := (strtoul10 v).1 }
      | none =>
        if a = "close".toList then { o with close := true }
        else if a = "nopen".toList then { o with nopen := true }
        else if a = "noenv".toList then { o with noenv := true }
        else if a = "empty".toList then { o with empty := true }
        else o

/-- `_pam_parse`: modules/pam_mail/pam_mail.c:58-116; `deflt` is PAM_PATH_MAILDIR -/
def parse (deflt : Str) (argv : List Str) : Opts :=
  let o := argv.foldl arg {}
  if o.hash ≠ 0 ∧ o.newDir = false then { o with dir := deflt, newDir := true } else o

/-- the directories between: modules/pam_mail/pam_mail.c:165-169 -/
def hashed : (n : Nat) → (name : Str) → Str
  | 0, _ => []
  | _, [] => []
  | n + 1, c :: r => '/' :: c :: hashed n r

/-- `get_folder`: modules/pam_mail/pam_mail.c:118-192; `none`: PAM_SERVICE_ERR -/
def getFolder (deflt : Str) (o : Opts) (name home : Str) : Option Str :=
  let put (path : Str) : Str := path ++ hashed (if o.hash < name.length then o.hash else name.length) name ++ '/' :: name
  if o.newDir then
    match o.dir with
    | '~' :: '/' :: p => if p = [] then none else some (home ++ '/' :: p)
    | '~' :: p => if p = [] then none else some (home ++ '/' :: p)
    | p => some (put p)
  else some (put deflt)

/-- what `scandir` gives: the number of entries, with "." and "..", or a failure -/
inductive Scan
  | entries (n : Nat)
  | failed
  | nomem
deriving DecidableEq, Repr

/-- what is found at a path: nothing, a directory with its "new" and "cur", or a file -/
inductive Box
  | missing
  | dir (new cur : Scan)
  | file (size : Nat) (atime mtime : Int)
deriving DecidableEq, Repr

/-- modules/pam_mail/pam_mail.c:53-56 -/
inductive Status
  | newMail
  | oldMail
  | noMail
  | mail
deriving DecidableEq, Repr

/-- without new mail in a directory: modules/pam_mail/pam_mail.c:228-252 -/
def oldStatus (o : Opts) : Scan → Option Status
  | .nomem => none
  | .failed => if o.empty then some .noMail else none
  | .entries n => if n > 2 then some .oldMail else if o.empty then some .noMail else none

/-- `get_mail_status`: modules/pam_mail/pam_mail.c:194-270; `none`: 0 -/
def status (o : Opts) : Box → Option Status
  | .missing => none
  | .dir new cur =>
    match new with
    | .nomem => none
    | .failed => oldStatus o cur
    | .entries n => if n > 2 then some .newMail else oldStatus o cur
  | .file size atime mtime =>
    if size > 0 then
      if atime < mtime then some .newMail
      else if o.standard then some .mail else some .oldMail
    else if o.empty then some .noMail
    else none

/-- the messages: modules/pam_mail/pam_mail.c:285-322 -/
def message (standard : Bool) (st : Status) (folder : Str) : Str :=
  if standard then
    match st with
    | .noMail => "You do not have any new mail.".toList
    | .newMail => "You have new mail.".toList
    | .oldMail => "You have old mail.".toList
    | .mail => "You have mail.".toList
  else
    match st with
    | .noMail => "You have no mail in folder ".toList ++ folder ++ ".".toList
    | .newMail => "You have new mail in folder ".toList ++ folder ++ ".".toList
    | .oldMail => "You have old mail in folder ".toList ++ folder ++ ".".toList
    | .mail => "You have mail in folder ".toList ++ folder ++ ".".toList

/-- the system -/
structure World where
  /-- the name and the home directory of the account -/
  pw : Option (Str × Str)
  /-- PAM_PATH_MAILDIR -/
  deflt : Str
  box : Str → Box
  drop : Bool
  regain : Bool
  /-- what `pam_putenv` and `pam_info` return -/
  putenv : Int
  info : Int

/-- what the module does -/
inductive Op
  | setEnv (s : Str)
  | drop
  | look (path : Str)
  | regain
  | say (s : Str)
  | unsetEnv
deriving DecidableEq, Repr

/-- `report_mail`: modules/pam_mail/pam_mail.c:272-327 -/
def report (w : World) (silent : Bool) (o : Opts) (st : Status) (folder : Str) : Int × List Op :=
  if silent = true ∨ (o.quiet = true ∧ st ≠ .newMail) then (PAM_SUCCESS, [])
  else (w.info, [.say (message o.standard st folder)])

/-- what becomes of the status: modules/pam_mail/pam_mail.c:434-453; the last says that the rest is skipped -/
def check (w : World) (est silent : Bool) (o : Opts) (folder : Str) : Int × List Op × Bool :=
  if (est = true ∧ o.nopen = false) ∨ (est = false ∧ o.close = true) then
    if w.drop = false then (PAM_SESSION_ERR, [.drop], true)
    else if w.regain = false then (PAM_SESSION_ERR, [.drop, .look folder, .regain], true)
    else
      match status o (w.box folder) with
      | none => (PAM_SUCCESS, [.drop, .look folder, .regain], false)
      | some st =>
        match report w silent o st folder with
        | (r, ops) => (r, [.drop, .look folder, .regain] ++ ops, false)
  else (PAM_SUCCESS, [], false)

/-- `_do_mail`: modules/pam_mail/pam_mail.c:367-466 -/
def doMail (w : World) (est silent : Bool) (argv : List Str) : Int × List Op :=
  let o := parse w.deflt argv
  match w.pw with
  | none => (PAM_USER_UNKNOWN, [])
  | some (name, home) =>
    match getFolder w.deflt o name home with
    | none => (PAM_SERVICE_ERR, [])
    | some folder =>
      let env : List Op := if o.noenv = false ∧ est = true then [.setEnv ("MAIL=".toList ++ folder)] else []
      if o.noenv = false ∧ est = true ∧ w.putenv ≠ PAM_SUCCESS then (PAM_BUF_ERR, env)
      else
        match check w est silent o folder with
        | (r, ops, stop) =>
          (r, env ++ ops ++ (if stop = false ∧ est = false ∧ o.noenv = false then [.unsetEnv] else []))

/-- the functions of the module -/
inductive Fn
  | authenticate
  | establish
  | delete
  | refresh
  | openSession
  | closeSession
deriving DecidableEq, Repr

/-- the entry points: modules/pam_mail/pam_mail.c:333-362 -/
def mail (w : World) (fn : Fn) (silent : Bool) (argv : List Str) : Int × List Op :=
  match fn with
  | .authenticate => (PAM_IGNORE, [])
  | .refresh => (PAM_IGNORE, [])
  | .establish => doMail w true silent argv
  | .delete => doMail w false silent argv
  | .openSession => doMail w true silent argv
  | .closeSession => doMail w false silent argv

end Pam.Mail
