import Verif.Core.Codes
import Verif.Util.Inline
/-
modules/pam_userdb/pam_userdb.c: names and passwords in a database.

The database is its list of keys and data, in the order in which they are visited; no key occurs twice.  Data and keys are bytes, which may contain NUL.
Memory is available.  Left out: the dump of the database and other messages to the log.
-/
namespace Pam.Userdb
open Pam

/-- a C string, without its NUL -/
abbrev Str := List Char

/-- the options: modules/pam_userdb/pam_userdb.h:10-16 -/
structure Ctrl where
  icase : Bool
  keyOnly : Bool
  useFirst : Bool
  tryFirst : Bool
  unknownOk : Bool
  db : Option Str
  crypt : Option Str
deriving DecidableEq, Repr

/-- `pam_str_skip_icase_prefix`: libpam/include/pam_inline.h:91-97 -/
def skipIcase (s pre : Str) : Option Str := if ieq (s.take pre.length) pre then some (s.drop pre.length) else none

/-- one argument: modules/pam_userdb/pam_userdb.c:98-136 -/
def parseArg (c : Ctrl) (a : Str) : Ctrl :=
  if a = "debug".toList then c
  else if ieq a "icase".toList then { c with icase := true }
  else if ieq a "dump".toList then c
  else if ieq a "unknown_ok".toList then { c with unknownOk := true }
  else if ieq a "key_only".toList then { c with keyOnly := true }
  else if ieq a "use_first_pass".toList then { c with useFirst := true }
  else if ieq a "try_first_pass".toList then { c with tryFirst := true }
  else match skipIcase a "db=".toList with
    | some v => { c with db := if v = [] then none else some v }
    | none => match skipIcase a "crypt=".toList with
      | some v => { c with crypt := some v }
      | none => c

/-- no options -/
def Ctrl.zero : Ctrl := ⟨false, false, false, false, false, none, none⟩

/-- `_pam_parse`: modules/pam_userdb/pam_userdb.c:86-139 -/
def parse (argv : List Str) : Ctrl := argv.foldl parseArg .zero

/-- `dbm_fetch`, used at modules/pam_userdb/pam_userdb.c:253 -/
def fetch (db : List (Str × Str)) (key : Str) : Option Str := (db.find? (·.1 = key)).map (·.2)

/-- `strndup`, used at modules/pam_userdb/pam_userdb.c:282, 330, 388-389: it ends at a NUL -/
def cstr (s : Str) : Str := s.takeWhile (· ≠ NUL)

/-- the comparison of plain passwords: modules/pam_userdb/pam_userdb.c:335-339, 395-399; `none`: a bad access -/
def same (icase : Bool) (pass stored : Str) : Option Bool :=
  ((if icase then Util.consttimeStrcaseeq else Util.consttimeStreq) (pass ++ [NUL]) (stored ++ [NUL])).map (·.1)

/-- is the mode of storage `crypt`: modules/pam_userdb/pam_userdb.c:273 -/
def isCrypt (c : Ctrl) : Bool := match c.crypt with | none => false | some m => (skipIcase m "crypt".toList).isSome

/-- the search for the user among the keys: modules/pam_userdb/pam_userdb.c:372-413; `saw` is `saw_user` -/
def scan (icase : Bool) (user pass : Str) : (saw : Bool) → List (Str × Str) → Option Int
  | saw, [] => some (if saw then -1 else 1)
  | saw, (k, _) :: r =>
    if k.length > user.length ∧ k[user.length]? = some '-' ∧ k.take user.length = user then
      match same icase pass (cstr (k.drop (user.length + 1))) with
      | none => none
      | some true => some 0
      | some false => scan icase user pass true r
    else scan icase user pass saw r

/-- `user_lookup`: modules/pam_userdb/pam_userdb.c:210-418.  `db` is `none` if it cannot be opened; `crypt` is `crypt_r`.  The result is `none` after
a bad access. -/
def lookup (crypt : Str → Str → Option Str) (db : Option (List (Str × Str))) (c : Ctrl) (user pass : Str) : Option Int :=
  match db with
  | none => some (-2)
  | some db =>
    match fetch db (if c.keyOnly then user ++ '-' :: pass else user) with
    | some data =>
      if c.keyOnly then some 0
      else if isCrypt c then
        if data.length < 13 then some (-1)
        else if c.icase then some (-1)
        else match crypt pass (cstr data) with
          | none => some (-1)
          | some h => if h.length = data.length ∧ h = data then some 0 else some (-1)
      else (same c.icase pass (cstr data)).map fun b => if b then 0 else -1
    | none => if ¬ c.keyOnly then some 1 else scan c.icase user pass false db

/-- what the application and the other modules give: the user or the code of `pam_get_user`, PAM_AUTHTOK, and the result of the prompt -/
structure World where
  user : Except Int Str
  authtok : Option Str
  conv : Int
  resp : Option Str

/-- `obtain_authtok`: modules/pam_userdb/pam_userdb.c:55-83; the code and PAM_AUTHTOK afterwards -/
def obtain (w : World) : Int × Option Str :=
  if w.conv ≠ PAM_SUCCESS then (w.conv, w.authtok)
  else match w.resp with
    | none => (PAM_CONV_ERR, w.authtok)
    | some r => (PAM_SUCCESS, some r)

/-- the code for a result of `user_lookup`: modules/pam_userdb/pam_userdb.c:480-506 -/
def authCode (r : Int) : Int :=
  if r = -2 then PAM_SERVICE_ERR
  else if r = -1 then PAM_AUTH_ERR
  else if r = 1 then PAM_USER_UNKNOWN
  else if r = 0 then PAM_SUCCESS
  else PAM_SERVICE_ERR

/-- `pam_sm_authenticate`: modules/pam_userdb/pam_userdb.c:422-510; `open_` gives the database of that name -/
def authenticate (crypt : Str → Str → Option Str) (open_ : Str → Option (List (Str × Str))) (argv : List Str) (w : World) : Option (Int × Option Str) :=
  let c := parse argv
  match c.db with
  | none => some (PAM_SERVICE_ERR, w.authtok)
  | some name =>
    match w.user with
    | .error _ => some (PAM_SERVICE_ERR, w.authtok)
    | .ok user =>
      let (rc, tok) := if ¬ c.useFirst ∧ ¬ c.tryFirst then obtain w else (PAM_SUCCESS, w.authtok)
      if rc ≠ PAM_SUCCESS then some (rc, tok)
      else
        match tok with
        | some pass => (lookup crypt (open_ name) c user pass).map fun r => (authCode r, tok)
        | none =>
          if c.tryFirst then
            match obtain { w with authtok := tok } with
            | (rc, tok) =>
              if rc ≠ PAM_SUCCESS then some (rc, tok)
              else match tok with
                | some pass => (lookup crypt (open_ name) c user pass).map fun r => (authCode r, tok)
                | none => some (PAM_AUTHTOK_RECOVERY_ERR, tok)
          else some (PAM_AUTHTOK_RECOVERY_ERR, tok)

/-- `pam_sm_acct_mgmt`: modules/pam_userdb/pam_userdb.c:519-563.  Without a database the name is NULL, which is `none` here: a bad access. -/
def acct (crypt : Str → Str → Option Str) (open_ : Str → Option (List (Str × Str))) (argv : List Str) (user : Except Int Str) : Option Int :=
  let c := parse argv
  match user with
  | .error _ => some PAM_SERVICE_ERR
  | .ok user =>
    match c.db with
    | none => none
    | some name =>
      (lookup crypt (open_ name) c user []).map fun r =>
        if r = -2 then PAM_SERVICE_ERR else if r = -1 ∨ r = 0 then PAM_SUCCESS else if r = 1 then PAM_USER_UNKNOWN else PAM_SERVICE_ERR

end Pam.Userdb
