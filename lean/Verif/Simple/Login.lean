import Verif.Core.Codes
import Verif.Small.Basics
import Verif.Config.Control
/-
modules/pam_ftp, pam_rhosts, pam_canonicalize_user, pam_permit, pam_deny, pam_warn and pam_debug.

Left out: messages to the log.  Memory is available, so that `pam_set_item` succeeds.
-/
namespace Pam.Simple
open Pam
open Pam.Small (skipPrefix)

/-- a C string, without its NUL -/
abbrev Str := List Char

/-- one call of `strtok_r` with one separator: the token and what is left, `none` if there is none -/
def strtok (sep : Char) (s : Str) : Option (Str × Str) :=
  match s.dropWhile (· = sep) with
  | [] => none
  | c :: t => some ((c :: t).takeWhile (· ≠ sep), ((c :: t).dropWhile (· ≠ sep)).drop 1)

/-- is one of the tokens the name: the loop of modules/pam_ftp/pam_ftp.c:74-81; each round shortens what is left -/
def tokenIs (name : Str) : (n : Nat) → (s : Str) → Bool
  | 0, _ => false
  | n + 1, s =>
    match strtok ',' s with
    | none => false
    | some (t, r) => if t = name then true else tokenIs name n r

/-- `lookup`: modules/pam_ftp/pam_ftp.c:63-100; the user to be set, if the name is listed.  `strtok_r` has overwritten the separator after the first token of `list_copy`, so what is
left there is the separators before it and the token. -/
def lookup (name : Str) (list : Option Str) : Option Str :=
  match list with
  | some (c :: l) =>
    if tokenIs name ((c :: l).length) (c :: l) then
      some ((c :: l).takeWhile (· = ',') ++ ((c :: l).dropWhile (· = ',')).takeWhile (· ≠ ','))
    else none
  | _ => if name = "ftp".toList ∨ name = "anonymous".toList then some "ftp".toList else none

/-- an item that is set; `none` is NULL -/
inductive SetItem
  | user (s : Str)
  | ruser (s : Option Str)
  | rhost (s : Option Str)
  | authtok (s : Option Str)
deriving DecidableEq, Repr

/-- what is asked for: the password of a user, or an address -/
inductive Ask
  | password (user : Str)
  | guest
deriving DecidableEq, Repr

/-- what the application answers: an error, or a response, which may be NULL -/
inductive Answer
  | error (code : Int)
  | resp (s : Option Str)
deriving DecidableEq, Repr

/-- the address: modules/pam_ftp/pam_ftp.c:169-178; `none` if `strtok_r` is called with NULL and nothing to go on with, which is not allowed -/
def address (resp : Option Str) : Option (List SetItem) :=
  match resp with
  | none => none
  | some s =>
    match strtok '@' s with
    | none => some [.ruser none]
    | some (u, r) => some [.ruser (some u), .rhost ((strtok '@' r).map Prod.fst)]

/-- one argument: modules/pam_ftp/pam_ftp.c:41-52 -/
def ftpArg (u : Option Str) (a : Str) : Option Str :=
  if a = "debug".toList ∨ a = "ignore".toList then u else (skipPrefix a "users=".toList).or u

/-- the last `users=`: modules/pam_ftp/pam_ftp.c:35-56 -/
def ftpUsers (argv : List Str) : Option Str := argv.foldl ftpArg none

/-- `pam_sm_authenticate` of pam_ftp: modules/pam_ftp/pam_ftp.c:104-206; the code, the items set and what was asked.  `user` is what `pam_get_user` gives. -/
def ftp (user : Option Str) (conv : Ask → Answer) (argv : List Str) : Option (Int × List SetItem × List Ask) :=
  match user with
  | none => some (PAM_USER_UNKNOWN, [], [])
  | some name =>
    match lookup name (ftpUsers argv) with
    | some u =>
      match conv .guest with
      | .error c => some (if c = PAM_CONV_AGAIN then PAM_INCOMPLETE else PAM_AUTHINFO_UNAVAIL, [.user u], [.guest])
      | .resp r =>
        if "ignore".toList ∈ argv then some (PAM_SUCCESS, [.user u], [.guest])
        else (address r).map fun l => (PAM_SUCCESS, .user u :: l, [.guest])
    | none =>
      match conv (.password name) with
      | .error c => some (if c = PAM_CONV_AGAIN then PAM_INCOMPLETE else PAM_AUTHINFO_UNAVAIL, [], [.password name])
      | .resp r => some (PAM_AUTH_ERR, [.authtok r], [.password name])

/-- the system and the items, for pam_rhosts.  The three results of `pam_get_item` and `pam_get_user` are codes or values. -/
structure RWorld where
  rhost : Option Str
  ruser : Option Str
  user : Except Int Str
  /-- user id of an account -/
  uid : Str → Option Nat
  /-- `ruserok`: host, for root, remote user, local user -/
  ruserok : Str → Bool → Str → Str → Int

/-- one argument: modules/pam_rhosts/pam_rhosts.c:62-75 -/
def rhostsArg (u : Option Str) (a : Str) : Option Str :=
  if a = "debug".toList ∨ a = "silent".toList ∨ a = "suppress".toList then u else (skipPrefix a "superuser=".toList).or u

/-- `pam_sm_authenticate` of pam_rhosts: modules/pam_rhosts/pam_rhosts.c:48-134.  `pam_get_item` succeeds. -/
def rhosts (w : RWorld) (argv : List Str) : Int :=
  match w.user with
  | .error c => c
  | .ok luser =>
    match w.rhost, w.ruser with
    | some rhost, some ruser =>
      if argv.foldl rhostsArg none = some luser then
        if w.ruserok rhost true ruser luser ≠ 0 then PAM_AUTH_ERR else PAM_SUCCESS
      else match w.uid luser with
        | none => PAM_USER_UNKNOWN
        | some u => if w.ruserok rhost (u = 0) ruser luser ≠ 0 then PAM_AUTH_ERR else PAM_SUCCESS
    | _, _ => PAM_AUTH_ERR

/-- `pam_sm_authenticate` of pam_canonicalize_user: modules/pam_canonicalize_user/pam_canonicalize_user.c:46-69; the code and the new PAM_USER, if one is set.  `pwnam` gives the name
in the entry of an account. -/
def canonicalize (pwnam : Str → Option Str) (user : Except Int Str) : Int × Option Str :=
  match user with
  | .error c => (if c = PAM_CONV_AGAIN then PAM_INCOMPLETE else c, none)
  | .ok u =>
    match pwnam u with
    | none => (PAM_USER_UNKNOWN, none)
    | some n => if u = n then (PAM_IGNORE, none) else (PAM_IGNORE, some n)

/-- the functions of a module -/
inductive Fn
  | auth | setcred | acct | open | close | prelim | update
deriving DecidableEq, Repr

/-- pam_permit: modules/pam_permit/pam_permit.c:17-82; the code and the new PAM_USER -/
def permit (f : Fn) (user : Except Int Str) : Int × Option Str :=
  match f with
  | .auth => match user with
    | .error c => (c, none)
    | .ok u => (PAM_SUCCESS, if u = [] then some "nobody".toList else none)
  | _ => (PAM_SUCCESS, none)

/-- pam_deny: modules/pam_deny/pam_deny.c:12-58 -/
def deny : Fn → Int
  | .auth => PAM_AUTH_ERR
  | .setcred => PAM_CRED_ERR
  | .acct => PAM_AUTH_ERR
  | .prelim => PAM_AUTHTOK_ERR
  | .update => PAM_AUTHTOK_ERR
  | .open => PAM_SESSION_ERR
  | .close => PAM_SESSION_ERR

/-- the word for a function: modules/pam_debug/pam_debug.c:56-100 -/
def event : Fn → Str
  | .auth => "auth".toList
  | .setcred => "cred".toList
  | .acct => "acct".toList
  | .prelim => "prechauthtok".toList
  | .update => "chauthtok".toList
  | .open => "open_session".toList
  | .close => "close_session".toList

/-- `parse_args` of pam_debug: modules/pam_debug/pam_debug.c:31-54.  `none` for the result of the search: not a name of a code. -/
def debugCode (ev : Str) : List Str → Int
  | [] => PAM_SUCCESS
  | a :: r =>
    match skipPrefix a (ev ++ ['=']) with
    | some v => match (Config.tokenReturns.take 32).idxOf? v with
      | some j => j
      | none => PAM_SUCCESS
    | none => debugCode ev r

/-- pam_debug: modules/pam_debug/pam_debug.c:56-100 -/
def debug (f : Fn) (argv : List Str) : Int := debugCode (event f) argv

end Pam.Simple
