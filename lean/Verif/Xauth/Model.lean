import Verif.Core.Codes
import Verif.Core.Strtol
import Verif.Small.Basics
/-
modules/pam_xauth/pam_xauth.c: keys for X displays are handed from one user to another.

What the system does is given by a structure; memory is available.  `fnmatch`, without flags, is a parameter.  Left out: SELinux, messages to the log, the pipes of the
child and its signals; a child writes no NUL.
-/
namespace Pam.Xauth
open Pam

/-- a C string, without its NUL -/
abbrev Str := List Char

/-- an account -/
structure Pwd where
  name : Str
  uid : Nat
  gid : Nat
  dir : Str
deriving DecidableEq, Repr

/-- what becomes of opening `~/.xauth/export` or `~/.xauth/import` as the user to whom it belongs: modules/pam_xauth/pam_xauth.c:257-292.  `priv`: privileges could not be
dropped or regained. -/
inductive AclFile
  | text (s : Str)
  | noent
  | toolong
  | other
  | priv
deriving DecidableEq, Repr

/-- the end of a line is cut off: modules/pam_xauth/pam_xauth.c:298 -/
def aclLine (l : Str) : Str := l.takeWhile (fun c => c ≠ '\r' ∧ c ≠ '\n' ∧ c ≠ NUL)

/-- `check_acl`: modules/pam_xauth/pam_xauth.c:237-354, for a user who is known.  `noent` is the code if there is no file. -/
def checkAcl (fnmatch : Str → Str → Bool) (f : AclFile) (other : Str) (noent : Int) : Int :=
  match f with
  | .priv => PAM_SESSION_ERR
  | .text s => if (Config.physLines s).any fun l => fnmatch (aclLine l) other then PAM_SUCCESS else PAM_PERM_DENIED
  | .noent => noent
  | .toolong => PAM_SESSION_ERR
  | .other => PAM_PERM_DENIED

/-- the options: modules/pam_xauth/pam_xauth.c:367-406 -/
structure Opts where
  xauth : Option Str
  system : Nat
  target : Nat
deriving DecidableEq, Repr

/-- `strtol` into a `uid_t`: modules/pam_xauth/pam_xauth.c:383-390; `none` if it is not a number.  An empty text is none; a number out of range becomes the largest or smallest
`long`, of which the low 32 bits are taken. -/
def uidOf (s : Str) : Option Nat :=
  if s = [] then none
  else match strtoInt 10 s with
    | (v, []) => some ((max (-(2 ^ 63)) (min (2 ^ 63 - 1) v) % 2 ^ 32).toNat)
    | _ => none

/-- one argument: modules/pam_xauth/pam_xauth.c:372-405 -/
def parseArg (o : Opts) (a : Str) : Opts :=
  match Small.skipPrefix a "xauthpath=".toList with
  | some v => { o with xauth := some v }
  | none => match Small.skipPrefix a "targetuser=".toList with
    | some v => { o with target := (uidOf v).getD o.target }
    | none => match Small.skipPrefix a "systemuser=".toList with
      | some v => { o with system := (uidOf v).getD o.system }
      | none => o

/-- all arguments: modules/pam_xauth/pam_xauth.c:369-406 -/
def parse (argv : List Str) : Opts := argv.foldl parseArg ⟨none, 499, 0⟩

/-- what is done, as whom: a key is read with xauth, a file is made in a directory (under the name given), its name is kept, a variable is set in the handle or the process or taken away, a key is written, a file is
removed -/
inductive Op
  | list (uid gid : Nat) (file display : Str)
  | mkstemp (uid : Nat) (dir : Str) (made : Option Str)
  | keep (file : Str)
  | pamEnv (s : Str)
  | putenv (s : Str)
  | unsetenv
  | merge (uid gid : Nat) (file cookie : Str)
  | unlink (uid : Nat) (file : Str)
deriving DecidableEq, Repr

/-- what the system does -/
structure World where
  fnmatch : Str → Str → Bool
  /-- is there an xauth at one of the usual places -/
  found : Option Str
  uid : Nat
  gid : Nat
  display : Option Str
  xauthority : Option Str
  localname : Option Str
  user : Option Str
  pwuid : Nat → Option Pwd
  pwnam : Str → Option Pwd
  /-- the files of a user: export and import -/
  acl : Str → String → AclFile
  /-- `xauth nlist`: `none` if it cannot be run -/
  nlist : Str → Str → Option Str
  hostname : Option Str
  /-- the effective user -/
  euid : Nat
  /-- can the privileges of the target user be taken, and the file be made: its name in the directory -/
  mkstemp : Option Str
  /-- can the own privileges be regained after that -/
  regain : Bool
  setData : Bool

/-- the requested access is granted by both users: modules/pam_xauth/pam_xauth.c:479-502 -/
def allowed (w : World) (r t : Pwd) (user : Str) : Bool :=
  if r.name ≠ t.name then
    match w.pwnam r.name with
    | none => false
    | some _ =>
      if checkAcl w.fnmatch (w.acl r.name "export") user (if w.uid ≠ 0 ∨ t.uid = 0 then PAM_SUCCESS else PAM_PERM_DENIED) ≠ PAM_SUCCESS then false
      else checkAcl w.fnmatch (w.acl user "import") r.name PAM_SUCCESS = PAM_SUCCESS
  else true

/-- the other name of a local display: modules/pam_xauth/pam_xauth.c:544-559 -/
def localDisplay (w : World) (display : Str) : Option Str :=
  if (Small.skipPrefix display "localhost:".toList).isSome ∨ (Small.skipPrefix display "localhost/unix:".toList).isSome then
    w.hostname.map fun h => h ++ "/unix".toList ++ display.dropWhile (· ≠ ':')
  else none

/-- the key is looked for: modules/pam_xauth/pam_xauth.c:532-588; the steps, and the key if there is one.  `none`: the first xauth could not be run -/
def findCookie (w : World) (file display : Str) : Option (List Op × Str) :=
  match w.nlist file display with
  | none => none
  | some c =>
    if c ≠ [] then some ([.list w.uid w.gid file display], c)
    else match localDisplay w display with
      | none => some ([.list w.uid w.gid file display], [])
      | some t => some ([.list w.uid w.gid file display, .list w.uid w.gid file t], (w.nlist file t).getD [])

/-- the key is handed over: modules/pam_xauth/pam_xauth.c:599-733.  Failures of `pam_putenv` are only logged. -/
def handOver (w : World) (t : Pwd) (display cookie : Str) : Int × List Op :=
  match w.mkstemp with
  | none => (PAM_SESSION_ERR, [.mkstemp t.uid t.dir none])
  | some f =>
    let file := t.dir ++ '/' :: f
    if ¬ w.regain then (PAM_SESSION_ERR, [.mkstemp t.uid t.dir (some file)])
    else if ¬ w.setData then (PAM_SESSION_ERR, [.mkstemp t.uid t.dir (some file), .unlink w.euid file])
    else (PAM_SUCCESS, [.mkstemp t.uid t.dir (some file), .keep file, .pamEnv ("XAUTHORITY=".toList ++ file), .putenv ("XAUTHORITY=".toList ++ file),
        .pamEnv ("DISPLAY=".toList ++ display)] ++ (w.localname.toList.map fun n => .pamEnv ("XAUTHLOCALHOSTNAME=".toList ++ n)) ++ [.merge t.uid t.gid file cookie])

/-- after the key was looked for: modules/pam_xauth/pam_xauth.c:590-608 -/
def forward (w : World) (t : Pwd) (display : Str) : Option (List Op × Str) → Int × List Op
  | none => (PAM_SUCCESS, [])
  | some (tr, cookie) =>
    if cookie = [] then (PAM_SESSION_ERR, tr)
    else ((handOver w t display cookie).1, tr ++ (handOver w t display cookie).2)

/-- `cleanup`: modules/pam_xauth/pam_xauth.c:735-742 -/
def finish (xauthority : Option Str) (r : Int × List Op) : Int × List Op :=
  if r.1 ≠ PAM_SUCCESS ∧ xauthority.isSome then (r.1, r.2 ++ [.unsetenv]) else r

/-- modules/pam_xauth/pam_xauth.c:430-734: code and steps before `cleanup` -/
def session (w : World) (o : Opts) (display : Str) : Int × List Op :=
  match w.user with
  | none => (PAM_SESSION_ERR, [])
  | some user =>
    match w.pwuid w.uid with
    | none => (PAM_SESSION_ERR, [])
    | some r =>
      match w.pwnam user with
      | none => (PAM_SESSION_ERR, [])
      | some t =>
        if t.uid ≠ 0 ∧ t.uid ≠ o.target ∧ t.uid ≤ o.system then (PAM_SESSION_ERR, [])
        else if ¬ allowed w r t user then (PAM_SESSION_ERR, [])
        else
          let file := w.xauthority.getD (r.dir ++ "/.Xauthority".toList)
          forward w t display (findCookie w file display)

/-- `pam_sm_open_session`: modules/pam_xauth/pam_xauth.c:356-743 -/
def openSession (w : World) (argv : List Str) : Int × List Op :=
  match ((parse argv).xauth <|> w.found), w.display with
  | none, _ => (PAM_SUCCESS, [])
  | some _, none => (PAM_SUCCESS, [])
  | some _, some display =>
    finish w.xauthority (session w (parse argv) display)

/-- `pam_sm_close_session`: modules/pam_xauth/pam_xauth.c:745-799.  `data` is what open_session kept; `priv`: privileges can be dropped and regained -/
def closeSession (w : World) (priv : Bool) (data : Option Str) : Int × List Op :=
  match data with
  | none => (PAM_SUCCESS, [])
  | some file =>
    match w.user with
    | none => (PAM_SESSION_ERR, [])
    | some user =>
      match w.pwnam user with
      | none => (PAM_SESSION_ERR, [])
      | some t => if priv then (PAM_SUCCESS, [.unlink t.uid file]) else (PAM_SESSION_ERR, [])

end Pam.Xauth
