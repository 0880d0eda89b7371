import Verif.Namespace.Session
/-
modules/pam_namespace/pam_namespace.c: who opens the session (`get_user_data`), whether the root is a shared mount (`root_shared`), and how the process leaves a
directory that is to be unmounted (`cwd_in` and the code after it).

A buffer is the list of its bytes, a byte is a character, NUL is the character 0; an access outside of a buffer is an outcome of its own.
-/
namespace Pam.Namespace
open Pam

/-! ### get_user_data -/

/-- the byte 0 -/
abbrev nul : Char := Char.ofNat 0

/-- LOGIN_NAME_MAX: modules/pam_namespace/pam_namespace.h:194-195, limits.h -/
abbrev loginNameMax : Nat := 256

/-- `strncat (buf, src, n)`; `none`: it reads or writes behind the end of `buf` -/
def strncat (n : Nat) (buf src : Str) : Option Str :=
  let at_ := (buf.takeWhile (· ≠ nul)).length
  if at_ + (src.take n).length + 1 ≤ buf.length then
    some (buf.take at_ ++ src.take n ++ nul :: buf.drop (at_ + (src.take n).length + 1))
  else none

/-- `buf[0] = 0` -/
def clear (buf : Str) : Str := nul :: buf.drop 1

/-- `struct passwd` -/
structure Pwd where
  name : Str
  uid : Nat
  gid : Nat
deriving DecidableEq, Repr

/-- a part of `struct instance_data`: modules/pam_namespace/pam_namespace.h:190-200 -/
structure Idata where
  user : Str
  ruser : Str
  uid : Nat
  gid : Nat
  ruid : Nat
deriving DecidableEq, Repr

/-- the end of `get_user_data`: modules/pam_namespace/pam_namespace.c:2506-2516 -/
def ruserData (q : Option Pwd) (m : Idata) : Option (Int × Idata) :=
  match q with
  | none => some (PAM_USER_UNKNOWN, m)
  | some q =>
    match strncat (loginNameMax - 1) (clear m.ruser) q.name with
    | none => none
    | some b => some (PAM_SUCCESS, { m with ruser := b, ruid := q.uid })

/-- `get_user_data`: modules/pam_namespace/pam_namespace.c:2470-2517.  `user`, `ruser`: the items; `me`: `getuid ()`; `m`: what is in the structure before, which
`pam_sm_open_session` does not initialise (2525-2533).  The result: the code and the structure; `none`: memory outside of it is read or written. -/
def getUserData (byName : Str → Option Pwd) (byUid : Nat → Option Pwd) (me : Nat) (user ruser : Option Str) (m : Idata) : Option (Int × Idata) :=
  match user with
  | none => some (PAM_SESSION_ERR, m)
  | some u =>
    match byName u with
    | none => some (PAM_USER_UNKNOWN, m)
    | some p =>
      match strncat (loginNameMax - 1) (clear m.user) u with
      | none => none
      | some b =>
        match ruser with
        | some (c :: r) =>
          match strncat (loginNameMax - 1) m.ruser (c :: r) with
          | none => none
          | some b' => ruserData (byName (c :: r)) { m with user := b, uid := p.uid, gid := p.gid, ruser := b' }
        | _ => ruserData (byUid me) { m with user := b, uid := p.uid, gid := p.gid }

/-! ### root_shared -/

/-- `strtok_r (s, " ", …)`: the word and what is left -/
def word (s : Str) : Option (Str × Str) :=
  let r := s.dropWhile (· = ' ')
  if r = [] then none else some (r.takeWhile (· ≠ ' '), (r.dropWhile (· ≠ ' ')).drop 1)

/-- the lines that `getline` gives, each with its newline -/
def readLines : Str → List Str
  | [] => []
  | c :: r =>
    if c = '\n' then [c] :: readLines r
    else
      match readLines r with
      | [] => [[c]]
      | l :: ls => (c :: l) :: ls

/-- one line: modules/pam_namespace/pam_namespace.c:2439-2460.  `i`: the number of the word, `n`: how many words are left to look at -/
def rootLine : (i n : Nat) → (rv : Bool) → Str → Bool
  | _, 0, rv, _ => rv
  | i, n + 1, rv, s =>
    match word s with
    | none => rv
    | some (tok, rest) =>
      if i = 4 ∧ tok ≠ "/".toList then rv
      else rootLine (i + 1) n (if i = 6 then "shared:".toList.isPrefixOf tok else rv) rest

/-- `root_shared`: modules/pam_namespace/pam_namespace.c:2422-2468; the text of /proc/self/mountinfo, `none` if it cannot be opened -/
def rootShared : Option Str → Bool
  | none => false
  | some text => (readLines text).foldl (fun rv l => rootLine 0 7 rv l) false

/-- is PAMNS_MOUNT_PRIVATE set: modules/pam_namespace/pam_namespace.c:2560-2562, 2583-2585 -/
def mountPrivate (argv : List Str) (mountinfo : Option Str) : Bool := argv.any (· = "mount_private".toList) || rootShared mountinfo

/-! ### leaving a directory -/

/-- `poly_parent`: modules/pam_namespace/pam_namespace.c:2291-2297 -/
def polyParent (rdir : Str) : Str :=
  if '/' ∈ rdir then
    if (rdir.takeWhile (· ≠ '/')).length + 1 + (rdir.reverse.takeWhile (· ≠ '/')).length = rdir.length then "/".toList
    else (rdir.reverse.dropWhile (· ≠ '/')).tail.reverse
  else rdir

/-- before a directory is unmounted: modules/pam_namespace/pam_namespace.c:2070-2090, 2278-2310.  `cwd`: what `getcwd` says; `chdir`: can the directory be opened and
gone to.  The result: the current directory afterwards, or the code. -/
def leaveDir (chdir : Str → Bool) (cwd : Option Str) (rdir : Str) : Except Int Str :=
  match cwd with
  | none => .error PAM_SESSION_ERR
  | some cwd =>
    if rdir.isPrefixOf cwd then
      if chdir (polyParent rdir) then .ok (polyParent rdir) else .ok cwd
    else .ok cwd

end Pam.Namespace
