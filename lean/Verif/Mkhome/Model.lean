import Verif.Core.Codes
import Verif.Core.Strtol
/-
modules/pam_mkhomedir/mkhomedir_helper.c and what modules/pam_mkhomedir/pam_mkhomedir.c gives it.

The file system is a function from paths (lists of names) to objects; there are no links and no names `.` or `..` on the way to the home directory.
The skeleton directories are finite trees.  Every system call may fail: `soft` is for the calls whose failure is passed over in silence (`lstat` and
`readlink` of what is to be copied), `hard` for all others, in the order in which they are made; calls that are not mentioned succeed.
Left out: what a failing `write` has written, gids other than the user's, file times and the set-id bits that `fchown` may clear.  Memory does not run out.
-/
namespace Pam.Mkhome
open Pam

/-- a C string, without its NUL -/
abbrev Str := List Char
/-- the names on the way from the root -/
abbrev Path := List Str
/-- user and group -/
abbrev Owner := Nat × Nat

mutual
/-- what is found in a skeleton directory; `other`: a device, a pipe or the like -/
inductive Src where
  | dir (es : Ents)
  | file (mode : Nat) (data : Str)
  | link (target : Str)
  | other
/-- the entries of a directory in the order of `readdir`, without `.` and `..` -/
inductive Ents where
  | nil
  | cons (name : Str) (node : Src) (rest : Ents)
end

/-- what is in the file system -/
inductive Obj where
  | dir (mode : Nat) (owner : Owner)
  | file (mode : Nat) (owner : Owner) (data : Str)
  | link (owner : Owner) (target : Str)
deriving DecidableEq, Repr

/-- the file system and the failures to come -/
structure St where
  fs : Path → Option Obj
  hard : List Bool
  soft : List Bool

/-- does the next call fail -/
def St.fails (s : St) : Bool × St := match s.hard with | [] => (false, s) | b :: l => (b, { s with hard := l })
/-- does the next `lstat` or `readlink` fail -/
def St.misses (s : St) : Bool × St := match s.soft with | [] => (false, s) | b :: l => (b, { s with soft := l })
/-- a new state of an object -/
def St.put (s : St) (p : Path) (o : Obj) : St := { s with fs := fun q => if q = p then some o else s.fs q }

/-- `root` -/
def root : Owner := (0, 0)

/-- `m & ~u_mask` -/
def mask (um m : Nat) : Nat := m &&& (0xFFFFFFFF ^^^ (um &&& 0xFFFFFFFF))

/-- `BUFSIZ` of glibc -/
def BUFSIZ : Nat := 8192

/-- copying the contents: modules/pam_mkhomedir/mkhomedir_helper.c:247-269; `n` bounds the number of rounds -/
def copyData (p : Path) (mode : Nat) (owner : Owner) : (n : Nat) → (done src : Str) → St → Int × St
  | 0, _, _, s => (PAM_SUCCESS, s)
  | n + 1, done, src, s =>
    let (bad, s) := s.fails
    if bad then (PAM_PERM_DENIED, s)
    else
      let chunk := src.take BUFSIZ
      if chunk = [] then (PAM_SUCCESS, s)
      else
        let (bad, s) := s.fails
        if bad then (PAM_PERM_DENIED, s)
        else copyData p mode owner n (done ++ chunk) (src.drop BUFSIZ) (s.put p (.file mode owner (done ++ chunk)))

/-- a regular file: modules/pam_mkhomedir/mkhomedir_helper.c:215-269 -/
def copyFile (um : Nat) (owner : Owner) (p : Path) (mode : Nat) (data : Str) (s : St) : Int × St :=
  let (bad, s) := s.fails
  if bad then (PAM_PERM_DENIED, s)
  else
    let (bad, s) := s.fails
    if bad then (PAM_PERM_DENIED, s)
    else if s.fs p ≠ none then (PAM_SUCCESS, s)
    else
      let s := s.put p (.file 0o600 root [])
      let (bad, s) := s.fails
      if bad then (PAM_PERM_DENIED, s)
      else
        let s := s.put p (.file (mask um (mode ||| 0o222)) root [])
        let (bad, s) := s.fails
        if bad then (PAM_PERM_DENIED, s)
        else
          let s := s.put p (.file (mask um (mode ||| 0o222)) owner [])
          copyData p (mask um (mode ||| 0o222)) owner (data.length + 1) [] data s

/-- a symbolic link: modules/pam_mkhomedir/mkhomedir_helper.c:138-205 -/
def copyLink (owner : Owner) (p : Path) (target : Str) (s : St) : Int × St :=
  let (bad, s) := s.misses
  if bad then (PAM_SUCCESS, s)
  else
    let (bad, s) := s.fails
    if bad then (PAM_PERM_DENIED, s)
    else if s.fs p ≠ none then (PAM_SUCCESS, s)
    else
      let s := s.put p (.link root target)
      let (bad, s) := s.fails
      if bad then (PAM_PERM_DENIED, s)
      else (PAM_SUCCESS, s.put p (.link owner target))

/-- `create_homedir`: modules/pam_mkhomedir/mkhomedir_helper.c:282-361, where `scan` goes through the source directories -/
def createDir (owner : Owner) (p : Path) (mode : Nat) (scan : St → Int × St) (s : St) : Int × St :=
  let (bad, s) := s.fails
  if bad then (PAM_PERM_DENIED, s)
  else if s.fs p ≠ none then (PAM_SUCCESS, s)
  else
    let s := s.put p (.dir 0o700 root)
    let (bad, s) := s.fails
    let (code, s) := if bad then (PAM_PERM_DENIED, s) else scan s
    let (bad, s) := s.fails
    if bad then (PAM_PERM_DENIED, s)
    else
      let s := s.put p (.dir mode root)
      let (bad, s) := s.fails
      if bad then (PAM_PERM_DENIED, s)
      else (code, s.put p (.dir mode owner))

/-- one source directory: modules/pam_mkhomedir/mkhomedir_helper.c:314-340; `loop` goes through its entries -/
def openScan (loop : St → Int × St) (s : St) : Int × St :=
  let (bad, s) := s.fails
  if bad then (PAM_PERM_DENIED, s) else loop s

mutual
/-- `copy_entry` without a vendor directory: modules/pam_mkhomedir/mkhomedir_helper.c:89-280 -/
def copyEntry (um : Nat) (owner : Owner) (base : Path) (mode : Nat) (name : Str) : Src → St → Int × St
  | node, s =>
    let (bad, s) := s.misses
    if bad then (PAM_SUCCESS, s)
    else
      match node with
      | .dir es => createDir owner (base ++ [name]) (mask um mode) (openScan (copyAll um owner (base ++ [name]) (mask um mode) es)) s
      | .link target => copyLink owner (base ++ [name]) target s
      | .file m data => copyFile um owner (base ++ [name]) m data s
      | .other => (PAM_SUCCESS, s)
/-- the loop over the entries: modules/pam_mkhomedir/mkhomedir_helper.c:326-337 -/
def copyAll (um : Nat) (owner : Owner) (base : Path) (mode : Nat) : Ents → St → Int × St
  | .nil, s => (PAM_SUCCESS, s)
  | .cons name node rest, s =>
    match copyEntry um owner base mode name node s with
    | (code, s) => if code ≠ PAM_SUCCESS then (code, s) else copyAll um owner base mode rest s
end

/-- what `lstat` finds -/
def Ents.find (name : Str) : Ents → Option Src
  | .nil => none
  | .cons n node rest => if n = name then some node else rest.find name

mutual
/-- `copy_entry` with a vendor directory, whose entries are `v`: modules/pam_mkhomedir/mkhomedir_helper.c:89-280.  What is in the directory is copied
together with what is in the directory of the same name there; if that is no directory, `opendir` fails. -/
def copyEntry2 (um : Nat) (owner : Owner) (base : Path) (mode : Nat) (name : Str) (v : Ents) : Src → St → Int × St
  | node, s =>
    let (bad, s) := s.misses
    if bad then (PAM_SUCCESS, s)
    else
      match node with
      | .dir es =>
        let (bad, s) := s.misses
        createDir owner (base ++ [name]) (mask um mode) (fun s =>
          match v.find name, bad with
          | some (.dir vs), false =>
            match openScan (copyAll2 um owner (base ++ [name]) (mask um mode) vs es) s with
            | (code, s) => if code ≠ PAM_SUCCESS then (code, s) else openScan (copyAll um owner (base ++ [name]) (mask um mode) vs) s
          | some _, false =>
            match openScan (copyAll2 um owner (base ++ [name]) (mask um mode) .nil es) s with
            | (code, s) => if code ≠ PAM_SUCCESS then (code, s) else (PAM_PERM_DENIED, s)
          | _, _ => openScan (copyAll um owner (base ++ [name]) (mask um mode) es) s) s
      | .link target => copyLink owner (base ++ [name]) target s
      | .file m data => copyFile um owner (base ++ [name]) m data s
      | .other => (PAM_SUCCESS, s)
/-- the loop over the entries, with a vendor directory: modules/pam_mkhomedir/mkhomedir_helper.c:326-337 -/
def copyAll2 (um : Nat) (owner : Owner) (base : Path) (mode : Nat) (v : Ents) : Ents → St → Int × St
  | .nil, s => (PAM_SUCCESS, s)
  | .cons name node rest, s =>
    match copyEntry2 um owner base mode name v node s with
    | (code, s) => if code ≠ PAM_SUCCESS then (code, s) else copyAll2 um owner base mode v rest s
end

/-- a source directory as it is given: not at all or by an empty string, or its entries; `missing`: it cannot be opened -/
inductive Source where
  | unset
  | missing
  | dir (es : Ents)

/-- the skeleton directory: modules/pam_mkhomedir/mkhomedir_helper.c:311-341, the first round -/
def scanSkel (um : Nat) (owner : Owner) (home : Path) (mode : Nat) (skel vendor : Source) (s : St) : Int × St :=
  match skel with
  | .unset => (PAM_SUCCESS, s)
  | .missing => (PAM_PERM_DENIED, s)
  | .dir es => match vendor with
    | .unset => openScan (copyAll um owner home mode es) s
    | .missing => openScan (copyAll2 um owner home mode .nil es) s
    | .dir vs => openScan (copyAll2 um owner home mode vs es) s

/-- the vendor directory: modules/pam_mkhomedir/mkhomedir_helper.c:311-341, the second round -/
def scanVendor (um : Nat) (owner : Owner) (home : Path) (mode : Nat) (vendor : Source) (s : St) : Int × St :=
  match vendor with
  | .unset => (PAM_SUCCESS, s)
  | .missing => (PAM_PERM_DENIED, s)
  | .dir vs => openScan (copyAll um owner home mode vs) s

/-- both source directories of the home directory: modules/pam_mkhomedir/mkhomedir_helper.c:311-341 -/
def scanBoth (um : Nat) (owner : Owner) (home : Path) (mode : Nat) (skel vendor : Source) (s : St) : Int × St :=
  match scanSkel um owner home mode skel vendor s with
  | (code, s) => if code ≠ PAM_SUCCESS then (code, s) else scanVendor um owner home mode vendor s

/-- the names in a path that is written with slashes; `cur` is the beginning of a name -/
def namesOf (cur : Str) : Str → Path
  | [] => if cur = [] then [] else [cur]
  | c :: r => if c = '/' then (if cur = [] then [] else [cur]) ++ namesOf [] r else namesOf (cur ++ [c]) r
/-- the names in a path that is written with slashes -/
def resolve (dir : Str) : Path := namesOf [] dir

/-- `strrchr(dir, '/')`: what is before the last slash and what is after it -/
def lastSlash (dir : Str) : Option (Str × Str) :=
  if '/' ∈ dir then some ((dir.reverse.dropWhile (· ≠ '/')).tail.reverse, (dir.reverse.takeWhile (· ≠ '/')).reverse) else none

/-- is there a directory -/
def St.isDir (s : St) (p : Path) : Bool := match s.fs p with | some (.dir _ _) => true | _ => false

/-- `mkdir(dir, 0755)`: does it fail with another error than EEXIST -/
def St.mkdir (s : St) (p : Path) : Bool × St :=
  let (bad, s) := s.fails
  if bad then (true, s)
  else if s.fs p ≠ none then (false, s)
  else if ¬ s.isDir p.dropLast then (true, s)
  else (false, s.put p (.dir 0o755 root))

/-- `make_parent_dirs`: modules/pam_mkhomedir/mkhomedir_helper.c:390-416; `n` bounds the depth of the recursion -/
def makeParents : (n : Nat) → (dir : Str) → (make : Bool) → St → Int × St
  | 0, _, _, s => (PAM_SUCCESS, s)
  | n + 1, dir, make, s =>
    match lastSlash dir with
    | none => (PAM_SUCCESS, s)
    | some (pre, _) =>
      match (if pre ≠ [] ∧ s.fs (resolve pre) = none then makeParents n pre true s else (PAM_SUCCESS, s)) with
      | (rc, s) =>
        if rc ≠ PAM_SUCCESS then (rc, s)
        else if make then
          match s.mkdir (resolve dir) with
          | (bad, s) => if bad then (PAM_PERM_DENIED, s) else (PAM_SUCCESS, s)
        else (PAM_SUCCESS, s)

/-- `create_homedir_helper`: modules/pam_mkhomedir/mkhomedir_helper.c:363-388; `mkdirat` of an empty name fails -/
def createHelper (um : Nat) (owner : Owner) (mode : Nat) (dir : Str) (skel vendor : Source) (s : St) : Int × St :=
  match lastSlash dir with
  | none => (PAM_PERM_DENIED, s)
  | some (pre, name) =>
    let (bad, s) := s.fails
    if bad ∨ ¬ s.isDir (resolve pre) then (PAM_PERM_DENIED, s)
    else if name = [] then (PAM_PERM_DENIED, s)
    else createDir owner (resolve pre ++ [name]) mode (scanBoth um owner (resolve pre ++ [name]) mode skel vendor) s

/-- `strtoul(s, &end, base)`: `none` if errno is set; the value and the rest -/
def strtoul (base : Nat) (s : Str) : Option (Nat × Str) :=
  let r := strtoInt base s
  if r.1.natAbs < 2 ^ 64 then some ((r.1 % 2 ^ 64).toNat, r.2) else none

/-- a number given as an argument: modules/pam_mkhomedir/mkhomedir_helper.c:438-445, 451-458 -/
def numArg (s : Str) : Option Nat := match strtoul 0 s with | some (v, []) => some v | _ => none

/-- the entry of the user in the password file -/
structure Pw where
  dir : Str
  owner : Owner

/-- `main`: modules/pam_mkhomedir/mkhomedir_helper.c:418-480; the arguments after the user's name are optional -/
def main (pw : Option Pw) (umask : Option Str) (skel : Source) (homeMode : Option Str) (vendor : Source) (s : St) : Int × St :=
  match pw with
  | none => (PAM_USER_UNKNOWN, s)
  | some pw =>
    match umask.elim (some 0o022) numArg, homeMode.elim (some 0) numArg with
    | none, _ => (PAM_SESSION_ERR, s)
    | _, none => (PAM_SESSION_ERR, s)
    | some um, some hm =>
      let mode := if hm = 0 then mask um 0o777 else hm
      if pw.dir.head? ≠ some '/' then (PAM_SESSION_ERR, s)
      else if s.fs (resolve pw.dir) ≠ none then (PAM_SUCCESS, s)
      else
        match makeParents (pw.dir.length + 1) pw.dir false s with
        | (rc, s) => if rc ≠ PAM_SUCCESS then (PAM_PERM_DENIED, s) else createHelper um pw.owner mode pw.dir skel vendor s

/-- octal digits -/
def octal : (fuel : Nat) → Nat → Str
  | 0, _ => []
  | f + 1, n => if n = 0 then [] else octal f (n / 8) ++ [Char.ofNat (48 + n % 8)]

/-- `_pam_conv_str_umask_to_homemode`: modules/pam_mkhomedir/pam_mkhomedir.c:106-111 (`%#o` writes 0 as `0`, and a 0 before other numbers) -/
def homeModeOf (umask : Str) : Str :=
  let u := match strtoul 8 umask with | some (v, _) => v | none => 2 ^ 64 - 1
  '0' :: octal 4 (mask u 0o777)

/-- the second and the fourth argument of the helper: modules/pam_mkhomedir/pam_mkhomedir.c:134-147, 169-174.  `opt` is the option `umask=`,
`loginUmask` and `loginMode` are UMASK and HOME_MODE of /etc/login.defs. -/
def helperArgs (opt loginUmask loginMode : Option Str) : Str × Str :=
  match opt with
  | some u => (u, homeModeOf u)
  | none => ("0022".toList, match loginMode with
    | some m => m
    | none => match loginUmask with
      | some u => homeModeOf u
      | none => homeModeOf "0022".toList)

end Pam.Mkhome
