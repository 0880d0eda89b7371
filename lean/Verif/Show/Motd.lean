import Verif.Show.Echo
import Verif.Simple.Login
import Verif.Namespace.Config
/-
modules/pam_motd.

Left out: messages to the log; memory is available; there are fewer than 2^32 files.
-/
namespace Pam.Show
open Pam
open Pam.Small (skipPrefix cstr)
open Pam.Simple (strtok)
open Pam.Namespace (strLe)

/-- what kind of file an entry of a directory is, as far as the directory says -/
inductive Kind | regular | link | unknown | other
deriving DecidableEq, Repr

/-- the system as pam_motd meets it, after privileges were dropped -/
structure MWorld where
  /-- the user is known, and privileges can be dropped -/
  drop : Bool
  /-- privileges can be regained -/
  regain : Bool
  openFile : Str → Option File
  /-- `scandir` -/
  scan : Str → Option (List (Str × Kind))
  /-- `lstat`: a regular file or a link -/
  lstat : Str → Bool
  /-- `pam_putenv` -/
  putenv : Int

/-- what is done -/
inductive Op
  | drop
  | open_ (p : Str)
  | say (t : Str)
  | regain
  | env
deriving DecidableEq, Repr

/-- `try_to_display_fd`: modules/pam_motd/pam_motd.c:44-66 -/
def display (f : File) : List Op :=
  match f.size with
  | none => []
  | some n =>
    if n = 0 ∨ n > 0x10000 then []
    else if n ≤ f.text.length then [.say (cstr (noNewline (f.text.take n)))]
    else []

/-- the number of colons -/
def colons : Str → Nat
  | [] => 0
  | c :: r => if c = ':' then colons r + 1 else colons r

/-- at most `n` tokens -/
def tokens : (n : Nat) → Str → List Str
  | 0, _ => []
  | n + 1, s =>
    match strtok ':' s with
    | none => []
    | some (t, r) => t :: tokens n r

/-- `pam_split_string`: modules/pam_motd/pam_motd.c:74-116 for a text that is not empty; what the array has beyond the tokens is NULL, that is `none` -/
def split (s : Str) : List (Option Str) :=
  let num := colons (s.drop 1) + 1
  let t := tokens num s
  t.map some ++ List.replicate (num - t.length) none

/-- `join_dir_strings`: modules/pam_motd/pam_motd.c:122-132 -/
def joinDir (a b : Str) : Option Str :=
  if a = [] then none
  else some (a ++ (if a.getLast? = some '/' ∨ b.head? = some '/' then [] else ['/']) ++ b)

/-- open the first file that can be opened, and show it: modules/pam_motd/pam_motd.c:336-352; `open(NULL)` fails -/
def showFirst (w : MWorld) : List (Option Str) → List Op
  | [] => []
  | none :: r => showFirst w r
  | some p :: r =>
    .open_ p :: (match w.openFile p with
      | some f => display f
      | none => showFirst w r)

/-- entries that are wanted: modules/pam_motd/pam_motd.c:200-233 -/
def wanted (w : MWorld) (dir : Str) (e : Str × Kind) : Bool :=
  match e.2 with
  | .regular => true
  | .link => true
  | .unknown =>
    match joinDir dir e.1 with
    | none => false
    | some p => w.lstat p
  | .other => false

/-- the names found in one directory -/
def namesIn (w : MWorld) (dir : Str) : List Str := ((w.scan dir).getD []).filterMap (fun e => if wanted w dir e then some e.1 else none)

/-- without repeated names: modules/pam_motd/pam_motd.c:262-265 -/
def dedup : List Str → List Str
  | [] => []
  | [a] => [a]
  | a :: b :: r => if a = b then dedup (b :: r) else a :: dedup (b :: r)

/-- `try_to_display_directories_with_overrides`: modules/pam_motd/pam_motd.c:153-302; `none`: `scandir(NULL)`, which follows a null pointer.  Of equal names the last one is shown here, not the first: they are
the same. -/
def showDirs (w : MWorld) (dirs : List (Option Str)) : Option (List Op) :=
  if none ∈ dirs then none
  else
    let ds := dirs.filterMap id
    let all := (ds.flatMap (namesIn w)).mergeSort strLe
    some ((dedup all).flatMap (fun n => showFirst w (ds.map (fun d => joinDir d n))))

/-- the options: modules/pam_motd/pam_motd.c:387-413 -/
def motdArg (o : Option Str × Option Str) (a : Str) : Option Str × Option Str :=
  match skipPrefix a "motd=".toList with
  | some v => (if v = [] then none else some v, o.2)
  | none =>
    match skipPrefix a "motd_dir=".toList with
    | some v => (o.1, if v = [] then none else some v)
    | none => o

/-- modules/pam_motd/pam_motd.c:29 -/
def defaultMotd : Str := "/etc/motd:/run/motd:/usr/lib/motd".toList

/-- modules/pam_motd/pam_motd.c:30 -/
def defaultMotdDir : Str := "/etc/motd.d:/run/motd.d:/usr/lib/motd.d".toList

/-- `pam_sm_open_session` of pam_motd with `try_to_display`: modules/pam_motd/pam_motd.c:325-367, 369-461; the result and what is done, `none` is an access through a null pointer -/
def motd (w : MWorld) (silent : Bool) (argv : List Str) : Option (Int × List Op) :=
  if silent then some (PAM_IGNORE, [])
  else
    let o := argv.foldl motdArg (none, none)
    let o := if o.1 = none ∧ o.2 = none then (some defaultMotd, some defaultMotdDir) else o
    if w.drop = false then some (PAM_SESSION_ERR, [])
    else
      let a := match o.1 with
        | none => []
        | some p => showFirst w (split p)
      match (match o.2 with
        | none => some []
        | some p => showDirs w (split p)) with
      | none => none
      | some b =>
        if w.regain = false then some (PAM_SESSION_ERR, .drop :: a ++ b)
        else some (if w.putenv = PAM_SUCCESS then PAM_IGNORE else w.putenv, .drop :: a ++ b ++ [.regain, .env])

end Pam.Show
