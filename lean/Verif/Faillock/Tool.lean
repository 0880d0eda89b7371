import Verif.Faillock.Config
/-
Model of the command faillock: modules/pam_faillock/main.c.  The records of a user are the file of that name in the directory of records, as
in Verif.Faillock.Model; owner and mode of files, auditing and memory failures are left out.  Output is text; messages for errors are not
modelled.
-/
namespace Pam.Faillock.Tool
open Pam Pam.Faillock

/-- the command line: `user`, `reset` and `legacy_output` of the options, `conf` and `dir` -/
structure Args where
  conf : Option Str
  dir : Option Str
  user : Option Str
  reset : Bool
  legacy : Bool
deriving DecidableEq, Repr

/-- the loop of `args_parse`: modules/pam_faillock/main.c:71-108.  `none`: an error is reported. -/
def parse : Args → List Str → Option Args
  | a, [] => some a
  | a, [w] =>
    if w = "--conf".toList ∨ w = "--dir".toList ∨ w = "--user".toList then none
    else if w = "--reset".toList then some { a with reset := true }
    else if w = "--legacy-output".toList then some { a with legacy := true }
    else none
  | a, w :: v :: r =>
    if w = "--conf".toList then if v = [] then none else parse { a with conf := some v } r
    else if w = "--dir".toList then if v = [] then none else parse { a with dir := some v } r
    else if w = "--user".toList then if v = [] then none else parse { a with user := some v } r
    else if w = "--reset".toList then parse { a with reset := true } (v :: r)
    else if w = "--legacy-output".toList then parse { a with legacy := true } (v :: r)
    else none

/-- The answers of the system.  `config`: `read_config_file` succeeds with this file, and gives the directory of records; `open_`: opening
the file of a user with O_CREAT (`none`: works); `stale`: what errno holds before. -/
structure Env where
  config : Option Str → Option Str
  known : Str → Bool
  scandir : Str → Option (List Str)
  open_ : Str → Option Errno
  read : Str → Bool
  truncate : Str → Bool
  stale : Errno
  localtime : Nat → Option Str

/-- `%-ns` -/
def left (n : Nat) (s : Str) : Str := s ++ List.replicate (n - s.length) ' '

/-- `%ns` and `%nu` -/
def right (n : Nat) (s : Str) : Str := List.replicate (n - s.length) ' ' ++ s

/-- one line of `print_in_new_format`: modules/pam_faillock/main.c:157-172 -/
def newLine (env : Env) (r : Rec) : List Str :=
  match env.localtime r.time with
  | none => []
  | some t => [left 19 t ++ ' ' :: (left 5 (match r.kind with
      | .rhost => "RHOST".toList
      | .tty => "TTY".toList
      | .service => "SVC".toList) ++ ' ' :: (left 52 (r.source.take 52) ++ ' ' :: (if r.valid then "V".toList else "I".toList)))]

/-- `print_in_new_format`: modules/pam_faillock/main.c:149-173 -/
def newFormat (env : Env) (user : Str) (recs : List Rec) : List Str :=
  (user ++ [':']) :: (left 19 "When".toList ++ ' ' :: (left 5 "Type".toList ++ ' ' :: (left 48 "Source".toList ++ ' ' :: left 5 "Valid".toList))) ::
    recs.flatMap (newLine env)

/-- `print_in_legacy_format`: modules/pam_faillock/main.c:175-208.  `once`: the heading has been printed (`pr_once`).  Where the time is not
valid the line stays without its end: that is the line of the name alone here. -/
def legacyFormat (env : Env) (once : Bool) (user : Str) (recs : List Rec) : List Str :=
  (if once then [] else ["Login           Failures    Latest failure         From".toList]) ++
  (match recs.getLast? with
    | none => [left 15 (user.take 15) ++ ' ' :: right 5 (Nat.toDigits 10 0)]
    | some r =>
      match env.localtime r.time with
      | none => [left 15 (user.take 15) ++ [' ']]
      | some t => [left 15 (user.take 15) ++ ' ' :: (right 5 (Nat.toDigits 10 recs.length) ++ ' ' :: (right 25 t ++ "    ".toList ++ r.source))])

/-- the files of records, what was printed, and `pr_once` -/
structure St where
  file : Str → File
  out : List Str
  once : Bool

/-- another file for a user -/
def St.put (s : St) (user : Str) (f : File) : St := { s with file := fun u => if u = user then f else s.file u }

/-- does the name contain `../`? -/
def dotted : Str → Bool
  | [] => false
  | c :: r => "../".toList.isPrefixOf (c :: r) || dotted r

/-- `do_user`: modules/pam_faillock/main.c:210-285, with `open_tally`: modules/pam_faillock/faillock.c:54-108.  The value is what the command
exits with. -/
def doUser (env : Env) (a : Args) (user : Str) (s : St) : Nat × St :=
  if !env.known user then (1, s)
  else
    match (if dotted user then some env.stale else env.open_ user) with
    | some .enoent => (0, s)
    | some _ => (3, s)
    | none =>
      let recs := (s.file user).getD []
      if a.reset then
        if env.truncate user then (0, s.put user (some [])) else (4, s.put user (some recs))
      else
        if env.read user then
          let s1 := s.put user (some recs)
          if a.legacy then (0, { s1 with out := s1.out ++ legacyFormat env s1.once user (readTally recs), once := true })
          else (0, { s1 with out := s1.out ++ newFormat env user (readTally recs) })
        else (5, s.put user (some recs))

/-- the loop of `do_allusers`: modules/pam_faillock/main.c:300-308 -/
def doAll (env : Env) (a : Args) : List Str → St → St
  | [], s => s
  | n :: ns, s =>
    if n = ".".toList ∨ n = "..".toList then doAll env a ns s
    else doAll env a ns (doUser env a n s).2

/-- `do_allusers`: modules/pam_faillock/main.c:287-312 -/
def doAllUsers (env : Env) (a : Args) (dir : Str) (s : St) : Nat × St :=
  match env.scandir dir with
  | none => (2, s)
  | some names => (0, doAll env a names s)

/-- `main` with `args_parse`: modules/pam_faillock/main.c:59-125, 316-331.  `files`: the files in a directory.  The value: what the command exits
with, the directory that was worked on, and what is there then. -/
def run (env : Env) (argv : List Str) (files : Str → Str → File) : Nat × Option Str × St :=
  match parse ⟨none, none, none, false, false⟩ argv with
  | none => (1, none, ⟨fun _ => none, [], false⟩)
  | some a =>
    match env.config a.conf with
    | none => (1, none, ⟨fun _ => none, [], false⟩)
    | some cdir =>
      let dir := a.dir.getD cdir
      let r := match a.user with
        | none => doAllUsers env a dir ⟨files dir, [], false⟩
        | some u => doUser env a u ⟨files dir, [], false⟩
      (r.1, some dir, r.2)

end Pam.Faillock.Tool
