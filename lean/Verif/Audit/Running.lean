import Verif.Audit.Sepermit
import Verif.Pwhistory.Helper
/-
How modules/pam_sepermit finds the processes of a user, and kills them.

Left out: messages to the log and running out of memory (the table of process ids doubles when it is full).
-/
namespace Pam.Audit.Sepermit
open Pam Pam.Small Pam.Audit

/-- /proc as it is read: the names in the directory (`none`: it cannot be opened), and the file `status` of a process id when it is opened -/
structure ProcFs where
  names : Option (List Str)
  status : Int → Option Str

/-- the lines of a text as `getline` gives them, each with its newline -/
def getlines : Str → List Str
  | [] => []
  | c :: r =>
    if c = '\n' then ['\n'] :: getlines r
    else
      match getlines r with
      | [] => [[c]]
      | l :: ls => (c :: l) :: ls

/-- the result of `sscanf` with one conversion: 0, EOF, or 1 with the number -/
inductive Scan
  | no
  | eof
  | num (v : Int)
deriving DecidableEq, Repr

/-- the characters of a format that stand for themselves: what follows them in the input; `inl`: they do not match, or the input ends -/
def literal : Str → Str → Scan ⊕ Str
  | [], i => .inr i
  | _ :: _, [] => .inl .eof
  | p :: ps, c :: r => if c = p then literal ps r else .inl .no

/-- `sscanf (buf, "Uid:\t%d", &puid)`: modules/pam_sepermit/pam_sepermit.c:98.  The blank in the format and the conversion skip blanks; the
number is kept in 32 bits. -/
def scanUid (line : Str) : Scan :=
  match literal "Uid:".toList (line.takeWhile (· ≠ NUL)) with
  | .inl s => s
  | .inr rest =>
    let d := rest.dropWhile isSpace
    if d = [] then .eof
    else if (strtoInt 10 d).2 = d then .no
    else .num (Pwh.toInt (Pwh.strtol d))

/-- the loop of `match_process_uid`: modules/pam_sepermit/pam_sepermit.c:97-102; `none`: a variable without a value is compared, since EOF
counts as a match -/
def matchLines (uid : Nat) : List Str → Option Bool
  | [] => some false
  | l :: ls =>
    match scanUid l with
    | .no => matchLines uid ls
    | .eof => none
    | .num v => some (decide ((uid : Int) = v % 2 ^ 32))

/-- `match_process_uid`: modules/pam_sepermit/pam_sepermit.c:82-106 -/
def matchUid (fs : ProcFs) (pid : Int) (uid : Nat) : Option Bool :=
  match fs.status pid with
  | none => some false
  | some t => matchLines uid (getlines t)

/-- the table of process ids: modules/pam_sepermit/pam_sepermit.c:131-149 -/
def pidTable (self : Int) : List Str → List Int
  | [] => []
  | n :: ns => if Pwh.atoi n = 0 ∨ Pwh.atoi n = self then pidTable self ns else Pwh.atoi n :: pidTable self ns

/-- the loop over the table: modules/pam_sepermit/pam_sepermit.c:153-166; how many run, and to which SIGKILL is sent -/
def checkTable (fs : ProcFs) (uid : Nat) (killall : Bool) : List Int → Option (Nat × List Int)
  | [] => some (0, [])
  | p :: ps =>
    match matchUid fs p uid with
    | none => none
    | some false => checkTable fs uid killall ps
    | some true => (checkTable fs uid killall ps).map fun r => (r.1 + 1, if killall then p :: r.2 else r.2)

/-- `check_running`: modules/pam_sepermit/pam_sepermit.c:108-170.  The number is `none` for -1. -/
def checkRunning (fs : ProcFs) (self : Int) (uid : Nat) (killall : Bool) : Option (Option Nat × List Int) :=
  match fs.names with
  | none => some (none, [])
  | some names => (checkTable fs uid killall (pidTable self names)).map fun r => (some r.1, r.2)

end Pam.Audit.Sepermit
