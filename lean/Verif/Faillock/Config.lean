import Verif.Core.Strtol
import Verif.Faillock.Model
/-
Model of modules/pam_faillock/faillock_config.c and of args_parse.  Memory is available; lines have no NUL.
-/
namespace Pam.Faillock
open Pam

/-- the options: modules/pam_faillock/faillock_config.h:51-81 -/
structure Conf where
  action : Action
  deny : Nat
  failInterval : Nat
  unlockTime : Nat
  rootUnlockTime : Nat
  dir : Option Str
  adminGroup : Option Str
  denyRoot : Bool
  audit : Bool
  silent : Bool
  noLogInfo : Bool
  localOnly : Bool
  noDelay : Bool
deriving DecidableEq, Repr

/-- `sscanf(value, "%u", ..)` into an unsigned type of `bits` bits, as glibc does it: strtoul, which stops at
2^64 - 1 and negates after that, and then the low bits; `none` without a number. -/
def scanUnsigned (bits : Nat) (value : Str) : Option Nat :=
  let r := strtoInt 10 value
  if r.2 = value then none
  else
    let m := min r.1.natAbs (2 ^ 64 - 1)
    some ((if r.1 < 0 ∧ r.1.natAbs ≤ 2 ^ 64 - 1 then 2 ^ 64 - m else m) % 2 ^ bits)

/-- MAX_TIME_INTERVAL: modules/pam_faillock/faillock_config.h:59 -/
abbrev maxInterval : Nat := 604800

/-- modules/pam_faillock/faillock_config.c:196-203 -/
def readInterval (value : Str) : Option Nat :=
  match scanUnsigned 32 value with
  | none => none
  | some n => if maxInterval < n then none else some n

/-- modules/pam_faillock/faillock_config.c:208-218 -/
def readUnlock (value : Str) : Option Nat := if value = "never".toList then some 0 else readInterval value

/-- `set_conf_opt`: modules/pam_faillock/faillock_config.c:171-263 -/
def setConfOpt (c : Conf) (name value : Str) : Conf :=
  if name = "dir".toList then (if value.head? ≠ some '/' then c else { c with dir := some value })
  else if name = "deny".toList then
    match scanUnsigned 16 value with
    | none => c
    | some n => { c with deny := n }
  else if name = "fail_interval".toList then
    match readInterval value with
    | none => c
    | some n => { c with failInterval := n }
  else if name = "unlock_time".toList then
    match readUnlock value with
    | none => c
    | some n => { c with unlockTime := n }
  else if name = "root_unlock_time".toList then
    match readUnlock value with
    | none => c
    | some n => { c with rootUnlockTime := n }
  else if name = "admin_group".toList then { c with adminGroup := some value }
  else if name = "even_deny_root".toList then { c with denyRoot := true }
  else if name = "audit".toList then { c with audit := true }
  else if name = "silent".toList then { c with silent := true }
  else if name = "no_log_info".toList then { c with noLogInfo := true }
  else if name = "local_users_only".toList then { c with localOnly := true }
  else if name = "nodelay".toList then { c with noDelay := true }
  else c

/-- dropping blanks at the end: modules/pam_faillock/faillock_config.c:123-130.  (A line of blanks only is left as it is
and skipped as a whole afterwards.) -/
def dropEnd (s : Str) : Str := (s.reverse.dropWhile isSpace).reverse

/-- the end of the name: modules/pam_faillock/faillock_config.c:138-148 -/
def splitName : Str → Str × Bool × Str
  | [] => ([], false, [])
  | c :: s =>
    if isSpace c || c == '=' then ([], c == '=', s)
    else let r := splitName s; (c :: r.1, r.2)

/-- before the value: modules/pam_faillock/faillock_config.c:150-160 -/
def skipToValue : (eq : Bool) → Str → Str
  | _, [] => []
  | eq, c :: s =>
    if c ≠ '=' ∨ eq then (if isSpace c then skipToValue eq s else c :: s)
    else skipToValue true s

/-- one line, with or without its newline: modules/pam_faillock/faillock_config.c:117-163 -/
def readLine (line : Str) : Option (Str × Str) :=
  let t := (dropEnd (line.takeWhile (· ≠ '#'))).dropWhile isSpace
  if t = [] then none
  else let r := splitName t; some (r.1, skipToValue r.2.1 r.2.2)

/-- all settings of a file -/
def readLines (lines : List Str) : List (Str × Str) := lines.filterMap readLine

/-- a module argument: modules/pam_faillock/pam_faillock.c:120-127 -/
def splitArg (arg : Str) : Str × Str :=
  (arg.takeWhile (· ≠ '='), (arg.dropWhile (· ≠ '=')).drop 1)

/-- the defaults: modules/pam_faillock/pam_faillock.c:76-81 -/
def defaults : Conf :=
  ⟨.preauth, 3, 900, 600, maxInterval + 1, none, none, false, false, false, false, false, false⟩

/-- the value of the last `conf=`, and its index: modules/pam_faillock/pam_faillock.c:83-90 -/
def lastConf : (i : Nat) → List Str → Option (Nat × Str)
  | _, [] => none
  | i, a :: as =>
    match lastConf (i + 1) as with
    | some r => some r
    | none => if "conf=".toList.isPrefixOf a then some (i, a.drop 5) else none

/-- The loop over the arguments: modules/pam_faillock/pam_faillock.c:98-132 -/
def argLoop (skip : Option Nat) : (i : Nat) → Conf → List Str → Conf
  | _, c, [] => c
  | i, c, a :: as =>
    let c' :=
      if some i = skip then c
      else if a = "preauth".toList then { c with action := .preauth }
      else if a = "authfail".toList then { c with action := .authfail }
      else if a = "authsucc".toList then { c with action := .authsucc }
      else setConfOpt c (splitArg a).1 (splitArg a).2
    argLoop skip (i + 1) c' as

/-- `args_parse`: modules/pam_faillock/pam_faillock.c:67-142.  `files`: what the configuration file (`none`: the default
one) holds, or the code of read_config_file. -/
def argsParse (files : Option Str → Except Int (List Str)) (silentFlag : Bool) (args : List Str) : Except Int Conf :=
  let conf := lastConf 0 args
  match files (conf.map (·.2)) with
  | .error k => .error k
  | .ok lines =>
    let c := (readLines lines).foldl (fun c s => setConfOpt c s.1 s.2) defaults
    let c := argLoop (conf.map (·.1)) 0 c args
    let c := if c.rootUnlockTime = maxInterval + 1 then { c with rootUnlockTime := c.unlockTime } else c
    .ok (if silentFlag then { c with silent := true } else c)

/-- `read_config_file` with the answers of `fopen`: modules/pam_faillock/faillock_config.c:80-102, 166-168; built without
a vendor directory -/
def openConf (fs : Str → Except Errno (List Str)) (dflt : Str) (name : Option Str) : Except Int (List Str) :=
  match name with
  | some n =>
    match fs n with
    | .ok ls => .ok ls
    | .error _ => .error PAM_SERVICE_ERR
  | none =>
    match fs dflt with
    | .ok ls => .ok ls
    | .error .enoent => .ok []
    | .error _ => .error PAM_SERVICE_ERR

end Pam.Faillock
