import Verif.Core.Codes
import Verif.Core.Strtol
import Verif.Small.Basics
import Verif.Util.Files
/-
modules/pam_umask and modules/pam_faildelay.

Left out: messages.  `none` for a result is undefined behaviour.
-/
namespace Pam.Simple
open Pam
open Pam.Small (skipPrefix)

/-- a C string, without its NUL -/
abbrev Text := List Char

/-! ### pam_faildelay -/

/-- `parse_delay`: modules/pam_faildelay/pam_faildelay.c:82-91; `none` is -1.  `strtoll` gives the largest number if the text is out of range. -/
def parseDelay (s : Text) : Option Nat :=
  match strtoInt 10 s with
  | (v, rest) => if v < 0 ∨ rest = s ∨ rest ≠ [] then none else some (min v.toNat (2 ^ 63 - 1))

/-- the loop over the arguments: modules/pam_faildelay/pam_faildelay.c:99-113; `none`: an argument is not valid -/
def delayArgs : Option Nat → List Text → Option (Option Nat)
  | d, [] => some d
  | d, a :: r =>
    match skipPrefix a "delay=".toList with
    | some v =>
      match parseDelay v with
      | some n => if n > 4294967295 then none else delayArgs (some n) r
      | none => none
    | none => delayArgs d r

/-- `pam_sm_authenticate` of pam_faildelay: modules/pam_faildelay/pam_faildelay.c:93-144; the code and the delay in microseconds, if one is set.  `defs` is /etc/login.defs.
`pam_fail_delay` succeeds. -/
def failDelay (defs : Option Text) (argv : List Text) : Int × Option Nat :=
  match delayArgs none argv with
  | none => (PAM_IGNORE, none)
  | some (some n) => (PAM_IGNORE, some n)
  | some none =>
    match Util.searchKey defs "FAIL_DELAY".toList with
    | none => (PAM_IGNORE, none)
    | some v =>
      match parseDelay v with
      | none => (PAM_IGNORE, none)
      | some n => if n > 4294967295 / 1000000 then (PAM_IGNORE, none) else (PAM_IGNORE, some (n * 1000000))

/-! ### pam_umask -/

/-- `pam_str_skip_icase_prefix`: libpam/include/pam_inline.h:91-97 -/
def skipIcase (s pre : Text) : Option Text := if ieq (s.take pre.length) pre then some (s.drop pre.length) else none

/-- the options that matter: modules/pam_umask/pam_umask.c:63-70 -/
structure UmaskOpts where
  usergroups : Bool
  umask : Option Text
deriving DecidableEq, Repr

/-- `parse_option`: modules/pam_umask/pam_umask.c:72-92 -/
def umaskArg (o : UmaskOpts) (a : Text) : UmaskOpts :=
  if a = [] then o
  else if ieq a "debug".toList then o
  else match skipIcase a "umask=".toList with
    | some v => { o with umask := some v }
    | none =>
      if ieq a "usergroups".toList then { o with usergroups := true }
      else if ieq a "nousergroups".toList then { o with usergroups := false }
      else o

/-- what happens in a session: the mask is set, the priority is changed by a number, the limit of file sizes is set -/
inductive Act
  | mask (m : Nat)
  | nice (n : Int)
  | fsize (n : Nat)
deriving DecidableEq, Repr

/-- `set_umask`: modules/pam_umask/pam_umask.c:116-128; `none`: not a number, nothing is done.  `strtoul` gives the largest number if the text is out of range, and minus what a negative
number is. -/
def setUmask (s : Text) : Option Nat :=
  match strtoInt 8 s with
  | (v, rest) =>
    let m := if v.natAbs ≥ 2 ^ 64 then 511 else (v % 512).toNat
    if m = 0 ∧ rest = s then none else some m

/-- `strtol`: the number forced into the range of `long` -/
def clampLong (v : Int) : Int := max (-(2 ^ 63)) (min (2 ^ 63 - 1) v)

/-- a number as an `int` -/
def toInt (v : Int) : Int := (v + 2 ^ 31) % 2 ^ 32 - 2 ^ 31

/-- what an item of the GECOS field asks for: modules/pam_umask/pam_umask.c:162-185; `none`: the product of two numbers is out of range -/
def gecosItem (cp : Text) : Option (List Act) :=
  match skipIcase cp "umask=".toList with
  | some v => some [.mask (clampLong (strtoInt 8 v).1 % 512).toNat]
  | none =>
    match skipIcase cp "pri=".toList with
    | some v => some [.nice (toInt (clampLong (strtoInt 10 v).1))]
    | none =>
      match skipIcase cp "ulimit=".toList with
      | some v =>
        let l := 512 * clampLong (strtoInt 10 v).1
        if l < -(2 ^ 63) ∨ 2 ^ 63 - 1 < l then none else some [.fsize (l % 2 ^ 64).toNat]
      | none => some []

/-- the loop over the GECOS field: modules/pam_umask/pam_umask.c:154-186; each round but the first shortens what is left -/
def gecosLoop : (n : Nat) → (cp : Text) → Option (List Act)
  | 0, _ => some []
  | n + 1, cp =>
    let cp := if cp.head? = some ',' then cp.drop 1 else cp
    match gecosItem cp with
    | none => none
    | some a =>
      match cp.dropWhile (· ≠ ',') with
      | [] => some a
      | c :: r => (gecosLoop n (c :: r)).map (a ++ ·)

/-- group bits become owner bits: modules/pam_umask/pam_umask.c:148-149 -/
def sameAsOwner (m : Nat) : Nat := (m &&& (0xFFFFFFFF ^^^ 0o70)) ||| ((m >>> 3) &&& 0o70)

/-- an account and its group -/
structure Account where
  name : Text
  uid : Nat
  /-- the name of the primary group, if it is known -/
  group : Option Text
  gecos : Option Text
deriving DecidableEq, Repr

/-- the mask after some acts -/
def maskAfter (m : Nat) : List Act → Nat
  | [] => m
  | .mask n :: r => maskAfter n r
  | _ :: r => maskAfter m r

/-- `pam_sm_open_session` of pam_umask: modules/pam_umask/pam_umask.c:94-114, 130-187 and 190-228 for an account that is known; what is done, beginning with the mask `m`.  `defs` and `conf` are /etc/login.defs
and /etc/default/login, `usergroups` is the setting the module was compiled with. -/
def umaskSession (usergroups : Bool) (defs conf : Option Text) (argv : List Text) (pw : Account) (m : Nat) : Option (List Act) :=
  let o := argv.foldl umaskArg ⟨usergroups, none⟩
  let value := o.umask.or ((Util.searchKey defs "UMASK".toList).or (Util.searchKey conf "UMASK".toList))
  let a := match value.bind setUmask with
    | none => []
    | some n => [.mask n]
  let b := if o.usergroups = true ∧ pw.uid ≠ 0 ∧ pw.group = some pw.name then [.mask (sameAsOwner (maskAfter m a))] else []
  match pw.gecos with
  | none => some (a ++ b)
  | some g => (gecosLoop (g.length + 1) g).map (a ++ b ++ ·)

end Pam.Simple
