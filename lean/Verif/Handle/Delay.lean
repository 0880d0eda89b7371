import Verif.Handle.Model
/-
The length of the delay after a failure: `_pam_rand` and `_pam_compute_delay` of libpam/pam_delay.c, and what `_pam_await_timer` makes of it.

Floating point: each operation is the exact one on rational numbers followed by `rd`, the rounding to a double, which is a parameter here.
-/
namespace Pam.Delay
open Pam Pam.Handle

/-- `_pam_rand`: libpam/pam_delay.c:62-76; `entropy` is what `getrandom` gives -/
def rand (entropy : Option Nat) (seed : Nat) : Nat :=
  match entropy with
  | some v => v % 4294967296
  | none => (1664525 * seed + 1013904223) % 4294967296

/-- the loop: libpam/pam_delay.c:85-88.  `entropy i` is for the i-th call. -/
def gather (rd : Rat → Rat) (entropy : Nat → Option Nat) : (left : Nat) → (i seed : Nat) → Rat → Rat
  | 0, _, _, sum => sum
  | left + 1, i, seed, sum =>
    let seed := rand (entropy i) seed
    gather rd entropy left (i + 1) seed (rd (sum + ((seed / 10 % 1000000 : Nat) : Rat)))

/-- `_pam_compute_delay`: libpam/pam_delay.c:78-95; ULLONG_MAX is 2^64 as a double -/
def compute (rd : Rat → Rat) (entropy : Nat → Option Nat) (seed base : Nat) : Nat :=
  let sum := gather rd entropy 3 0 seed 0
  let sum := rd (rd (rd (sum / 3) / 1000000) - 1 / 2)
  let sum := rd ((base : Rat) * rd (1 + sum))
  if 18446744073709551616 < sum then 18446744073709551615 else sum.floor.toNat

/-- what is done: the application's function is called, or `select` sleeps for seconds and microseconds -/
inductive Act
  | call (fn : Nat) (status : Int) (usec : Nat)
  | sleep (sec usec : Nat)
  | nothing
deriving DecidableEq, Repr

/-- the end of `_pam_await_timer`: libpam/pam_delay.c:110-144, for what `awaitTimer` says is to be done -/
def act (delay : Nat → Nat) : Wait → Act
  | .called fn status usec => .call fn status (if 4294967295 < delay usec then 4294967295 else delay usec)
  | .slept usec => if 0 < delay usec then .sleep (delay usec / 1000000) (delay usec % 1000000) else .nothing
  | .none => .nothing

end Pam.Delay
