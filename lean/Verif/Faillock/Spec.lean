import Verif.Faillock.Model
/-
What locking an account means, after pam_faillock(8) and faillock.conf(5).
-/
namespace Pam.Faillock.Spec
open Pam Pam.Faillock

/-- what happens to an account -/
inductive Event where
  /-- a failed login (the module is called with `authfail`) at a time -/
  | fail (t : Nat) (src : Kind × Str)
  /-- a successful one (`authsucc`) -/
  | success (t : Nat)
  /-- the account phase after authentication -/
  | account (t : Nat)
  /-- the administrator resets the tally -/
  | reset
  /-- `preauth` -/
  | ask (t : Nat)
deriving DecidableEq, Repr

/-- the clock reading, if the event has one -/
def Event.time : Event → Option Nat
  | .fail t _ => some t
  | .success t => some t
  | .account t => some t
  | .reset => none
  | .ask t => some t

/-- after how many seconds a lock ends; 0 for never -/
def unlockAfter (o : Opts) : Nat := if o.isAdmin then o.rootUnlockTime else o.unlockTime

/-- accounts of administrators are not locked, unless even_deny_root is given -/
def Exempt (o : Opts) : Prop := o.isAdmin = true ∧ o.denyRoot = false

instance (o : Opts) : Decidable (Exempt o) := by unfold Exempt; infer_instance

/-- the latest failure -/
def latest (fails : List Nat) : Nat := fails.foldr max 0

/-- how many failures are close to the latest one -/
def recent (o : Opts) (fails : List Nat) : Nat := (fails.filter (fun t => latest fails - t < o.failInterval)).length

/-- so many failures, so close together, that the account is to be locked -/
def TooMany (o : Opts) (fails : List Nat) : Prop := o.deny ≠ 0 ∧ o.deny ≤ recent o fails

/-- the time of the lock has passed -/
def Over (o : Opts) (fails : List Nat) (now : Nat) : Prop := unlockAfter o ≠ 0 ∧ latest fails + unlockAfter o < now

/-- the account is locked, the failures that count being `fails` -/
def Locked (o : Opts) (fails : List Nat) (now : Nat) : Prop := ¬ Exempt o ∧ TooMany o fails ∧ ¬ Over o fails now

instance (o : Opts) (fails : List Nat) : Decidable (TooMany o fails) := by unfold TooMany; infer_instance
instance (o : Opts) (fails : List Nat) (now : Nat) : Decidable (Over o fails now) := by unfold Over; infer_instance
instance (o : Opts) (fails : List Nat) (now : Nat) : Decidable (Locked o fails now) := by unfold Locked; infer_instance

/-- The failures that count after an event.  While the account is locked, failures and successes change nothing; after
a lock has ended it takes as many failures again; a success, the account phase and the administrator clear the list. -/
def after (o : Opts) (fails : List Nat) : Event → List Nat
  | .fail t _ => if Locked o fails t then fails else if ¬ Exempt o ∧ TooMany o fails then [t] else t :: fails
  | .success t => if Locked o fails t then fails else []
  | .account _ => []
  | .reset => []
  | .ask _ => fails

/-- the failures that count after a history -/
def counted (o : Opts) (h : List Event) : List Nat := h.foldl (after o) []

/-- The clock does not go back: `last` is the latest reading so far. -/
def Forward : (last : Nat) → List Event → Prop
  | _, [] => True
  | last, e :: es =>
    match e.time with
    | none => Forward last es
    | some t => last ≤ t ∧ 0 < t ∧ t < 2 ^ 63 ∧ Forward t es

/-- the last reading of the clock -/
def lastTime : (last : Nat) → List Event → Nat
  | last, [] => last
  | last, e :: es => lastTime (e.time.getD last) es

/-- what the module makes of an event, when nothing goes wrong -/
def doEvent (o : Opts) (file : File) : Event → File
  | .fail t src => (act o .fine .authfail t src file).2
  | .success t => (act o .fine .authsucc t (.service, []) file).2
  | .account t => (acctMgmt o .fine t true (.ok []) true file).2
  | .reset => command .fine file
  | .ask t => (act o .fine .preauth t (.service, []) file).2

/-- the tally file after a history that began without one -/
def fileAfter (o : Opts) (h : List Event) : File := h.foldl (doEvent o) none

end Pam.Faillock.Spec
