import Verif.Filter.Model
/-
What pam_filter is for, in terms of its arguments and of what happens to the processes.  Of the model this uses the types and the fields of states.
-/
namespace Pam.Filter.Spec
open Pam Pam.Small Pam.Filter

/-- words with a blank between -/
def words : List Str → Str
  | [] => []
  | [w] => w
  | w :: ws => w ++ ' ' :: words ws

/-- the two words that announce the filter -/
def IsRun (a : Str) : Prop := a = "run1".toList ∨ a = "run2".toList

/-- the arguments ask for the filter `f` with its own arguments `rest`, by the word `run` -/
def Asks (args : List Str) (run f : Str) (rest : List Str) : Prop :=
  ∃ pre, args = pre ++ run :: f :: rest ∧ IsRun run ∧ ∀ a ∈ pre, ¬ IsRun a

/-- in which operations `run1` and `run2` start the filter: pam_filter(8) -/
def startsAt (run : Str) : Op → Prop
  | .authenticate => run = "run1".toList
  | .setcred => run = "run2".toList
  | .acctMgmt => True
  | .openSession => run = "run1".toList
  | .closeSession => run = "run2".toList
  | .chauthtok prelim update => (prelim = true ∧ run = "run1".toList) ∨ (prelim = false ∧ update = true ∧ run = "run2".toList)

def opName : Op → Str
  | .authenticate => "authenticate".toList
  | .setcred => "setcred".toList
  | .acctMgmt => "acct_mgmt".toList
  | .openSession => "open_session".toList
  | .closeSession => "close_session".toList
  | .chauthtok _ _ => "chauthtok".toList

/-- how the application ended -/
def appEnd : List Ev → Option Int
  | [] => none
  | .app (.exited n) :: _ => some n
  | .app .killed :: _ => some (-1)
  | _ :: es => appEnd es

def filterEnds : List Ev → Prop
  | [] => False
  | .filter (.exited _) :: _ => True
  | .filter .killed :: _ => True
  | _ :: es => filterEnds es

/-- reports about the two processes only, none about a process that has ended -/
def Hist : (app filter : Bool) → List Ev → Prop
  | _, _, [] => True
  | _, _, .other :: _ => False
  | a, f, .app .stopped :: es => a = true ∧ Hist a f es
  | a, f, .app _ :: es => a = true ∧ Hist false f es
  | a, f, .filter .stopped :: es => f = true ∧ Hist a f es
  | a, f, .filter _ :: es => f = true ∧ Hist a false es

end Pam.Filter.Spec
