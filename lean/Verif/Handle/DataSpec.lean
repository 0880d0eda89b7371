import Verif.Handle.Call
/-
Specification of the module data: what a history of calls says about it (C19).
-/
namespace Pam.Handle.Spec

/-- a successful pam_set_data -/
structure SetCall where
  name : Str
  data : Nat
  cleanup : Bool
deriving DecidableEq, Repr

/-- the successful pam_set_data calls of a history, oldest first -/
def setCalls (hist : List Event) : List SetCall :=
  hist.filterMap (fun
    | .call _ (.setData (some n) d c _) ans _ => if ans.code = PAM_SUCCESS then some ⟨n, d, c⟩ else none
    | _ => none)

/-- the datum of the last successful call for a name -/
def lastData (n : Str) (l : List SetCall) : Option Nat := ((l.filter (fun s => s.name = n)).getLast?).map SetCall.data

/-- is call number `k` followed by one with the same name? -/
def replaced (l : List SetCall) (k : Nat) : Bool :=
  match l[k]? with
  | some s => (l.drop (k + 1)).any (fun t => t.name = s.name)
  | none => false

end Pam.Handle.Spec
