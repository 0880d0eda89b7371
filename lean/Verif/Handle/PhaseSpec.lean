import Verif.Handle.Call
/-
Specification vocabulary for passes over stacks (C09, C22, C24).
-/
namespace Pam.Handle.Spec
open Pam.Config (Fn)

/-- the passes over stacks recorded in a history, oldest first -/
def passes (hist : List Event) : List Pass :=
  hist.filterMap (fun
    | .pass p => some p
    | _ => none)

/-- a preliminary pass of a password change: PAM_PRELIM_CHECK and not PAM_UPDATE_AUTHTOK -/
def IsPrelim (p : Pass) : Prop := p.fn = .chauthtok ∧ p.flags.testBit 14 = true ∧ p.flags.testBit 13 = false

/-- an updating pass of a password change: PAM_UPDATE_AUTHTOK and not PAM_PRELIM_CHECK -/
def IsUpdate (p : Pass) : Prop := p.fn = .chauthtok ∧ p.flags.testBit 13 = true ∧ p.flags.testBit 14 = false

/-- every pass satisfies `L`, given the pass just before it -/
def EachPass (L : Option Pass → Pass → Prop) (ps : List Pass) : Prop :=
  ∀ pre p post, ps = pre ++ p :: post → L pre.getLast? p

/-- The order of the passes of password changes.  A preliminary pass starts anew or continues a
suspended preliminary pass; an updating pass starts after a successful preliminary pass or
continues a suspended updating pass. -/
def TwoPhase (last : Option Pass) (p : Pass) : Prop :=
  p.fn = .chauthtok →
    (IsPrelim p ∧ p.resumed = false) ∨
    (IsPrelim p ∧ p.resumed = true ∧ ∃ q, last = some q ∧ IsPrelim q ∧ q.code = PAM_INCOMPLETE) ∨
    (IsUpdate p ∧ p.resumed = false ∧ ∃ q, last = some q ∧ IsPrelim q ∧ q.code = PAM_SUCCESS) ∨
    (IsUpdate p ∧ p.resumed = true ∧ ∃ q, last = some q ∧ IsUpdate q ∧ q.code = PAM_INCOMPLETE)

/-- The same, but nothing is said about where a resumed preliminary pass comes from. -/
def UpdateChecked (last : Option Pass) (p : Pass) : Prop :=
  p.fn = .chauthtok →
    IsPrelim p ∨
    (IsUpdate p ∧ p.resumed = false ∧ ∃ q, last = some q ∧ IsPrelim q ∧ q.code = PAM_SUCCESS) ∨
    (IsUpdate p ∧ p.resumed = true ∧ ∃ q, last = some q ∧ IsUpdate q ∧ q.code = PAM_INCOMPLETE)

/-- A resumed pass continues a suspended pass of the same operation. -/
def ResumesSame (last : Option Pass) (p : Pass) : Prop :=
  p.resumed = true → ∃ q, last = some q ∧ q.fn = p.fn ∧ q.code = PAM_INCOMPLETE

end Pam.Handle.Spec
