import Verif.Handle.PEnv
/-
Specification vocabulary for the PAM environment: histories of pam_putenv calls.
-/
namespace Pam.Handle.Spec

/-- one call of pam_putenv: its argument and whether memory is available -/
structure Put where
  arg : Option Str
  ok1 : Bool
  ok2 : Bool

/-- a call together with the code it returned -/
abbrev Done := Put × Int

/-- the variable a call is about: the text in front of the first `=` -/
def Put.name (p : Put) : Option Str :=
  match p.arg with
  | none => none
  | some t => if t.takeWhile (· ≠ '=') = [] then none else some (t.takeWhile (· ≠ '='))

/-- the value it sets: the text after the first `=`, if there is one (otherwise the call deletes) -/
def Put.value (p : Put) : Option Str :=
  match p.arg with
  | none => none
  | some t => match t.dropWhile (· ≠ '=') with
    | [] => none
    | _ :: v => some v

/-- a successful setting -/
def Sets (d : Done) : Bool := d.1.value.isSome && d.2 == PAM_SUCCESS

/-- The value of variable `n` after a history: set by the last call about `n`, if that was a
successful setting. -/
def valueAfter (n : Str) (h : List Done) : Option Str :=
  match h.reverse.find? (fun d => d.1.name == some n) with
  | none => none
  | some d => if Sets d then d.1.value else none

/-- The variables set after a history, in the order in which they were (last) created. -/
def order (h : List Done) : List Str :=
  h.foldl (fun ns d =>
    match d.1.name with
    | none => ns
    | some n => if Sets d then (if n ∈ ns then ns else ns ++ [n]) else ns.filter (· ≠ n)) []

/-- Run a history of calls on a new environment: the calls with their codes, and the environment.
`none` = some call made a bad memory access. -/
def runPuts : List Put → Option (List Done × PEnv)
  | cs => go cs [] .make
where
  go : List Put → List Done → PEnv → Option (List Done × PEnv)
    | [], h, e => some (h, e)
    | c :: cs, h, e =>
      match e.putenv c.arg c.ok1 c.ok2 with
      | none => none
      | some (code, e') => go cs (h ++ [(c, code)]) e'

end Pam.Handle.Spec
