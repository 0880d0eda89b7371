import Verif.Config.Load
import Verif.Dispatch.Classic
/-
What a configuration describes, as a tree, for one module type at a time.
Reference: pam.conf(5): `include` puts the lines of that type of another file in place;
`substack` does so as a nested unit; a failing line stands where an include cannot be loaded.
-/
namespace Pam.Config.Spec

/-- the four types of lines; upper and lower case are the same -/
def typeOf (w : List Char) : Option MType :=
  [("auth", MType.auth), ("account", .acct), ("session", .sess), ("password", .pass)].findSome?
    (fun p => if w.map lower = p.1.toList then some p.2 else none)

/-- the four classic control words -/
def flagOf (w : List Char) : Option Dispatch.Flag :=
  [("required", Dispatch.Flag.required), ("requisite", .requisite), ("sufficient", .sufficient),
   ("optional", .optional)].findSome? (fun p => if w.map lower = p.1.toList then some p.2 else none)

/-- a table of actions: only return codes 0..31 matter -/
def onCodes (f : Nat → Int) : Nat → Int := fun c => if c < 32 then f c else ACT_UNDEF

/-- The actions of a control word: classic flags as in C04, anything else as in C10 and C11. -/
def actionsOf (w : List Char) : Nat → Int :=
  match flagOf w with
  | some fl => onCodes (Dispatch.classicActions fl)
  | none => bracketActions w

/-- What a line with the words `ws` asks for: type (with an optional leading `-`), control, module
path or file name, arguments.  A line without a readable type, without a control, or without a
module path is broken. -/
def lineMeaning (ws : List (List Char)) : Directive :=
  let silent : Bool := (ws[0]?.bind List.head?) = some '-'
  let ty : Option MType := ws[0]?.bind (fun w => typeOf (if silent then w.drop 1 else w))
  let ok : Dispatch.HType := if silent then .silentModule else .module
  match ws[1]? with
  | none => { mtype := ty, htype := .mustFail, what := .module (onCodes (fun _ => ACT_BAD)) none [] }
  | some c =>
    if c.map lower = "include".toList then
      { mtype := ty, htype := if ty = none then .mustFail else ok, what := .incl false ws[2]? }
    else if c.map lower = "substack".toList then
      { mtype := ty, htype := if ty = none then .mustFail else ok, what := .incl true ws[2]? }
    else
      { mtype := ty, htype := if ty = none ∨ ws[2]? = none then .mustFail else ok,
        what := .module (actionsOf c) ws[2]? (ws.drop 3) }

/-- the lines of one type -/
inductive Tree
  | nil
  /-- one module line (or failing line) -/
  | line (htype : Dispatch.HType) (actions : Nat → Int) (path : Option (List Char))
      (argv : List (List Char)) (rest : Tree)
  /-- a substack -/
  | sub (name : Option (List Char)) (body rest : Tree)

/-- one tree after the other -/
def Tree.append : Tree → Tree → Tree
  | .nil, u => u
  | .line h a p v r, u => .line h a p v (r.append u)
  | .sub n b r, u => .sub n b (r.append u)

/-- The flat list of a tree whose outermost lines have level `L`. -/
def Tree.flatten (L : Nat) : Tree → List Entry
  | .nil => []
  | .line h a p v r => ⟨h, L, a, p, v⟩ :: r.flatten L
  | .sub n b r => ⟨.substack, L, fun _ => ACT_UNDEF, n, []⟩ :: (b.flatten (L + 1) ++ r.flatten L)

/-- every return code is a failure -/
def allBad : Nat → Int := onCodes (fun _ => ACT_BAD)

/-- the line that stands for something that could not be loaded -/
def failing (rest : Tree) : Tree := .line .mustFail allBad none [] rest

/-- may this be the name of a module? (the last path component without its extension is neither
empty nor "?") -/
def nameOk (p : Option (List Char)) : Bool :=
  match p with
  | none => true
  | some p => (extractModulename p).isSome

/-- The lines of type `ty` among `ds`; lines whose type is unreadable count as `dflt`.  `load`
gives the content of another configuration (`false`: it could not be read completely).  A line that
cannot be a module ends the reading. -/
def expand (load : Option (List Char) → Tree × Bool) (dflt ty : MType) : List Directive → Tree × Bool
  | [] => (.nil, true)
  | d :: ds =>
    let rest := expand load dflt ty ds
    if d.mtype.getD dflt ≠ ty then rest
    else match d.what with
      | .module a p v =>
        if nameOk p then (.line d.htype a p v rest.1, rest.2) else (.line d.htype a p v .nil, false)
      | .incl false name =>
        ((load name).1.append (if (load name).2 then rest.1 else failing rest.1), rest.2)
      | .incl true name =>
        if nameOk name then
          (.sub name (load name).1 (if (load name).2 then rest.1 else failing rest.1), rest.2)
        else (.sub name .nil .nil, false)

/-- content of a named configuration for type `ty`, if includes may still be nested `n` deep -/
def contents (sys : Sys) (ty : MType) : Nat → Option (List Char) → Tree × Bool
  | 0, _ => (.nil, false)
  | _ + 1, none => (.nil, false)
  | n + 1, some name =>
    match openConfig sys name with
    | none => (.nil, false)
    | some bytes =>
      let r := expand (contents sys ty n) ty ty ((fileLines ' ' bytes).1.map (fun l => lineMeaning (mkargv l)))
      (r.1, r.2 && !(fileLines ' ' bytes).2)

/-- The stack of type `ty` described by the configuration file of a service: its lines, with
includes nested at most 15 deep. -/
def stackOf (sys : Sys) (service : List Char) (ty : MType) : Tree :=
  match openConfig sys service with
  | none => .nil
  | some bytes =>
    (expand (contents sys ty 15) .auth ty ((fileLines ' ' bytes).1.map (fun l => lineMeaning (mkargv l)))).1

/-- The stack of type `ty` for a service in the single file /etc/pam.conf: the lines whose first
word is the service. -/
def pamConfStack (sys : Sys) (isService : List Char → Bool) (ty : MType) (bytes : List Char) : Tree :=
  (expand (contents sys ty 15) .auth ty ((fileLines ' ' bytes).1.filterMap (fun l =>
    if (mkargv l).head?.any isService then some (lineMeaning ((mkargv l).drop 1)) else none))).1

/-- the stack of a tree: modules are looked up with `dl` -/
def toStack {σ : Type} (dl : List Char → List (List Char) → Option (σ → Int × σ)) : Tree → Dispatch.Spec.Stack σ
  | .nil => .nil
  | .line h a p v r =>
    .mod ⟨match h with
      | .module | .silentModule => match p.bind (fun p => dl p v) with
        | none => .missing
        | some f => .fn f
      | _ => .broken, a⟩ (toStack dl r)
  | .sub _ b r => .sub (toStack dl b) (toStack dl r)

end Pam.Config.Spec
