import Verif.Mkhome.Model
/-
What a new home directory should contain.
-/
namespace Pam.Mkhome
open Pam

/-- the first entry of that name that can be copied: a directory, a file or a link -/
def Ents.pick (n : Str) : Ents → Option Src
  | .nil => none
  | .cons m node rest =>
    if m = n then
      match node with
      | .other => rest.pick n
      | node => some node
    else rest.pick n

/-- the copy of a file, a link or (without its contents) a directory, whose mode is `sub`: the files get the mode of the original with writing allowed
for all, less the bits of the umask -/
def copyOf (um sub : Nat) (owner : Owner) : Src → Option Obj
  | .dir _ => some (.dir sub owner)
  | .file m d => some (.file (mask um (m ||| 0o222)) owner d)
  | .link t => some (.link owner t)
  | .other => none

/-- what a copy of a directory with the entries `es` has at a path in it -/
def below (um sub : Nat) (owner : Owner) : Path → Ents → Option Obj
  | [], _ => none
  | [n], es => (es.pick n).bind (copyOf um sub owner)
  | n :: m :: p, es =>
    match es.pick n with
    | some (.dir es') => below um sub owner (m :: p) es'
    | _ => none

/-- the entries of a subdirectory, if it is one -/
def subdir (n : Str) (vs : Ents) : Ents := match vs.pick n with | some (.dir vs') => vs' | _ => .nil

/-- what the copy of two directories one over the other has at a path in it: what is in the first counts, where directories meet they are joined -/
def both (um sub : Nat) (owner : Owner) : Path → (es vs : Ents) → Option Obj
  | [], _, _ => none
  | [n], es, vs =>
    match es.pick n with
    | some node => copyOf um sub owner node
    | none => (vs.pick n).bind (copyOf um sub owner)
  | n :: m :: p, es, vs =>
    match es.pick n with
    | some (.dir es') => both um sub owner (m :: p) es' (subdir n vs)
    | some _ => none
    | none => below um sub owner (n :: m :: p) vs

/-- the entries of a source that may not be set -/
def Source.entries : Source → Ents
  | .dir es => es
  | _ => .nil

mutual
/-- wherever the first tree has a directory, the second has a directory or nothing -/
def Src.Fits : Src → Option Src → Prop
  | .dir es, some (.dir vs) => Ents.Fits es vs
  | .dir _, some _ => False
  | _, _ => True
/-- the same for the entries of two directories -/
def Ents.Fits : Ents → Ents → Prop
  | .nil, _ => True
  | .cons n node rest, vs => Src.Fits node (vs.find n) ∧ Ents.Fits rest vs
end

/-- the umask that a text means in octal; a number that is too large counts as the largest -/
def octalUmask (u : Str) : Nat :=
  if (strtoInt 8 u).1.natAbs < 2 ^ 64 then ((strtoInt 8 u).1 % 2 ^ 64).toNat else 2 ^ 64 - 1

end Pam.Mkhome
