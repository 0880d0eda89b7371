import Verif.Core.Text
/-
Vocabulary for C28 and C29, independent of the model.
-/
namespace Pam.Util.Spec

/-- a C string in memory: its characters, the terminating NUL and whatever follows in the same
object -/
def InMemory (s mem : List Char) : Prop := NUL ∉ s ∧ ∃ rest, mem = s ++ NUL :: rest

/-- the complete NUL-terminated strings at the start of a byte stream, in order; an unterminated
remainder does not count -/
def strings : List Char → List (List Char)
  | [] => []
  | c :: cs =>
    if c = NUL then [] :: strings cs
    else match strings cs with
      | [] => []
      | f :: fs => (c :: f) :: fs

/-- the passwords a reader of `n` passwords of at most `max` characters gets from the bytes `bs`: the
first `n` complete strings, up to the first one that is too long -/
def received (max n : Nat) (bs : List Char) : List (List Char) :=
  ((strings bs).take n).takeWhile (fun f => decide (f.length ≤ max))

/-- `new` differs from `old` only by bytes set to NUL -/
def OnlyWiped (old new : List Char) : Prop :=
  new.length = old.length ∧ ∀ k : Nat, new[k]? = old[k]? ∨ new[k]? = some NUL

/-- the slot `new`, which held `old` before, holds the C string `s` and nothing else new -/
def Holds (old s new : List Char) : Prop :=
  ∃ rest, new = s ++ NUL :: rest ∧ OnlyWiped (old.drop (s.length + 1)) rest

end Pam.Util.Spec
