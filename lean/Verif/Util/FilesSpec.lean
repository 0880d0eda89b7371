import Verif.Core.Text
/-
Vocabulary for C31 and C32, independent of the model.
-/
namespace Pam.Util.Spec

/-- the lines of a file, without their newlines (what follows the last newline counts, too) -/
def lines : List Char → List (List Char)
  | [] => [[]]
  | c :: cs =>
    if c = '\n' then [] :: lines cs
    else match lines cs with
      | [] => [[c]]
      | l :: ls => (c :: l) :: ls

/-- blank, tab or equals sign: what ends the word at the start of a line -/
def Ends (c : Char) : Prop := c = ' ' ∨ c = '\t' ∨ c = '='

/-- the text of a line, without a comment and without anything from a NUL on -/
def IsText (line text : List Char) : Prop :=
  '#' ∉ text ∧ NUL ∉ text ∧ (line = text ∨ ∃ r, line = text ++ '#' :: r ∨ line = text ++ NUL :: r)

/-- `line` reads `key = value` (with blanks, or an equals sign, or nothing but the key) -/
def Defines (line key value : List Char) : Prop :=
  ∃ text pre sep, IsText line text ∧ text = pre ++ key ++ sep ++ value ∧
    (∀ c ∈ pre, isSpace c = true) ∧
    (∀ c ∈ key, ¬ Ends c) ∧
    (∃ c, (key ++ sep).head? = some c ∧ isSpace c = false) ∧
    (∀ c ∈ sep, isSpace c = true ∨ c = '=') ∧
    (∀ c, sep.head? = some c → Ends c) ∧
    (sep = [] → value = []) ∧
    (∀ c, value.head? = some c → isSpace c = false ∧ c ≠ '=')

end Pam.Util.Spec
