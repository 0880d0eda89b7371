import Verif.Core.Text
/-
How arguments are written on a configuration line.  Reference: pam.conf(5), "module-arguments":
words separated by blanks; an argument may be enclosed in square brackets, a closing bracket inside
it being written `\]`.
-/
namespace Pam.Config.Spec

/-- what separates words: spaces, tabs and newlines -/
def Separator (c : Char) : Prop := c = ' ' ∨ c = '\t' ∨ c = '\n'

/-- bracket quoting: every `]` is preceded by a backslash -/
def quote : List Char → List Char
  | [] => []
  | c :: t => if c = ']' then '\\' :: ']' :: quote t else c :: quote t

/-- `text` is a way to write the argument `arg` -/
inductive Written : List Char → List Char → Prop
  /-- a plain word -/
  | word (arg : List Char) (hne : arg ≠ []) (hsep : ∀ c ∈ arg, ¬ Separator c)
      (hb : arg.head? ≠ some '[') : Written arg arg
  /-- in brackets; the argument does not end in a backslash -/
  | bracketed (arg : List Char) (he : arg.getLast? ≠ some '\\') :
      Written arg ('[' :: (quote arg ++ [']']))

/-- `text` is a way to write the arguments `args`, in order, separated by blanks -/
inductive WrittenList : List (List Char) → List Char → Prop
  | nil (w : List Char) (hw : ∀ c ∈ w, Separator c) : WrittenList [] w
  | cons (w arg text rest : List Char) (args : List (List Char)) (hw : ∀ c ∈ w, Separator c)
      (ha : Written arg text) (hr : WrittenList args rest)
      (hsep : ∀ c ∈ rest.head?, Separator c) : WrittenList (arg :: args) (w ++ text ++ rest)

end Pam.Config.Spec
