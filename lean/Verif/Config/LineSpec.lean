import Verif.Core.Text
/-
What a configuration file is for its author: a sequence of comment or empty lines and of
(possibly continued) entries.  Reference: pam.conf(5), "line continuation" and comments.
-/
namespace Pam.Config.Spec

/-- blanks: spaces and tabs -/
def Blanks (w : List Char) : Prop := ∀ c ∈ w, c = ' ' ∨ c = '\t'

/-- text of an optional trailing comment -/
def commentText : Option (List Char) → List Char
  | none => []
  | some t => '#' :: t

/-- a physical line that is continued: indentation, text, backslash, blanks -/
structure Piece where
  lead : List Char
  body : List Char
  trail : List Char

/-- a piece of a file -/
inductive Item
  /-- an empty line or a comment -/
  | blank (w : List Char) (cmt : Option (List Char))
  /-- an entry: continued physical lines, then the last one, maybe with a comment -/
  | entry (conts : List Piece) (lead body : List Char) (cmt : Option (List Char))

/-- how a continued line is written -/
def Piece.text (p : Piece) : List Char := p.lead ++ p.body ++ ['\\'] ++ p.trail ++ ['\n']

/-- how an item is written -/
def Item.text : Item → List Char
  | .blank w cmt => w ++ commentText cmt ++ ['\n']
  | .entry conts lead body cmt => conts.flatMap Piece.text ++ lead ++ body ++ commentText cmt ++ ['\n']

/-- what a continued line contributes: its text and one blank for the escaped newline -/
def Piece.value (p : Piece) : List Char := if p.body = [] then [] else p.body ++ [' ']

/-- the logical line of an item (with its newline, if no comment cut it off) -/
def Item.value : Item → Option (List Char)
  | .blank _ _ => none
  | .entry conts _ body cmt =>
    some (conts.flatMap Piece.value ++ body ++ (if cmt.isSome then [] else ['\n']))

/-- entry text: no comment sign, newline or NUL, and not beginning with a blank -/
def Body (b : List Char) : Prop :=
  '#' ∉ b ∧ '\n' ∉ b ∧ NUL ∉ b ∧ ∀ c ∈ b.head?, c ≠ ' ' ∧ c ≠ '\t'

/-- a comment is on one line -/
def CommentOk (cmt : Option (List Char)) : Prop := ∀ t, cmt = some t → '\n' ∉ t

/-- the last non-blank character of `b`, if any, is not a backslash -/
def NoBackslashAtEnd (b : List Char) : Prop :=
  ¬ ∃ x w, b = x ++ ['\\'] ++ w ∧ Blanks w

/-- a well-written continued line -/
structure Piece.Ok (p : Piece) : Prop where
  lead : Blanks p.lead
  body : Body p.body
  trail : Blanks p.trail

/-- a well-written item -/
def Item.Ok : Item → Prop
  | .blank w cmt => Blanks w ∧ CommentOk cmt
  | .entry conts lead body cmt =>
    (∀ p ∈ conts, p.Ok) ∧ Blanks lead ∧ Body body ∧ CommentOk cmt ∧
      -- there is some text, and it does not itself end in a backslash
      (body ≠ [] ∨ ∃ p ∈ conts, p.body ≠ []) ∧ (cmt = none → NoBackslashAtEnd body)

end Pam.Config.Spec
