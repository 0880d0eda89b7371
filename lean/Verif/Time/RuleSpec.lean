import Verif.Time.Spec
import Verif.Time.Rules
/-
What time.conf(5) and group.conf(5) say about a file.
-/
namespace Pam.Time.Spec

/-- A field as it may be written: any text without the characters that mean something else; a backslash before the
end of a line joins it with the next.  `Written text meaning`. -/
inductive Written : Str → Str → Prop where
  | nil : Written [] []
  | char (c : Char) {t m : Str} : c ≠ NUL → c ≠ '\n' → c ≠ ';' → c ≠ '#' → c ≠ '\\' → Written t m → Written (c :: t) (c :: m)
  | join {t m : Str} : Written t m → Written ('\\' :: '\n' :: t) m

/-- a comment: no end of line in it -/
def CommentText (s : Str) : Prop := ∀ c ∈ s, c ≠ NUL ∧ c ≠ '\n'

/-- the end of a line: nothing, or a comment -/
inductive Tail : Str → Prop where
  | plain : Tail ['\n']
  | comment {s : Str} : CommentText s → Tail ('#' :: s ++ ['\n'])

/-- A file as it is documented, with the fields of its rules: lines with nothing on them but blanks or a comment, and rules of
`n` fields with a semicolon between two fields.  A field and the character after it are at most 1000 characters, and the first field
is not blank. -/
inductive File (n : Nat) : Str → List (List Str) → Prop where
  | nil : File n [] []
  | empty {b e t : Str} {rs : List (List Str)} : (∀ c ∈ b, c = ' ' ∨ c = '\t') → b.length < BUFLEN → Tail e → File n t rs → File n (b ++ e ++ t) rs
  | rule {f l e t : Str} {fs : List (Str × Str)} {m lm : Str} {rs : List (List Str)} :
      Written f m → f.length < BUFLEN → (∃ c ∈ m, c ≠ ' ' ∧ c ≠ '\t') →
      (∀ p ∈ fs, Written p.1 p.2 ∧ p.1.length < BUFLEN) → Written l lm → l.length < BUFLEN → Tail e →
      fs.length + 2 = n → File n t rs →
      File n (f ++ fs.flatMap (fun p => ';' :: p.1) ++ ';' :: l ++ e ++ t) ((m :: fs.map (·.2) ++ [lm]) :: rs)

/-- space or tab -/
def isBlank (c : Char) : Bool := c == ' ' || c == '\t'

/-- a field without the blanks around it -/
def strip (s : Str) : Str := ((s.dropWhile isBlank).reverse.dropWhile isBlank).reverse

/-- A name after one of the marks has no blanks and no '!' in it. -/
def NameOk (marks : Str) (m : Str) : Prop :=
  ∀ x ∈ marks, ∀ n, strip m = x :: n → ∀ c ∈ x :: n, ¬ (c = '\t' ∨ c = ' ') ∧ c ≠ '!'

/-- The user field of time.conf: a netgroup after '@', or a list of names. -/
def userValue (w : Who) (m : Str) : Option Bool :=
  match strip m with
  | '@' :: n => some (w.netgroup n)
  | _ => logicField (isSame w.user) m

/-- The user field of group.conf: a netgroup after '@', a group after '%', or a list of names. -/
def groupUserValue (w : Who) (m : Str) : Option Bool :=
  match strip m with
  | '@' :: n => some (w.netgroup n)
  | '%' :: n => some (w.unixgroup n)
  | _ => logicField (isSame w.user) m

/-- whether a rule of time.conf denies: it is about this service, terminal and user, and not about this time -/
def timeVerdict (w : Who) (r : List Str) : Option Bool :=
  match r with
  | [s, t, u, ti] =>
    match logicField (isSame w.service) s, logicField (isSame w.tty) t, userValue w u, logicField (checkTime w.now) ti with
    | some a, some b, some c, some d => some ((a && b && c) && !d)
    | _, _, _, _ => none
  | _ => none

/-- whether a rule of group.conf applies: to this service, terminal, user and time -/
def groupVerdict (w : Who) (r : List Str) : Option Bool :=
  match r with
  | [s, t, u, ti, _] =>
    match logicField (isSame w.service) s, logicField (isSame w.tty) t, groupUserValue w u, logicField (checkTime w.now) ti with
    | some a, some b, some c, some d => some (a && b && c && d)
    | _, _, _, _ => none
  | _ => none

/-- the names in a list, where everything that cannot be part of a name separates; `cur` is the name begun -/
def splitNames (cur : Str) : Str → List Str
  | [] => if cur = [] then [] else [cur]
  | c :: r =>
    if isGroupChar c then splitNames (cur ++ [c]) r
    else (if cur = [] then [] else [cur]) ++ splitNames [] r

/-- the groups a rule of group.conf gives: those its last field names that exist -/
def ruleGroups (getgrnam : Str → Option Nat) (r : List Str) : List Nat :=
  match r with
  | [_, _, _, _, g] => (splitNames [] g).filterMap getgrnam
  | _ => []

end Pam.Time.Spec
