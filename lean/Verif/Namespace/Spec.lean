import Verif.Namespace.Config
/-
What the fields of a line of namespace.conf are (namespace.conf(5)), apart from how they are parsed.
-/
namespace Pam.Namespace.Spec
open Pam

/-- a piece of a field and what it stands for: a character, an escaped character, or text in quotes -/
inductive Piece : Str → Str → Prop
  | plain (c : Char) : isSpace c = false → c ≠ '"' → c ≠ '\\' → Piece [c] [c]
  | newline : Piece ['\\', 'n'] ['\n']
  | tab : Piece ['\\', 't'] ['\t']
  | backspace : Piece ['\\', 'b'] [Char.ofNat 8]
  | escaped (c : Char) : c ≠ 'n' → c ≠ 't' → c ≠ 'b' → Piece ['\\', c] [c]
  | quoted (q : Str) : '"' ∉ q → Piece ('"' :: q ++ ['"']) q

/-- a field and what it stands for: one or more pieces -/
inductive Field : Str → Str → Prop
  | one {s v : Str} : Piece s v → Field s v
  | more {s v r w : Str} : Piece s v → Field r w → Field (s ++ r) (v ++ w)

/-- only blanks -/
def Blank (s : Str) : Prop := ∀ c ∈ s, isSpace c

/-- a line and its fields -/
inductive Fields : Str → List Str → Prop
  | done {b : Str} : Blank b → Fields b []
  | last {b f v : Str} : Blank b → Field f v → Fields (b ++ f) [v]
  | more {b f v : Str} {c : Char} {r : Str} {vs : List Str} : Blank b → Field f v → isSpace c → Fields r vs → Fields (b ++ f ++ c :: r) (v :: vs)

/-- `t` is `s` with $HOME and $USER replaced -/
inductive Expands (home user : Str) : Str → Str → Prop
  | nil : Expands home user [] []
  | home {r t : Str} : Expands home user r t → Expands home user ("$HOME".toList ++ r) (home ++ t)
  | user {r t : Str} : Expands home user r t → Expands home user ("$USER".toList ++ r) (user ++ t)
  | other {c : Char} {r t : Str} : ¬ "$HOME".toList <+: c :: r → ¬ "$USER".toList <+: c :: r → Expands home user r t → Expands home user (c :: r) (c :: t)

/-- a path from the root -/
def Absolute (s : Str) : Prop := s.head? = some '/'

/-- the path contains ".." -/
def DotDot (s : Str) : Prop := ∃ a b, s = a ++ '.' :: '.' :: b

/-- `t` is `s` without slashes at its end; the first character stays -/
def Stripped (s t : Str) : Prop := ∃ n, s = t ++ List.replicate n '/' ∧ (t.length ≤ 1 ∨ t.getLast? ≠ some '/') ∧ (t = [] → n = 0)

/-- the parts of a list with separators -/
inductive Parts (sep : Char) : Str → List Str → Prop
  | one {w : Str} : sep ∉ w → Parts sep w [w]
  | more {w r : Str} {ws : List Str} : sep ∉ w → Parts sep r ws → Parts sep (w ++ sep :: r) (w :: ws)

/-- the names of the methods -/
def methodName : Method → Str
  | .user => "user".toList
  | .context => "context".toList
  | .level => "level".toList
  | .tmpdir => "tmpdir".toList
  | .tmpfs => "tmpfs".toList

/-- the user with this id is in the list -/
def Listed (e : Env) (l : Str) (uid : Nat) : Prop := ∃ names, Parts ',' l names ∧ ∃ n ∈ names, ∃ gid home, e.user n = some (uid, gid, home)

end Pam.Namespace.Spec
