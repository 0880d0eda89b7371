/-
C strings and character classes.  A C string is a `List Char` without NUL, one `Char` per byte.
-/
namespace Pam

/-- the byte 0 -/
abbrev NUL : Char := Char.ofNat 0

/-- `isspace` in the C locale -/
def isSpace (c : Char) : Bool :=
  c == ' ' || c == '\t' || c == '\n' || c == '\r' || c == Char.ofNat 11 || c == Char.ofNat 12

/-- `isdigit` -/
def isDigit (c : Char) : Bool := decide ('0'.toNat ≤ c.toNat ∧ c.toNat ≤ '9'.toNat)

/-- `tolower` in the C locale, as used by `strcasecmp` -/
def lower (c : Char) : Char :=
  if 'A'.toNat ≤ c.toNat ∧ c.toNat ≤ 'Z'.toNat then Char.ofNat (c.toNat + 32) else c

/-- `!strcasecmp(a, b)` -/
def ieq (a b : List Char) : Bool := a.map lower == b.map lower

end Pam
