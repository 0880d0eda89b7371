import Verif.Access.Model
/-
What access.conf(5) says, for C40, C41, C57 and C58.
-/
namespace Pam.Access.Spec
open Pam Pam.Access

/-! ## lists -/

/-- `text` consists of the words `ws`, kept apart by characters of `sep` -/
def Words (sep : Str) : (text : Str) → (ws : List Str) → Prop
  | text, [] => ∀ c ∈ text, c ∈ sep
  | text, w :: ws => ∃ gap rest, text = gap ++ w ++ rest ∧ (∀ c ∈ gap, c ∈ sep) ∧ w ≠ [] ∧ (∀ c ∈ w, c ∉ sep) ∧
      (∀ c, rest.head? = some c → c ∈ sep) ∧ Words sep rest ws

/-- the parts of a list between the words EXCEPT -/
def sections : List Str → List (List Str)
  | [] => [[]]
  | w :: ws =>
    if ieq w "EXCEPT".toList then [] :: sections ws
    else match sections ws with
      | a :: rest => (w :: a) :: rest
      | [] => [[w]]

/-- `A EXCEPT B EXCEPT C ..`: in A, but not in (B, but not in (C ..)) -/
def Excepting (M : Str → Prop) : List (List Str) → Prop
  | [] => False
  | a :: rest => (∃ w ∈ a, M w) ∧ ¬ Excepting M rest

/-! ## the table -/

/-- an entry of the table -/
structure Rule where
  allow : Bool
  users : List Str
  origins : List Str

/-- `line` is an entry: `+` or `-`, the users and the origins, kept apart by field separators, blanks at the end.
The list of origins may have field separators in it. -/
def IsRule (fs sep : Str) (line : Str) (r : Rule) : Prop :=
  ∃ sign mark s1 users s2 origins blanks,
    line = sign :: mark ++ s1 :: users ++ s2 :: origins ++ blanks ++ ['\n'] ∧
    sign = (if r.allow then '+' else '-') ∧ (∀ c ∈ sign :: mark, c ∉ fs ∧ c ≠ NUL ∧ c ≠ '\n') ∧
    s1 ∈ fs ∧ s1 ≠ NUL ∧ users ≠ [] ∧ (∀ c ∈ users, c ∉ fs ∧ c ≠ NUL ∧ c ≠ '\n') ∧ s2 ∈ fs ∧ s2 ≠ NUL ∧
    (∀ c, origins.getLast? = some c → isSpace c = false) ∧ origins ≠ [] ∧ (∀ c ∈ origins, c ≠ NUL ∧ c ≠ '\n') ∧
    (∀ c ∈ blanks, isSpace c = true) ∧
    Words sep users r.users ∧ Words sep origins r.origins

/-- lines without meaning: comments and blank lines -/
def IsIgnored (line : Str) : Prop :=
  (∃ t, line = '#' :: t) ∨ (∀ c ∈ line, isSpace c = true)

/-- `lines` write down the rules `rs` -/
inductive Table (fs sep : Str) : List Str → List Rule → Prop
  | nil : Table fs sep [] []
  | rule {l ls r rs} : IsRule fs sep l r → Table fs sep ls rs → Table fs sep (l :: ls) (r :: rs)
  | skip {l ls rs} : IsIgnored l → Table fs sep ls rs → Table fs sep (l :: ls) rs

/-- a rule is about this login; `U` and `F` say which words stand for the user and for the origin -/
def Applies (U F : Str → Prop) (r : Rule) : Prop :=
  Excepting U (sections r.users) ∧ Excepting F (sections r.origins)

/-- `d` is what the first rule that applies says, if there is one -/
def Decides (U F : Str → Prop) (rs : List Rule) (d : Option Bool) : Prop :=
  match d with
  | none => ∀ r ∈ rs, ¬ Applies U F r
  | some b => ∃ pre r post, rs = pre ++ r :: post ∧ (∀ q ∈ pre, ¬ Applies U F q) ∧ Applies U F r ∧ r.allow = b

/-! ## words -/

/-- the word, on its own, stands for the user -/
def UserWord (sys : Sys) (item : Item) (w : Str) : Prop := userMatch sys item w = true

/-- the word, on its own, stands for the origin: the origin is looked up afresh -/
def OriginWord (sys : Sys) (item : Item) (w : Str) : Prop := (fromMatch sys item none w).1 = true

/-- the answers about the origin do not depend on what was asked before: it is local, or an address, or a name that has no
IPv6 addresses -/
def Steady (sys : Sys) (item : Item) : Prop :=
  item.remote = false ∨ (isip sys item.origin).isSome ∨ sys.gai .inet item.origin = sys.gai .unspec item.origin

/-! ## addresses -/

/-- bit `i` of an address, counted from the first -/
def bit (bytes : List Nat) (i : Nat) : Bool := (bytes.getD (i / 8) 0).testBit (7 - i % 8)

/-- The first `n` bits agree. -/
def SameNet (n : Nat) (a b : List Nat) : Prop := ∀ i, i < n → bit a i = bit b i

/-- The bits of `m` say which bits must agree. -/
def SameUnder (m a b : List Nat) : Prop := ∀ i, bit m i = true → bit a i = bit b i

/-- the address of this machine itself, in each family -/
def loopback : Fam → Str
  | .v4 => "127.0.0.1".toList
  | .v6 => "::1".toList

/-- numbers, each followed by a dot -/
def dotted (p : List Nat) : Str := p.flatMap (fun n => Nat.toDigits 10 n ++ ['.'])

/-- What the C library is trusted for. -/
structure Lawful (sys : Sys) : Prop where
  /-- texts of addresses consist of digits, letters up to f, dots and colons -/
  chars : ∀ f s b, sys.pton f s = some b → ∀ c ∈ s, c.isAlphanum ∨ c = '.' ∨ c = ':'
  /-- and do not begin or end with a dot and are not empty -/
  ends : ∀ f s b, sys.pton f s = some b → s ≠ [] ∧ s.head? ≠ some '.' ∧ s.getLast? ≠ some '.'
  /-- and have a dot or a colon in them -/
  marked : ∀ f s b, sys.pton f s = some b → ('.' ∈ s) ∨ (':' ∈ s)
  /-- addresses have the bytes of their family -/
  size : ∀ f s b, sys.pton f s = some b → b.length = f.size ∧ ∀ x ∈ b, x < 256
  /-- only one of the families -/
  family : ∀ s b, sys.pton .v6 s = some b → sys.pton .v4 s = none
  /-- writing and reading an address -/
  round : ∀ f b, b.length = f.size → (∀ x ∈ b, x < 256) → sys.pton f (sys.ntop f b) = some b
  /-- the text of an address is resolved to the address -/
  literal : ∀ f s b, sys.pton f s = some b → ∃ l, sys.gai .plain s = some l ∧ l ≠ [] ∧
      ∀ e ∈ l, e.fam = f ∧ e.bytes = b ∧ e.numeric = some (sys.ntop f b)

end Pam.Access.Spec
