import Verif.Time.Logic
/-
What time.conf(5) and group.conf(5) say about a field, independent of how the modules scan it.
-/
namespace Pam.Time.Spec

/-- the tokens of a field -/
inductive Tok where
  | and
  | or
  | bang
  | word (w : Str)
deriving DecidableEq, Repr

/-- A field is a sequence of operators and words; every other character only separates.  A word is as long as
it can be. -/
inductive Lexes : Str → List Tok → Prop where
  | nil : Lexes [] []
  | junk (c : Char) {s : Str} {ts : List Tok} : isWord c = false → isOper c = false → Lexes s ts → Lexes (c :: s) ts
  | and {s : Str} {ts : List Tok} : Lexes s ts → Lexes ('&' :: s) (.and :: ts)
  | or {s : Str} {ts : List Tok} : Lexes s ts → Lexes ('|' :: s) (.or :: ts)
  | bang {s : Str} {ts : List Tok} : Lexes s ts → Lexes ('!' :: s) (.bang :: ts)
  | word (w : Str) {s : Str} {ts : List Tok} : w ≠ [] → (∀ c ∈ w, isWord c = true) →
      (∀ c ∈ s.head?, isWord c = false) → Lexes s ts → Lexes (w ++ s) (.word w :: ts)

/-- one item of a list: a word after any number of '!' -/
structure Item where
  bangs : Nat
  word : Str
deriving DecidableEq, Repr

/-- a list: an item, then items with the operator before each -/
structure Formula where
  first : Item
  rest : List (Oper × Item)
deriving DecidableEq, Repr

def Item.toks (i : Item) : List Tok := List.replicate i.bangs .bang ++ [.word i.word]

def opTok : Oper → Tok
  | .and => .and
  | .or => .or

/-- how a list is written -/
def Formula.toks (e : Formula) : List Tok := e.first.toks ++ e.rest.flatMap (fun p => opTok p.1 :: p.2.toks)

/-- an item holds when its word does, or does not after an odd number of '!' -/
def Item.holds (f : Str → Bool) (i : Item) : Bool := if i.bangs % 2 = 0 then f i.word else !f i.word

/-- one more item -/
def step (f : Str → Bool) (v : Bool) (p : Oper × Item) : Bool :=
  match p.1 with
  | .and => v && p.2.holds f
  | .or => v || p.2.holds f

/-- the value of a list, from left to right, with no precedence -/
def Formula.value (f : Str → Bool) (e : Formula) : Bool := e.rest.foldl (step f) (e.first.holds f)

/-- On the words of a field, a matching function looks only at the word: its answer is the same for every text
after the word. -/
def Judges (agrees : Str → Nat → Option Bool) (f : Str → Bool) (ts : List Tok) : Prop :=
  ∀ w s : Str, .word w ∈ ts → (∀ c ∈ s.head?, isWord c = false) → agrees (w ++ s) w.length = some (f w)

/-- A name in a rule fits a string: it is the string, or what stands before its star begins the string and what
stands after ends it. -/
def Fits (name s : Str) : Prop :=
  name = s ∨ ∃ pre suf : Str, name = pre ++ '*' :: suf ∧ pre <+: s ∧ suf <:+ s

/-- the weekdays (0 is Sunday) that a two-letter name stands for -/
def namedDays : List (String × List Nat) :=
  [("su", [0]), ("mo", [1]), ("tu", [2]), ("we", [3]), ("th", [4]), ("fr", [5]), ("sa", [6]),
   ("wk", [1, 2, 3, 4, 5]), ("wd", [0, 6]), ("al", [0, 1, 2, 3, 4, 5, 6])]

/-- the weekdays of a day name, in upper or lower case -/
def daysOf (a b : Char) : Option (List Nat) := (namedDays.find? (fun p => p.1.toList = [lower a, lower b])).map (·.2)

/-- A day is marked when an odd number of the day names cover it: naming it again takes it away
("AlFr" is every day but Friday). -/
def Marks (names : List (Char × Char)) (d : Nat) : Prop :=
  (names.countP (fun n => match daysOf n.1 n.2 with | some l => decide (d ∈ l) | none => false)) % 2 = 1

instance (names : List (Char × Char)) (d : Nat) : Decidable (Marks names d) := by unfold Marks; infer_instance

/-- all names are day names -/
def AllDays (names : List (Char × Char)) : Prop := ∀ n ∈ names, (daysOf n.1 n.2).isSome

instance (names : List (Char × Char)) : Decidable (AllDays names) := by unfold AllDays; infer_instance

/-- how a list of day names is written -/
def dayText (names : List (Char × Char)) : Str := names.flatMap (fun n => [n.1, n.2])

/-- the value of decimal digits -/
def number (ds : Str) : Nat := ds.foldl (fun n c => n * 10 + (c.toNat - '0'.toNat)) 0

/-- the weekday before -/
def yesterday (d : Nat) : Nat := (d + 6) % 7

/-- The window from `start` to `stop` on the days `D` holds at `t` on weekday `d`: the documented reading, start
included and end excluded; when the end is not after the start it lies on the next day. -/
def Within (D : Nat → Prop) (start stop : Nat) (d t : Nat) : Prop :=
  if start < stop then D d ∧ start ≤ t ∧ t < stop
  else (D d ∧ start ≤ t) ∨ (D (yesterday d) ∧ t < stop)

/-- The reading the modules implement: the last minute is included when the window spans midnight. -/
def WithinIncl (D : Nat → Prop) (start stop : Nat) (d t : Nat) : Prop :=
  if start < stop then D d ∧ start ≤ t ∧ t < stop
  else (D d ∧ start ≤ t) ∨ (D (yesterday d) ∧ t ≤ stop)

end Pam.Time.Spec
