import Verif.Core.Text
/-
Vocabulary for C64 to C67, independent of the model.
-/
namespace Pam.Pwh.Spec
open Pam

abbrev Str := List Char

/-- a line without its newline: one without newlines and without NUL -/
def IsLine (l : Str) : Prop := '\n' ∉ l ∧ NUL ∉ l

/-- the file made of these lines, each with its newline -/
def cat (ls : List Str) : Str := ls.flatMap (· ++ ['\n'])

/-- texts joined by commas -/
def join : List Str → Str
  | [] => []
  | [h] => h
  | h :: hs => h ++ ',' :: join hs

/-- a password as it is stored: not empty, and without the separators of the file -/
def IsHash (h : Str) : Prop := h ≠ [] ∧ ',' ∉ h ∧ ':' ∉ h ∧ '\n' ∉ h ∧ NUL ∉ h

/-- a user name -/
def IsName (u : Str) : Prop := ':' ∉ u ∧ '\n' ∉ u ∧ NUL ∉ u

/-- an entry of the history: user, uid, number of passwords (nobody relies on it), passwords from the oldest to the latest -/
structure Entry where
  user : Str
  uid : Str
  count : Str
  hashes : List Str
deriving DecidableEq, Repr

/-- the entry as a line -/
def Entry.text (e : Entry) : Str := e.user ++ ':' :: e.uid ++ ':' :: e.count ++ ':' :: join e.hashes

structure Entry.Ok (e : Entry) : Prop where
  user : IsName e.user
  uid : IsName e.uid
  count : ∀ c ∈ e.count, isDigit c
  hashes : ∀ h ∈ e.hashes, IsHash h

/-- the line does not begin with the user and a colon: it is about somebody else, or about nobody -/
def Foreign (u l : Str) : Prop := IsLine l ∧ ¬ (u ++ [':']) <+: l

/-- The file, if there is one, has exactly one line for the user, which is a proper entry with these passwords. -/
def Holds (file : Option Str) (u : Str) (hs : List Str) : Prop :=
  ∃ (pre : List Str) (e : Entry) (post : List Str), file = some (cat (pre ++ [e.text] ++ post)) ∧ e.Ok ∧ e.user = u ∧ e.hashes = hs ∧
    (∀ l ∈ pre ++ post, Foreign u l)

/-- there is no line for the user, or no file at all -/
def NoEntry (file : Option Str) (u : Str) : Prop :=
  file = none ∨ ∃ ls, file = some (cat ls) ∧ ∀ l ∈ ls, Foreign u l

/-- the last `n` elements -/
def keep (n : Nat) (l : List Str) : List Str := l.drop (l.length - n)

/-- without immediate repetitions -/
def squash : List Str → List Str
  | [] => []
  | [h] => [h]
  | a :: b :: r => if a = b then squash (b :: r) else a :: squash (b :: r)

/-- the passwords remembered after `h` was added: not twice in a row, and at most the last `n` -/
def remember (n : Nat) (hs : List Str) (h : Str) : List Str :=
  keep n (if hs.getLast? = some h then hs else hs ++ [h])

end Pam.Pwh.Spec
