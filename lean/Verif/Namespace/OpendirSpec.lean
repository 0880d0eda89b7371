import Verif.Namespace.Opendir
/-
What users can and cannot do to the file system, and what it means that a path is followed safely.
-/
namespace Pam.Namespace.Spec
open Pam.Namespace

/-- a directory of root to which nobody else may write -/
def OfRoot (fs : FS) (d : Nat) : Prop := ∃ up entries, fs d = .dir 0 false up entries

/-- a directory of a user, or one to which others than its owner may write -/
def OfUser (fs : FS) (d : Nat) : Prop := ∃ uid w up entries, fs d = .dir uid w up entries ∧ (uid ≠ 0 ∨ w = true)

/-- `sys` are directories of the system in `fs0`, and `fs` is a file system that users may have made of `fs0`.  Users cannot change directories of the system, nor
links in them, nor can they give directories to root; and they cannot put a directory of the system elsewhere, as directories have no second name. -/
structure Users (sys : Nat → Prop) (fs0 fs : FS) : Prop where
  /-- directories of the system belong to root and only root may write to them; they stay as they are -/
  same : ∀ d, sys d → OfRoot fs0 d ∧ fs d = fs0 d
  /-- links in them stay as they are -/
  links : ∀ d, sys d → ∀ c n, child fs0 d c = some n → ∀ a t, fs n = .link a t ↔ fs0 n = .link a t
  /-- other directories in them belong to users, or users may write to them -/
  others : ∀ d, sys d → ∀ c n, child fs0 d c = some n → ¬ sys n → isDir fs n = true → OfUser fs n
  /-- other directories have no names for directories of the system -/
  outside : ∀ d, ¬ sys d → ∀ c n, c ≠ ".".toList → c ≠ "..".toList → child fs d c = some n → ¬ sys n

/-- the path leads to `m` and does not leave the directories of the system; links are followed -/
inductive Resolve (sys : Nat → Prop) (fs : FS) : Nat → List Name → Nat → Prop
  | done {d : Nat} : sys d → Resolve sys fs d [] d
  | dir {d n m : Nat} {c : Name} {r : List Name} : sys d → child fs d c = some n → sys n → Resolve sys fs n r m → Resolve sys fs d (c :: r) m
  | link {d n k m : Nat} {c : Name} {a : Bool} {t r : List Name} : sys d → child fs d c = some n → fs n = .link a t →
      Resolve sys fs (if a then 0 else d) t k → Resolve sys fs k r m → Resolve sys fs d (c :: r) m

/-- links in directories of the system lead to directories of the system -/
def LinksStay (sys : Nat → Prop) (fs : FS) : Prop :=
  ∀ d, sys d → ∀ c n, child fs d c = some n → ∀ a t, fs n = .link a t → ∃ m, Resolve sys fs (if a then 0 else d) t m

/-- each name is that of a directory in the one before, at some time; no link is followed -/
inductive Descends (fs : Nat → FS) : Nat → List Name → Nat → Prop
  | done {d : Nat} : Descends fs d [] d
  | step {d n m t : Nat} {c : Name} {r : List Name} : child (fs t) d c = some n → isDir (fs t) n = true → Descends fs n r m → Descends fs d (c :: r) m

end Pam.Namespace.Spec
