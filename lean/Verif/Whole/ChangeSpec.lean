import Verif.Whole.ChangeCall
import Verif.Whole.LoginSpec
/-
What C179 says about pam_chauthtok, in terms of what the application sees and what the files hold.
-/
namespace Pam.Whole
open Pam Pam.Handle

variable {W : Type}

/-- a hidden question with that text, and its answer -/
def Hidden (q : Talk) (text answer : Str) : Prop := q.style = .echoOff ∧ q.msg = text ∧ q.code = PAM_SUCCESS ∧ q.answer = some answer

/-- "New password: ", or "New UNIX password: " with a kind of password -/
def asks (what kind : Str) : Str := if kind = [] then what ++ " password: ".toList else what ++ " ".toList ++ kind ++ " password: ".toList

/-- the application has been asked for the current password -/
def CurrentTyped (ts : List Talk) (old : Str) : Prop := ∃ q ∈ ts, ∃ kind, Hidden q (asks "Current".toList kind) old

/-- the application has been asked for a new password twice, one question right after the other, and has given the same answer -/
def NewTyped (ts : List Talk) (new : Str) : Prop :=
  ∃ pre q1 q2 post kind, ts = pre ++ q1 :: q2 :: post ∧ Hidden q1 (asks "New".toList kind) new ∧ Hidden q2 (asks "Retype new".toList kind) new

/-- what is assumed of the machine: the files are whole, libcrypt behaves as described, there is no user "*nobody*", and the clock is not
absurd -/
structure Usual (M : Mach) (name : Str) : Prop where
  clean : M.etc.Clean
  named : Unix.Findable name
  crypt : Unix.Laws M.world.crypts.crypt
  buf : ∀ second i, (M.luck second i).buf.length = 513
  nobody : (M.etc.sys M.world).pwnam Unix.nobody = none
  day : Unix.Day M.world.today

/-- what entitles to a change, in the first pass: the real user is root and does not ask for expired passwords only; the empty password is
accepted; or the current password was typed, and a hash that was read accepts it (or, if the transfer of the password to the helper was
cut, accepts an empty one) -/
inductive Entitled (M : Mach) (flags : Nat) (name : Str) (ts : List Talk) (new : Str) : Prop
  | root : M.proc.uid = 0 → flags.testBit 5 = false → Entitled M flags name ts new
  | blank (x : Str) : Unix.Read (M.etc.sys M.world) M.bin (M.luck false 1) M.proc name x → Unix.Accepts M.world.crypts true x [] →
      Entitled M flags name ts new
  | known (old x : Str) : CurrentTyped ts old → old ≠ new → Unix.Read (M.etc.sys M.world) M.bin (M.luck false 3) M.proc name x →
      (Unix.Accepts M.world.crypts true x (old.take 512) ∨ ((M.luck false 3).Cut ∧ Unix.Accepts M.world.crypts true x [])) → Entitled M flags name ts new

/-- the age of the password allows a change: root may change it at any time; who asks for expired passwords only gets that -/
def AgeAllows (M : Mach) (flags : Nat) (name : Str) : Prop :=
  ∀ pw, (M.etc.sys M.world).pwnam name = some pw → pw.Shadowed → M.proc.uid ≠ 0 ∨ flags.testBit 5 = true →
    ∃ q q' sp, Unix.Helper M.bin (M.luck true 4) M.proc q ∧ Unix.Sees (M.etc.sys M.world) q name q' ∧ (M.etc.sys M.world).spnam q' name = some sp ∧
      (sp.aging.Ok → Unix.MayChange sp.aging M.world.today ∧ (flags.testBit 5 = true → Unix.MustChange sp.aging M.world.today))

/-- nothing goes wrong with the helpers, and the caller may check this password -/
structure InGoodOrder (M : Mach) (name : Str) : Prop where
  fine : ∀ second i, (M.luck second i).Fine
  trusted : Unix.Trusted (M.etc.sys M.world) M.bin M.proc name

/-- a hash of the account, as root sees it -/
def HashOf (M : Mach) (name hash : Str) : Prop := Unix.Account (M.etc.sys M.world) (M.etc.shadow M.world) name hash

/-- what entitles to a change on a machine in good order: being root, an account without a password, or the current password -/
def MayAsk (M : Mach) (flags : Nat) (name : Str) (ts : List Talk) (new : Str) : Prop :=
  (M.proc.uid = 0 ∧ flags.testBit 5 = false) ∨
  ∃ hash, HashOf M name hash ∧ (Unix.Accepts M.world.crypts true hash [] ∨
    ∃ old, CurrentTyped ts old ∧ old ≠ new ∧ Unix.Accepts M.world.crypts true hash (old.take 512))

/-- the age of the password allows a change on a machine in good order -/
def OldEnough (M : Mach) (flags : Nat) (name : Str) : Prop :=
  ∀ pw, (M.etc.sys M.world).pwnam name = some pw → pw.Shadowed → M.proc.uid ≠ 0 ∨ flags.testBit 5 = true →
    ∃ sp, M.etc.shadow M.world name = some sp ∧
      (sp.aging.Ok → Unix.MayChange sp.aging M.world.today ∧ (flags.testBit 5 = true → Unix.MustChange sp.aging M.world.today))

end Pam.Whole
