import Verif.Whole.DeniedProps
/-
The counterexamples to C181 in full, and a configuration that meets the hypotheses of C181_denied_partial.
-/
namespace Pam.Whole
open Pam Pam.Config Pam.Config.Spec Pam.Handle Pam.Dispatch
open Pam.Stack (Line fileLinesOf)

/-- a machine with one service -/
def oneFile (text : String) : Sys where
  fs := fun p => if p = "/etc/pam.d/login".toList then some text.toList else none
  confdir := none
  dirs := ["/etc/pam.d/".toList]
  haveDir := true

/-- modules that answer codes and do nothing else -/
def plainLib (text : String) (answer : Fn → Str → Int) : Lib Unit where
  conv := fun _ _ _ w => ((PAM_SUCCESS, none), w)
  sys := oneFile text
  modules := fun fn path => some fun _ _ => .ret (answer fn path)

/-- the codes of pam_authenticate, pam_setcred, pam_open_session and pam_close_session, one after the other -/
def fourCodes (lib : Lib Unit) : Option (List Int) :=
  (start lib "login".toList (some "ada".toList) 7 ()).bind fun h => (run lib .authenticate 0 h).bind fun a =>
    (run lib .setcred 0 a.2).bind fun b => (run lib .openSession 0 b.2).bind fun c => (run lib .closeSession 0 c.2).map fun d =>
      [a.1, b.1, c.1, d.1]

/-- C181, the full claim, is false of the code: a jump over the rest of the stack leaves no verdict in pam_authenticate, which fails, but
counts as a success in pam_setcred.  The first module succeeds in both functions; the second, which denies, is skipped. -/
theorem C181_jump_counterexample :
    fourCodes (plainLib "auth [success=1 default=ignore] pam_a.so\nauth requisite pam_deny.so\nsession [success=1 default=ignore] pam_a.so\nsession requisite pam_deny.so\n"
      (fun _ p => if p = "pam_a.so".toList then PAM_SUCCESS else PAM_PERM_DENIED)) =
    some [PAM_PERM_DENIED, PAM_SUCCESS, PAM_PERM_DENIED, PAM_SUCCESS] := by
  decide +kernel

/-- C181, the full claim, is false of the code with classic control words too: a module that answers -1 makes pam_authenticate fail, but -1
is how the library marks a module that has not answered, so pam_setcred goes by the module's new answer. -/
theorem C181_minus_one_counterexample :
    fourCodes (plainLib "auth required pam_a.so\nsession required pam_a.so\n"
      (fun fn _ => if fn = .authenticate ∨ fn = .openSession then -1 else PAM_SUCCESS)) =
    some [PAM_PERM_DENIED, PAM_SUCCESS, PAM_PERM_DENIED, PAM_SUCCESS] := by
  decide +kernel

/-- the hypotheses of C181_denied_partial: two lines, the first of which may fail without harm -/
def denyLib (code : Int) : Lib Unit :=
  plainLib "auth optional pam_b.so\nauth required pam_a.so\nsession required pam_a.so\n"
    (fun fn p => if p = "pam_a.so".toList then (if fn = .authenticate ∨ fn = .openSession then code else PAM_SUCCESS) else PAM_USER_UNKNOWN)

example : fileLinesOf (denyLib 0).sys (serviceName "login".toList) .auth =
    some [⟨.optional, "pam_b.so".toList, []⟩, ⟨.required, "pam_a.so".toList, []⟩] ∧ ieq (serviceName "login".toList) otherName = false := by
  decide +kernel

example (code : Int) (h : code ≠ -1) (path : Str) (f : Nat → List Str → Prog Unit) (flags : Nat) (args : List Str) (m : M Unit)
    (hf : (denyLib code).modules .authenticate path = some f) : (callProg (denyLib code) (f flags args) args m).1 ≠ -1 := by
  cases hf
  show (if path = "pam_a.so".toList then _ else _ : Int) ≠ -1
  split
  · exact h
  · decide

example : fourCodes (denyLib PAM_SUCCESS) = some [PAM_SUCCESS, PAM_SUCCESS, PAM_SUCCESS, PAM_SUCCESS] := by decide +kernel
example : fourCodes (denyLib PAM_NEW_AUTHTOK_REQD) = some [PAM_NEW_AUTHTOK_REQD, PAM_SUCCESS, PAM_NEW_AUTHTOK_REQD, PAM_SUCCESS] := by decide +kernel
example : fourCodes (denyLib PAM_AUTH_ERR) = some [PAM_AUTH_ERR, PAM_PERM_DENIED, PAM_AUTH_ERR, PAM_PERM_DENIED] := by decide +kernel

end Pam.Whole
