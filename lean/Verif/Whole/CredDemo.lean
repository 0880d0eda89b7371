import Verif.Whole.CredProps
import Verif.Whole.Demo
/-
A configuration and an application that meet the hypotheses of C180.
-/
namespace Pam.Whole
open Pam Pam.Handle Pam.Config

theorem ex_byUnix : ByUnix exLib (fun _ => exHost) "/bin/LOGIN".toList exArgs :=
  ⟨Or.inr rfl, by decide, _, ex_lines.1, by decide +kernel, rfl, rfl⟩

/-- the same with the argument `likeauth` -/
def likeLib : Lib Nat := { exLib with
  sys := { exSys with fs := fun p => if p = "/etc/pam.d/login".toList then some "auth required pam_unix.so nodelay likeauth\n".toList else none } }

/-- pam_authenticate and then pam_setcred twice: the codes; `w` is the number of questions asked before (the third password is right) -/
def credCodes (lib : Lib Nat) (w : Nat) : Option (Int × Int × Int) :=
  (start lib "/bin/LOGIN".toList (some "ada".toList) 7 w).bind fun h => (run lib .authenticate 0 h).bind fun a =>
    (run lib .setcred 0 a.2).bind fun b => (run lib .setcred 8 b.2).map fun c => (a.1, b.1, c.1)

example : credCodes exLib 0 = some (PAM_AUTH_ERR, PAM_PERM_DENIED, PAM_PERM_DENIED) := by decide +kernel
example : credCodes exLib 3 = some (PAM_SUCCESS, PAM_SUCCESS, PAM_SUCCESS) := by decide +kernel
example : credCodes likeLib 0 = some (PAM_AUTH_ERR, PAM_AUTH_ERR, PAM_PERM_DENIED) := by decide +kernel
example : credCodes likeLib 3 = some (PAM_SUCCESS, PAM_SUCCESS, PAM_SUCCESS) := by decide +kernel
/-- the hypotheses of C180_setcred -/
example : Knows exLib 7 0 (some "ada".toList) "ada".toList 0 [] ∧ Lacks exArgs "use_first_pass" ∧
    (start exLib "/bin/LOGIN".toList (some "ada".toList) 7 0).isSome = true ∧
    Ends exHost 0 exArgs "ada".toList (tokOf (exLib.conv 7 .echoOff "Password: ".toList 0).1) :=
  ⟨.given _, ex_lacks.2.2.1, by decide +kernel, (ex_ends 0).1⟩

end Pam.Whole
