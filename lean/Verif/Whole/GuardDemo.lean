import Verif.Whole.GuardProps
import Verif.Whole.Demo
import Verif.Whole.DeniedDemo
/-
Configurations that meet the hypotheses of C182, and one that does not.
-/
namespace Pam.Whole
open Pam Pam.Config Pam.Config.Spec Pam.Handle Pam.Dispatch
open Pam.Stack (Line fileLinesOf)

/-- pam_unix among modules that always succeed; the application is that of `exLib` -/
def mixLib (text : String) : Lib Nat where
  conv := exLib.conv
  sys := oneFile text
  modules := fun fn path => if path = "pam_unix.so".toList then unixModule (fun _ => exHost) fn else some fun _ _ => .ret PAM_SUCCESS

def mixText : String :=
  "auth optional pam_b.so\nauth requisite pam_unix.so nodelay\nauth sufficient pam_c.so\naccount required pam_b.so\naccount required pam_unix.so\naccount optional pam_c.so\n"

theorem mix_auth : Guarded (mixLib mixText) "login".toList .authenticate [⟨.optional, "pam_b.so".toList, []⟩] "pam_unix.so".toList exArgs
    [⟨.sufficient, "pam_c.so".toList, []⟩] :=
  ⟨Or.inr rfl, by decide, ⟨.requisite, Or.inr rfl, by decide +kernel⟩, by intro l hl; rw [List.mem_singleton.mp hl]; decide⟩

theorem mix_acct : Guarded (mixLib mixText) "login".toList .acctMgmt [⟨.required, "pam_b.so".toList, []⟩] "pam_unix.so".toList []
    [⟨.optional, "pam_c.so".toList, []⟩] :=
  ⟨Or.inr rfl, by decide, ⟨.required, Or.inl rfl, by decide +kernel⟩, by intro l hl; rw [List.mem_singleton.mp hl]; decide⟩

/-- the codes of pam_authenticate and pam_acct_mgmt for a user, so many questions having been asked before -/
def mixCodes (text : String) (name : Str) (asked : Nat) : Option (Int × Int) :=
  (start (mixLib text) "login".toList (some name) 7 asked).bind fun h => (run (mixLib text) .authenticate 0 h).bind fun r =>
    (run (mixLib text) .acctMgmt 0 r.2).map fun q => (r.1, q.1)

/-- a wrong password, and a right one -/
example : mixCodes mixText "ada".toList 0 = some (PAM_AUTH_ERR, PAM_SUCCESS) := by decide +kernel
example : mixCodes mixText "ada".toList 3 = some (PAM_SUCCESS, PAM_SUCCESS) := by decide +kernel
/-- accounts that are not in order -/
example : (mixCodes mixText "zed".toList 3).map (·.2) = some PAM_ACCT_EXPIRED := by decide +kernel
example : (mixCodes mixText "eve".toList 3).map (·.2) = some PAM_NEW_AUTHTOK_REQD := by decide +kernel
/-- a `sufficient` line before the one of pam_unix makes that line void -/
example : mixCodes "auth sufficient pam_b.so\nauth required pam_unix.so nodelay\naccount required pam_unix.so\n" "ada".toList 0 = some (PAM_SUCCESS, PAM_SUCCESS) := by
  decide +kernel

example : Still (fun _ => exHost) (mixLib mixText) := fun _ _ _ _ => rfl
example : Lacks exArgs "nullok" ∧ Lacks exArgs "nullresetok" := ⟨ex_lacks.1, ex_lacks.2.1⟩
example : (∀ i, (exHost.luck i).buf.length = 513) ∧ exHost.sys.pwnam Unix.nobody = none := ⟨fun _ => (by decide +kernel : Unix.demoLuck.buf.length = 513), by decide +kernel⟩
example : Healthy exHost Unix.demoShadow "ada".toList := ex_healthy
/-- the password is one without NUL, whoever asks -/
example (s : S Nat) (hs : s.inner.authtok = none) (w1 : Nat) (pw : Str) (h : Gives (mixLib mixText) s w1 pw) : NUL ∉ pw := by
  cases h with
  | kept h => rw [hs] at h; cases h
  | typed _ k =>
    have e : (if w1 < 3 then "wrong".toList else "secret password".toList) = pw := Option.some.inj (Option.some.inj (congrArg Prod.snd k))
    rw [← e]
    split <;> decide

end Pam.Whole
