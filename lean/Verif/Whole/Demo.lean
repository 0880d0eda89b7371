import Verif.Whole.AcctProps
import Verif.Whole.TriesProps
/-
A machine, a configuration and an application that meet the hypotheses of C176 to C178.
-/
namespace Pam.Whole
open Pam Pam.Handle Pam.Config
open Pam.Stack (fileLinesOf)

/-- /etc/pam.d/login with the two lines -/
def exSys : Sys where
  fs := fun p => if p = "/etc/pam.d/login".toList then some "auth required pam_unix.so nodelay\naccount required pam_unix.so\n".toList else none
  confdir := none
  dirs := ["/etc/pam.d/".toList]
  haveDir := true

def exHost : Host := ⟨Unix.demoSys2, Unix.demoBin, fun _ => Unix.demoLuck, Unix.rootProc, none⟩

/-- The application: the world is the number of questions asked so far.  The user is ada; the password is right from the third question
on. -/
def exLib : Lib Nat where
  conv := fun _ st _ w => match st with
    | .echoOn => ((PAM_SUCCESS, some (some "ada".toList)), w + 1)
    | _ => ((PAM_SUCCESS, some (some (if w < 3 then "wrong".toList else "secret password".toList))), w + 1)
  sys := exSys
  modules := fun fn _ => unixModule (fun _ => exHost) fn

def exArgs : List Str := ["nodelay".toList]

theorem ex_still : Still (fun _ => exHost) exLib := fun _ _ _ _ => rfl

theorem ex_lines : fileLinesOf exSys "login".toList .auth = some [⟨.required, "pam_unix.so".toList, exArgs⟩] ∧
    fileLinesOf exSys "login".toList .acct = some [⟨.required, "pam_unix.so".toList, []⟩] := by
  decide +kernel

theorem ex_auth : OneLine exLib "/bin/LOGIN".toList .authenticate (unixAuth fun _ => exHost) exArgs :=
  ⟨Or.inr rfl, by decide, _, ex_lines.1, rfl⟩

theorem ex_acct : OneLine exLib "/bin/LOGIN".toList .acctMgmt (unixAcct fun _ => exHost) [] := ⟨Or.inr rfl, by decide, _, ex_lines.2, rfl⟩

theorem ex_lacks : Lacks exArgs "nullok" ∧ Lacks exArgs "nullresetok" ∧ Lacks exArgs "use_first_pass" ∧ Lacks [] "broken_shadow" := by
  refine ⟨?_, ?_, ?_, fun a ha => by cases ha⟩ <;>
    (intro a ha h; rw [List.mem_singleton.mp ha] at h; exact absurd (List.isPrefixOf_iff_prefix.mpr h) (by decide))

theorem ex_healthy : Healthy exHost Unix.demoShadow "ada".toList := by
  refine ⟨fun _ => Unix.demoLuck_fine, Unix.demo_reads, Or.inl rfl, by decide, by unfold Unix.Day Unix.LMAX; decide, ?_, by decide⟩
  intro sp h
  cases h
  intro v hv
  simp only [List.mem_cons, List.not_mem_nil, or_false] at hv
  unfold Unix.LMAX
  omega

/-- does an authentication of ada come to an end with these flags? -/
def exEnds (f : Unix.Flags) (pw : Str) : Bool :=
  match Unix.setCtrl true f none none none none exArgs with
  | some o => (Unix.authenticate exHost.sys exHost.bin exHost.luck exHost.proc o.ctrl (fun _ => 0) (PAM_SUCCESS, "ada".toList) (PAM_SUCCESS, pw)).isSome
  | none => true

theorem ex_ends (flags : Nat) : Ends exHost flags exArgs "ada".toList (PAM_SUCCESS, "wrong".toList) ∧
    Ends exHost flags exArgs "ada".toList (PAM_SUCCESS, "secret password".toList) := by
  have key : ∀ a b c d e, exEnds ⟨a, b, c, d, e⟩ "wrong".toList = true ∧ exEnds ⟨a, b, c, d, e⟩ "secret password".toList = true := by decide +kernel
  have lift : ∀ pw, exEnds (unixFlags flags) pw = true → Ends exHost flags exArgs "ada".toList (PAM_SUCCESS, pw) := by
    intro pw h ctrl hc
    obtain ⟨o, ho, e⟩ := Option.map_eq_some_iff.mp hc
    unfold exEnds at h
    rw [show decide (exHost.proc.uid = 0) = true from rfl] at ho
    have ho' : Unix.setCtrl true (unixFlags flags) none none none none exArgs = some o := ho
    rw [ho'] at h
    rw [← e]
    exact h
  obtain ⟨k1, k2⟩ := key (unixFlags flags).changeExpired (unixFlags flags).update (unixFlags flags).prelim (unixFlags flags).silent (unixFlags flags).disallowNull
  exact ⟨lift _ k1, lift _ k2⟩

theorem ex_strict (w : Nat) : Strict exLib (fun _ => exHost) "/bin/LOGIN".toList exArgs 7 "ada".toList w := by
  refine ⟨ex_still, ex_auth, ex_lacks.1, ex_lacks.2.1, ex_lacks.2.2.1, by decide, ?_, fun _ => show Unix.demoLuck.buf.length = 513 by decide +kernel⟩
  intro w1
  refine ⟨if w1 < 3 then "wrong".toList else "secret password".toList, w1 + 1, rfl, fun flags => ?_⟩
  by_cases h : w1 < 3
  · rw [if_pos h]; exact (ex_ends flags).1
  · rw [if_neg h]; exact (ex_ends flags).2

example : (start exLib "/bin/LOGIN".toList (some "ada".toList) 7 0).isSome = true := by decide +kernel
example : (start exLib "/bin/LOGIN".toList none 7 2).isSome = true := by decide +kernel
example : Knows exLib 7 2 none "ada".toList 3 [⟨.echoOn, "login:".toList, PAM_SUCCESS, some "ada".toList⟩] := .asked _ _ rfl
example : ¬ Lenient exArgs 0 := by
  rintro ⟨⟨a, ha, h⟩, -⟩
  exact ex_lacks.1 a ha h

/-- the codes of calls of pam_authenticate, one after the other -/
def codesOf (lib : Lib Nat) : Nat → Handle Nat → List Int
  | 0, _ => []
  | n + 1, h =>
    match run lib .authenticate 0 h with
    | some (c, h') => c :: codesOf lib n h'
    | none => []

/-- three wrong passwords, then the right one -/
example : (start exLib "/bin/LOGIN".toList (some "ada".toList) 7 0).map (codesOf exLib 5) =
    some [PAM_AUTH_ERR, PAM_AUTH_ERR, PAM_MAXTRIES, PAM_SUCCESS, PAM_SUCCESS] := by decide +kernel
/-- the name is asked for, the password is right, the account in order -/
example : ((start exLib "/bin/LOGIN".toList none 7 2).bind fun h => (run exLib .authenticate 0 h).bind fun r => (run exLib .acctMgmt 0 r.2).map fun q =>
    (r.1, q.1, q.2.m.s.talk.map (·.answer))) = some (PAM_SUCCESS, PAM_SUCCESS, [some "ada".toList, some "secret password".toList]) := by decide +kernel

/-- what pam_acct_mgmt says of a user, and its code, with these flags and so many days later -/
def exSaid (name : Str) (flags : Nat) (later : Int) : Option (Int × List (Style × Str)) :=
  let host : Host := { exHost with sys := { exHost.sys with today := exHost.sys.today + later } }
  let lib : Lib Nat := { exLib with modules := fun fn _ => unixModule (fun _ => host) fn }
  (start lib "/bin/LOGIN".toList (some name) 7 0).bind fun h => (run lib .acctMgmt flags h).map fun q => (q.1, messages q.2.m.s.talk)

example : exSaid "zed".toList 0 0 = some (PAM_ACCT_EXPIRED, [(.error, "Your account has expired; please contact your system administrator.".toList)]) := by
  decide +kernel
/-- PAM_SILENT -/
example : exSaid "zed".toList 0x8000 0 = some (PAM_ACCT_EXPIRED, []) := by decide +kernel
example : exSaid "eve".toList 0 0 = some (PAM_NEW_AUTHTOK_REQD,
    [(.error, "You are required to change your password immediately (administrator enforced).".toList)]) := by decide +kernel
example : exSaid "ada".toList 0 99988 = some (PAM_SUCCESS, [(.info, "Warning: your password will expire in 1 day.".toList)]) := by decide +kernel
example : exSaid "ada".toList 0 99985 = some (PAM_SUCCESS, [(.info, "Warning: your password will expire in 4 days.".toList)]) := by decide +kernel
example : exSaid "ada".toList 0 99989 = some (PAM_NEW_AUTHTOK_REQD,
    [(.error, "You are required to change your password immediately (password expired).".toList)]) := by decide +kernel
example : exSaid "ada".toList 0 0 = some (PAM_SUCCESS, []) := by decide +kernel

end Pam.Whole
