import Verif.Whole.ChangeProps
/-
A machine, a configuration and an application that meet the hypotheses of C179.
-/
namespace Pam.Whole
open Pam Pam.Handle Pam.Config
open Pam.Stack (fileLinesOf)

/-- /etc/pam.d/passwd with a line for the change and one for the login afterwards -/
def chSys : Sys where
  fs := fun p => if p = "/etc/pam.d/passwd".toList then
    some "password required pam_unix.so yescrypt shadow remember=2 minlen=5\nauth required pam_unix.so nodelay\n".toList else none
  confdir := none
  dirs := ["/etc/pam.d/".toList]
  haveDir := true

/-- the world: the files, and the number of questions asked so far.  ada, an ordinary user, calls passwd, which is set-user-id root. -/
def chMach (w : Unix.Etc × Nat) : Mach where
  world := Unix.opwWorld
  etc := w.1
  bin := Unix.demoBin
  luck := fun _ _ => Unix.demoLuck
  proc := Unix.adaProc
  defs := none
  opens := fun _ => true
  tries := fun n => n = 2
  files := Unix.demoSLuck
  rnd := fun i => i
  gensalt := fun a _ => a

def chDisk : Disk (Unix.Etc × Nat) := ⟨chMach, fun acts w => (w.1.after acts, w.2)⟩

/-- the application: a first new password that is too short, then a good one -/
def chLib (old : Str) : Lib (Unix.Etc × Nat) where
  conv := fun _ st msg w => match st with
    | .echoOff =>
      if msg = "Current password: ".toList then ((PAM_SUCCESS, some (some old)), (w.1, w.2 + 1))
      else if msg = "Password: ".toList then ((PAM_SUCCESS, some (some "a new one".toList)), (w.1, w.2 + 1))
      else ((PAM_SUCCESS, some (some (if w.2 < 5 then "abc".toList else "a new one".toList))), (w.1, w.2 + 1))
    | _ => ((PAM_SUCCESS, some none), (w.1, w.2 + 1))
  sys := chSys
  modules := fun fn _ => match fn with
    | .chauthtok => some (unixChange chDisk)
    | .authenticate => some (unixAuth fun w => (chDisk.mach w).host false)
    | _ => none

def chArgs : List Str := ["yescrypt".toList, "shadow".toList, "remember=2".toList, "minlen=5".toList]

theorem ch_law : chDisk.Law := fun _ _ => rfl

theorem ch_quiet (old : Str) : Quiet chDisk (chLib old).conv := by
  intro c st msg w
  cases st with
  | echoOff =>
    show chMach (if _ then _ else if _ then _ else _ : (Int × Option (Option Str)) × (Unix.Etc × Nat)).2 = chMach w
    split
    · rfl
    · split <;> rfl
  | _ => rfl

theorem ch_conv (old : Str) : ∀ c st msg w, ((chLib old).conv c st msg w).1.1 ≠ PAM_INCOMPLETE := by
  intro c st msg w
  have : ((chLib old).conv c st msg w).1.1 = PAM_SUCCESS := by
    cases st with
    | echoOff =>
      show (if _ then _ else if _ then _ else _ : (Int × Option (Option Str)) × (Unix.Etc × Nat)).1.1 = PAM_SUCCESS
      split
      · rfl
      · split <;> rfl
    | _ => rfl
  rw [this]
  decide

theorem ch_lines : fileLinesOf chSys "passwd".toList .pass = some [⟨.required, "pam_unix.so".toList, chArgs⟩] ∧
    fileLinesOf chSys "passwd".toList .auth = some [⟨.required, "pam_unix.so".toList, ["nodelay".toList]⟩] := by
  decide +kernel

theorem ch_change (old : Str) : OneLine (chLib old) "passwd".toList .chauthtok (unixChange chDisk) chArgs :=
  ⟨Or.inr rfl, by decide, _, ch_lines.1, rfl⟩

theorem ch_auth (old : Str) : OneLine (chLib old) "passwd".toList .authenticate (unixAuth fun w => (chDisk.mach w).host false) ["nodelay".toList] :=
  ⟨Or.inr rfl, by decide, _, ch_lines.2, rfl⟩

theorem ch_usual : Usual (chMach (Unix.opwEtc, 0)) "ada".toList :=
  ⟨⟨rfl, rfl, rfl, rfl, rfl, rfl⟩, Unix.adaFindable, Unix.toyLaws, fun _ _ => List.length_replicate .., by decide +kernel,
    show Unix.Day 20010 by unfold Unix.Day Unix.LMAX; decide⟩

theorem ch_good : InGoodOrder (chMach (Unix.opwEtc, 0)) "ada".toList := ⟨fun _ _ => Unix.demoLuck_fine, Or.inl rfl⟩

/-- pam_chauthtok: its code, the messages, and the hash afterwards -/
def chSaid (old : Str) (flags : Nat) : Option (Int × List Str × Option Str) :=
  (start (chLib old) "passwd".toList (some "ada".toList) 7 (Unix.opwEtc, 0)).bind fun h => (run (chLib old) .chauthtok flags h).map fun r =>
    (r.1, r.2.m.s.talk.map (·.msg), (r.2.m.s.world.1.findSp "ada".toList).map (·.hash))

/-- the password is changed at the second attempt -/
example : chSaid "secret password".toList 0 = some (PAM_SUCCESS, ["Changing password for ada.".toList, "Current password: ".toList,
    "New password: ".toList, "Retype new password: ".toList, "You must choose a longer password.".toList, "New password: ".toList,
    "Retype new password: ".toList], some "$y$a new one".toList) := by decide +kernel
/-- a wrong current password -/
example : chSaid "guess".toList 0 = some (PAM_AUTH_ERR, ["Changing password for ada.".toList, "Current password: ".toList],
    some "ABsecret.p...assword....".toList) := by decide +kernel
/-- only if it has expired, which it has not -/
example : (chSaid "secret password".toList 0x20).map (fun r => (r.1, r.2.2)) = some (PAM_AUTHTOK_ERR, some "ABsecret.p...assword....".toList) := by
  decide +kernel
/-- an application that asks for one of the passes itself -/
example : (chSaid "secret password".toList 0x4000).map (fun r => (r.1, r.2.1)) = some (PAM_SYSTEM_ERR, []) := by decide +kernel
/-- no answer of the application holds a NUL -/
example : ((start (chLib "secret password".toList) "passwd".toList (some "ada".toList) 7 (Unix.opwEtc, 0)).bind fun h =>
    (run (chLib "secret password".toList) .chauthtok 0 h).map fun r => r.2.m.s.talk.all fun q => (q.answer.getD []).all (· ≠ NUL)) = some true := by
  decide +kernel

/-- then ada logs in with the new password -/
example : ((start (chLib "secret password".toList) "passwd".toList (some "ada".toList) 7 (Unix.opwEtc, 0)).bind fun h =>
    (run (chLib "secret password".toList) .chauthtok 0 h).bind fun r =>
      (start (chLib "secret password".toList) "passwd".toList (some "ada".toList) 7 r.2.m.s.world).bind fun h2 =>
        (run (chLib "secret password".toList) .authenticate 0 h2).map fun q => (r.1, q.1)) = some (PAM_SUCCESS, PAM_SUCCESS) := by decide +kernel
/-- but without the change not -/
example : ((start (chLib "secret password".toList) "passwd".toList (some "ada".toList) 7 (Unix.opwEtc, 0)).bind fun h2 =>
    (run (chLib "secret password".toList) .authenticate 0 h2).map fun q => q.1) = some PAM_AUTH_ERR := by decide +kernel

/-- the files after the change -/
def chEtc : Unix.Etc := Unix.opwEtc.after (Unix.demoChRes true).acts

def chAfter : Mach := chMach (chEtc, 8)

theorem ch_healthy (e : Unix.Etc) (n : Nat) (hn : (e.sys Unix.opwWorld).pwnam Unix.nobody = none)
    (ha : ∀ sp, e.shadow Unix.opwWorld "ada".toList = some sp → sp.aging.Ok) :
    Healthy ((chMach (e, n)).host false) (e.shadow Unix.opwWorld) "ada".toList :=
  ⟨fun _ => Unix.demoLuck_fine, Unix.rootReads Unix.opwWorld e, Or.inl rfl, hn, show Unix.Day 20010 by unfold Unix.Day Unix.LMAX; decide, ha, by decide⟩

/-- the machine is in order after the change, and the helper ends -/
example : Healthy (chAfter.host false) (chEtc.shadow Unix.opwWorld) "ada".toList := by
  refine ch_healthy chEtc 8 (by decide +kernel) ?_
  intro sp h
  have : (chEtc.shadow Unix.opwWorld "ada".toList).map (·.aging) = some ⟨20010, 0, 99999, 7, -1, -1⟩ := by decide +kernel
  rw [h] at this
  rw [show sp.aging = _ from Option.some.inj this]
  unfold Unix.Aging.Ok
  decide

example : Ends (chAfter.host false) 0 ["nodelay".toList] "ada".toList (PAM_SUCCESS, "a new one".toList) := by
  have key : (match unixCtrl (chAfter.host false) 0 ["nodelay".toList] with
    | some ctrl => (Unix.authenticate (chAfter.host false).sys (chAfter.host false).bin (chAfter.host false).luck (chAfter.host false).proc ctrl
        (fun _ => 0) (PAM_SUCCESS, "ada".toList) (PAM_SUCCESS, "a new one".toList)).isSome
    | none => true) = true := by decide +kernel
  intro ctrl hc
  rw [hc] at key
  exact key

end Pam.Whole
