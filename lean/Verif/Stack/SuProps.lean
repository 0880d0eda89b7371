import Verif.Stack.Su
import Verif.Stack.OtherProps
/-
C174: who may use su with the configurations of the manuals.
-/
namespace Pam.Stack
open Pam Pam.Config Pam.Config.Spec
open Pam.Small (Accounts WheelCall wheel rootok localuser Invoker TheGroup Agrees Belongs)
open Pam.Dispatch.Spec (Verdict)

/-- the caller is root, and SELinux does not object -/
def IsRoot (c : SuCall) : Prop := c.call.uid = 0 ∧ c.selinux ≠ some false

instance (c : SuCall) : Decidable (IsRoot c) := by unfold IsRoot; infer_instance

theorem wheel_whole (a : Accounts) (c : WheelCall) (args : List Str) : wheel a c args ≠ PAM_INCOMPLETE := by
  unfold wheel Small.wheelCheck
  have key : ∀ (p : Prop) [Decidable p] (x y : Int), x ≠ PAM_INCOMPLETE → y ≠ PAM_INCOMPLETE → (if p then x else y) ≠ PAM_INCOMPLETE := by
    intro p _ x y hx hy; split <;> assumption
  apply key _ _ _ (by decide)
  split
  · decide
  · apply key _ _ _ (by decide)
    split
    · decide
    · split
      · exact key _ _ _ (by decide) (by decide)
      · exact key _ _ _ (key _ _ _ (by decide) (key _ _ _ (by decide) (by decide)))
          (key _ _ _ (key _ _ _ (by decide) (by decide)) (by decide))

theorem localuser_codes (user : Int × Str) (h : user.1 = PAM_SUCCESS) (read : Str → Option Str) (args : List Str) :
    localuser user read args = PAM_SUCCESS ∨ localuser user read args = PAM_SERVICE_ERR ∨ localuser user read args = PAM_PERM_DENIED := by
  unfold localuser Util.checkUser
  dsimp only
  rw [if_neg (fun hn => hn h)]
  split
  · exact Or.inr (Or.inl rfl)
  · split
    · exact Or.inr (Or.inr rfl)
    · split
      · exact Or.inr (Or.inl rfl)
      · split
        · exact Or.inl rfl
        · exact Or.inr (Or.inr rfl)

theorem suModules_whole (c : SuCall) (hu : c.call.user.1 = PAM_SUCCESS) (hx : c.unix ≠ PAM_INCOMPLETE) (p : Str) (a : List Str)
    (w : Bool) : (suModules c p a w).1 ≠ PAM_INCOMPLETE := by
  unfold suModules
  split
  · rcases (Small.C88_rootok c.call.uid c.selinux).2 with h | h <;> (show rootok _ _ ≠ _; rw [h]; decide)
  split
  · exact wheel_whole _ _ _
  split
  · rcases localuser_codes c.call.user hu c.passwd a with h | h | h <;> (show localuser _ _ _ ≠ _; rw [h]; decide)
  split
  · exact hx
  · show PAM_MODULE_UNKNOWN ≠ PAM_INCOMPLETE
    decide

theorem su_rootok (c : SuCall) (a : List Str) (w : Bool) : suModules c "pam_rootok.so".toList a w = (rootok c.call.uid c.selinux, w) := by
  unfold suModules; rw [if_pos rfl]

theorem su_wheel (c : SuCall) (a : List Str) (w : Bool) : suModules c "pam_wheel.so".toList a w = (wheel c.accounts c.call a, w) := by
  unfold suModules; rw [if_neg (by decide), if_pos rfl]

theorem su_localuser (c : SuCall) (a : List Str) (w : Bool) :
    suModules c "pam_localuser.so".toList a w = (localuser c.call.user c.passwd a, w) := by
  unfold suModules; rw [if_neg (by decide), if_neg (by decide), if_pos rfl]

theorem su_unix (c : SuCall) (a : List Str) (w : Bool) : suModules c "pam_unix.so".toList a w = (c.unix, true) := by
  unfold suModules; rw [if_neg (by decide), if_neg (by decide), if_neg (by decide), if_pos rfl]

theorem rootok_positive (c : SuCall) : Positive (rootok c.call.uid c.selinux) ↔ IsRoot c := by
  have h := Small.C88_rootok c.call.uid c.selinux
  unfold IsRoot
  rw [← h.1]
  unfold Positive
  constructor
  · rintro (k | k)
    · exact k
    · rcases h.2 with m | m <;> rw [m] at k <;> exact absurd k (by decide)
  · exact Or.inl

theorem rootok_known (c : SuCall) : ¬ Foreign (rootok c.call.uid c.selinux) := by
  rcases (Small.C88_rootok c.call.uid c.selinux).2 with m | m <;> rw [m] <;> decide

theorem rootokLines : linesOf .auth ((fileLines ' ' rootokText).1.map mkargv) =
    some [⟨.sufficient, "pam_rootok.so".toList, []⟩, must "pam_unix.so"] := by decide +kernel

/-- C174, pam_rootok(8): root need not give a password, and is not asked for one; everybody else must give the right one. -/
theorem C174_rootok (sys : Sys) (T : Tables) (hdir : sys.confdir.isSome ∨ sys.haveDir) (hT : initHandlers sys "su".toList = some T)
    (ho : openConfig sys "su".toList = some rootokText) (c : SuCall) (hu : c.call.user.1 = PAM_SUCCESS) (hx : c.unix ≠ PAM_INCOMPLETE) :
    ∃ code asked, su sys .authenticate c = some (code, asked) ∧ (code = PAM_SUCCESS ↔ IsRoot c ∨ c.unix = PAM_SUCCESS) ∧
      (asked = true ↔ ¬ IsRoot c) := by
  have hl : fileLinesOf sys "su".toList (Fn.mtype .authenticate) =
      some [⟨.sufficient, "pam_rootok.so".toList, []⟩, must "pam_unix.so"] := by
    unfold fileLinesOf; rw [ho]; exact rootokLines
  have hp := pass_walk sys "su".toList T .authenticate (suModules c) (suModules_whole c hu hx) false hdir (by decide) hT rfl _ []
    hl (fun h => by cases h)
  rw [if_neg (by simp)] at hp
  have hwalk : walk (suModules c) [⟨.sufficient, "pam_rootok.so".toList, []⟩, must "pam_unix.so"] .none false =
      if IsRoot c then (.good (rootok c.call.uid c.selinux), false) else (rstep .none c.unix, true) := by
    rw [walk_sufficient_cons _ _ _ _ _ (by rw [su_rootok]; exact rootok_known c), walk_required]
    simp only [su_rootok, su_unix]
    by_cases h : IsRoot c
    · rw [if_pos ((rootok_positive c).mpr h), if_pos h]
    · rw [if_neg (fun k => h ((rootok_positive c).mp k)), if_neg h]
  unfold su
  rw [hp, hwalk]
  refine ⟨_, _, rfl, ?_, ?_⟩
  · by_cases h : IsRoot c
    · rw [if_pos h]
      exact ⟨fun _ => Or.inl h, fun _ => (Small.C88_rootok c.call.uid c.selinux).1.mpr h⟩
    · rw [if_neg h]
      show (rstep .none c.unix).code = PAM_SUCCESS ↔ _
      rw [rstep_none_code]
      exact ⟨Or.inr, fun k => k.resolve_left h⟩
  · by_cases h : IsRoot c
    · rw [if_pos h]; simp [h]
    · rw [if_neg h]; simp [h]

theorem wheelLines : confLinesOf (fun w => ieq w "su".toList && !ieq w otherName) wheelConf .auth =
    some [⟨.sufficient, "pam_rootok.so".toList, []⟩, must "pam_wheel.so", must "pam_unix.so"] := by decide +kernel

/-- without options the module only lets pass or refuses -/
theorem wheel_plain (a : Accounts) (c : WheelCall) : wheel a c [] ≠ PAM_SUCCESS ∧ wheel a c [] ≠ PAM_NEW_AUTHTOK_REQD := by
  refine ⟨fun h => absurd (Small.C84_trust a c [] h) (by simp), ?_⟩
  unfold wheel Small.wheelCheck
  have key : ∀ (p : Prop) [Decidable p] (x y : Int), x ≠ PAM_NEW_AUTHTOK_REQD → y ≠ PAM_NEW_AUTHTOK_REQD →
      (if p then x else y) ≠ PAM_NEW_AUTHTOK_REQD := by
    intro p _ x y hx hy; split <;> assumption
  apply key _ _ _ (by decide)
  split
  · decide
  · apply key _ _ _ (by decide)
    split
    · decide
    · split
      · exact key _ _ _ (by decide) (by decide)
      · exact key _ _ _ (key _ _ _ (by decide) (key _ _ _ (by decide) (by decide)))
          (key _ _ _ (key _ _ _ (by decide) (by decide)) (by decide))

/-- C174, pam_wheel(8): root may become anybody; everybody else must be a member of the group and give the right password,
whoever they want to become. -/
theorem C174_wheel (sys : Sys) (T : Tables) (hdir : ¬ (sys.confdir.isSome ∨ sys.haveDir)) (hT : initHandlers sys "su".toList = some T)
    (hb : sys.fs pamConf = some wheelConf) (c : SuCall) (hu : c.call.user.1 = PAM_SUCCESS) (hx : c.unix ≠ PAM_INCOMPLETE)
    (target : Small.User) (htarget : c.accounts.pwnam c.call.user.2 = some target)
    (u : Small.User) (hinv : Invoker c.accounts c.call [] u) (g : Small.Group) (hg : TheGroup c.accounts [] g)
    (hag : Agrees c.accounts u g) :
    ∃ code asked, su sys .authenticate c = some (code, asked) ∧
      (code = PAM_SUCCESS ↔ IsRoot c ∨ (Belongs c.accounts u g ∧ c.unix = PAM_SUCCESS)) := by
  have hp := pass_conf sys "su".toList wheelConf T .authenticate (suModules c) (suModules_whole c hu hx) false hdir hb hT rfl _ []
    wheelLines (fun h => by cases h)
  rw [if_neg (by simp)] at hp
  have hwalk : walk (suModules c) [⟨.sufficient, "pam_rootok.so".toList, []⟩, must "pam_wheel.so", must "pam_unix.so"] .none false =
      if IsRoot c then (.good (rootok c.call.uid c.selinux), false)
      else (rstep (rstep .none (wheel c.accounts c.call [])) c.unix, true) := by
    rw [walk_sufficient_cons _ _ _ _ _ (by rw [su_rootok]; exact rootok_known c), walk_required_cons, walk_required]
    simp only [su_rootok, su_unix, su_wheel]
    by_cases h : IsRoot c
    · rw [if_pos ((rootok_positive c).mpr h), if_pos h]
    · rw [if_neg (fun k => h ((rootok_positive c).mp k)), if_neg h]
  obtain ⟨member, hm, hans⟩ := (((Small.C84_answer c.accounts c.call []).2.2 target hu htarget).2 (by simp)).2 u hinv |>.2 g hg hag
  have hans' : wheel c.accounts c.call [] = if member then PAM_IGNORE else PAM_PERM_DENIED := by
    rw [hans]; cases member <;> rfl
  unfold su
  rw [hp, hwalk]
  refine ⟨_, _, rfl, ?_⟩
  by_cases h : IsRoot c
  · rw [if_pos h]
    exact ⟨fun _ => Or.inl h, fun _ => (Small.C88_rootok c.call.uid c.selinux).1.mpr h⟩
  · rw [if_neg h]
    show (rstep (rstep .none (wheel c.accounts c.call [])) c.unix).code = PAM_SUCCESS ↔ _
    rw [hans']
    cases member with
    | true =>
      have hB : Belongs c.accounts u g := hm.mp rfl
      have : rstep .none (if (true : Bool) then PAM_IGNORE else PAM_PERM_DENIED) = .none := by decide
      rw [this, rstep_none_code]
      exact ⟨fun k => Or.inr ⟨hB, k⟩, fun k => (k.resolve_left h).2⟩
    | false =>
      have hB : ¬ Belongs c.accounts u g := fun k => absurd (hm.mpr k) (by decide)
      have hbad : Bad (rstep (rstep .none (if (false : Bool) then PAM_IGNORE else PAM_PERM_DENIED)) c.unix) := by
        rw [rstep_bad]; left; rw [rstep_bad]; right; decide
      exact ⟨fun k => absurd k (Bad.code hbad), fun k => absurd (k.resolve_left h).1 hB⟩

theorem localLines : linesOf .acct ((fileLines ' ' localText).1.map mkargv) =
    some [⟨.sufficient, "pam_localuser.so".toList, []⟩, must "pam_wheel.so"] := by decide +kernel

/-- C174, pam_localuser(8): "allow only local users or group wheel to use su".  What the lines do: su is allowed exactly if the
account that one wants to become is in the file.  Who runs su does not matter. -/
theorem C174_local (sys : Sys) (T : Tables) (hdir : sys.confdir.isSome ∨ sys.haveDir) (hT : initHandlers sys "su".toList = some T)
    (ho : openConfig sys "su".toList = some localText) (c : SuCall) (hu : c.call.user.1 = PAM_SUCCESS) (hx : c.unix ≠ PAM_INCOMPLETE) :
    ∃ code asked, su sys .acctMgmt c = some (code, asked) ∧
      (code = PAM_SUCCESS ↔ c.call.user.2 ≠ [] ∧ ':' ∉ c.call.user.2 ∧
        ∃ content, c.passwd "/etc/passwd".toList = some content ∧ ∃ l ∈ Util.Spec.lines content, (c.call.user.2 ++ [':']) <+: l) := by
  have hl : fileLinesOf sys "su".toList (Fn.mtype .acctMgmt) =
      some [⟨.sufficient, "pam_localuser.so".toList, []⟩, must "pam_wheel.so"] := by
    unfold fileLinesOf; rw [ho]; exact localLines
  have hp := pass_walk sys "su".toList T .acctMgmt (suModules c) (suModules_whole c hu hx) false hdir (by decide) hT rfl _ []
    hl (fun h => by cases h)
  rw [if_neg (by simp)] at hp
  have hcodes := localuser_codes c.call.user hu c.passwd []
  have hloc := Small.C88_localuser c.call.user c.passwd [] "/etc/passwd".toList (Or.inr ⟨nofun, rfl⟩)
  have hwalk : walk (suModules c) [⟨.sufficient, "pam_localuser.so".toList, []⟩, must "pam_wheel.so"] .none false =
      if localuser c.call.user c.passwd [] = PAM_SUCCESS then (.good PAM_SUCCESS, false)
      else (rstep .none (wheel c.accounts c.call []), false) := by
    rw [walk_sufficient_cons _ _ _ _ _ (by
      rw [su_localuser]; rcases hcodes with h | h | h <;> (dsimp only; rw [h]; decide)), walk_required]
    simp only [su_localuser, su_wheel]
    by_cases h : localuser c.call.user c.passwd [] = PAM_SUCCESS
    · rw [if_pos h, if_pos (show Positive (localuser c.call.user c.passwd []) from Or.inl h), h]
    · have hn : ¬ Positive (localuser c.call.user c.passwd []) := by
        rintro (k | k)
        · exact h k
        · rcases hcodes with m | m | m <;> rw [m] at k <;> exact absurd k (by decide)
      rw [if_neg h, if_neg hn]
  unfold su
  rw [hp, hwalk]
  refine ⟨_, _, rfl, ?_⟩
  by_cases h : localuser c.call.user c.passwd [] = PAM_SUCCESS
  · rw [if_pos h]
    exact ⟨fun _ => (hloc.mp h).2, fun _ => rfl⟩
  · rw [if_neg h]
    show (rstep .none (wheel c.accounts c.call [])).code = PAM_SUCCESS ↔ _
    rw [rstep_none_code]
    exact ⟨fun k => absurd k (wheel_plain _ _).1, fun k => absurd (hloc.mpr ⟨hu, k⟩) h⟩

/-! ### Concrete cases -/

/-- /etc/passwd of the example -/
def exPasswd : Str → Option Str := fun p => if p = "/etc/passwd".toList then some (text ["root:x:0:0::/root:/bin/sh"]) else none

/-- somebody runs su to become root -/
def suBy (who : String) (uid : Nat) (target : String) (unix : Int) : SuCall :=
  ⟨Small.wheelAccounts, ⟨(PAM_SUCCESS, target.toList), uid, some who.toList, none, none⟩, none, exPasswd, unix⟩

/-- a system with the given file for su -/
def suSys (t : Str) : Sys where
  fs := fun p => if p = "/etc/pam.d/su".toList then some t else none
  confdir := none
  dirs := ["/etc/pam.d/".toList]
  haveDir := true

theorem rootok_loads : ∃ T, initHandlers (suSys rootokText) "su".toList = some T := Option.isSome_iff_exists.mp (by decide +kernel)
theorem wheel_loads : ∃ T, initHandlers (exConf wheelConf) "su".toList = some T := Option.isSome_iff_exists.mp (by decide +kernel)
theorem local_loads : ∃ T, initHandlers (suSys localText) "su".toList = some T := Option.isSome_iff_exists.mp (by decide +kernel)

example : openConfig (suSys rootokText) "su".toList = some rootokText ∧ IsRoot (suBy "root" 0 "ann" 7) ∧ ¬ IsRoot (suBy "ann" 1000 "root" 7) :=
  ⟨by decide +kernel, ⟨rfl, nofun⟩, fun h => absurd h.1 (by decide)⟩

example : (exConf wheelConf).fs pamConf = some wheelConf ∧
    Invoker (suBy "ann" 1000 "root" 0).accounts (suBy "ann" 1000 "root" 0).call [] ⟨"ann".toList, 1000, 100, []⟩ ∧
    TheGroup (suBy "ann" 1000 "root" 0).accounts [] ⟨"wheel".toList, 10, ["ann".toList]⟩ ∧
    Agrees (suBy "ann" 1000 "root" 0).accounts ⟨"ann".toList, 1000, 100, []⟩ ⟨"wheel".toList, 10, ["ann".toList]⟩ ∧
    Belongs (suBy "ann" 1000 "root" 0).accounts ⟨"ann".toList, 1000, 100, []⟩ ⟨"wheel".toList, 10, ["ann".toList]⟩ := by
  refine ⟨by decide +kernel, ?_, Or.inr ⟨Or.inl nofun, Or.inl rfl⟩, ⟨rfl, rfl⟩, Or.inr (Or.inl (by decide))⟩
  unfold Invoker; rw [if_neg (by decide)]; exact ⟨"ann".toList, rfl, Or.inl rfl⟩

/-- "allow only local users ... to use su": false.  bob is neither in /etc/passwd nor in the group, but may become root. -/
theorem C174_remote_user_counterexample :
    (¬ ∃ l ∈ Util.Spec.lines (text ["root:x:0:0::/root:/bin/sh"]), ("bob".toList ++ [':']) <+: l) ∧
    ¬ Belongs Small.wheelAccounts ⟨"bob".toList, 1001, 100, []⟩ ⟨"wheel".toList, 10, ["ann".toList]⟩ ∧
    ∃ asked, su (suSys localText) .acctMgmt (suBy "bob" 1001 "root" 0) = some (PAM_SUCCESS, asked) := by
  refine ⟨by decide +kernel, by unfold Belongs; decide, ?_⟩
  obtain ⟨T, hT⟩ := local_loads
  obtain ⟨code, asked, h1, h2⟩ := C174_local (suSys localText) T (Or.inr rfl) hT (by decide +kernel) (suBy "bob" 1001 "root" 0) rfl (by decide)
  refine ⟨asked, ?_⟩
  rw [h1, h2.mpr ⟨by decide, by decide, _, rfl, by decide +kernel⟩]

/-- "... or group wheel": false.  ann is in the group, but may not become bob, whose account is not in /etc/passwd: without the
option `trust` pam_wheel only ever answers PAM_IGNORE, and then no module has agreed. -/
theorem C174_member_counterexample :
    Belongs Small.wheelAccounts ⟨"ann".toList, 1000, 100, []⟩ ⟨"wheel".toList, 10, ["ann".toList]⟩ ∧
    ∃ code asked, su (suSys localText) .acctMgmt (suBy "ann" 1000 "bob" 0) = some (code, asked) ∧ code ≠ PAM_SUCCESS := by
  refine ⟨Or.inr (Or.inl (by decide)), ?_⟩
  obtain ⟨T, hT⟩ := local_loads
  obtain ⟨code, asked, h1, h2⟩ := C174_local (suSys localText) T (Or.inr rfl) hT (by decide +kernel) (suBy "ann" 1000 "bob" 0) rfl (by decide)
  refine ⟨code, asked, h1, fun h => ?_⟩
  obtain ⟨-, -, content, hc, hl⟩ := h2.mp h
  have : content = text ["root:x:0:0::/root:/bin/sh"] := (Option.some.inj hc).symm
  subst this
  exact absurd hl (by decide +kernel)

end Pam.Stack
