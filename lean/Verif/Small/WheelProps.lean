import Verif.Small.Gates
/-
Property theorem C84: pam_wheel.
-/
namespace Pam.Small
open Pam

/-! ### vocabulary -/

/-- who runs the application: with `use_uid` the account of the real user id; otherwise the account of the login name or, if there is none and the user
does not come from another host, the one PAM_RUSER names -/
def Invoker (a : Accounts) (c : WheelCall) (argv : List Str) (u : User) : Prop :=
  if "use_uid".toList ∈ argv then a.pwuid c.uid = some u
  else ∃ n, a.pwnam n = some u ∧ (c.login = some n ∨ (c.login = none ∧ c.rhost = none ∧ c.ruser = some n))

/-- the group: the one the last `group=` names, if it is not empty, else wheel, else the one with the id 0 -/
def TheGroup (a : Accounts) (argv : List Str) (g : Group) : Prop :=
  (∃ v, Last "group=" argv v ∧ v ≠ [] ∧ a.grnam v = some g) ∨
  ((Without "group=" argv ∨ Last "group=" argv []) ∧
    (a.grnam "wheel".toList = some g ∨ (a.grnam "wheel".toList = none ∧ a.grgid 0 = some g)))

/-- the databases agree: looking up the id of an account, or of a group, finds it again -/
def Agrees (a : Accounts) (u : User) (g : Group) : Prop := a.pwuid u.uid = some u ∧ a.grgid g.gid = some g

/-- what is answered about members and others -/
def wheelAnswer (deny trust member : Bool) : Int :=
  match deny, member, trust with
  | true, true, _ => PAM_PERM_DENIED
  | false, false, _ => PAM_PERM_DENIED
  | _, _, true => PAM_SUCCESS
  | _, _, false => PAM_IGNORE

/-! ### helper lemmas -/

theorem flag_fold {σ : Type} (step : σ → Str → σ) (get : σ → Bool) (w : Str) (hset : ∀ s, get (step s w) = true) (hkeep : ∀ s x, x ≠ w → get (step s x) = get s) :
    ∀ (argv : List Str) (s : σ), get (argv.foldl step s) = (get s || argv.contains w)
  | [], s => by simp
  | x :: argv, s => by
    rw [List.foldl_cons, flag_fold step get w hset hkeep argv]
    by_cases h : x = w
    · subst h; rw [hset]; simp
    · rw [hkeep s x h, List.contains_cons]
      have : (w == x) = false := by simpa using fun e => h e.symm
      rw [this, Bool.false_or]

theorem wheel_useUid (argv : List Str) : (argv.foldl wheelArg {}).useUid = argv.contains "use_uid".toList := by
  rw [flag_fold wheelArg WheelOpts.useUid "use_uid".toList (fun _ => rfl), Bool.false_or]
  intro s x hx
  unfold wheelArg
  split
  · rfl
  split
  · rfl
  split
  · rfl
  split
  · rfl
  split <;> rfl

theorem wheel_trust (argv : List Str) : (argv.foldl wheelArg {}).trust = argv.contains "trust".toList := by
  rw [flag_fold wheelArg WheelOpts.trust "trust".toList (fun _ => rfl), Bool.false_or]
  intro s x hx
  unfold wheelArg
  split
  · rfl
  split
  · rfl
  split
  · rfl
  split
  · rfl
  split <;> rfl

theorem wheel_deny (argv : List Str) : (argv.foldl wheelArg {}).deny = argv.contains "deny".toList := by
  rw [flag_fold wheelArg WheelOpts.deny "deny".toList (fun _ => rfl), Bool.false_or]
  intro s x hx
  unfold wheelArg
  split
  · rfl
  split
  · rfl
  split
  · rfl
  split
  · rfl
  split <;> rfl

theorem wheel_rootOnly (argv : List Str) : (argv.foldl wheelArg {}).rootOnly = argv.contains "root_only".toList := by
  rw [flag_fold wheelArg WheelOpts.rootOnly "root_only".toList (fun _ => rfl), Bool.false_or]
  intro s x hx
  unfold wheelArg
  split
  · rfl
  split
  · rfl
  split
  · rfl
  split
  · rfl
  split <;> rfl

theorem wheel_group (argv : List Str) : (Without "group=" argv → (argv.foldl wheelArg {}).group = []) ∧ (∀ v, Last "group=" argv v → (argv.foldl wheelArg {}).group = v) := by
  have h := foldl_last wheelArg WheelOpts.group "group=" (by
    intro s x hx
    unfold wheelArg
    split
    · rfl
    split
    · rfl
    split
    · rfl
    split
    · rfl
    split
    · rfl
    rw [skipPrefix_none.mpr hx]) argv {}
  refine ⟨h.1, fun v hv => ?_⟩
  obtain ⟨p, -, e⟩ := h.2 v hv
  rw [e]
  unfold wheelArg
  rw [if_neg (by simp), if_neg (by simp), if_neg (by simp), if_neg (by simp), if_neg (by simp)]
  rfl

theorem wheelInvoker_iff (a : Accounts) (c : WheelCall) (argv : List Str) (u : User) :
    wheelInvoker a c (argv.foldl wheelArg {}) = some u ↔ Invoker a c argv u := by
  unfold wheelInvoker Invoker
  rw [wheel_useUid]
  by_cases h : "use_uid".toList ∈ argv
  · rw [if_pos h, if_pos (by simpa using h)]
  · rw [if_neg h, if_neg (by simpa using h)]
    cases hl : c.login with
    | some n => simp
    | none =>
      cases hr : c.rhost with
      | some r => simp
      | none => cases c.ruser <;> simp

theorem wheelGroup_iff (a : Accounts) (argv : List Str) (g : Group) : wheelGroup a (argv.foldl wheelArg {}) = some g ↔ TheGroup a argv g := by
  obtain ⟨h1, h2⟩ := wheel_group argv
  have wheel : ((match a.grnam "wheel".toList with
      | some g => some g
      | none => a.grgid 0) = some g) ↔ (a.grnam "wheel".toList = some g ∨ (a.grnam "wheel".toList = none ∧ a.grgid 0 = some g)) := by
    cases a.grnam "wheel".toList <;> simp
  unfold wheelGroup TheGroup
  rcases last_or_without "group=" argv with hw | ⟨v, hv⟩
  · rw [h1 hw, if_pos rfl]
    refine Iff.trans wheel ?_
    constructor
    · exact fun h => Or.inr ⟨Or.inl hw, h⟩
    · rintro (⟨v, hv, -⟩ | ⟨-, h⟩)
      · exact absurd hv (without_last hw)
      · exact h
  · rw [h2 v hv]
    by_cases he : v = []
    · subst he
      rw [if_pos rfl]
      refine Iff.trans wheel ?_
      constructor
      · exact fun h => Or.inr ⟨Or.inr hv, h⟩
      · rintro (⟨w, hw, hne, -⟩ | ⟨-, h⟩)
        · exact absurd (last_unique hw hv) hne
        · exact h
    · rw [if_neg he]
      constructor
      · exact fun h => Or.inl ⟨v, hv, he, h⟩
      · rintro (⟨w, hw, -, h⟩ | ⟨hw | hw, -⟩)
        · rw [last_unique hw hv] at h; exact h
        · exact absurd hv (without_last hw)
        · exact absurd (last_unique hv hw) he

/-! ### the theorems -/

/-- **C84**: what pam_wheel answers, for all options, accounts and groups -/
theorem C84_answer (a : Accounts) (c : WheelCall) (argv : List Str) :
    (c.user.1 ≠ PAM_SUCCESS → wheel a c argv = PAM_SERVICE_ERR) ∧
    (c.user.1 = PAM_SUCCESS → a.pwnam c.user.2 = none → wheel a c argv = PAM_USER_UNKNOWN) ∧
    (∀ target, c.user.1 = PAM_SUCCESS → a.pwnam c.user.2 = some target →
      ("root_only".toList ∈ argv ∧ target.uid ≠ 0 → wheel a c argv = PAM_IGNORE) ∧
      (¬ ("root_only".toList ∈ argv ∧ target.uid ≠ 0) →
        ((¬ ∃ u, Invoker a c argv u) → wheel a c argv = PAM_SERVICE_ERR) ∧
        (∀ u, Invoker a c argv u →
          ((¬ ∃ g, TheGroup a argv g) → wheel a c argv = if "deny".toList ∈ argv then PAM_IGNORE else PAM_AUTH_ERR) ∧
          (∀ g, TheGroup a argv g → Agrees a u g → ∃ member, (member = true ↔ Belongs a u g) ∧
            wheel a c argv = wheelAnswer ("deny".toList ∈ argv) ("trust".toList ∈ argv) member)))) := by
  unfold wheel wheelCheck
  refine ⟨fun h => by rw [if_pos h], fun h1 h2 => by rw [if_neg (fun h => h h1), h2], fun target h1 h2 => ?_⟩
  rw [if_neg (fun h => h h1), h2]
  dsimp only
  rw [wheel_rootOnly, wheel_deny, wheel_trust]
  simp only [List.contains_iff_mem]
  refine ⟨fun h => by rw [if_pos h], fun h => ?_⟩
  rw [if_neg h]
  refine ⟨fun hno => ?_, fun u hu => ?_⟩
  · cases hi : wheelInvoker a c (argv.foldl wheelArg {}) with
    | none => rfl
    | some u => exact absurd ⟨u, (wheelInvoker_iff a c argv u).mp hi⟩ hno
  · rw [(wheelInvoker_iff a c argv u).mpr hu]
    dsimp only
    refine ⟨fun hno => ?_, fun g hg hag => ?_⟩
    · cases hi : wheelGroup a (argv.foldl wheelArg {}) with
      | none => rfl
      | some g => exact absurd ⟨g, (wheelGroup_iff a argv g).mp hi⟩ hno
    · rw [(wheelGroup_iff a argv g).mpr hg]
      dsimp only
      refine ⟨inGroupUidGid a u.uid g.gid, ?_, ?_⟩
      · unfold inGroupUidGid
        rw [inGroup_iff, hag.1, hag.2]
        exact ⟨fun ⟨u', g', e1, e2, h⟩ => by cases e1; cases e2; exact h, fun h => ⟨u, g, rfl, rfl, h⟩⟩
      · unfold wheelAnswer
        generalize "deny".toList = d
        generalize "trust".toList = t
        by_cases hd : d ∈ argv <;> by_cases ht : t ∈ argv <;> cases inGroupUidGid a u.uid g.gid <;> simp [hd, ht]

/-- **C84**: success is given for `trust` only -/
theorem C84_trust (a : Accounts) (c : WheelCall) (argv : List Str) (h : wheel a c argv = PAM_SUCCESS) : "trust".toList ∈ argv := by
  unfold wheel wheelCheck at h
  rw [wheel_trust] at h
  simp only [List.contains_iff_mem] at h
  split at h
  · cases h
  split at h
  · cases h
  split at h
  · cases h
  split at h
  · cases h
  split at h
  · split at h <;> cases h
  split at h
  · split at h
    · cases h
    split at h
    · assumption
    · cases h
  split at h
  · split at h
    · assumption
    · cases h
  · cases h

/-! ### concrete cases -/

/-- root, ann in wheel, bob not; toor has root's id, and eve ann's -/
def wheelAccounts : Accounts where
  pwnam n := if n = "root".toList then some ⟨n, 0, 0, []⟩ else if n = "ann".toList then some ⟨n, 1000, 100, []⟩
    else if n = "bob".toList then some ⟨n, 1001, 100, []⟩ else if n = "eve".toList then some ⟨n, 1000, 101, []⟩ else none
  pwuid u := if u = 0 then some ⟨"root".toList, 0, 0, []⟩ else if u = 1000 then some ⟨"ann".toList, 1000, 100, []⟩
    else if u = 1001 then some ⟨"bob".toList, 1001, 100, []⟩ else none
  grnam g := if g = "wheel".toList then some ⟨g, 10, ["ann".toList]⟩ else none
  grgid g := if g = 10 then some ⟨"wheel".toList, 10, ["ann".toList]⟩ else none
  grouplist n g := if n = "ann".toList then [g, 10] else [g]

def wheelBy (n : String) : WheelCall := ⟨(PAM_SUCCESS, "root".toList), 1000, some n.toList, none, none⟩

example : wheel wheelAccounts (wheelBy "ann") [] = PAM_IGNORE := by decide +kernel
example : wheel wheelAccounts (wheelBy "ann") ["trust".toList] = PAM_SUCCESS := by decide +kernel
example : wheel wheelAccounts (wheelBy "bob") ["trust".toList] = PAM_PERM_DENIED := by decide +kernel
example : wheel wheelAccounts (wheelBy "bob") ["trust".toList, "deny".toList] = PAM_SUCCESS := by decide +kernel
example : wheel wheelAccounts (wheelBy "bob") ["use_uid".toList] = PAM_IGNORE := by decide +kernel
example : wheel wheelAccounts (wheelBy "ann") ["group=adm".toList] = PAM_AUTH_ERR := by decide +kernel
example : Invoker wheelAccounts (wheelBy "ann") [] ⟨"ann".toList, 1000, 100, []⟩ := by
  unfold Invoker; rw [if_neg (by decide)]; exact ⟨"ann".toList, rfl, Or.inl rfl⟩
example : TheGroup wheelAccounts [] ⟨"wheel".toList, 10, ["ann".toList]⟩ := Or.inr ⟨Or.inl nofun, Or.inl rfl⟩
example : Agrees wheelAccounts ⟨"ann".toList, 1000, 100, []⟩ ⟨"wheel".toList, 10, ["ann".toList]⟩ := ⟨rfl, rfl⟩
example : Belongs wheelAccounts ⟨"ann".toList, 1000, 100, []⟩ ⟨"wheel".toList, 10, ["ann".toList]⟩ := Or.inr (Or.inl (by decide))

/-- **C84**, why the databases must agree: eve shares the id of ann.  eve is not in the group, but is let in, because the question is asked about the
first account with that id. -/
theorem C84_alias_counterexample : ∃ (a : Accounts) (c : WheelCall) (u : User) (g : Group), Invoker a c ["trust".toList] u ∧ TheGroup a ["trust".toList] g ∧
    ¬ Belongs a u g ∧ wheel a c ["trust".toList] = PAM_SUCCESS := by
  refine ⟨wheelAccounts, wheelBy "eve", ⟨"eve".toList, 1000, 101, []⟩, ⟨"wheel".toList, 10, ["ann".toList]⟩, ?_, ?_, ?_, by decide +kernel⟩
  · unfold Invoker; rw [if_neg (by decide)]; exact ⟨"eve".toList, rfl, Or.inl rfl⟩
  · exact Or.inr ⟨Or.inl (by unfold Without; decide), Or.inl rfl⟩
  · unfold Belongs; decide

end Pam.Small
