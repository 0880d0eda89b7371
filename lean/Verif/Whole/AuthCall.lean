import Verif.Whole.Runs
import Verif.Whole.LoginSpec
import Verif.Handle.Lift
/-
pam_authenticate on a handle whose stack has the one line `required pam_unix.so`.
-/
namespace Pam.Whole
open Pam Pam.Handle
open Pam.Stack (Line Smooth walk walk_required rstep fileLinesOf)
open Pam.Config (otherName)

variable {W : Type}

/-! ### the codes of pam_unix -/

/-- the codes an authentication by pam_unix ends with -/
abbrev Ordinary (c : Int) : Prop :=
  c ∈ [PAM_SUCCESS, PAM_SYSTEM_ERR, PAM_BUF_ERR, PAM_AUTH_ERR, PAM_AUTHINFO_UNAVAIL, PAM_USER_UNKNOWN, PAM_MAXTRIES, PAM_CONV_ERR, PAM_AUTHTOK_ERR]

theorem ordinary_rstep {c : Int} (h : Ordinary c) : (rstep .none c).code = c := by
  unfold Ordinary at h
  simp only [List.mem_cons, List.not_mem_nil, or_false] at h
  rcases h with rfl | rfl | rfl | rfl | rfl | rfl | rfl | rfl | rfl <;> decide

theorem ordinary_whole {c : Int} (h : Ordinary c) : c ≠ PAM_INCOMPLETE := by
  rintro rfl; exact absurd h (by decide)

theorem chkpwd_ordinary {s : Unix.Sys} {q : Unix.Proc} {i : Unix.Stdin} {args : List Str} {e : Unix.Exit} (h : Unix.chkpwd s q i false args = some e)
    (ho : ∀ user, args ≠ [user, "chkexpiry".toList]) : Ordinary e.code := by
  have has : ∀ q user opt, opt ≠ "chkexpiry".toList → Unix.chkpwdAs s q i user opt = some e → Ordinary e.code := by
    intro q user opt hopt h
    unfold Unix.chkpwdAs at h
    rw [if_neg hopt] at h
    split at h
    · split at h
      · cases h
      · simp only at h
        split at h
        · split at h <;> cases h <;> decide
        · cases h; decide
    · cases h; decide
  unfold Unix.chkpwd at h
  split at h
  · rename_i user opt _
    have hopt : opt ≠ "chkexpiry".toList := fun x => ho user (by rw [x])
    split at h
    · split at h
      · cases h; decide
      · exact has _ _ _ hopt h
    · exact has _ _ _ hopt h
  · cases h; decide

theorem runHelper_ordinary {s : Unix.Sys} {b : Unix.Bin} {l : Unix.Luck} {p : Unix.Proc} {pw : Option Str} {ctrl : Unix.Ctrl} {name : Str} {code : Int}
    (h : Unix.runHelper s b l p pw ctrl name = some code) : Ordinary code := by
  unfold Unix.runHelper at h
  split at h
  · cases h; decide
  split at h
  · cases h; decide
  simp only at h
  cases hc : Unix.childRun s b l p (Unix.sent l pw) [name, if Unix.off Unix.UNIX__NONULL ctrl then "nullok".toList else "nonull".toList] none with
  | none => rw [hc] at h; cases h
  | some e =>
    rw [hc] at h
    simp only [Option.some.injEq] at h
    have he : Ordinary e.code := by
      rcases Unix.child_cases s b l p (Unix.sent l pw) [name, if Unix.off Unix.UNIX__NONULL ctrl then "nullok".toList else "nonull".toList] none with
        ⟨o, h1, -, -⟩ | ⟨q, -, h1⟩
      · rw [hc] at h1
        cases h1
        show Ordinary PAM_AUTHINFO_UNAVAIL
        decide
      · rw [hc] at h1
        refine chkpwd_ordinary h1.symm ?_
        intro user hu
        simp only [List.cons.injEq, and_true] at hu
        rcases Unix.opt_word ctrl with ho | ho <;> rw [ho] at hu <;> exact absurd hu.2 (by decide)
    rw [← h]
    split
    · decide
    split
    · decide
    · exact he

theorem verdict_ordinary {s : Unix.Sys} {b : Unix.Bin} {l : Unix.Luck} {p : Unix.Proc} {ctrl : Unix.Ctrl} {name pw : Str} {rv : Int}
    (h : Unix.verdict s b l p ctrl name pw = some rv) : Ordinary rv := by
  unfold Unix.verdict at h
  have hm : (Unix.moduleHash s name).1 = PAM_USER_UNKNOWN ∨ (Unix.moduleHash s name).1 = Unix.RUN_HELPER ∨ (Unix.moduleHash s name).1 = PAM_SUCCESS := by
    unfold Unix.moduleHash
    split
    · exact Or.inl rfl
    · split
      · exact Or.inr (Or.inl rfl)
      · exact Or.inr (Or.inr rfl)
  generalize Unix.moduleHash s name = x at h hm
  obtain ⟨a, salt⟩ := x
  dsimp only at h hm
  by_cases h1 : a = Unix.RUN_HELPER
  · rw [if_pos h1] at h; exact runHelper_ordinary h
  · rw [if_neg h1] at h
    by_cases h2 : a = PAM_SUCCESS
    · rw [if_neg (not_not_intro h2)] at h
      have e := Option.some.inj h
      rw [← e]
      unfold Unix.verifyHash
      dsimp only
      repeat' split
      all_goals decide
    · rw [if_pos h2] at h
      have e := Option.some.inj h
      rcases hm with hm | hm | hm
      · rw [← e, hm]; decide
      · exact absurd hm h1
      · exact absurd hm h2

theorem count_ordinary {fails : Unix.Fails} {name : Str} {rv : Int} (h : Ordinary rv) : Ordinary (Unix.count fails name rv).1 := by
  unfold Unix.count
  split
  · exact h
  · dsimp only
    split
    · dsimp only
      split
      · decide
      · exact h
    · exact h

theorem authenticate_ordinary {s : Unix.Sys} {b : Unix.Bin} {l : Nat → Unix.Luck} {p : Unix.Proc} {ctrl : Unix.Ctrl} {fails : Unix.Fails} {user tok : Int × Str}
    {r : Unix.AuthRes} (h : Unix.authenticate s b l p ctrl fails user tok = some r) (hu : Ordinary user.1) (ht : Ordinary tok.1) : Ordinary r.code := by
  unfold Unix.authenticate at h
  split at h
  · split at h
    · cases h; dsimp only; decide
    · split at h
      · cases h
      · cases h; dsimp only; decide
      · split at h
        · cases h
          dsimp only
          split
          · exact ht
          · rename_i hne
            have : tok.1 = PAM_CONV_AGAIN := by simpa using hne
            rw [this] at ht
            exact absurd ht (by decide)
        · obtain ⟨q, hq, rfl⟩ := Option.map_eq_some_iff.mp h
          obtain ⟨rv, hv, rfl⟩ := Option.map_eq_some_iff.mp hq
          exact count_ordinary (verdict_ordinary hv)
  · cases h
    dsimp only
    split
    · rename_i he
      rw [he] at hu
      exact absurd hu (by decide)
    · exact hu

theorem tokOf_ordinary (r : Reply) : Ordinary (tokOf r).1 := by
  unfold tokOf
  split
  · decide
  · split
    · dsimp only; decide
    · decide

/-! ### the question for the name -/

/-- what the answer to the question for the name comes to -/
def userOf (r : Reply) : Int × Str :=
  if convCode r.1 = PAM_SUCCESS then
    match r.2.bind id with
    | some u => (PAM_SUCCESS, u)
    | none => (PAM_CONV_ERR, [])
  else (convCode r.1, [])

/-- the question for the name -/
def askedName (r : Reply) : Talk := ⟨.echoOn, "login:".toList, r.1, r.2.bind id⟩

/-- pam_get_user when no name is known yet -/
theorem getUser_ask {cv : Convs W} {s : S W} (hu : s.inner.user = none) (hf : s.inner.failUser = PAM_SUCCESS) (hw : s.inner.wantUser = false)
    (hp : s.inner.prompt = none) (hagain : (cv s.inner.conv .echoOn "login:".toList s.world).1.1 ≠ PAM_CONV_AGAIN) :
    ∃ s1 v, effect cv (.getUser none true true) s = some ({ code := (userOf (cv s.inner.conv .echoOn "login:".toList s.world).1).1, value := v }, s1) ∧
      ((userOf (cv s.inner.conv .echoOn "login:".toList s.world).1).1 = PAM_SUCCESS →
        v = .str (userOf (cv s.inner.conv .echoOn "login:".toList s.world).1).2 ∧
        s1.inner = { s.inner with user := some (userOf (cv s.inner.conv .echoOn "login:".toList s.world).1).2 }) ∧
      s1.world = (cv s.inner.conv .echoOn "login:".toList s.world).2 ∧
      s1.talk = s.talk ++ [askedName (cv s.inner.conv .echoOn "login:".toList s.world).1] ∧
      (∃ u f, s1.inner = { s.inner with user := u, failUser := f }) := by
  have e1 : userPromptOf s.inner none = "login:".toList := by
    unfold userPromptOf; rw [hp]; rfl
  have e2 : resumeUser s.inner = s.inner := by
    unfold resumeUser; rw [if_neg (by rw [hw]; decide)]
  have e3 : getUser cv none true true s = ((userReply "login:".toList true true (converse cv .echoOn "login:".toList s).1 s.inner).1,
      (userReply "login:".toList true true (converse cv .echoOn "login:".toList s).1 s.inner).2.1,
      { (converse cv .echoOn "login:".toList s).2 with inner := (userReply "login:".toList true true (converse cv .echoOn "login:".toList s).1 s.inner).2.2 }) := by
    unfold getUser
    rw [hu]
    simp only [e1, e2]
    rw [if_neg (by rw [hf]; simp), if_neg (by rw [hw]; simp)]
  unfold askedName
  generalize "login:".toList = P at e3 hagain ⊢
  unfold effect
  dsimp only
  rw [e3]
  unfold converse
  dsimp only
  generalize hr : cv s.inner.conv .echoOn P s.world = r at hagain ⊢
  have hne : convCode r.1.1 ≠ PAM_CONV_AGAIN := by
    unfold convCode
    split
    · exact hagain
    · decide
  unfold userReply userOf
  rw [if_neg hne]
  by_cases hs : convCode r.1.1 = PAM_SUCCESS
  · rw [if_pos hs, if_pos hs]
    cases ha : r.1.2.bind id with
    | none => exact ⟨_, _, rfl, fun h => absurd h (by decide), rfl, rfl, ⟨s.inner.user, PAM_CONV_ERR, rfl⟩⟩
    | some u =>
      have k : setItem s.inner PAM_USER (.str u) true true = (PAM_SUCCESS, { s.inner with user := some u }) := by
        show putItem s.inner .user (.str u) true true = _
        unfold putItem storeStr Value.toStr trySet
        simp only [if_true]
        rw [← hf]
      dsimp only
      rw [k]
      exact ⟨_, _, rfl, fun _ => ⟨rfl, rfl⟩, rfl, rfl, ⟨some u, s.inner.failUser, rfl⟩⟩
  · rw [if_neg hs, if_neg hs]
    exact ⟨_, _, rfl, fun h => absurd h hs, rfl, rfl, ⟨s.inner.user, convCode r.1.1, rfl⟩⟩

theorem getUser_known {cv : Convs W} {s : S W} {name : Str} (hu : s.inner.user = some name) :
    effect cv (.getUser none true true) s = some ({ code := PAM_SUCCESS, value := .str name }, s) := by
  unfold effect getUser
  rw [hu]
  rfl

/-! ### the call -/

/-- the handle after an authentication: the user is known, no token is left, data of modules and the delay may have changed -/
def Settled (i j : Inner) (user : Option Str) (fail : Int) : Prop :=
  ∃ delay data nextId cleaned, j = { i with
    user := user, failUser := fail, authtok := none, oldauthtok := none, caller := .app, chauthtok := false, modArgs := [], delaySet := false
    delay := delay, data := data, nextId := nextId, cleaned := cleaned }

/-- what the module finds -/
def onStage (args : List Str) (h : Handle W) : S W :=
  { (entered .authenticate (begin false h)).s with inner := { (entered .authenticate (begin false h)).s.inner with modArgs := args } }

theorem onStage_eq {h : Handle W} (hi : h.former = none) (args : List Str) : onStage args h =
    { h.m.s with inner := { h.inner with authtok := none, oldauthtok := none, caller := .module, chauthtok := false, modArgs := args } } := by
  unfold onStage entered begin
  rw [hi]
  unfold Handle.onInner
  simp only [sanitize_eq]
  rfl

/-- one call of pam_authenticate, from what the module does -/
theorem authenticate_line {lib : Lib W} {host : W → Host} {svc : Str} {h : Handle W} (hr : Ready lib svc h)
    (hdir : lib.sys.confdir.isSome ∨ lib.sys.haveDir) (hsvc : ieq svc otherName = false) (path : Str) (args : List Str)
    (hl : fileLinesOf lib.sys svc .auth = some [⟨.required, path, args⟩]) (hm : lib.modules .authenticate path = some (unixAuth host))
    (flags : Nat) {c : Int} {s' : S W} (hruns : Runs lib.conv (unixAuth host flags args) (onStage args h) c s') (hc : Ordinary c) :
    ∃ h', run lib .authenticate flags h = some (c, h') ∧ h'.m.s.world = s'.world ∧ h'.m.s.talk = s'.talk ∧
      h'.inner = { s'.inner with modArgs := [], caller := .app, authtok := none, oldauthtok := none, delaySet := false } ∧
      h'.former = none ∧ h'.tables = h.tables := by
  have hb : Ready lib svc (begin false h) := by
    unfold begin
    rw [hr.idle]
    unfold Handle.onInner
    exact ⟨hr.loaded, hr.tables, hr.idle, hr.app⟩
  have hcall := runs_call (lib := lib) (m := entered .authenticate (begin false h)) (argv := args) hruns
  have hmods : modsOf lib .authenticate flags path args (entered .authenticate (begin false h)) =
      callProg lib (unixAuth host flags args) args (entered .authenticate (begin false h)) := by
    unfold modsOf; rw [hm]
  obtain ⟨h1, d1, d2, d3, d4, -⟩ := dispatch_lines hb hdir hsvc .authenticate rfl flags [⟨.required, path, args⟩] hl (by simp)
    (by intro l hl; rw [List.mem_singleton.mp hl]; rw [hm]; rfl)
    (by unfold Smooth; refine ⟨?_, trivial⟩; dsimp only; rw [hmods, hcall.1]; exact ordinary_whole hc)
  rw [walk_required] at d1 d2
  dsimp only at d1 d2
  rw [hmods, hcall.1, ordinary_rstep hc] at d1
  rw [hmods] at d2
  unfold left at d2
  rw [hcall.2] at d2
  have hrun : run lib .authenticate flags h = authenticate lib flags h := by
    unfold run refused
    rw [if_neg (by rw [hr.app]; decide)]
  refine ⟨await c (h1.onInner sanitize), ?_, ?_, ?_, ?_, d3, ?_⟩
  · rw [hrun]
    unfold authenticate
    rw [d1]
    simp only [Option.map_some, if_pos (ordinary_whole hc)]
  · show h1.m.s.world = _
    rw [d2]
  · show h1.m.s.talk = _
    rw [d2]
  · show { sanitize h1.m.s.inner with delaySet := false } = _
    rw [d2]
    simp only [sanitize_eq]
  · show h1.tables = _
    rw [d4]
    unfold begin
    rw [hr.idle]
    rfl

/-- pam_authenticate, once the user is known -/
theorem authenticate_named {lib : Lib W} {host : W → Host} (hst : Still host lib) {svc : Str} {h : Handle W} (hr : Ready lib svc h)
    (hdir : lib.sys.confdir.isSome ∨ lib.sys.haveDir) (hsvc : ieq svc otherName = false) (path : Str) (args : List Str)
    (hl : fileLinesOf lib.sys svc .auth = some [⟨.required, path, args⟩]) (hm : lib.modules .authenticate path = some (unixAuth host))
    (hown : getOption args "use_first_pass".toList = none) (flags : Nat) {ctrl : Unix.Ctrl} (hctrl : unixCtrl (host h.m.s.world) flags args = some ctrl)
    {name : Str} {s1 : S W}
    (hu : effect lib.conv (.getUser none true true) (onStage args h) = some ({ code := PAM_SUCCESS, value := .str name }, s1))
    (hs1 : s1.inner = { (onStage args h).inner with user := some name }) (hw1 : host s1.world = host h.m.s.world) {r : Unix.AuthRes}
    (hauth : Unix.authenticate (host h.m.s.world).sys (host h.m.s.world).bin (host h.m.s.world).luck (host h.m.s.world).proc ctrl (failsOf h.inner)
      (PAM_SUCCESS, name) (tokOf (lib.conv h.inner.conv .echoOff "Password: ".toList s1.world).1) = some r) :
    ∃ h', run lib .authenticate flags h = some (r.code, h') ∧ Ready lib svc h' ∧ Settled h.inner h'.inner (some name) h.inner.failUser ∧
      h'.m.s.world = (if r.asked then (lib.conv h.inner.conv .echoOff "Password: ".toList s1.world).2 else s1.world) ∧
      h'.m.s.talk = (if r.asked then s1.talk ++ [askedPw (lib.conv h.inner.conv .echoOff "Password: ".toList s1.world).1] else s1.talk) ∧
      failsOf h'.inner = r.fails ∧ savedOf h'.inner = some (r.code.toNat : Int) := by
  have hord := authenticate_ordinary hauth (show Ordinary PAM_SUCCESS by decide) (tokOf_ordinary _)
  rw [onStage_eq hr.idle] at hs1
  have hconv : s1.inner.conv = h.inner.conv := by rw [hs1]
  have hfails : failsOf s1.inner = failsOf h.inner := by rw [hs1]; rfl
  rw [← hw1, ← hconv, ← hfails] at hauth
  obtain ⟨s', b1, b2, b3, b4, b5, b6⟩ := named_runs (cv := lib.conv) (host := host) (s := s1) (args := args)
    ⟨by rw [hs1], by rw [hs1], by rw [hs1], by rw [hs1], hown⟩ (hst _ _ _ _) ctrl name hauth
  have hruns : Runs lib.conv (unixAuth host flags args) (onStage args h) r.code s' := by
    unfold unixAuth
    refine runs_look ?_
    have : (onStage args h).world = h.m.s.world := by rw [onStage_eq hr.idle]
    rw [this, hctrl]
    refine runs_api hu ?_
    dsimp only
    rw [if_pos rfl]
    exact b1
  obtain ⟨h', a1, a2, a3, a4, a5, a6⟩ := authenticate_line hr hdir hsvc path args hl hm flags hruns hord
  obtain ⟨x1, x2, x3, x4, x5, x6, hx⟩ := b2
  rw [hx, hs1] at a4
  have hfd : failsOf h'.inner = failsOf s'.inner := by rw [a4, hx]; rfl
  have hsd : savedOf h'.inner = savedOf s'.inner := by rw [a4, hx]; rfl
  refine ⟨h', a1, ⟨?_, by rw [a6]; exact hr.tables, a5, by rw [a4]⟩, ⟨x3, x4, x5, x6, a4⟩, ?_, ?_, by rw [hfd, b3], by rw [hsd, b4]⟩
  · rw [a4]; exact hr.loaded
  · rw [a2, b5, hconv]
  · rw [a3, b6, hconv]

end Pam.Whole
