import Verif.Stack.FaillockEval
import Verif.Faillock.ConfigProps
/-
C172: the stacks that pam_faillock(8) recommends lock accounts: configuration file, dispatcher, faillock.conf and tally put
together.
-/
namespace Pam.Stack
open Pam Pam.Config Pam.Config.Spec
open Pam.Faillock (File Conf Opts Kind argsParse act)
open Pam.Faillock.Spec (Event Locked counted fileAfter doEvent Forward unlockAfter Exempt)
open Pam.Dispatch.Spec (Verdict Stack State Module Body Result eval run)

/-! ### Vocabulary -/

/-- A system where the file of the service is `text`, its configuration loads, faillock.conf has the lines `lines` and means
`c`, and the user is one that pam_faillock looks after. -/
structure Setup (text : Str) (sys : Sys) (svc : Str) (lines : List Str) (u : User) (c : Conf) : Prop where
  dir : sys.confdir.isSome ∨ sys.haveDir
  name : ieq svc otherName = false
  opens : openConfig sys svc = some text
  loads : ∃ T, initHandlers sys svc = some T
  conf : argsParse (fun _ => .ok lines) false [] = .ok c
  tracked : c.localOnly = false ∨ u.isLocal = true

/-- what pam_unix says of the password -/
def password (a : Attempt) : Int := a.answer .authenticate "pam_unix.so".toList

/-- what pam_securetty, pam_env and pam_nologin say -/
def gates (a : Attempt) : List Int :=
  ["pam_securetty.so".toList, "pam_env.so".toList, "pam_nologin.so".toList].map (a.answer .authenticate)

/-- they have no objection -/
def Welcome (a : Attempt) : Prop := ∀ r ∈ gates a, r = PAM_SUCCESS ∨ r = PAM_IGNORE

/-- no module asks to be called again -/
def Whole (a : Attempt) : Prop := ∀ fn p, a.answer fn p ≠ PAM_INCOMPLETE

/-- what an attempt through the first stack means for the account -/
def firstEvent (a : Attempt) : Event := if password a = PAM_SUCCESS then .success a.now else .fail a.now a.src

/-- the gates are passed and the password is right: an expired one (PAM_NEW_AUTHTOK_REQD) counts too -/
def Passing (a : Attempt) : Prop :=
  (∀ r ∈ gates a, Passes r) ∧ (password a = PAM_SUCCESS ∨ password a = PAM_NEW_AUTHTOK_REQD)

instance (a : Attempt) : Decidable (Passing a) := by unfold Passing; infer_instance

/-- what an attempt through the second stack means for the account -/
def secondEvents (locked : Bool) (a : Attempt) : List Event :=
  if Passing a ∧ locked = false then [] else [.fail a.now a.src]

instance (a : Attempt) : Decidable (Welcome a) := by unfold Welcome; infer_instance

/-- attempts one after the other: the answers and the final tally -/
def logins (sys : Sys) (svc : Str) (lines : List Str) (u : User) : List Attempt → File → Option (List Int × File)
  | [], f => some ([], f)
  | a :: as, f =>
    match login sys svc lines u a f with
    | none => none
    | some (c, w) => (logins sys svc lines u as w.tally).map (fun r => (c :: r.1, r.2))

/-! ### The options are in range -/

/-- the times that can be written in the file are short -/
def Short (c : Conf) : Prop := c.unlockTime ≤ 604800 ∧ c.rootUnlockTime ≤ 604801

theorem readInterval_short {v : Str} {n : Nat} (h : Faillock.readInterval v = some n) : n ≤ 604800 := by
  unfold Faillock.readInterval at h
  cases hs : Faillock.scanUnsigned 32 v with
  | none => rw [hs] at h; cases h
  | some m =>
    rw [hs] at h
    dsimp only at h
    by_cases hm : Faillock.maxInterval < m
    · rw [if_pos hm] at h; cases h
    · rw [if_neg hm] at h
      cases h
      have : Faillock.maxInterval = 604800 := rfl
      omega

theorem readUnlock_short {v : Str} {n : Nat} (h : Faillock.readUnlock v = some n) : n ≤ 604800 := by
  unfold Faillock.readUnlock at h
  generalize "never".toList = N at h
  by_cases hv : v = N
  · rw [if_pos hv] at h; cases h; omega
  · rw [if_neg hv] at h; exact readInterval_short h

theorem setConfOpt_short {c : Conf} (h : Short c) (n v : Str) : Short (Faillock.setConfOpt c n v) := by
  unfold Faillock.setConfOpt
  generalize "dir".toList = n1
  generalize "deny".toList = n2
  generalize "fail_interval".toList = n3
  generalize "unlock_time".toList = n4
  generalize "root_unlock_time".toList = n5
  generalize "admin_group".toList = n6
  generalize "even_deny_root".toList = n7
  generalize "audit".toList = n8
  generalize "silent".toList = n9
  generalize "no_log_info".toList = n10
  generalize "local_users_only".toList = n11
  generalize "nodelay".toList = n12
  have hb : ∀ {p : Prop} [Decidable p] {x y : Conf}, Short x → Short y → Short (if p then x else y) := by
    intro p _ x y hx hy; by_cases hp : p
    · rw [if_pos hp]; exact hx
    · rw [if_neg hp]; exact hy
  obtain ⟨h1, h2⟩ := h
  have hc : Short c := ⟨h1, h2⟩
  refine hb (hb hc ⟨h1, h2⟩) (hb ?_ (hb ?_ (hb ?_ (hb ?_ (hb ⟨h1, h2⟩ (hb ⟨h1, h2⟩ (hb ⟨h1, h2⟩ (hb ⟨h1, h2⟩ (hb ⟨h1, h2⟩
    (hb ⟨h1, h2⟩ (hb ⟨h1, h2⟩ hc)))))))))))
  · cases Faillock.scanUnsigned 16 v <;> exact ⟨h1, h2⟩
  · cases Faillock.readInterval v <;> exact ⟨h1, h2⟩
  · cases hx : Faillock.readUnlock v with
    | none => exact hc
    | some m => exact ⟨readUnlock_short hx, h2⟩
  · cases hx : Faillock.readUnlock v with
    | none => exact hc
    | some m => exact ⟨h1, Nat.le_succ_of_le (readUnlock_short hx)⟩

theorem settings_short (l : List (Str × Str)) : ∀ {c : Conf}, Short c → Short (l.foldl (fun c s => Faillock.setConfOpt c s.1 s.2) c) := by
  induction l with
  | nil => intro c h; exact h
  | cons x xs ih => intro c h; exact ih (setConfOpt_short h _ _)

theorem conf_short {lines : List Str} {c : Conf} (hc : argsParse (fun _ => .ok lines) false [] = .ok c) :
    c.unlockTime < 2 ^ 32 ∧ c.rootUnlockTime < 2 ^ 32 := by
  unfold argsParse at hc
  have h0 : Short Faillock.defaults := by
    have : Faillock.defaults.unlockTime = 600 := rfl
    have : Faillock.defaults.rootUnlockTime = 604801 := rfl
    constructor <;> omega
  have hs := settings_short (Faillock.readLines lines) h0
  have hl0 : Faillock.lastConf 0 [] = none := rfl
  rw [hl0] at hc
  dsimp only [Option.map_none] at hc
  generalize (Faillock.readLines lines).foldl _ _ = d at hc hs
  have hb : Faillock.argLoop none 0 d [] = d := rfl
  simp only [hb, Bool.false_eq_true, if_false, Except.ok.injEq] at hc
  obtain ⟨k1, k2⟩ := hs
  rw [← hc]
  by_cases hr : d.rootUnlockTime = Faillock.maxInterval + 1
  · rw [if_pos hr]; dsimp only; omega
  · rw [if_neg hr]; omega

/-! ### One pass -/

section
variable {text : Str} {sys : Sys} {svc : Str} {lines : List Str} {u : User} {c : Conf}

/-- pam_faillock in the authentication stack -/
theorem faillock_auth (S : Setup text sys svc lines u c) (a : Attempt) (w : Str) (k : Faillock.Action)
    (hw : (w, k) ∈ [("preauth".toList, Faillock.Action.preauth), ("authsucc".toList, .authsucc), ("authfail".toList, .authfail)])
    (s : World) :
    faillockFn lines u a .authenticate [w] s =
      ((act (optsOf c u) .fine k a.now a.src s.tally).1, ⟨(act (optsOf c u) .fine k a.now a.src s.tally).2, true⟩) := by
  unfold faillockFn
  rw [parse_action lines c w k S.conf hw]
  dsimp only
  have ht : (!c.localOnly || u.isLocal) = true := by
    rcases S.tracked with h | h <;> simp [h]
  unfold Faillock.authenticate
  rw [ht]
  rfl

/-- what pam_faillock answers and does, for the tally of a history -/
theorem act_of (S : Setup text sys svc lines u c) (hd : c.deny ≤ 1024) (h : List Event) (hf : Forward 0 h) (a : Attempt)
    (k : Faillock.Action) :
    (act (optsOf c u) .fine k a.now a.src (fileAfter (optsOf c u) h)).1 =
      if Locked (optsOf c u) (counted (optsOf c u) h) a.now then PAM_AUTH_ERR
      else if k = .authfail then PAM_IGNORE else PAM_SUCCESS := by
  obtain ⟨k1, k2⟩ := conf_short S.conf
  obtain ⟨e1, e2⟩ := Faillock.C38_lockout_partial (optsOf c u) hd k1 k2 h hf a.now k a.src
  by_cases hL : Locked (optsOf c u) (counted (optsOf c u) h) a.now
  · rw [if_pos hL]; exact e1.mpr hL
  · rw [if_neg hL]; exact e2 hL

theorem fileAfter_append (o : Opts) (h : List Event) (e : Event) : fileAfter o (h ++ [e]) = doEvent o (fileAfter o h) e := by
  unfold fileAfter; rw [List.foldl_append]; rfl

theorem gate_cases {a : Attempt} {P : Int → Prop} : (∀ r ∈ gates a, P r) ↔
    P (a.answer .authenticate "pam_securetty.so".toList) ∧ P (a.answer .authenticate "pam_env.so".toList) ∧
      P (a.answer .authenticate "pam_nologin.so".toList) := by
  simp [gates]

/-- Three required lines: what they leave behind. -/
theorem three_gates (dl : Linker World) (a : Attempt) (ha : Whole a) (rest : Tree) (w : World)
    (hdl : ∀ p, p ≠ "pam_faillock.so".toList → p ≠ "pam_deny.so".toList → dl p [] = some (fun w => (a.answer .authenticate p, w))) :
    ∃ s, s.world = w ∧ (Clean s.verdict ↔ Welcome a) ∧ (Bad s.verdict ↔ ¬ ∀ r ∈ gates a, Passes r) ∧
      run false (toStack dl (req "pam_securetty.so".toList [] (req "pam_env.so".toList [] (req "pam_nologin.so".toList [] rest))))
        (fresh w) = eval false .none 0 (toStack dl rest) 3 s := by
  rw [req, toStack_line dl _ _ _ _ _ (hdl _ (by decide) (by decide)), req, toStack_line dl _ _ _ _ _ (hdl _ (by decide) (by decide)),
    req, toStack_line dl _ _ _ _ _ (hdl _ (by decide) (by decide))]
  unfold run
  have hinit : (Dispatch.Spec.init (fresh w)).verdict = .none ∧ (Dispatch.Spec.init (fresh w)).world = w := ⟨rfl, rfl⟩
  generalize Dispatch.Spec.init (fresh w) = s0 at hinit
  obtain ⟨i1, i2⟩ := hinit
  obtain ⟨s1, v1, w1, e1⟩ := line_required (b := .fn (fun w => (a.answer .authenticate "pam_securetty.so".toList, w))) (s := s0)
    ⟨rfl, ha _ _⟩ .none _ 0
  rw [e1]
  obtain ⟨s2, v2, w2, e2⟩ := line_required (b := .fn (fun w => (a.answer .authenticate "pam_env.so".toList, w))) (s := s1)
    ⟨rfl, ha _ _⟩ .none _ (0 + 1)
  rw [e2]
  obtain ⟨s3, v3, w3, e3⟩ := line_required (b := .fn (fun w => (a.answer .authenticate "pam_nologin.so".toList, w))) (s := s2)
    ⟨rfl, ha _ _⟩ .none _ (0 + 1 + 1)
  rw [e3]
  refine ⟨s3, by rw [w3, w2, w1, i2], ?_, ?_, rfl⟩
  · rw [v3, v2, v1, i1, rstep_clean, rstep_clean, rstep_clean, Welcome, gate_cases]
    have : Clean .none := Or.inl rfl
    simp only [this, true_and, and_assoc]
  · rw [v3, v2, v1, i1, rstep_bad, rstep_bad, rstep_bad, gate_cases]
    have : ¬ Bad .none := by rintro ⟨_, h⟩; cases h
    simp only [this, false_or, Classical.not_and_iff_not_or_not, or_assoc]

/-- The end of both stacks after a verdict that is bad: pam_deny. -/
theorem deny_end (dl : Linker World) (hdl : dl "pam_deny.so".toList [] = some (fun w => (PAM_AUTH_ERR, w))) (pos : Nat) (s : State World) :
    ∃ s', Bad s'.verdict ∧ s'.world = s.world ∧
      eval false .none 0 (toStack dl (req "pam_deny.so".toList [] .nil)) pos s = .finished s' := by
  rw [req, toStack_line dl _ _ _ _ _ hdl]
  obtain ⟨s1, v1, w1, e1⟩ := line_required (b := .fn (fun w => (PAM_AUTH_ERR, w))) (s := s) (r := PAM_AUTH_ERR) (w := s.world)
    ⟨rfl, by decide⟩ .none (toStack dl .nil) pos
  rw [e1]
  refine ⟨s1, ?_, w1, rfl⟩
  rw [v1, rstep_bad]
  right; decide

/-- C172, first stack: whatever the other modules answer, an attempt succeeds exactly if pam_securetty, pam_env and pam_nologin
have no objection, the password is right and the account is not locked by the failures that count; and its effect on the tally
is that of a success if the password was right, of a failure otherwise. -/
theorem C172_first_partial (S : Setup firstText sys svc lines u c) (hd : c.deny ≤ 1024) (h : List Event) (hf : Forward 0 h)
    (a : Attempt) (ha : Whole a) :
    ∃ code w, login sys svc lines u a (fileAfter (optsOf c u) h) = some (code, w) ∧
      w.tally = fileAfter (optsOf c u) (h ++ [firstEvent a]) ∧
      (code = PAM_SUCCESS ↔ Welcome a ∧ password a = PAM_SUCCESS ∧ ¬ Locked (optsOf c u) (counted (optsOf c u) h) a.now) := by
  obtain ⟨T, hT⟩ := S.loads
  have hst := firstStack sys svc S.opens
  have hpass := fun s hr => pass_run sys svc T .authenticate (modules lines u a .authenticate)
    ⟨fileAfter (optsOf c u) h, false⟩ S.dir S.name hT rfl (by show (stackOf sys svc .auth).flatten 0 ≠ []; rw [hst]; nofun) s hr
  have hrun : ∃ s, run false (toStack (modules lines u a .authenticate) (stackOf sys svc .auth))
      (fresh ⟨fileAfter (optsOf c u) h, false⟩) = .finished s ∧ s.world.tally = fileAfter (optsOf c u) (h ++ [firstEvent a]) ∧
      (s.verdict.code = PAM_SUCCESS ↔
        Welcome a ∧ password a = PAM_SUCCESS ∧ ¬ Locked (optsOf c u) (counted (optsOf c u) h) a.now) := by
    rw [hst]
    obtain ⟨s3, w3, c3, b3, e3⟩ := three_gates (modules lines u a .authenticate) a ha
      (.line .module (actionsOf "success=1 default=bad".toList) (some "pam_unix.so".toList) []
      (.line .module (actionsOf "default=die".toList) (some "pam_faillock.so".toList) ["authfail".toList]
      (.line .module (actionsOf "sufficient".toList) (some "pam_faillock.so".toList) ["authsucc".toList]
      (req "pam_deny.so".toList [] .nil)))) ⟨fileAfter (optsOf c u) h, false⟩
      (fun p h1 h2 => modules_other lines u a _ p [] h1 h2)
    rw [e3, toStack_line _ _ _ _ _ _ (modules_other lines u a .authenticate "pam_unix.so".toList [] (by decide) (by decide)),
      toStack_line _ _ _ _ _ _ (modules_faillock lines u a .authenticate ["authfail".toList]),
      toStack_line _ _ _ _ _ _ (modules_faillock lines u a .authenticate ["authsucc".toList])]
    have hdeny := deny_end (modules lines u a .authenticate) (modules_deny lines u a .authenticate [])
    generalize toStack (modules lines u a .authenticate) (req "pam_deny.so".toList [] .nil) = tl at hdeny ⊢
    by_cases hp : password a = PAM_SUCCESS
    · -- the password is right: over authfail to authsucc
      have hans : Answers (.fn (fun w => (a.answer .authenticate "pam_unix.so".toList, w))) s3 PAM_SUCCESS s3.world :=
        ⟨by show (password a, s3.world) = _; rw [hp], by decide⟩
      obtain ⟨s4, v4, w4, e4⟩ := line_jump hans (actionsOf "success=1 default=bad".toList) .none
        (.mod ⟨.fn (faillockFn lines u a .authenticate ["authfail".toList]), actionsOf "default=die".toList⟩
        (.mod ⟨.fn (faillockFn lines u a .authenticate ["authsucc".toList]), actionsOf "sufficient".toList⟩ tl)) 3 1
        (by decide) unixControl_success (by decide)
      rw [e4]
      have hfa := faillock_auth S a "authsucc".toList .authsucc (by simp) s4.world
      have htally : s4.world.tally = fileAfter (optsOf c u) h := by rw [w4, w3]
      have hact := act_of S hd h hf a .authsucc
      have hev : firstEvent a = .success a.now := by unfold firstEvent; rw [if_pos hp]
      have hfile : (act (optsOf c u) .fine .authsucc a.now a.src (fileAfter (optsOf c u) h)).2 =
          fileAfter (optsOf c u) (h ++ [firstEvent a]) := by rw [hev, fileAfter_append]; rfl
      rw [htally, hact, hfile] at hfa
      rw [eval]
      by_cases hL : Locked (optsOf c u) (counted (optsOf c u) h) a.now
      · rw [if_pos hL] at hfa
        obtain ⟨s5, -, b5, w5, e5⟩ := line_sufficient_no (b := .fn (faillockFn lines u a .authenticate ["authsucc".toList]))
          (s := s4) ⟨hfa, by decide⟩ .none tl (3 + 1 + 1) (by decide) (by decide)
        rw [e5]
        obtain ⟨s6, b6, w6, e6⟩ := hdeny (3 + 1 + 1 + 1) s5
        rw [e6]
        refine ⟨s6, rfl, by rw [w6, w5], ?_⟩
        exact ⟨fun h => absurd h b6.code, fun h => absurd hL h.2.2⟩
      · rw [if_neg hL] at hfa
        simp only [reduceCtorEq, if_false] at hfa
        obtain ⟨s5, v5, w5, e5⟩ := line_sufficient_yes (b := .fn (faillockFn lines u a .authenticate ["authsucc".toList]))
          (s := s4) ⟨hfa, by decide⟩ .none tl (3 + 1 + 1) (Or.inl rfl)
        rw [e5]
        by_cases hb : Bad s3.verdict
        · have hacc : s4.verdict.accept PAM_SUCCESS = s3.verdict := by rw [v4]; exact hb.accept _
          have hng : (s4.verdict.accept PAM_SUCCESS).isGood = false := by
            rw [hacc]; obtain ⟨k, hk⟩ := hb; rw [hk]; rfl
          rw [hng]
          simp only [Bool.false_eq_true, if_false]
          obtain ⟨s6, b6, w6, e6⟩ := hdeny (3 + 1 + 1 + 1) s5
          rw [e6]
          refine ⟨s6, rfl, by rw [w6, w5], ?_⟩
          refine ⟨fun h => absurd h b6.code, fun h => absurd hb (clean_not_bad (c3.mpr h.1))⟩
        · rw [v4, accept_good hb]
          simp only [if_true]
          refine ⟨s5, rfl, by rw [w5], ?_⟩
          rw [v5, v4, accept_success hb, c3]
          exact ⟨fun h => ⟨h, hp, hL⟩, fun h => h.1⟩
    · -- it is not
      have hev : firstEvent a = .fail a.now a.src := by unfold firstEvent; rw [if_neg hp]
      have hans : Answers (.fn (fun w => (a.answer .authenticate "pam_unix.so".toList, w))) s3 (password a) s3.world :=
        ⟨rfl, ha _ _⟩
      have hbad : password a < 0 ∨ 32 ≤ password a ∨ actionsOf "success=1 default=bad".toList (password a).toNat = ACT_BAD := by
        by_cases h1 : password a < 0
        · exact Or.inl h1
        · by_cases h2 : 32 ≤ password a
          · exact Or.inr (Or.inl h2)
          · have : ¬ password a = 0 := hp
            exact Or.inr (Or.inr (unixControl_bad _ (by omega) (by omega)))
      obtain ⟨s4, v4, w4, e4⟩ := line_bad hans (actionsOf "success=1 default=bad".toList) .none
        (.mod ⟨.fn (faillockFn lines u a .authenticate ["authfail".toList]), actionsOf "default=die".toList⟩
        (.mod ⟨.fn (faillockFn lines u a .authenticate ["authsucc".toList]), actionsOf "sufficient".toList⟩ tl)) 3 hbad
      rw [e4]
      have hfa := faillock_auth S a "authfail".toList .authfail (by simp) s4.world
      have htally : s4.world.tally = fileAfter (optsOf c u) h := by rw [w4, w3]
      have hact := act_of S hd h hf a .authfail
      have hfile : (act (optsOf c u) .fine .authfail a.now a.src (fileAfter (optsOf c u) h)).2 =
          fileAfter (optsOf c u) (h ++ [firstEvent a]) := by rw [hev, fileAfter_append]; rfl
      rw [htally, hact, hfile] at hfa
      have hcode : (if Locked (optsOf c u) (counted (optsOf c u) h) a.now then PAM_AUTH_ERR
          else if Faillock.Action.authfail = .authfail then PAM_IGNORE else PAM_SUCCESS) = PAM_AUTH_ERR ∨
          (if Locked (optsOf c u) (counted (optsOf c u) h) a.now then PAM_AUTH_ERR
          else if Faillock.Action.authfail = .authfail then PAM_IGNORE else PAM_SUCCESS) = PAM_IGNORE := by
        by_cases hL : Locked (optsOf c u) (counted (optsOf c u) h) a.now
        · left; rw [if_pos hL]
        · right; rw [if_neg hL, if_pos rfl]
      generalize (if Locked (optsOf c u) (counted (optsOf c u) h) a.now then PAM_AUTH_ERR
          else if Faillock.Action.authfail = .authfail then PAM_IGNORE else PAM_SUCCESS) = rc at hfa hcode
      obtain ⟨s5, v5, w5, e5⟩ := line_die (b := .fn (faillockFn lines u a .authenticate ["authfail".toList]))
        (s := s4) ⟨hfa, by rcases hcode with rfl | rfl <;> decide⟩ (actionsOf "default=die".toList) .none
        (.mod ⟨.fn (faillockFn lines u a .authenticate ["authsucc".toList]), actionsOf "sufficient".toList⟩ tl) (3 + 1)
        (by rcases hcode with rfl | rfl <;> decide) (by rcases hcode with rfl | rfl <;> exact dieControl_die _ (by decide))
      rw [e5]
      refine ⟨s5, rfl, by rw [w5], ?_⟩
      have hb5 : Bad s5.verdict := by rw [v5]; exact bad_reject _ _
      exact ⟨fun h => absurd h hb5.code, fun h => absurd h.2.1 hp⟩
  obtain ⟨s, hr, ht, hc⟩ := hrun
  exact ⟨_, _, hpass s hr, ht, hc⟩

/-- C172, second stack, authentication: the same condition for success.  An attempt counts as a failure unless the gates are
passed, the password is right and the account is not locked. -/
theorem C172_second_partial (S : Setup secondText sys svc lines u c) (hd : c.deny ≤ 1024) (h : List Event) (hf : Forward 0 h)
    (a : Attempt) (ha : Whole a) :
    ∃ code w, login sys svc lines u a (fileAfter (optsOf c u) h) = some (code, w) ∧ w.executed = true ∧
      w.tally = fileAfter (optsOf c u)
        (h ++ secondEvents (decide (Locked (optsOf c u) (counted (optsOf c u) h) a.now)) a) ∧
      (code = PAM_SUCCESS ↔ Welcome a ∧ password a = PAM_SUCCESS ∧ ¬ Locked (optsOf c u) (counted (optsOf c u) h) a.now) := by
  obtain ⟨T, hT⟩ := S.loads
  have hst := secondStack sys svc S.opens
  have hpass := fun s hr => pass_run sys svc T .authenticate (modules lines u a .authenticate)
    ⟨fileAfter (optsOf c u) h, false⟩ S.dir S.name hT rfl (by show (stackOf sys svc .auth).flatten 0 ≠ []; rw [hst]; nofun) s hr
  have hfail : fileAfter (optsOf c u) (h ++ [.fail a.now a.src]) =
      (act (optsOf c u) .fine .authfail a.now a.src (fileAfter (optsOf c u) h)).2 := by
    rw [fileAfter_append]
    rfl
  have hrun : ∃ s, run false (toStack (modules lines u a .authenticate) (stackOf sys svc .auth))
      (fresh ⟨fileAfter (optsOf c u) h, false⟩) = .finished s ∧ s.world.executed = true ∧
      s.world.tally = fileAfter (optsOf c u)
        (h ++ secondEvents (decide (Locked (optsOf c u) (counted (optsOf c u) h) a.now)) a) ∧
      (s.verdict.code = PAM_SUCCESS ↔
        Welcome a ∧ password a = PAM_SUCCESS ∧ ¬ Locked (optsOf c u) (counted (optsOf c u) h) a.now) := by
    rw [hst]
    obtain ⟨s3, w3, c3, b3, e3⟩ := three_gates (modules lines u a .authenticate) a ha
      (req "pam_faillock.so".toList ["preauth".toList]
      (.line .module (actionsOf "sufficient".toList) (some "pam_unix.so".toList) []
      (.line .module (actionsOf "default=die".toList) (some "pam_faillock.so".toList) ["authfail".toList]
      (req "pam_deny.so".toList [] .nil)))) ⟨fileAfter (optsOf c u) h, false⟩
      (fun p h1 h2 => modules_other lines u a _ p [] h1 h2)
    rw [e3, req, toStack_line _ _ _ _ _ _ (modules_faillock lines u a .authenticate ["preauth".toList]),
      toStack_line _ _ _ _ _ _ (modules_other lines u a .authenticate "pam_unix.so".toList [] (by decide) (by decide)),
      toStack_line _ _ _ _ _ _ (modules_faillock lines u a .authenticate ["authfail".toList])]
    generalize toStack (modules lines u a .authenticate) (req "pam_deny.so".toList [] .nil) = tl
    -- preauth
    have hfa := faillock_auth S a "preauth".toList .preauth (by simp) s3.world
    have htally : s3.world.tally = fileAfter (optsOf c u) h := by rw [w3]
    have hact := act_of S hd h hf a .preauth
    have hfile : (act (optsOf c u) .fine .preauth a.now a.src (fileAfter (optsOf c u) h)).2 = fileAfter (optsOf c u) h := rfl
    rw [htally, hact, hfile] at hfa
    simp only [reduceCtorEq, if_false] at hfa
    obtain ⟨s4, v4, w4, e4⟩ := line_required (b := .fn (faillockFn lines u a .authenticate ["preauth".toList])) (s := s3)
      (r := if Locked (optsOf c u) (counted (optsOf c u) h) a.now then PAM_AUTH_ERR else PAM_SUCCESS)
      ⟨hfa, by split <;> decide⟩ .none
      (.mod ⟨.fn (fun w => (a.answer .authenticate "pam_unix.so".toList, w)), actionsOf "sufficient".toList⟩
      (.mod ⟨.fn (faillockFn lines u a .authenticate ["authfail".toList]), actionsOf "default=die".toList⟩ tl)) 3
    rw [e4]
    have hbad4 : Bad s4.verdict ↔ (¬ ∀ r ∈ gates a, Passes r) ∨ Locked (optsOf c u) (counted (optsOf c u) h) a.now := by
      rw [v4, rstep_bad, b3]
      by_cases hL : Locked (optsOf c u) (counted (optsOf c u) h) a.now
      · have k : ¬ Passes PAM_AUTH_ERR := by decide
        simp only [hL, if_true, k, not_false_eq_true]
      · have k : Passes PAM_SUCCESS := by decide
        simp only [hL, if_false, k, not_true_eq_false]
    have hclean4 : Clean s4.verdict ↔ Welcome a ∧ ¬ Locked (optsOf c u) (counted (optsOf c u) h) a.now := by
      rw [v4, rstep_clean, c3]
      by_cases hL : Locked (optsOf c u) (counted (optsOf c u) h) a.now
      · have k : ¬ (PAM_AUTH_ERR = PAM_SUCCESS ∨ PAM_AUTH_ERR = PAM_IGNORE) := by decide
        simp only [hL, if_true, k, and_false, not_true_eq_false]
      · rw [if_neg hL]
        exact ⟨fun h => ⟨h.1, hL⟩, fun h => ⟨h.1, Or.inl rfl⟩⟩
    -- a run of authfail ends the stack with a failure
    have hend : ∀ s : State World, s.world = ⟨fileAfter (optsOf c u) h, true⟩ → ∀ pos, ∃ s',
        eval false .none 0 (.mod ⟨.fn (faillockFn lines u a .authenticate ["authfail".toList]), actionsOf "default=die".toList⟩ tl) pos s =
          .finished s' ∧ s'.world = ⟨fileAfter (optsOf c u) (h ++ [.fail a.now a.src]), true⟩ ∧ Bad s'.verdict := by
      intro s hs pos
      have hfa := faillock_auth S a "authfail".toList .authfail (by simp) s.world
      have hact := act_of S hd h hf a .authfail
      rw [hs] at hfa
      dsimp only at hfa
      rw [hact, ← hfail] at hfa
      have hcode : (if Locked (optsOf c u) (counted (optsOf c u) h) a.now then PAM_AUTH_ERR
          else if Faillock.Action.authfail = .authfail then PAM_IGNORE else PAM_SUCCESS) = PAM_AUTH_ERR ∨
          (if Locked (optsOf c u) (counted (optsOf c u) h) a.now then PAM_AUTH_ERR
          else if Faillock.Action.authfail = .authfail then PAM_IGNORE else PAM_SUCCESS) = PAM_IGNORE := by
        by_cases hL : Locked (optsOf c u) (counted (optsOf c u) h) a.now
        · left; rw [if_pos hL]
        · right; rw [if_neg hL, if_pos rfl]
      generalize (if Locked (optsOf c u) (counted (optsOf c u) h) a.now then PAM_AUTH_ERR
          else if Faillock.Action.authfail = .authfail then PAM_IGNORE else PAM_SUCCESS) = rc at hfa hcode
      obtain ⟨s5, v5, w5, e5⟩ := line_die (b := .fn (faillockFn lines u a .authenticate ["authfail".toList]))
        (s := s) (r := rc) (w := ⟨fileAfter (optsOf c u) (h ++ [.fail a.now a.src]), true⟩)
        ⟨by rw [hs]; exact hfa, by rcases hcode with rfl | rfl <;> decide⟩ (actionsOf "default=die".toList) .none tl pos
        (by rcases hcode with rfl | rfl <;> decide) (by rcases hcode with rfl | rfl <;> exact dieControl_die _ (by decide))
      exact ⟨s5, e5, w5, by rw [v5]; exact bad_reject _ _⟩
    have hans : Answers (.fn (fun w => (a.answer .authenticate "pam_unix.so".toList, w))) s4 (password a) s4.world := ⟨rfl, ha _ _⟩
    by_cases hp : password a = PAM_SUCCESS ∨ password a = PAM_NEW_AUTHTOK_REQD
    · obtain ⟨s5, v5, w5, e5⟩ := line_sufficient_yes hans .none
        (.mod ⟨.fn (faillockFn lines u a .authenticate ["authfail".toList]), actionsOf "default=die".toList⟩ tl) (3 + 1) hp
      rw [e5]
      by_cases hb : Bad s4.verdict
      · have hng : (s4.verdict.accept (password a)).isGood = false := by
          rw [hb.accept]; obtain ⟨k, hk⟩ := hb; rw [hk]; rfl
        rw [hng]
        simp only [Bool.false_eq_true, if_false]
        obtain ⟨s6, e6, w6, b6⟩ := hend s5 (by rw [w5, w4]) (3 + 1 + 1)
        rw [e6]
        have hev : secondEvents (decide (Locked (optsOf c u) (counted (optsOf c u) h) a.now)) a = [.fail a.now a.src] := by
          unfold secondEvents
          rw [if_neg]
          rintro ⟨⟨hg, -⟩, hl⟩
          rcases hbad4.mp hb with h1 | h1
          · exact h1 hg
          · rw [decide_eq_true h1] at hl; cases hl
        refine ⟨s6, rfl, by rw [w6], by rw [w6, hev], ?_⟩
        refine ⟨fun h => absurd h b6.code, fun h => absurd hb (clean_not_bad (hclean4.mpr ⟨h.1, h.2.2⟩))⟩
      · rw [accept_good hb]
        simp only [if_true]
        have hok : (∀ r ∈ gates a, Passes r) ∧ ¬ Locked (optsOf c u) (counted (optsOf c u) h) a.now :=
          ⟨Classical.byContradiction (fun h => hb (hbad4.mpr (Or.inl h))), fun h => hb (hbad4.mpr (Or.inr h))⟩
        have hev : secondEvents (decide (Locked (optsOf c u) (counted (optsOf c u) h) a.now)) a = [] := by
          unfold secondEvents
          rw [if_pos ⟨⟨hok.1, hp⟩, decide_eq_false hok.2⟩]
        refine ⟨s5, rfl, by rw [w5, w4], by rw [w5, w4, hev, List.append_nil], ?_⟩
        rw [v5]
        by_cases hps : password a = PAM_SUCCESS
        · rw [hps, accept_success hb, hclean4]
          exact ⟨fun h => ⟨h.1, rfl, h.2⟩, fun h => ⟨h.1, h.2.2⟩⟩
        · have hpn : password a = PAM_NEW_AUTHTOK_REQD := hp.resolve_left hps
          refine ⟨fun h => ?_, fun h => absurd h.2.1 hps⟩
          rw [hpn] at h
          exfalso
          cases hv : s4.verdict with
          | none => rw [hv] at h; exact absurd h (by decide)
          | good d =>
            rw [hv] at h
            by_cases hd : d = PAM_SUCCESS
            · subst hd; exact absurd h (by decide)
            · simp only [Verdict.accept, if_neg hd, Verdict.code] at h
              exact hd h
          | bad d => exact hb ⟨d, hv⟩
    · have hp1 : password a ≠ PAM_SUCCESS := fun h => hp (Or.inl h)
      have hp2 : password a ≠ PAM_NEW_AUTHTOK_REQD := fun h => hp (Or.inr h)
      obtain ⟨s5, -, -, w5, e5⟩ := line_sufficient_no hans .none
        (.mod ⟨.fn (faillockFn lines u a .authenticate ["authfail".toList]), actionsOf "default=die".toList⟩ tl) (3 + 1) hp1 hp2
      rw [e5]
      obtain ⟨s6, e6, w6, b6⟩ := hend s5 (by rw [w5, w4]) (3 + 1 + 1)
      rw [e6]
      have hev : secondEvents (decide (Locked (optsOf c u) (counted (optsOf c u) h) a.now)) a = [.fail a.now a.src] := by
        unfold secondEvents
        rw [if_neg (fun h => hp h.1.2)]
      exact ⟨s6, rfl, by rw [w6], by rw [w6, hev], fun h => absurd h b6.code, fun h => absurd h.2.1 hp1⟩
  obtain ⟨s, hr, hx, ht, hc⟩ := hrun
  exact ⟨_, _, hpass s hr, hx, ht, hc⟩

/-- C172, second stack, account phase of the same login: it clears the tally, and succeeds exactly if pam_unix has no
objection. -/
theorem C172_second_account (S : Setup secondText sys svc lines u c) (h : List Event) (a : Attempt) (ha : Whole a) :
    ∃ code, account sys svc lines u a ⟨fileAfter (optsOf c u) h, true⟩ =
        some (code, ⟨fileAfter (optsOf c u) (h ++ [.account a.acctTime]), true⟩) ∧
      (code = PAM_SUCCESS ↔
        a.answer .acctMgmt "pam_unix.so".toList = PAM_SUCCESS ∨ a.answer .acctMgmt "pam_unix.so".toList = PAM_IGNORE) := by
  obtain ⟨T, hT⟩ := S.loads
  have hst := secondAccount sys svc S.opens
  have hpass := fun s hr => pass_run sys svc T .acctMgmt (modules lines u a .acctMgmt)
    ⟨fileAfter (optsOf c u) h, true⟩ S.dir S.name hT rfl (by show (stackOf sys svc .acct).flatten 0 ≠ []; rw [hst]; nofun) s hr
  have hrun : ∃ s, run false (toStack (modules lines u a .acctMgmt) (stackOf sys svc .acct))
      (fresh ⟨fileAfter (optsOf c u) h, true⟩) = .finished s ∧
      s.world = ⟨fileAfter (optsOf c u) (h ++ [.account a.acctTime]), true⟩ ∧
      (s.verdict.code = PAM_SUCCESS ↔
        a.answer .acctMgmt "pam_unix.so".toList = PAM_SUCCESS ∨ a.answer .acctMgmt "pam_unix.so".toList = PAM_IGNORE) := by
    rw [hst, req, toStack_line _ _ _ _ _ _ (modules_faillock lines u a .acctMgmt []), req,
      toStack_line _ _ _ _ _ _ (modules_other lines u a .acctMgmt "pam_unix.so".toList [] (by decide) (by decide))]
    unfold run
    have hinit : (Dispatch.Spec.init (fresh (⟨fileAfter (optsOf c u) h, true⟩ : World))).verdict = .none ∧
        (Dispatch.Spec.init (fresh (⟨fileAfter (optsOf c u) h, true⟩ : World))).world = ⟨fileAfter (optsOf c u) h, true⟩ := ⟨rfl, rfl⟩
    generalize Dispatch.Spec.init (fresh (⟨fileAfter (optsOf c u) h, true⟩ : World)) = s0 at hinit
    obtain ⟨i1, i2⟩ := hinit
    have hfa : faillockFn lines u a .acctMgmt [] s0.world =
        (PAM_SUCCESS, ⟨fileAfter (optsOf c u) (h ++ [.account a.acctTime]), true⟩) := by
      unfold faillockFn
      rw [S.conf, i2]
      dsimp only
      have ht : (!c.localOnly || u.isLocal) = true := by
        rcases S.tracked with h | h <;> simp [h]
      rw [ht, fileAfter_append]
      unfold Faillock.acctMgmt doEvent Faillock.acctMgmt
      rfl
    obtain ⟨s1, v1, w1, e1⟩ := line_required (b := .fn (faillockFn lines u a .acctMgmt [])) (s := s0)
      ⟨hfa, by decide⟩ .none
      (.mod ⟨.fn (fun w => (a.answer .acctMgmt "pam_unix.so".toList, w)), actionsOf "required".toList⟩
        (toStack (modules lines u a .acctMgmt) .nil)) 0
    rw [e1]
    obtain ⟨s2, v2, w2, e2⟩ := line_required (b := .fn (fun w => (a.answer .acctMgmt "pam_unix.so".toList, w))) (s := s1)
      ⟨rfl, ha _ _⟩ .none (toStack (modules lines u a .acctMgmt) .nil) (0 + 1)
    rw [e2]
    refine ⟨s2, rfl, by rw [w2, w1], ?_⟩
    have hg : s1.verdict = .good PAM_SUCCESS := by rw [v1, i1]; rfl
    have hx : s2.verdict.code = PAM_SUCCESS ↔ Clean s2.verdict := by
      rw [v2, hg]
      generalize a.answer .acctMgmt "pam_unix.so".toList = r
      unfold rstep
      by_cases h1 : r = PAM_SUCCESS ∨ r = PAM_NEW_AUTHTOK_REQD
      · rw [if_pos h1]; rcases h1 with rfl | rfl <;> simp [Verdict.accept, Verdict.code, Clean]
      · rw [if_neg h1]
        by_cases h2 : r = PAM_IGNORE
        · rw [if_pos h2]; simp [Verdict.code, Clean]
        · rw [if_neg h2]
          have hb := bad_reject (.good PAM_SUCCESS) (badCode r)
          exact ⟨fun h => absurd h hb.code, fun h => absurd hb (clean_not_bad h)⟩
    rw [hx, v2, rstep_clean, hg]
    have : Clean (.good PAM_SUCCESS) := Or.inr rfl
    simp only [this, true_and]
  obtain ⟨s, hr, hw, hc⟩ := hrun
  have := hpass s hr
  rw [hw] at this
  exact ⟨_, this, hc⟩

/-- an attempt as an application makes it: pam_authenticate and, after success, pam_acct_mgmt -/
def attempt (sys : Sys) (svc : Str) (lines : List Str) (u : User) (a : Attempt) (f : File) : Option (Int × File) :=
  match login sys svc lines u a f with
  | none => none
  | some (c, w) =>
    if c = PAM_SUCCESS then (account sys svc lines u a w).map (fun r => (r.1, r.2.tally)) else some (c, w.tally)

/-- what it means for the account: a lock that holds, a gate that refuses or a wrong password is a failure, a good login
clears the tally -/
def attemptEvents (locked : Bool) (a : Attempt) : List Event :=
  if Welcome a ∧ password a = PAM_SUCCESS ∧ locked = false then [.account a.acctTime] else secondEvents locked a

/-- C172, second stack, both phases: the attempt succeeds exactly if it is welcome, the password is right, the account is not
locked and pam_unix does not object in the account phase. -/
theorem C172_second_attempt_partial (S : Setup secondText sys svc lines u c) (hd : c.deny ≤ 1024) (h : List Event)
    (hf : Forward 0 h) (a : Attempt) (ha : Whole a) :
    ∃ code, attempt sys svc lines u a (fileAfter (optsOf c u) h) = some (code, fileAfter (optsOf c u)
        (h ++ attemptEvents (decide (Locked (optsOf c u) (counted (optsOf c u) h) a.now)) a)) ∧
      (code = PAM_SUCCESS ↔ (Welcome a ∧ password a = PAM_SUCCESS ∧ ¬ Locked (optsOf c u) (counted (optsOf c u) h) a.now) ∧
        (a.answer .acctMgmt "pam_unix.so".toList = PAM_SUCCESS ∨ a.answer .acctMgmt "pam_unix.so".toList = PAM_IGNORE)) := by
  obtain ⟨code, w, e1, e2, e3, e4⟩ := C172_second_partial S hd h hf a ha
  unfold attempt attemptEvents
  rw [e1]
  dsimp only
  by_cases hc : code = PAM_SUCCESS
  · have hg := e4.mp hc
    obtain ⟨k, k1, k2⟩ := C172_second_account S h a ha
    have hw : w = ⟨fileAfter (optsOf c u) h, true⟩ := by
      cases w
      dsimp only at e2 e3
      subst e2
      rw [e3]
      unfold secondEvents
      have hp : Passing a := ⟨fun r hr => (hg.1 r hr).elim Or.inl (fun h => Or.inr (Or.inr h)), Or.inl hg.2.1⟩
      rw [if_pos ⟨hp, decide_eq_false hg.2.2⟩, List.append_nil]
    refine ⟨k, ?_, ?_⟩
    · rw [if_pos hc, if_pos ⟨hg.1, hg.2.1, decide_eq_false hg.2.2⟩, hw, k1]
      rfl
    · rw [k2]; exact ⟨fun h => ⟨hg, h⟩, fun h => h.2⟩
  · refine ⟨code, ?_, ?_⟩
    · rw [if_neg hc, if_neg (fun h => hc (e4.mpr ⟨h.1, h.2.1, of_decide_eq_false h.2.2⟩)), e3]
    · exact ⟨fun h => absurd h hc, fun h => absurd (e4.mpr h.1) hc⟩

/-! ### Histories -/

theorem forward_prefix (l1 l2 : List Event) : ∀ last, Forward last (l1 ++ l2) → Forward last l1 := by
  induction l1 with
  | nil => intro last _; trivial
  | cons e es ih =>
    intro last h
    rw [List.cons_append] at h
    unfold Forward at h ⊢
    cases he : e.time with
    | none => rw [he] at h; exact ih last h
    | some t => rw [he] at h; exact ⟨h.1, h.2.1, h.2.2.1, ih t h.2.2.2⟩

/-- C172, first stack: any sequence of attempts.  Each succeeds exactly if it is welcome, has the right password and comes when
the account is not locked by what happened before. -/
theorem C172_first_history_partial (S : Setup firstText sys svc lines u c) (hd : c.deny ≤ 1024) (as : List Attempt)
    (ha : ∀ a ∈ as, Whole a) : ∀ h : List Event, Forward 0 (h ++ as.map firstEvent) →
    ∃ codes, logins sys svc lines u as (fileAfter (optsOf c u) h) =
        some (codes, fileAfter (optsOf c u) (h ++ as.map firstEvent)) ∧ codes.length = as.length ∧
      ∀ i a, as[i]? = some a → (codes[i]? = some PAM_SUCCESS ↔ Welcome a ∧ password a = PAM_SUCCESS ∧
        ¬ Locked (optsOf c u) (counted (optsOf c u) (h ++ (as.take i).map firstEvent)) a.now) := by
  induction as with
  | nil => intro h _; exact ⟨[], by simp [logins], rfl, fun i a hi => by simp at hi⟩
  | cons a as ih =>
    intro h hf
    obtain ⟨code, w, e1, e2, e3⟩ := C172_first_partial S hd h (forward_prefix _ _ 0 hf) a (ha a (List.mem_cons_self ..))
    have hf' : Forward 0 ((h ++ [firstEvent a]) ++ as.map firstEvent) := by
      rw [List.append_assoc]; exact hf
    obtain ⟨codes, f1, f2, f3⟩ := ih (fun b hb => ha b (List.mem_cons_of_mem _ hb)) _ hf'
    refine ⟨code :: codes, ?_, by simp [f2], ?_⟩
    · rw [logins, e1]
      dsimp only
      rw [e2, f1]
      simp
    · intro i b hi
      cases i with
      | zero =>
        simp only [List.getElem?_cons_zero, Option.some.injEq] at hi
        subst hi
        simpa using e3
      | succ i =>
        rw [List.getElem?_cons_succ] at hi
        rw [List.getElem?_cons_succ, f3 i b hi]
        simp

/-- One attempt with a wrong password, through either stack. -/
theorem wrong_password (ht : text = firstText ∨ text = secondText) (S : Setup text sys svc lines u c) (hd : c.deny ≤ 1024)
    (h : List Event) (hf : Forward 0 h) (a : Attempt) (ha : Whole a)
    (hp : password a ≠ PAM_SUCCESS) (hn : text = firstText ∨ ¬ Passing a) :
    ∃ code w, login sys svc lines u a (fileAfter (optsOf c u) h) = some (code, w) ∧ code ≠ PAM_SUCCESS ∧
      w.tally = fileAfter (optsOf c u) (h ++ [.fail a.now a.src]) := by
  by_cases h1 : text = firstText
  · subst h1
    obtain ⟨code, w, e1, e2, e3⟩ := C172_first_partial S hd h hf a ha
    refine ⟨code, w, e1, fun h => hp (e3.mp h).2.1, ?_⟩
    rw [e2]; unfold firstEvent; rw [if_neg hp]
  · have h2 := ht.resolve_left h1
    subst h2
    obtain ⟨code, w, e1, -, e2, e3⟩ := C172_second_partial S hd h hf a ha
    refine ⟨code, w, e1, fun h => hp (e3.mp h).2.1, ?_⟩
    rw [e2]; unfold secondEvents; rw [if_neg (fun h => (hn.resolve_left h1) h.1)]

/-- Attempts that fail, one after the other. -/
theorem failed_logins (S : Setup text sys svc lines u c) (bad : List Attempt)
    (hstep : ∀ a ∈ bad, ∀ h, Forward 0 h → ∃ code w, login sys svc lines u a (fileAfter (optsOf c u) h) = some (code, w) ∧
      code ≠ PAM_SUCCESS ∧ w.tally = fileAfter (optsOf c u) (h ++ [.fail a.now a.src])) :
    ∀ h, Forward 0 (h ++ bad.map (fun a => Event.fail a.now a.src)) → ∃ codes,
      logins sys svc lines u bad (fileAfter (optsOf c u) h) =
        some (codes, fileAfter (optsOf c u) (h ++ bad.map (fun a => Event.fail a.now a.src))) ∧ PAM_SUCCESS ∉ codes := by
  induction bad with
  | nil => intro h _; exact ⟨[], by simp [logins], by simp⟩
  | cons a as ih =>
    intro h hf
    obtain ⟨code, w, e1, e2, e3⟩ := hstep a (List.mem_cons_self ..) h (forward_prefix _ _ 0 hf)
    have hf' : Forward 0 ((h ++ [.fail a.now a.src]) ++ as.map (fun a => Event.fail a.now a.src)) := by
      rw [List.append_assoc]; exact hf
    obtain ⟨codes, f1, f2⟩ := ih (fun b hb => hstep b (List.mem_cons_of_mem _ hb)) _ hf'
    refine ⟨code :: codes, ?_, ?_⟩
    · rw [logins, e1]
      dsimp only
      rw [e3, f1]
      simp
    · rw [List.mem_cons]
      rintro (h | h)
      · exact e2 h.symm
      · exact f2 h

/-- the condition for success is the same in both stacks -/
theorem success_iff (ht : text = firstText ∨ text = secondText) (S : Setup text sys svc lines u c) (hd : c.deny ≤ 1024)
    (h : List Event) (hf : Forward 0 h) (a : Attempt) (ha : Whole a) :
    ∃ code w, login sys svc lines u a (fileAfter (optsOf c u) h) = some (code, w) ∧
      (code = PAM_SUCCESS ↔ Welcome a ∧ password a = PAM_SUCCESS ∧ ¬ Locked (optsOf c u) (counted (optsOf c u) h) a.now) := by
  rcases ht with rfl | rfl
  · obtain ⟨code, w, e1, -, e3⟩ := C172_first_partial S hd h hf a ha
    exact ⟨code, w, e1, e3⟩
  · obtain ⟨code, w, e1, -, -, e3⟩ := C172_second_partial S hd h hf a ha
    exact ⟨code, w, e1, e3⟩

/-- C172: with either stack, `deny` attempts with a wrong password within `fail_interval`, on an account that was clear, lock
it: every later attempt fails, even with the right password, until `unlock_time` has passed since the last of them; after that
the right password works again. -/
theorem C172_locks_partial (ht : text = firstText ∨ text = secondText) (S : Setup text sys svc lines u c) (hd : c.deny ≤ 1024)
    (hpos : 0 < c.deny) (hx : ¬ Exempt (optsOf c u)) (h : List Event) (hclear : counted (optsOf c u) h = [])
    (bad : List Attempt) (hw : ∀ a ∈ bad, Whole a)
    (hbad : ∀ a ∈ bad, password a ≠ PAM_SUCCESS ∧ password a ≠ PAM_NEW_AUTHTOK_REQD) (hn : bad.length = c.deny)
    (last : Nat) (hlast : last ∈ bad.map (·.now)) (hin : ∀ a ∈ bad, a.now ≤ last ∧ last - a.now < c.failInterval)
    (hf : Forward 0 (h ++ bad.map (fun a => Event.fail a.now a.src))) :
    ∃ codes f, logins sys svc lines u bad (fileAfter (optsOf c u) h) = some (codes, f) ∧ PAM_SUCCESS ∉ codes ∧
      ∀ a, Whole a → ∃ code w, login sys svc lines u a f = some (code, w) ∧
        (code = PAM_SUCCESS ↔ Welcome a ∧ password a = PAM_SUCCESS ∧
          unlockAfter (optsOf c u) ≠ 0 ∧ last + unlockAfter (optsOf c u) < a.now) := by
  obtain ⟨codes, e1, e2⟩ := failed_logins S bad (fun a ha h hf => wrong_password ht S hd h hf a (hw a ha) (hbad a ha).1
    (Or.inr (fun hp => hp.2.elim (hbad a ha).1 (hbad a ha).2))) h hf
  refine ⟨codes, _, e1, e2, ?_⟩
  intro a ha
  obtain ⟨code, w, k1, k2⟩ := success_iff ht S hd _ hf a ha
  refine ⟨code, w, k1, ?_⟩
  rw [k2]
  have hmap : bad.map (fun a => Event.fail a.now a.src) = (bad.map (fun a => (a.now, a.src))).map (fun e => Event.fail e.1 e.2) := by
    rw [List.map_map]; rfl
  have hL := Faillock.C38_locks (optsOf c u) hx h hclear (bad.map (fun a => (a.now, a.src))) (by rw [List.length_map]; exact hn) hpos last
    (by rw [List.map_map]; exact hlast) (by
      intro e he
      obtain ⟨b, hb, rfl⟩ := List.mem_map.mp he
      exact hin b hb) a.now
  rw [hmap, hL]
  constructor
  · rintro ⟨g1, g2, g3⟩
    refine ⟨g1, g2, fun h0 => g3 (Or.inl h0), ?_⟩
    have := fun hle => g3 (Or.inr hle)
    omega
  · rintro ⟨g1, g2, g3, g4⟩
    refine ⟨g1, g2, ?_⟩
    rintro (h0 | h0)
    · exact g3 h0
    · omega

end

/-! ### The configuration of the manual -/

/-- what faillock.conf says -/
theorem confLines_mean : argsParse (fun _ => .ok confLines) false [] =
    .ok ⟨.preauth, 4, 900, 1200, 1200, none, none, false, false, true, false, false, false⟩ := by
  have h : (argsParse (fun _ => .ok confLines) false []).toOption =
      some ⟨.preauth, 4, 900, 1200, 1200, none, none, false, false, true, false, false, false⟩ := by decide +kernel
  cases hx : argsParse (fun _ => .ok confLines) false [] with
  | error k => rw [hx] at h; cases h
  | ok c => rw [hx] at h; rw [Option.some.inj h]

/-- a system with one configuration file -/
def oneFile (name : String) (t : Str) : Sys where
  fs := fun p => if p = "/etc/pam.d/".toList ++ name.toList then some t else none
  confdir := none
  dirs := ["/etc/pam.d/".toList]
  haveDir := true

/-- The hypotheses can be met: the system with the first example as the file `login`. -/
theorem first_setup (u : User) : Setup firstText (oneFile "login" firstText) "login".toList confLines u
    ⟨.preauth, 4, 900, 1200, 1200, none, none, false, false, true, false, false, false⟩ where
  dir := Or.inr rfl
  name := by decide
  opens := by decide +kernel
  loads := Option.isSome_iff_exists.mp (by decide +kernel)
  conf := confLines_mean
  tracked := Or.inl rfl

/-- The system with the second example. -/
theorem second_setup (u : User) : Setup secondText (oneFile "login" secondText) "login".toList confLines u
    ⟨.preauth, 4, 900, 1200, 1200, none, none, false, false, true, false, false, false⟩ where
  dir := Or.inr rfl
  name := by decide
  opens := by decide +kernel
  loads := Option.isSome_iff_exists.mp (by decide +kernel)
  conf := confLines_mean
  tracked := Or.inl rfl

theorem four_forward (e1 e2 e3 e4 : Nat × Kind × Str) (h0 : 0 < e1.1) (h1 : e1.1 ≤ e2.1) (h2 : e2.1 ≤ e3.1) (h3 : e3.1 ≤ e4.1)
    (h4 : e4.1 < 2 ^ 63) :
    Forward 0 [.fail e1.1 e1.2, .fail e2.1 e2.2, .fail e3.1 e3.2, .fail e4.1 e4.2] :=
  ⟨Nat.zero_le _, h0, by omega, h1, by omega, by omega, h2, by omega, by omega, h3, by omega, h4, trivial⟩

/-- C172 with the numbers of the manual: four wrong passwords within a quarter of an hour lock the account of a user for twenty
minutes. -/
theorem C172_manual (t : Str) (ht : t = firstText ∨ t = secondText) (isLocal : Bool) (a1 a2 a3 a4 : Attempt)
    (hw : ∀ a ∈ [a1, a2, a3, a4], Whole a)
    (hbad : ∀ a ∈ [a1, a2, a3, a4], password a ≠ PAM_SUCCESS ∧ password a ≠ PAM_NEW_AUTHTOK_REQD)
    (h0 : 0 < a1.now) (h1 : a1.now ≤ a2.now) (h2 : a2.now ≤ a3.now) (h3 : a3.now ≤ a4.now) (hq : a4.now - a1.now < 900)
    (hmax : a4.now < 2 ^ 63) :
    ∃ codes f, logins (oneFile "login" t) "login".toList confLines ⟨false, isLocal⟩ [a1, a2, a3, a4] none = some (codes, f) ∧
      PAM_SUCCESS ∉ codes ∧
      ∀ a, Whole a → ∃ code w, login (oneFile "login" t) "login".toList confLines ⟨false, isLocal⟩ a f = some (code, w) ∧
        (code = PAM_SUCCESS ↔ Welcome a ∧ password a = PAM_SUCCESS ∧ a4.now + 1200 < a.now) := by
  have S : Setup t (oneFile "login" t) "login".toList confLines ⟨false, isLocal⟩
      ⟨.preauth, 4, 900, 1200, 1200, none, none, false, false, true, false, false, false⟩ := by
    rcases ht with rfl | rfl
    · exact first_setup _
    · exact second_setup _
  have := C172_locks_partial ht S (by decide) (by decide) (by simp [Exempt, optsOf]) [] rfl [a1, a2, a3, a4] hw hbad rfl a4.now
    (by simp) (by
      intro a ha
      simp only [List.mem_cons, List.not_mem_nil, or_false] at ha
      rcases ha with rfl | rfl | rfl | rfl <;> dsimp only <;> omega)
    (four_forward (a1.now, a1.src) (a2.now, a2.src) (a3.now, a3.src) (a4.now, a4.src) h0 h1 h2 h3 hmax)
  obtain ⟨codes, f, e1, e2, e3⟩ := this
  refine ⟨codes, f, e1, e2, fun a ha => ?_⟩
  obtain ⟨code, w, k1, k2⟩ := e3 a ha
  refine ⟨code, w, k1, k2.trans ?_⟩
  have hu : unlockAfter (optsOf ⟨.preauth, 4, 900, 1200, 1200, none, none, false, false, true, false, false, false⟩ ⟨false, isLocal⟩) = 1200 := rfl
  rw [hu]
  constructor
  · rintro ⟨g1, g2, -, g3⟩; exact ⟨g1, g2, g3⟩
  · rintro ⟨g1, g2, g3⟩; exact ⟨g1, g2, by decide, g3⟩

/-- an attempt at a time with the given answer of pam_nologin and of pam_unix; the other modules succeed -/
def attemptAt (t : Nat) (nologin unix : Int) : Attempt where
  now := t
  acctTime := t
  src := (.tty, "tty1".toList)
  answer := fun fn p =>
    if fn = .authenticate ∧ p = "pam_nologin.so".toList then nologin
    else if fn = .authenticate ∧ p = "pam_unix.so".toList then unix else PAM_SUCCESS

/-- the hypotheses of `C172_manual` can be met -/
example : (∀ a ∈ [attemptAt 1000 0 7, attemptAt 1100 0 7, attemptAt 1200 0 7, attemptAt 1300 0 7], Whole a) ∧
    Welcome (attemptAt 1400 0 0) ∧ password (attemptAt 1400 0 0) = PAM_SUCCESS ∧ password (attemptAt 1000 0 7) = 7 := by
  refine ⟨?_, gate_cases.mpr (by decide +kernel), by decide +kernel, by decide +kernel⟩
  intro a ha fn p
  simp only [List.mem_cons, List.not_mem_nil, or_false] at ha
  rcases ha with rfl | rfl | rfl | rfl <;> (unfold attemptAt; dsimp only; split; decide; split <;> decide)

/-- Only wrong passwords count as failures: false of the second stack.  While pam_nologin refuses logins, a user who gives the
right password each time is locked out, and still is when logins are allowed again.  (`sufficient` ends the stack only if no
required module before it failed, so authfail is reached.) -/
theorem C172_right_password_counterexample :
    ∃ codes f, logins (oneFile "login" secondText) "login".toList confLines ⟨false, true⟩
        [attemptAt 1000 7 0, attemptAt 1100 7 0, attemptAt 1200 7 0, attemptAt 1300 7 0] none = some (codes, f) ∧
      ∃ code w, login (oneFile "login" secondText) "login".toList confLines ⟨false, true⟩ (attemptAt 1400 0 0) f = some (code, w) ∧
        code ≠ PAM_SUCCESS := by
  have S := second_setup ⟨false, true⟩
  have hwh : ∀ t n, n = 0 ∨ n = 7 → Whole (attemptAt t n 0) := by
    intro t n hn fn p
    unfold attemptAt
    dsimp only
    split
    · rcases hn with rfl | rfl <;> decide
    · split <;> decide
  have hnp : ∀ t, ¬ Passing (attemptAt t 7 0) := by
    rintro t ⟨hg, -⟩
    have h7 : (attemptAt t 7 0).answer .authenticate "pam_nologin.so".toList = 7 := by
      unfold attemptAt; dsimp only; rw [if_pos ⟨rfl, rfl⟩]
    have := (gate_cases.mp hg).2.2
    rw [h7] at this
    exact absurd this (by decide)
  have hstep : ∀ t, ∀ h, Forward 0 h → ∃ code w, login (oneFile "login" secondText) "login".toList confLines ⟨false, true⟩
      (attemptAt t 7 0) (fileAfter (optsOf ⟨.preauth, 4, 900, 1200, 1200, none, none, false, false, true, false, false, false⟩ ⟨false, true⟩) h) = some (code, w) ∧
      code ≠ PAM_SUCCESS ∧ w.tally = fileAfter (optsOf ⟨.preauth, 4, 900, 1200, 1200, none, none, false, false, true, false, false, false⟩ ⟨false, true⟩)
        (h ++ [.fail (attemptAt t 7 0).now (attemptAt t 7 0).src]) := by
    intro t h hf
    obtain ⟨code, w, e1, -, e2, e3⟩ := C172_second_partial S (by decide) h hf (attemptAt t 7 0) (hwh _ _ (Or.inr rfl))
    refine ⟨code, w, e1, ?_, ?_⟩
    · intro hc
      refine hnp t ⟨fun r hr => ?_, Or.inl (e3.mp hc).2.1⟩
      rcases (e3.mp hc).1 r hr with h | h
      · exact Or.inl h
      · exact Or.inr (Or.inr h)
    · rw [e2]; unfold secondEvents; rw [if_neg (fun h => hnp t h.1)]
  have four := four_forward (1000, .tty, "tty1".toList) (1100, .tty, "tty1".toList) (1200, .tty, "tty1".toList)
    (1300, .tty, "tty1".toList) (by decide) (by decide) (by decide) (by decide) (by decide)
  obtain ⟨codes, e1, -⟩ := failed_logins S [attemptAt 1000 7 0, attemptAt 1100 7 0, attemptAt 1200 7 0, attemptAt 1300 7 0] (by
    intro a ha
    simp only [List.mem_cons, List.not_mem_nil, or_false] at ha
    rcases ha with rfl | rfl | rfl | rfl <;> exact hstep _) [] four
  refine ⟨codes, _, e1, ?_⟩
  obtain ⟨code, w, k1, k2⟩ := success_iff (Or.inr rfl) S (by decide)
    ([] ++ [attemptAt 1000 7 0, attemptAt 1100 7 0, attemptAt 1200 7 0, attemptAt 1300 7 0].map (fun a => Event.fail a.now a.src))
    four (attemptAt 1400 0 0) (hwh _ _ (Or.inl rfl))
  refine ⟨code, w, k1, fun hc => (k2.mp hc).2.2 ?_⟩
  decide +kernel

/-- "Root account will be locked as well" (modules/pam_faillock/pam_faillock.8.xml:261-262): not with this faillock.conf, which
lacks `even_deny_root`.  Whatever attempts have been made on the account of an administrator, the right password works. -/
theorem C172_root_counterexample (isLocal : Bool) (as : List Attempt) (ha : ∀ a ∈ as, Whole a)
    (hf : Forward 0 (as.map firstEvent)) :
    ∃ codes f, logins (oneFile "login" firstText) "login".toList confLines ⟨true, isLocal⟩ as none = some (codes, f) ∧
      ∀ a, Whole a → ∃ code w, login (oneFile "login" firstText) "login".toList confLines ⟨true, isLocal⟩ a f = some (code, w) ∧
        (code = PAM_SUCCESS ↔ Welcome a ∧ password a = PAM_SUCCESS) := by
  have S := first_setup ⟨true, isLocal⟩
  obtain ⟨codes, e1, -, -⟩ := C172_first_history_partial S (by decide) as ha [] hf
  refine ⟨codes, _, e1, fun a hw => ?_⟩
  obtain ⟨code, w, k1, -, k2⟩ := C172_first_partial S (by decide) _ hf a hw
  refine ⟨code, w, k1, k2.trans ⟨fun h => ⟨h.1, h.2.1⟩, fun h => ⟨h.1, h.2, fun hL => hL.1 ?_⟩⟩⟩
  simp [Exempt, optsOf]

end Pam.Stack
