import Verif.Whole.ChangeRuns
/-
The two passes of the password function of pam_unix, as the model of the module describes them.
-/
namespace Pam.Whole
open Pam Pam.Handle Pam.Handle.Spec

variable {W : Type}

/-! ### the answers of the helper -/

theorem aging_code {e : Unix.Aging} {d : Int} {r : Int × Int} (h : Unix.checkExpiry e d = some r) : r.1 ≠ PAM_INCOMPLETE := by
  have young : ∀ p q, (Unix.tooYoung e p q).1 ≠ PAM_INCOMPLETE := by
    intro p q
    unfold Unix.tooYoung
    split
    · exact show (PAM_AUTHTOK_ERR : Int) ≠ _ by decide
    · exact show (PAM_SUCCESS : Int) ≠ _ by decide
  have aged : ∀ p, Unix.aged e p = some r → r.1 ≠ PAM_INCOMPLETE := by
    intro p h
    unfold Unix.aged at h
    split at h
    · cases hi : Unix.inactive e p with
      | none => rw [hi] at h; cases h
      | some x =>
        rw [hi] at h
        cases x with
        | some d => have e := Option.some.inj h; rw [← e]; exact show (PAM_AUTHTOK_EXPIRED : Int) ≠ _ by decide
        | none =>
          replace h : (if p ≥ e.max then some (PAM_NEW_AUTHTOK_REQD, -1) else (Unix.warning e p).bind fun d => some (Unix.tooYoung e p d)) = some r := h
          split at h
          · have e := Option.some.inj h; rw [← e]; exact show (PAM_NEW_AUTHTOK_REQD : Int) ≠ _ by decide
          · cases hw : Unix.warning e p with
            | none => rw [hw] at h; cases h
            | some d => rw [hw] at h; have e := Option.some.inj h; rw [← e]; exact young _ _
    · have e := Option.some.inj h; rw [← e]; exact young _ _
  unfold Unix.checkExpiry at h
  split at h
  · have e := Option.some.inj h; rw [← e]; exact show (PAM_ACCT_EXPIRED : Int) ≠ _ by decide
  split at h
  · have e := Option.some.inj h; rw [← e]; exact show (PAM_NEW_AUTHTOK_REQD : Int) ≠ _ by decide
  split at h
  · have e := Option.some.inj h; rw [← e]; exact show (PAM_SUCCESS : Int) ≠ _ by decide
  split at h
  · have e := Option.some.inj h; rw [← e]; exact show (PAM_SUCCESS : Int) ≠ _ by decide
  cases hl : Unix.long (d - e.lstchg) with
  | none => rw [hl] at h; cases h
  | some p => rw [hl] at h; exact aged p h

theorem chkpwd_whole {s : Unix.Sys} {q : Unix.Proc} {i : Unix.Stdin} {args : List Str} {e : Unix.Exit} (h : Unix.chkpwd s q i false args = some e) :
    e.code ≠ PAM_INCOMPLETE := by
  by_cases ho : ∀ user, args ≠ [user, "chkexpiry".toList]
  · exact ordinary_whole (chkpwd_ordinary h ho)
  · have ⟨user, hu⟩ := Classical.not_forall.mp ho
    have hu : args = [user, "chkexpiry".toList] := Classical.not_not.mp hu
    subst hu
    have has : ∀ q, Unix.chkpwdAs s q i user "chkexpiry".toList = some e → e.code ≠ PAM_INCOMPLETE := by
      intro q h
      unfold Unix.chkpwdAs at h
      rw [if_pos rfl] at h
      unfold Unix.checkExpiryOf at h
      have ha : (Unix.accountInfo s q user).1 ≠ PAM_INCOMPLETE := by
        unfold Unix.accountInfo
        repeat' split
        all_goals (dsimp only; decide)
      generalize Unix.accountInfo s q user = a at h ha
      obtain ⟨rv, pw, sp⟩ := a
      dsimp only at h ha
      split at h
      · have e := Option.some.inj h; rw [← e]; exact ha
      · cases sp with
        | none => have e := Option.some.inj h; rw [← e]; exact ha
        | some sp =>
          obtain ⟨r, hr, e⟩ := Option.map_eq_some_iff.mp h
          rw [← e]
          exact aging_code hr
    unfold Unix.chkpwd at h
    dsimp only at h
    split at h
    · split at h
      · have e := Option.some.inj h; rw [← e]; exact show (PAM_AUTH_ERR : Int) ≠ _ by decide
      · exact has _ h
    · exact has _ h

theorem shadow_whole {s : Unix.Sys} {b : Unix.Bin} {l : Unix.Luck} {p : Unix.Proc} {ctrl : Unix.Ctrl} {name : Str} {rv : Int}
    (h : Unix.verifyShadow s b l p ctrl name = some rv) : rv ≠ PAM_INCOMPLETE := by
  unfold Unix.verifyShadow at h
  generalize Unix.moduleHash s name = mh at h
  obtain ⟨a, salt⟩ := mh
  dsimp only at h
  by_cases h1 : a = PAM_USER_UNKNOWN
  · rw [if_pos h1] at h; have e := Option.some.inj h; rw [← e, h1]; decide
  rw [if_neg h1] at h
  by_cases h2 : a = PAM_SUCCESS
  · rw [if_pos h2] at h; have e := Option.some.inj h; rw [← e]; decide
  rw [if_neg h2] at h
  cases hr : Unix.runVerify s b l p name with
  | none => rw [hr] at h; cases h
  | some x =>
    have hx : x.1 ≠ PAM_INCOMPLETE := by
      unfold Unix.runVerify at hr
      split at hr
      · have e := Option.some.inj hr; rw [← e]; exact show (PAM_AUTH_ERR : Int) ≠ _ by decide
      split at hr
      · have e := Option.some.inj hr; rw [← e]; exact show (PAM_AUTH_ERR : Int) ≠ _ by decide
      cases hc : Unix.childRun s b l p [] [name, "chkexpiry".toList] (some (-1)) with
      | none => rw [hc] at hr; cases hr
      | some e =>
        rw [hc] at hr
        have he : e.code ≠ PAM_INCOMPLETE := by
          rcases Unix.child_cases s b l p [] [name, "chkexpiry".toList] (some (-1)) with ⟨o, h1, -, -⟩ | ⟨q, -, h1⟩
          · rw [hc] at h1
            have e := Option.some.inj h1
            rw [e]
            exact show (PAM_AUTHINFO_UNAVAIL : Int) ≠ _ by decide
          · rw [hc] at h1
            exact chkpwd_whole h1.symm
        dsimp only at hr
        have e' := Option.some.inj hr
        rw [← e']
        repeat' split
        all_goals first | exact show (PAM_AUTH_ERR : Int) ≠ _ by decide | exact he
    obtain ⟨rv', d⟩ := x
    rw [hr] at h
    dsimp only at h hx
    have e := Option.some.inj h
    rw [← e]
    repeat' split
    all_goals first | exact hx | decide

theorem approve_whole (c : Unix.Crypts) (file : Option (List Str)) (ctrl : Unix.Ctrl) (user : Str) (old new : Option Str) (minlen : Int) :
    Unix.approvePass c file ctrl user old new minlen ≠ PAM_INCOMPLETE := by
  have hc : ∀ p, Unix.checkOldPassword c file user p ≠ PAM_INCOMPLETE := by
    intro p
    unfold Unix.checkOldPassword
    repeat' split
    all_goals decide
  unfold Unix.approvePass
  dsimp only
  repeat' split
  all_goals first | decide | exact hc _

/-! ### steps -/

/-- only the delay and the data of modules differ -/
structure Eased (s s' : S W) : Prop where
  inner : ∃ delaySet delay data nextId cleaned, s'.inner = { s.inner with delaySet := delaySet, delay := delay, data := data, nextId := nextId, cleaned := cleaned }
  world : s'.world = s.world
  talk : s'.talk = s.talk

theorem Eased.on {D : Disk W} {s s' : S W} (h : Eased s s') : Onward D s s' [] ∧ s'.inner.authtok = s.inner.authtok ∧ s'.inner.oldauthtok = s.inner.oldauthtok := by
  obtain ⟨⟨a, b, c, d, e, h1⟩, h2, h3⟩ := h
  exact ⟨⟨by rw [h2], ⟨_, _, _, _, _, _, _, _, _, h1⟩, by rw [h3]; simp⟩, by rw [h1], by rw [h1]⟩

/-- a password is checked -/
theorem verify_then {cv : Convs W} {host : W → Host} {s : S W} (hc : s.inner.caller = .module) (ctrl : Unix.Ctrl) (name pw : Str) (k : Int → Prog W) :
    (Unix.verdict (host s.world).sys (host s.world).bin ((host s.world).luck 3) (host s.world).proc ctrl name pw = none →
      ∃ s1, Eased s s1 ∧ Runs cv (verifyPassword host ctrl name pw k) s PAM_SYSTEM_ERR s1) ∧
    ∀ rv, Unix.verdict (host s.world).sys (host s.world).bin ((host s.world).luck 3) (host s.world).proc ctrl name pw = some rv →
      ∃ s1, Eased s s1 ∧
        ∀ c s', Runs cv (k (Unix.count (failsOf s.inner) name rv).1) s1 c s' → Runs cv (verifyPassword host ctrl name pw k) s c s' := by
  have main : ∀ s0 : S W, Eased s s0 → s0.inner.caller = .module → failsOf s0.inner = failsOf s.inner →
      (Unix.verdict (host s.world).sys (host s.world).bin ((host s.world).luck 3) (host s.world).proc ctrl name pw = none →
        Runs cv (.ext id fun w => match Unix.verdict (host w).sys (host w).bin ((host w).luck 3) (host w).proc ctrl name pw with
          | none => .ret PAM_SYSTEM_ERR
          | some rv => countFailures name rv k) s0 PAM_SYSTEM_ERR s0) ∧
      ∀ rv, Unix.verdict (host s.world).sys (host s.world).bin ((host s.world).luck 3) (host s.world).proc ctrl name pw = some rv →
        ∃ s1, Eased s s1 ∧ ∀ c s', Runs cv (k (Unix.count (failsOf s.inner) name rv).1) s1 c s' →
          Runs cv (.ext id fun w => match Unix.verdict (host w).sys (host w).bin ((host w).luck 3) (host w).proc ctrl name pw with
            | none => .ret PAM_SYSTEM_ERR
            | some rv => countFailures name rv k) s0 c s' := by
    intro s0 he hc0 hf
    refine ⟨fun hv => ?_, fun rv hv => ?_⟩
    · refine runs_look ?_
      rw [he.world, hv]
      exact runs_ret _ _ _
    · obtain ⟨s1, a1, a2, a3, -, a5⟩ := count_runs (cv := cv) hc0 name rv k
      rw [hf] at a5
      refine ⟨s1, ⟨?_, by rw [a2, he.world], by rw [a3, he.talk]⟩, fun c s' hr => ?_⟩
      · obtain ⟨a, b, c, d, e, h1⟩ := he.inner
        obtain ⟨c', d', e', h2⟩ := a1
        rw [h1] at h2
        exact ⟨a, b, c', d', e', h2⟩
      · refine runs_look ?_
        rw [he.world, hv]
        exact a5 _ _ hr
  unfold verifyPassword
  dsimp only
  split
  · have he : Eased s { s with inner := (failDelay s.inner 2000000).2 } := ⟨⟨_, _, _, _, _, rfl⟩, rfl, rfl⟩
    obtain ⟨m1, m2⟩ := main _ he hc rfl
    refine ⟨fun hv => ⟨_, he, runs_api (a := { code := PAM_SUCCESS }) rfl (m1 hv)⟩, fun rv hv => ?_⟩
    obtain ⟨s1, k1, k2⟩ := m2 rv hv
    exact ⟨s1, k1, fun c s' hr => runs_api (a := { code := PAM_SUCCESS }) rfl (k2 c s' hr)⟩
  · have he : Eased s s := ⟨⟨_, _, _, _, _, rfl⟩, rfl, rfl⟩
    obtain ⟨m1, m2⟩ := main s he hc rfl
    exact ⟨fun hv => ⟨s, he, m1 hv⟩, m2⟩

/-- something is said, perhaps -/
theorem remark_then {D : Disk W} {cv : Convs W} (hq : Quiet D cv) (ctrl : Unix.Ctrl) (msg : Option Str) (k : Prog W) (s : S W) :
    ∃ ts s1, Onward D s s1 ts ∧ s1.inner = s.inner ∧ ∀ c s', Runs cv k s1 c s' → Runs cv (remarkThen ctrl msg k) s c s' := by
  unfold remarkThen
  cases msg with
  | none => exact ⟨[], s, Onward.refl D s, rfl, fun _ _ h => h⟩
  | some m =>
    dsimp only
    split
    · obtain ⟨q, -, -, h, hi⟩ := converse_on hq .error m s
      exact ⟨_, _, h, hi, fun c s' hr => runs_api (s1 := (converse cv .error m s).2) rfl hr⟩
    · exact ⟨[], s, Onward.refl D s, rfl, fun _ _ h => h⟩

/-- the code of a call; one that never ends gives PAM_SYSTEM_ERR -/
def codeOf (r : Option Unix.ChRes) : Int := (r.map (·.code)).getD PAM_SYSTEM_ERR

/-- what a call does to the files -/
def actsOf (r : Option Unix.ChRes) : List Unix.Act := (r.map (·.acts)).getD []

/-- the call of the module in one of the passes -/
def callOf (M : Mach) (second : Bool) (o : Unix.Opts) (name : Str) (info : Int) (oldTok : Int × Str) (old : Option Str) (newTok : Nat → Int × Str) :
    Unix.ChCall where
  ctrl := o.ctrl
  remember := o.remember.getD 0
  rounds := o.rounds.getD 0
  minlen := o.minlen.getD 0
  user := (PAM_SUCCESS, name)
  info := info
  oldTok := oldTok
  oldItem := (PAM_SUCCESS, old)
  newTok := newTok
  opens := M.opens
  luck := M.luck second
  tries := M.tries
  l := M.files
  rnd := M.rnd
  gensalt := M.gensalt

/-! ### the preliminary check -/

theorem age_runs {D : Disk W} {cv : Convs W} (hq : Quiet D cv) (s : S W) (ctrl : Unix.Ctrl) (name : Str) {M : Mach} (hM : D.mach s.world = M) :
    ∃ c s' ts, Runs cv (unixAge D ctrl name) s c s' ∧ Onward D s s' ts ∧ s'.inner = s.inner ∧ c ≠ PAM_INCOMPLETE ∧
      ∀ fails, codeOf ((Unix.verifyShadow (M.etc.sys M.world) M.bin (M.luck false 4) M.proc ctrl name).map (fun rv =>
        ⟨if rv = PAM_AUTHTOK_ERR ∧ Unix.off Unix.UNIX_EXPIRED_ONLY ctrl ∧ Unix.on Unix.UNIX__IAMROOT ctrl then PAM_SUCCESS else rv, fails, 0, []⟩)) = c := by
  unfold unixAge unixShadow
  have key : ∀ (rv c : Int), (if rv = PAM_AUTHTOK_ERR ∧ Unix.off Unix.UNIX_EXPIRED_ONLY ctrl ∧ Unix.on Unix.UNIX__IAMROOT ctrl then PAM_SUCCESS else rv) = c →
      ∀ fails, codeOf ((some rv).map (fun rv =>
        (⟨if rv = PAM_AUTHTOK_ERR ∧ Unix.off Unix.UNIX_EXPIRED_ONLY ctrl ∧ Unix.on Unix.UNIX__IAMROOT ctrl then PAM_SUCCESS else rv, fails, 0, []⟩ : Unix.ChRes))) = c :=
    fun rv c h fails => h
  cases hv : Unix.verifyShadow (M.etc.sys M.world) M.bin (M.luck false 4) M.proc ctrl name with
  | none =>
    refine ⟨PAM_SYSTEM_ERR, s, [], runs_look ?_, Onward.refl D s, rfl, by decide, fun _ => rfl⟩
    rw [hM, hv]
    exact runs_ret _ _ _
  | some rv =>
    have hw := shadow_whole hv
    have off_on : ∀ x, Unix.off x ctrl = !Unix.on x ctrl := fun x => by simp [Unix.off]
    have goal : ∃ c s' ts, Runs cv (if rv = PAM_AUTHTOK_ERR then
        if Unix.on Unix.UNIX_EXPIRED_ONLY ctrl then remarkThen ctrl (some "Your password is not expired.".toList) (.ret rv)
        else if Unix.off Unix.UNIX__IAMROOT ctrl then remarkThen ctrl (some "You must wait longer to change your password.".toList) (.ret rv)
        else .ret PAM_SUCCESS
      else .ret rv : Prog W) s c s' ∧ Onward D s s' ts ∧ s'.inner = s.inner ∧ c ≠ PAM_INCOMPLETE ∧
        (if rv = PAM_AUTHTOK_ERR ∧ Unix.off Unix.UNIX_EXPIRED_ONLY ctrl ∧ Unix.on Unix.UNIX__IAMROOT ctrl then PAM_SUCCESS else rv) = c := by
      by_cases h1 : rv = PAM_AUTHTOK_ERR
      · rw [if_pos h1]
        by_cases h2 : Unix.on Unix.UNIX_EXPIRED_ONLY ctrl = true
        · rw [if_pos h2, if_neg (by rw [off_on, h2]; simp)]
          obtain ⟨ts, s1, a1, a2, a3⟩ := remark_then hq ctrl (some "Your password is not expired.".toList) (.ret rv) s
          exact ⟨rv, s1, ts, a3 _ _ (runs_ret _ _ _), a1, a2, hw, rfl⟩
        · rw [if_neg h2]
          by_cases h3 : Unix.on Unix.UNIX__IAMROOT ctrl = true
          · rw [if_neg (by rw [off_on, h3]; simp), if_pos ⟨h1, by rw [off_on]; simpa using h2, h3⟩]
            exact ⟨_, s, [], runs_ret _ _ _, Onward.refl D s, rfl, by decide, rfl⟩
          · rw [if_pos (by rw [off_on]; simpa using h3), if_neg (fun x => h3 x.2.2)]
            obtain ⟨ts, s1, a1, a2, a3⟩ := remark_then hq ctrl (some "You must wait longer to change your password.".toList) (.ret rv) s
            exact ⟨rv, s1, ts, a3 _ _ (runs_ret _ _ _), a1, a2, hw, rfl⟩
      · rw [if_neg h1, if_neg (fun x => h1 x.1)]
        exact ⟨rv, s, [], runs_ret _ _ _, Onward.refl D s, rfl, hw, rfl⟩
    obtain ⟨c, s', ts, g1, g2, g3, g4, g5⟩ := goal
    refine ⟨c, s', ts, runs_look ?_, g2, g3, g4, key rv c g5⟩
    rw [hM, hv]
    exact g1

/-- the current password as it was typed -/
def TypedCurrent (ts : List Talk) (t : Str) : Prop := ∃ q kind, q ∈ ts ∧ Answered q t ∧ q.msg = typedPrompt "Current".toList kind

theorem TypedCurrent.mono {ts ts' : List Talk} {t : Str} (h : TypedCurrent ts t) (hs : ∀ q ∈ ts, q ∈ ts') : TypedCurrent ts' t := by
  obtain ⟨q, kind, h1, h2⟩ := h
  exact ⟨q, kind, hs q h1, h2⟩

/-- what the preliminary check knows of the current password -/
def Known (ts : List Talk) (c : Int) (oldTok : Int × Str) (kept : Option Str) : Prop :=
  (oldTok.1 ≠ PAM_SUCCESS ∧ (c = PAM_SUCCESS → kept = none)) ∨ (oldTok.1 = PAM_SUCCESS ∧ TypedCurrent ts oldTok.2 ∧ kept = some oldTok.2)

theorem current_runs {D : Disk W} {cv : Convs W} (hq : Quiet D cv) {s : S W} (hc : s.inner.caller = .module) (ho : s.inner.oldauthtok = none)
    (ctrl : Unix.Ctrl) (name : Str) {M : Mach} (hM : D.mach s.world = M) :
    ∃ c s' ts oldTok, Runs cv (unixCurrent D ctrl name) s c s' ∧ Onward D s s' ts ∧ s'.inner.authtok = s.inner.authtok ∧ c ≠ PAM_INCOMPLETE ∧
      Known ts c oldTok s'.inner.oldauthtok ∧
      ∃ fails, codeOf (if oldTok.1 ≠ PAM_SUCCESS then some ⟨oldTok.1, fails, 0, []⟩
        else
          match Unix.verifyPassword (M.etc.sys M.world) M.bin (M.luck false 3) M.proc ctrl fails name oldTok.2 with
          | none => none
          | some (rv, fails) => if rv ≠ PAM_SUCCESS then some ⟨rv, fails, 0, []⟩ else
            (Unix.verifyShadow (M.etc.sys M.world) M.bin (M.luck false 4) M.proc ctrl name).map (fun rv =>
              ⟨if rv = PAM_AUTHTOK_ERR ∧ Unix.off Unix.UNIX_EXPIRED_ONLY ctrl ∧ Unix.on Unix.UNIX__IAMROOT ctrl then PAM_SUCCESS else rv, fails, 0, []⟩)) = c := by
  obtain ⟨ts, c, v, s1, h1, h2, h3, h4, h5⟩ := current_token hq hc ho
  unfold unixCurrent
  by_cases hs : c = PAM_SUCCESS
  · obtain ⟨q, t, kind, rfl, k1, k2, k3, k4, -⟩ := h5 hs
    have hM1 : D.mach s1.world = M := h2.mach.trans hM
    have typed : TypedCurrent [q] t := ⟨q, kind, by simp, k1, k2⟩
    obtain ⟨v1, v2⟩ := verify_then (cv := cv) (host := fun w => (D.mach w).host false) (s := s1) (h2.kin.caller.trans hc) ctrl name t
      (fun rv => if rv ≠ PAM_SUCCESS then .ret rv else unixAge D ctrl name)
    rw [hM1] at v1 v2
    have run1 : ∀ c' s', Runs cv (verifyPassword (fun w => (D.mach w).host false) ctrl name t
        (fun rv => if rv ≠ PAM_SUCCESS then .ret rv else unixAge D ctrl name)) s1 c' s' →
        Runs cv (.api (.getAuthtok true none false {}) fun t => if t.code ≠ PAM_SUCCESS then .ret t.code
          else verifyPassword (fun w => (D.mach w).host false) ctrl name (textOf t.value) fun rv =>
            if rv ≠ PAM_SUCCESS then .ret rv else unixAge D ctrl name) s c' s' := by
      intro c' s' hr
      refine runs_api h1 ?_
      dsimp only
      rw [if_neg (by simpa using hs), k3]
      exact hr
    cases hv : Unix.verdict (M.etc.sys M.world) M.bin (M.luck false 3) M.proc ctrl name t with
    | none =>
      obtain ⟨s2, e1, e2⟩ := v1 hv
      obtain ⟨o1, o2, o3⟩ := e1.on (D := D)
      refine ⟨PAM_SYSTEM_ERR, s2, [q], (PAM_SUCCESS, t), run1 _ _ e2, ?_, by rw [o2, h3], by decide, Or.inr ⟨rfl, typed, by rw [o3, k4]⟩, fun _ => 0, ?_⟩
      · have := h2.trans o1
        rwa [List.append_nil] at this
      · rw [if_neg (by simp)]
        unfold Unix.verifyPassword
        rw [hv]
        rfl
    | some rv =>
      obtain ⟨s2, e1, e2⟩ := v2 rv hv
      obtain ⟨o1, o2, o3⟩ := e1.on (D := D)
      have on2 : Onward D s s2 [q] := by
        have := h2.trans o1
        rwa [List.append_nil] at this
      have hord := verdict_ordinary hv
      by_cases hrv : (Unix.count (failsOf s1.inner) name rv).1 = PAM_SUCCESS
      · obtain ⟨c', s', ts', g1, g2, g3, g4, g5⟩ := age_runs (cv := cv) hq s2 ctrl name (on2.mach.trans hM)
        refine ⟨c', s', [q] ++ ts', (PAM_SUCCESS, t), run1 _ _ (e2 _ _ ?_), on2.trans g2, by rw [g3, o2, h3], g4,
          Or.inr ⟨rfl, typed.mono (by simp), by rw [g3, o3, k4]⟩, failsOf s1.inner, ?_⟩
        · rw [if_neg (by simpa using hrv)]; exact g1
        · rw [if_neg (by simp)]
          unfold Unix.verifyPassword
          rw [hv]
          dsimp only [Option.map_some]
          rw [if_neg (by simpa using hrv)]
          exact g5 _
      · refine ⟨_, s2, [q], (PAM_SUCCESS, t), run1 _ _ (e2 (Unix.count (failsOf s1.inner) name rv).1 s2 ?_), on2, by rw [o2, h3],
          ordinary_whole (count_ordinary hord), Or.inr ⟨rfl, typed, by rw [o3, k4]⟩, failsOf s1.inner, ?_⟩
        · rw [if_pos hrv]; exact runs_ret _ _ _
        · rw [if_neg (by simp)]
          unfold Unix.verifyPassword
          rw [hv]
          dsimp only [Option.map_some]
          rw [if_pos hrv]
          rfl
  · refine ⟨c, s1, ts, (c, []), runs_api h1 ?_, h2, h3, h4, Or.inl ⟨hs, fun x => absurd x hs⟩, fun _ => 0, ?_⟩
    · dsimp only
      rw [if_pos hs]
      exact runs_ret _ _ _
    · rw [if_pos hs]
      rfl

/-- The first pass does what the model of the module says. -/
theorem prelim_runs {D : Disk W} {cv : Convs W} (hq : Quiet D cv) (hconv : ∀ c st msg w, (cv c st msg w).1.1 ≠ PAM_INCOMPLETE) {s : S W}
    (hc : s.inner.caller = .module) (ho : s.inner.oldauthtok = none) (ctrl : Unix.Ctrl) (o : Unix.Opts) (name : Str) {M : Mach} (hM : D.mach s.world = M) :
    ∃ c s' ts info oldTok, Runs cv (unixPrelim D ctrl name) s c s' ∧ Onward D s s' ts ∧ s'.inner.authtok = s.inner.authtok ∧ c ≠ PAM_INCOMPLETE ∧
      Known ts c oldTok s'.inner.oldauthtok ∧
      ∃ fails, ∀ old new, codeOf (Unix.prelim M.world M.etc M.bin M.proc (callOf M false o name info oldTok old new) ctrl fails) = c := by
  have look : ∀ (X : Prog W) c s', Unix.blankPasswd (M.etc.sys M.world) M.bin (M.luck false) M.proc ctrl name = Unix.blankPasswd (M.etc.sys M.world) M.bin (M.luck false) M.proc ctrl name →
      (match Unix.blankPasswd (M.etc.sys M.world) M.bin (M.luck false) M.proc ctrl name with
        | none => .ret PAM_SYSTEM_ERR
        | some (true, _) => .ret PAM_SUCCESS
        | some (false, _) =>
          if Unix.off Unix.UNIX__IAMROOT ctrl then
            if Unix.off Unix.UNIX__QUIET ctrl then
              .api (.say false ("Changing password for ".toList ++ name ++ ".".toList)) fun a =>
                if a.code ≠ PAM_SUCCESS then .ret a.code else unixCurrent D ctrl name
            else unixCurrent D ctrl name
          else unixAge D ctrl name : Prog W) = X → Runs cv X s c s' → Runs cv (unixPrelim D ctrl name) s c s' := by
    intro X c s' _ e hr
    unfold unixPrelim
    refine runs_look ?_
    rw [hM]
    subst e
    exact hr
  unfold Unix.prelim
  show ∃ c s' ts info oldTok, Runs cv (unixPrelim D ctrl name) s c s' ∧ Onward D s s' ts ∧ s'.inner.authtok = s.inner.authtok ∧ c ≠ PAM_INCOMPLETE ∧
      Known ts c oldTok s'.inner.oldauthtok ∧ ∃ fails, ∀ (old : Option Str) (new : Nat → Int × Str),
      codeOf (match Unix.blankPasswd (M.etc.sys M.world) M.bin (M.luck false) M.proc ctrl name with
        | none => none
        | some (true, _) => some ⟨PAM_SUCCESS, fails, 0, []⟩
        | some (false, _) =>
          if Unix.off Unix.UNIX__IAMROOT ctrl then
            if Unix.off Unix.UNIX__QUIET ctrl ∧ info ≠ PAM_SUCCESS then some ⟨info, fails, 0, []⟩
            else if oldTok.1 ≠ PAM_SUCCESS then some ⟨oldTok.1, fails, 0, []⟩
            else
              match Unix.verifyPassword (M.etc.sys M.world) M.bin (M.luck false 3) M.proc ctrl fails name oldTok.2 with
              | none => none
              | some (rv, fails) => if rv ≠ PAM_SUCCESS then some ⟨rv, fails, 0, []⟩ else
                (Unix.verifyShadow (M.etc.sys M.world) M.bin (M.luck false 4) M.proc ctrl name).map (fun rv =>
                  ⟨if rv = PAM_AUTHTOK_ERR ∧ Unix.off Unix.UNIX_EXPIRED_ONLY ctrl ∧ Unix.on Unix.UNIX__IAMROOT ctrl then PAM_SUCCESS else rv, fails, 0, []⟩)
          else
            (Unix.verifyShadow (M.etc.sys M.world) M.bin (M.luck false 4) M.proc ctrl name).map (fun rv =>
              ⟨if rv = PAM_AUTHTOK_ERR ∧ Unix.off Unix.UNIX_EXPIRED_ONLY ctrl ∧ Unix.on Unix.UNIX__IAMROOT ctrl then PAM_SUCCESS else rv, fails, 0, []⟩)) = c
  have look := fun X c s' => look X c s' rfl
  cases hb : Unix.blankPasswd (M.etc.sys M.world) M.bin (M.luck false) M.proc ctrl name with
  | none =>
    rw [hb] at look
    exact ⟨PAM_SYSTEM_ERR, s, [], 0, (PAM_AUTHTOK_ERR, []), look _ _ _ rfl (runs_ret _ _ _), Onward.refl D s, rfl, by decide,
      Or.inl ⟨by decide, fun x => absurd x (by decide)⟩, fun _ => 0, fun _ _ => rfl⟩
  | some b =>
    obtain ⟨v, runs⟩ := b
    rw [hb] at look
    cases v with
    | true =>
      exact ⟨PAM_SUCCESS, s, [], 0, (PAM_AUTHTOK_ERR, []), look _ _ _ rfl (runs_ret _ _ _), Onward.refl D s, rfl, by decide,
        Or.inl ⟨by decide, fun _ => ho⟩, fun _ => 0, fun _ _ => rfl⟩
    | false =>
      dsimp only at look ⊢
      by_cases hr : Unix.off Unix.UNIX__IAMROOT ctrl = true
      · simp only [if_pos hr] at look ⊢
        by_cases hs : Unix.off Unix.UNIX__QUIET ctrl = true
        · simp only [if_pos hs] at look
          obtain ⟨q, q1, q2, g1, g2⟩ := converse_on hq .info ("Changing password for ".toList ++ name ++ ".".toList) s
          have heff : effect cv (.say false ("Changing password for ".toList ++ name ++ ".".toList)) s =
            some ({ code := (converse cv .info ("Changing password for ".toList ++ name ++ ".".toList) s).1.1 },
              (converse cv .info ("Changing password for ".toList ++ name ++ ".".toList) s).2) := rfl
          have hinfo : (converse cv .info ("Changing password for ".toList ++ name ++ ".".toList) s).1.1 ≠ PAM_INCOMPLETE := hconv _ _ _ _
          generalize "Changing password for ".toList ++ name ++ ".".toList = msg at *
          generalize converse cv .info msg s = r at *
          by_cases hi : r.1.1 = PAM_SUCCESS
          · obtain ⟨c, s', ts, oldTok, k1, k2, k3, k4, k5, fails, k6⟩ := current_runs (cv := cv) hq (s := r.2) (by rw [g2]; exact hc) (by rw [g2]; exact ho) ctrl name (g1.mach.trans hM)
            refine ⟨c, s', [q] ++ ts, PAM_SUCCESS, oldTok, look _ _ _ rfl (runs_api heff ?_), g1.trans k2, by rw [k3, g2], k4, ?_, fails, fun _ _ => ?_⟩
            · dsimp only
              rw [if_neg (by simpa using hi)]
              exact k1
            · rcases k5 with k5 | ⟨k5, k7, k8⟩
              · exact Or.inl k5
              · exact Or.inr ⟨k5, k7.mono (by simp +contextual), k8⟩
            · rw [if_neg (fun x => x.2 rfl)]
              exact k6
          · refine ⟨r.1.1, r.2, [q], r.1.1, (PAM_AUTHTOK_ERR, []), look _ _ _ rfl (runs_api heff ?_), g1, by rw [g2], hinfo,
              Or.inl ⟨by decide, fun x => absurd x hi⟩, fun _ => 0, fun _ _ => ?_⟩
            · dsimp only
              rw [if_pos hi]
              exact runs_ret _ _ _
            · rw [if_pos ⟨hs, hi⟩]
              rfl
        · simp only [if_neg hs] at look
          obtain ⟨c, s', ts, oldTok, k1, k2, k3, k4, k5, fails, k6⟩ := current_runs (cv := cv) hq hc ho ctrl name hM
          refine ⟨c, s', ts, PAM_SUCCESS, oldTok, look _ _ _ rfl k1, k2, k3, k4, k5, fails, fun _ _ => ?_⟩
          rw [if_neg (fun x => x.2 rfl)]
          exact k6
      · simp only [if_neg hr] at look ⊢
        obtain ⟨c, s', ts, k1, k2, k3, k4, k5⟩ := age_runs (cv := cv) hq s ctrl name hM
        exact ⟨c, s', ts, 0, (PAM_AUTHTOK_ERR, []), look _ _ _ rfl k1, k2, by rw [k3], k4, Or.inl ⟨by decide, fun _ => by rw [k3]; exact ho⟩,
          fun _ => 0, fun _ _ => k5 _⟩

/-! ### the change -/

/-- what a pass may have done: something to the files, the handle as before but for tokens and data, and what was said -/
structure Ended (D : Disk W) (s s' : S W) (ts : List Talk) (acts : List Unix.Act) : Prop where
  mach : D.mach s'.world = { D.mach s.world with etc := (D.mach s.world).etc.after acts }
  kin : Kin s.inner s'.inner
  talk : s'.talk = s.talk ++ ts

theorem Onward.ended {D : Disk W} {s s' : S W} {ts : List Talk} (h : Onward D s s' ts) : Ended D s s' ts [] := ⟨h.mach, h.kin, h.talk⟩

theorem Onward.andEnded {D : Disk W} {s s1 s2 : S W} {ts ts' : List Talk} {acts : List Unix.Act} (h : Onward D s s1 ts) (h' : Ended D s1 s2 ts' acts) :
    Ended D s s2 (ts ++ ts') acts := ⟨by rw [h'.mach, h.mach], h.kin.trans h'.kin, by rw [h'.talk, h.talk, List.append_assoc]⟩

/-- what is put down is what is there afterwards -/
def Disk.Law (D : Disk W) : Prop := ∀ acts w, D.mach (D.put acts w) = { D.mach w with etc := (D.mach w).etc.after acts }

theorem put_runs {D : Disk W} (hD : D.Law) (cv : Convs W) (acts : List Unix.Act) (code : Int) (s : S W) :
    ∃ s', Runs cv (unixPut D acts code) s code s' ∧ Ended D s s' [] acts := by
  refine ⟨{ s with world := D.put acts s.world }, ?_, ⟨hD _ _, Kin.refl _, by simp⟩⟩
  intro m hm
  unfold unixPut Prog.exec
  rw [← hm]
  exact ⟨rfl, rfl⟩

theorem setpass_whole (w : Unix.World) (e : Unix.Etc) (p : Unix.Proc) (l : Unix.SLuck) (ctrl : Unix.Ctrl) (forwho : Str) (from_ : Option Str) (to : Str) (n : Int) :
    (Unix.doSetpass w e p l ctrl forwho from_ to n).1 ≠ PAM_INCOMPLETE := by
  unfold Unix.doSetpass Unix.setFiles
  dsimp only
  repeat' split
  all_goals (try decide)
  all_goals (dsimp only; repeat' split)
  all_goals decide

/-- the rest of the change, once a new password is approved -/
def afterAsk (w : Unix.World) (e : Unix.Etc) (b : Unix.Bin) (p : Unix.Proc) (c : Unix.ChCall) (ctrl : Unix.Ctrl) (fails : Unix.Fails) (old : Option Str)
    (x : Int × Option Str × Nat) : Option Unix.ChRes :=
  match x with
  | (rv, new, asked) =>
    match new with
    | none => some ⟨rv, fails, asked, []⟩
    | some new =>
      if !Unix.lockPwdf c.tries then some ⟨PAM_AUTHTOK_LOCK_BUSY, fails, asked, []⟩
      else
        match old with
        | none => Unix.changeIt w e b p c ctrl fails none new asked
        | some o =>
          match Unix.verifyPassword (e.sys w) b (c.luck 3) p ctrl fails c.user.2 o with
          | none => none
          | some (rv, fails) =>
            if rv ≠ PAM_SUCCESS then some ⟨rv, fails, asked, [.lock, .unlock]⟩
            else Unix.changeIt w e b p c ctrl fails (some o) new asked

theorem update_after (w : Unix.World) (e : Unix.Etc) (b : Unix.Bin) (p : Unix.Proc) (c : Unix.ChCall) (ctrl : Unix.Ctrl) (fails : Unix.Fails)
    (h : c.oldItem.1 = PAM_SUCCESS) :
    Unix.update w e b p c ctrl fails = afterAsk w e b p c ctrl fails c.oldItem.2
      (Unix.askNew { c with ctrl := ctrl } w.crypts (fun i => if c.opens i then e.op.main else none) c.oldItem.2
        (if Unix.on Unix.UNIX_USE_AUTHTOK ctrl ∨ Unix.on Unix.UNIX_USE_FIRST_PASS ctrl then 1 else 3) 0 PAM_AUTHTOK_ERR) := by
  unfold Unix.update
  rw [if_neg (by simpa using h)]
  rfl

theorem set_runs {D : Disk W} (hD : D.Law) {cv : Convs W} (hq : Quiet D cv) (s : S W) (o : Unix.Opts) (ctrl : Unix.Ctrl) (name : Str) (old : Option Str)
    (new : Str) (asked : Nat) {M : Mach} (hM : D.mach s.world = M) :
    ∃ c s' ts acts, Runs cv (unixSet D o ctrl name old new asked) s c s' ∧ Ended D s s' ts acts ∧ c ≠ PAM_INCOMPLETE ∧
      ∀ info oldTok item newTok fails,
        codeOf (Unix.changeIt M.world M.etc M.bin M.proc (callOf M true o name info oldTok item newTok) ctrl fails old new asked) = c ∧
        actsOf (Unix.changeIt M.world M.etc M.bin M.proc (callOf M true o name info oldTok item newTok) ctrl fails old new asked) = acts := by
  unfold unixSet unixShadow Unix.changeIt
  show ∃ c s' ts acts, _ ∧ Ended D s s' ts acts ∧ c ≠ PAM_INCOMPLETE ∧ ∀ (info : Int) (oldTok : Int × Str) (item : Option Str) (newTok : Nat → Int × Str) (fails : Unix.Fails), _
  have hcall : ∀ (info : Int) (oldTok : Int × Str) (item : Option Str) (newTok : Nat → Int × Str),
      (callOf M true o name info oldTok item newTok).luck 4 = M.luck true 4 ∧ (callOf M true o name info oldTok item newTok).user.2 = name := fun _ _ _ _ => ⟨rfl, rfl⟩
  simp only [(hcall _ _ _ _).1, (hcall _ _ _ _).2]
  cases hv : Unix.verifyShadow (M.etc.sys M.world) M.bin (M.luck true 4) M.proc ctrl name with
  | none =>
    refine ⟨PAM_SYSTEM_ERR, s, [], [], runs_look ?_, (Onward.refl D s).ended, by decide, fun _ _ _ _ _ => ⟨rfl, rfl⟩⟩
    rw [hM, hv]
    exact runs_ret _ _ _
  | some rv =>
    dsimp only
    by_cases hrv : rv = PAM_SUCCESS
    · simp only [if_neg (show ¬ rv ≠ PAM_SUCCESS by simpa using hrv)]
      have hw := approve_whole M.world.crypts (M.opw asked) ctrl name old (some new) (o.minlen.getD 0)
      obtain ⟨ts, s1, a1, a2, a3⟩ := remark_then hq ctrl (approveRemark M.world.crypts (M.opw asked) ctrl name old (some new) (o.minlen.getD 0))
        (if Unix.approvePass M.world.crypts (M.opw asked) ctrl name old (some new) (o.minlen.getD 0) ≠ PAM_SUCCESS then
            unixPut D [.lock, .unlock] (Unix.approvePass M.world.crypts (M.opw asked) ctrl name old (some new) (o.minlen.getD 0))
          else
            match Unix.createHash M.world.crypts M.rnd M.gensalt (Unix.algoOf ctrl) (o.rounds.getD 0) new with
            | none => unixPut D [.lock, .unlock] PAM_BUF_ERR
            | some h =>
              unixPut D (.lock :: (Unix.doSetpass M.world M.etc M.proc M.files ctrl name old h (o.remember.getD 0)).2)
                (Unix.doSetpass M.world M.etc M.proc M.files ctrl name old h (o.remember.getD 0)).1) s
      have begin_ : ∀ c s', Runs cv (if Unix.approvePass M.world.crypts (M.opw asked) ctrl name old (some new) (o.minlen.getD 0) ≠ PAM_SUCCESS then
            unixPut D [.lock, .unlock] (Unix.approvePass M.world.crypts (M.opw asked) ctrl name old (some new) (o.minlen.getD 0))
          else
            match Unix.createHash M.world.crypts M.rnd M.gensalt (Unix.algoOf ctrl) (o.rounds.getD 0) new with
            | none => unixPut D [.lock, .unlock] PAM_BUF_ERR
            | some h =>
              unixPut D (.lock :: (Unix.doSetpass M.world M.etc M.proc M.files ctrl name old h (o.remember.getD 0)).2)
                (Unix.doSetpass M.world M.etc M.proc M.files ctrl name old h (o.remember.getD 0)).1) s1 c s' →
          Runs cv (unixSet D o ctrl name old new asked) s c s' := by
        intro c s' hr
        unfold unixSet unixShadow
        refine runs_look ?_
        rw [hM, hv]
        dsimp only
        rw [if_neg (show ¬ rv ≠ PAM_SUCCESS by simpa using hrv)]
        refine runs_look ?_
        rw [hM]
        exact a3 c s' hr
      have begin_ : ∀ c s', _ → Runs cv (.ext id fun w => match Unix.verifyShadow ((D.mach w).etc.sys (D.mach w).world) (D.mach w).bin ((D.mach w).luck true 4) (D.mach w).proc ctrl name with
        | none => .ret PAM_SYSTEM_ERR
        | some rv => _) s c s' := begin_
      have hop : ∀ (info : Int) (oldTok : Int × Str) (item : Option Str) (newTok : Nat → Int × Str),
        (if (callOf M true o name info oldTok item newTok).opens asked = true then M.etc.op.main else none) = M.opw asked ∧
        (callOf M true o name info oldTok item newTok).minlen = o.minlen.getD 0 ∧
        (callOf M true o name info oldTok item newTok).rounds = o.rounds.getD 0 ∧
        (callOf M true o name info oldTok item newTok).remember = o.remember.getD 0 ∧
        (callOf M true o name info oldTok item newTok).rnd = M.rnd ∧
        (callOf M true o name info oldTok item newTok).gensalt = M.gensalt ∧
        (callOf M true o name info oldTok item newTok).l = M.files := fun _ _ _ _ => ⟨rfl, rfl, rfl, rfl, rfl, rfl, rfl⟩
      simp only [(hop _ _ _ _).1, (hop _ _ _ _).2.1, (hop _ _ _ _).2.2.1, (hop _ _ _ _).2.2.2.1, (hop _ _ _ _).2.2.2.2.1, (hop _ _ _ _).2.2.2.2.2.1,
        (hop _ _ _ _).2.2.2.2.2.2]
      generalize Unix.approvePass M.world.crypts (M.opw asked) ctrl name old (some new) (o.minlen.getD 0) = ap at *
      by_cases hap : ap = PAM_SUCCESS
      · simp only [if_neg (show ¬ ap ≠ PAM_SUCCESS by simpa using hap)] at begin_ ⊢
        cases hh : Unix.createHash M.world.crypts M.rnd M.gensalt (Unix.algoOf ctrl) (o.rounds.getD 0) new with
        | none =>
          rw [hh] at begin_
          obtain ⟨s', p1, p2⟩ := put_runs hD cv [.lock, .unlock] PAM_BUF_ERR s1
          exact ⟨_, s', _, _, begin_ _ _ p1, a1.andEnded p2, by decide, fun _ _ _ _ _ => ⟨rfl, rfl⟩⟩
        | some h =>
          rw [hh] at begin_
          obtain ⟨s', p1, p2⟩ := put_runs hD cv (.lock :: (Unix.doSetpass M.world M.etc M.proc M.files ctrl name old h (o.remember.getD 0)).2)
                (Unix.doSetpass M.world M.etc M.proc M.files ctrl name old h (o.remember.getD 0)).1 s1
          exact ⟨_, s', _, _, begin_ _ _ p1, a1.andEnded p2, setpass_whole _ _ _ _ _ _ _ _ _, fun _ _ _ _ _ => ⟨rfl, rfl⟩⟩
      · simp only [if_pos (show ap ≠ PAM_SUCCESS from hap)] at begin_ ⊢
        obtain ⟨s', p1, p2⟩ := put_runs hD cv [.lock, .unlock] ap s1
        exact ⟨_, s', _, _, begin_ _ _ p1, a1.andEnded p2, hw, fun _ _ _ _ _ => ⟨rfl, rfl⟩⟩
    · simp only [if_pos (show rv ≠ PAM_SUCCESS from hrv)]
      obtain ⟨s', p1, p2⟩ := put_runs hD cv [.lock, .unlock] rv s
      refine ⟨rv, s', [], _, runs_look ?_, p2, shadow_whole hv, fun _ _ _ _ _ => ⟨rfl, rfl⟩⟩
      rw [hM, hv]
      dsimp only
      rw [if_pos hrv]
      exact p1

theorem locked_runs {D : Disk W} (hD : D.Law) {cv : Convs W} (hq : Quiet D cv) {s : S W} (hc : s.inner.caller = .module) (o : Unix.Opts) (ctrl : Unix.Ctrl)
    (name : Str) (old : Option Str) (new : Str) (asked : Nat) {M : Mach} (hM : D.mach s.world = M) :
    ∃ c s' ts acts fails, Runs cv (unixLocked D o ctrl name old new asked) s c s' ∧ Ended D s s' ts acts ∧ c ≠ PAM_INCOMPLETE ∧
      ∀ info oldTok item newTok rv,
        codeOf (afterAsk M.world M.etc M.bin M.proc (callOf M true o name info oldTok item newTok) ctrl fails old (rv, some new, asked)) = c ∧
        actsOf (afterAsk M.world M.etc M.bin M.proc (callOf M true o name info oldTok item newTok) ctrl fails old (rv, some new, asked)) = acts := by
  unfold unixLocked afterAsk
  have hcall : ∀ (info : Int) (oldTok : Int × Str) (item : Option Str) (newTok : Nat → Int × Str),
      (callOf M true o name info oldTok item newTok).luck 3 = M.luck true 3 ∧ (callOf M true o name info oldTok item newTok).user.2 = name ∧
      (callOf M true o name info oldTok item newTok).tries = M.tries := fun _ _ _ _ => ⟨rfl, rfl, rfl⟩
  simp only [(hcall _ _ _ _).1, (hcall _ _ _ _).2.1, (hcall _ _ _ _).2.2]
  by_cases hl : (!Unix.lockPwdf M.tries) = true
  · simp only [if_pos hl]
    refine ⟨PAM_AUTHTOK_LOCK_BUSY, s, [], [], fun _ => 0, runs_look ?_, (Onward.refl D s).ended, by decide, fun _ _ _ _ _ => ⟨rfl, rfl⟩⟩
    rw [hM, if_pos hl]
    exact runs_ret _ _ _
  · simp only [if_neg hl]
    cases old with
    | none =>
      obtain ⟨c, s', ts, acts, k1, k2, k3, k4⟩ := set_runs hD (cv := cv) hq s o ctrl name none new asked hM
      refine ⟨c, s', ts, acts, fun _ => 0, runs_look ?_, k2, k3, fun info oldTok item newTok _ => k4 info oldTok item newTok _⟩
      rw [hM, if_neg hl]
      exact k1
    | some p =>
      obtain ⟨v1, v2⟩ := verify_then (cv := cv) (host := fun w => (D.mach w).host true) (s := s) hc ctrl name p
        (fun rv => if rv ≠ PAM_SUCCESS then unixPut D [.lock, .unlock] rv else unixSet D o ctrl name (some p) new asked)
      rw [hM] at v1 v2
      have go : ∀ c s', Runs cv (verifyPassword (fun w => (D.mach w).host true) ctrl name p (fun rv => if rv ≠ PAM_SUCCESS then unixPut D [.lock, .unlock] rv
          else unixSet D o ctrl name (some p) new asked)) s c s' → Runs cv (.ext id fun w => if (!Unix.lockPwdf (D.mach w).tries) = true then .ret PAM_AUTHTOK_LOCK_BUSY
          else verifyPassword (fun w => (D.mach w).host true) ctrl name p (fun rv => if rv ≠ PAM_SUCCESS then unixPut D [.lock, .unlock] rv
            else unixSet D o ctrl name (some p) new asked)) s c s' := by
        intro c s' hr
        refine runs_look ?_
        rw [hM, if_neg hl]
        exact hr
      unfold Unix.verifyPassword
      cases hv : Unix.verdict (M.etc.sys M.world) M.bin (M.luck true 3) M.proc ctrl name p with
      | none =>
        obtain ⟨s2, e1, e2⟩ := v1 hv
        exact ⟨PAM_SYSTEM_ERR, s2, [], [], fun _ => 0, go _ _ e2, (e1.on (D := D)).1.ended, by decide, fun _ _ _ _ _ => by dsimp only; rw [hv]; exact ⟨rfl, rfl⟩⟩
      | some rv =>
        obtain ⟨s2, e1, e2⟩ := v2 rv hv
        obtain ⟨o1, -, -⟩ := e1.on (D := D)
        have hord := verdict_ordinary hv
        by_cases hrv : (Unix.count (failsOf s.inner) name rv).1 = PAM_SUCCESS
        · obtain ⟨c, s', ts, acts, k1, k2, k3, k4⟩ := set_runs hD (cv := cv) hq s2 o ctrl name (some p) new asked (o1.mach.trans hM)
          refine ⟨c, s', [] ++ ts, acts, failsOf s.inner, go _ _ (e2 _ _ ?_), o1.andEnded k2, k3, fun info oldTok item newTok _ => ?_⟩
          · rw [if_neg (by simpa using hrv)]; exact k1
          · dsimp only
            rw [hv]
            dsimp only [Option.map_some]
            rw [if_neg (by simpa using hrv)]
            exact k4 info oldTok item newTok _
        · obtain ⟨s', p1, p2⟩ := put_runs hD cv [.lock, .unlock] (Unix.count (failsOf s.inner) name rv).1 s2
          refine ⟨_, s', [] ++ [], _, failsOf s.inner, go _ _ (e2 (Unix.count (failsOf s.inner) name rv).1 s' ?_), o1.andEnded p2,
            ordinary_whole (count_ordinary hord), fun info oldTok item newTok _ => ?_⟩
          · rw [if_pos hrv]; exact p1
          · dsimp only
            rw [hv]
            dsimp only [Option.map_some]
            rw [if_pos hrv]
            exact ⟨rfl, rfl⟩

/-- a new password, typed twice -/
def TypedTwice (ts : List Talk) (t : Str) : Prop :=
  ∃ pre q1 q2 post kind, ts = pre ++ [q1, q2] ++ post ∧ Answered q1 t ∧ Answered q2 t ∧ q1.msg = typedPrompt "New".toList kind ∧
    q2.msg = typedPrompt "Retype new".toList kind

theorem TypedTwice.after {ts : List Talk} {t : Str} (h : TypedTwice ts t) (xs : List Talk) : TypedTwice (xs ++ ts) t := by
  obtain ⟨pre, q1, q2, post, kind, rfl, h⟩ := h
  exact ⟨xs ++ pre, q1, q2, post, kind, by simp, h⟩

theorem TypedTwice.before {ts : List Talk} {t : Str} (h : TypedTwice ts t) (xs : List Talk) : TypedTwice (ts ++ xs) t := by
  obtain ⟨pre, q1, q2, post, kind, rfl, h⟩ := h
  exact ⟨pre, q1, q2, post ++ xs, kind, by simp, h⟩

theorem ask_runs {D : Disk W} (hD : D.Law) {cv : Convs W} (hq : Quiet D cv) (o : Unix.Opts) (ctrl : Unix.Ctrl) (name : Str) (old : Option Str) {M : Mach} :
    ∀ (left i : Nat) (rv : Int) (s : S W), rv ≠ PAM_INCOMPLETE → s.inner.caller = .module → s.inner.chauthtok = true → s.inner.authtok = none → D.mach s.world = M →
    ∃ c s' ts acts fails, ∃ toks : Nat → Int × Str, Runs cv (unixAsk D o ctrl name old left i rv) s c s' ∧ Ended D s s' ts acts ∧ c ≠ PAM_INCOMPLETE ∧
      (∀ j, (toks j).1 = PAM_SUCCESS → TypedTwice ts (toks j).2) ∧
      ∀ newTok : Nat → Int × Str, (∀ j, i ≤ j → newTok j = toks j) → ∀ info oldTok item,
        codeOf (afterAsk M.world M.etc M.bin M.proc (callOf M true o name info oldTok item newTok) ctrl fails old
          (Unix.askNew { callOf M true o name info oldTok item newTok with ctrl := ctrl } M.world.crypts M.opw old left i rv)) = c ∧
        actsOf (afterAsk M.world M.etc M.bin M.proc (callOf M true o name info oldTok item newTok) ctrl fails old
          (Unix.askNew { callOf M true o name info oldTok item newTok with ctrl := ctrl } M.world.crypts M.opw old left i rv)) = acts := by
  intro left
  induction left with
  | zero =>
    intro i rv s hrv _ _ _ _
    exact ⟨rv, s, [], [], fun _ => 0, fun _ => (PAM_AUTHTOK_ERR, []), runs_ret _ _ _, (Onward.refl D s).ended, hrv, fun j h => absurd h (show ¬ (PAM_AUTHTOK_ERR : Int) = PAM_SUCCESS by decide),
      fun _ _ _ _ _ => ⟨rfl, rfl⟩⟩
  | succ left ih =>
    intro i rv0 s _ hc hch ht hM
    obtain ⟨ts, c, v, s1, h1, h2, h3, h4, h5⟩ := new_token hq hc hch ht
    unfold unixAsk
    by_cases hs : c = PAM_SUCCESS
    · obtain ⟨q1, q2, t, kind, hts, k1, k2, k3, k4, k5⟩ := h5 hs
      have typed : TypedTwice ts t := ⟨[], q1, q2, [], kind, by rw [hts]; rfl, k1, k2, k3, k4⟩
      have hM1 : D.mach s1.world = M := h2.mach.trans hM
      have hcall : ∀ (info : Int) (oldTok : Int × Str) (item : Option Str) (newTok : Nat → Int × Str), newTok i = (PAM_SUCCESS, t) →
          Unix.askNew { callOf M true o name info oldTok item newTok with ctrl := ctrl } M.world.crypts M.opw old (left + 1) i rv0 =
          (if Unix.approvePass M.world.crypts (M.opw i) ctrl name old (Unix.nonEmpty t) (o.minlen.getD 0) = PAM_SUCCESS then
            (Unix.approvePass M.world.crypts (M.opw i) ctrl name old (Unix.nonEmpty t) (o.minlen.getD 0), Unix.nonEmpty t, i + 1)
          else Unix.askNew { callOf M true o name info oldTok item newTok with ctrl := ctrl } M.world.crypts M.opw old left (i + 1)
            (Unix.approvePass M.world.crypts (M.opw i) ctrl name old (Unix.nonEmpty t) (o.minlen.getD 0))) := by
        intro info oldTok item newTok hn
        conv => lhs; unfold Unix.askNew
        dsimp only
        rw [show (callOf M true o name info oldTok item newTok).newTok i = (PAM_SUCCESS, t) from hn, if_neg (by simp)]
        rfl
      have hw := approve_whole M.world.crypts (M.opw i) ctrl name old (Unix.nonEmpty t) (o.minlen.getD 0)
      obtain ⟨ts', s2, a1, a2, a3⟩ := remark_then hq ctrl (approveRemark M.world.crypts (M.opw i) ctrl name old (Unix.nonEmpty t) (o.minlen.getD 0))
        (if Unix.approvePass M.world.crypts (M.opw i) ctrl name old (Unix.nonEmpty t) (o.minlen.getD 0) = PAM_SUCCESS then
          match Unix.nonEmpty t with
          | none => .ret (Unix.approvePass M.world.crypts (M.opw i) ctrl name old (Unix.nonEmpty t) (o.minlen.getD 0))
          | some new => unixLocked D o ctrl name old new (i + 1)
        else .api (.setItem PAM_AUTHTOK .null true true) fun _ => unixAsk D o ctrl name old left (i + 1)
          (Unix.approvePass M.world.crypts (M.opw i) ctrl name old (Unix.nonEmpty t) (o.minlen.getD 0))) s1
      have on2 : Onward D s s2 (ts ++ ts') := h2.trans a1
      have begin_ : ∀ c' s', Runs cv (if Unix.approvePass M.world.crypts (M.opw i) ctrl name old (Unix.nonEmpty t) (o.minlen.getD 0) = PAM_SUCCESS then
          match Unix.nonEmpty t with
          | none => .ret (Unix.approvePass M.world.crypts (M.opw i) ctrl name old (Unix.nonEmpty t) (o.minlen.getD 0))
          | some new => unixLocked D o ctrl name old new (i + 1)
        else .api (.setItem PAM_AUTHTOK .null true true) fun _ => unixAsk D o ctrl name old left (i + 1)
          (Unix.approvePass M.world.crypts (M.opw i) ctrl name old (Unix.nonEmpty t) (o.minlen.getD 0))) s2 c' s' →
          Runs cv (unixAsk D o ctrl name old (left + 1) i rv0) s c' s' := by
        intro c' s' hr
        unfold unixAsk
        refine runs_api h1 ?_
        dsimp only
        rw [if_neg (by simpa using hs), k5]
        refine runs_look ?_
        dsimp only [textOf]
        rw [hM1]
        exact a3 c' s' hr
      change ∃ c s' ts acts fails, ∃ toks : Nat → Int × Str, Runs cv (unixAsk D o ctrl name old (left + 1) i rv0) s c s' ∧ _
      generalize Unix.approvePass M.world.crypts (M.opw i) ctrl name old (Unix.nonEmpty t) (o.minlen.getD 0) = ap at *
      by_cases hap : ap = PAM_SUCCESS
      · simp only [if_pos hap] at begin_ hcall
        cases hn : Unix.nonEmpty t with
        | none =>
          rw [hn] at begin_ hcall
          refine ⟨ap, s2, ts ++ ts', [], fun _ => 0, fun j => if j = i then (PAM_SUCCESS, t) else (PAM_AUTHTOK_ERR, []), begin_ _ _ (runs_ret _ _ _), on2.ended, hw,
            fun j hj => ?_, fun newTok hnew info oldTok item => ?_⟩
          · dsimp only at hj ⊢
            split
            · exact typed.before _
            · next hne => rw [if_neg hne] at hj; exact absurd hj (by decide)
          · rw [hcall _ _ _ _ ((hnew i (Nat.le_refl _)).trans (if_pos rfl))]
            exact ⟨rfl, rfl⟩
        | some new =>
          rw [hn] at begin_ hcall
          obtain ⟨c', s', ts2, acts, fails, l1, l2, l3, l4⟩ := locked_runs hD (cv := cv) hq (s := s2) (on2.kin.caller.trans hc) o ctrl name old new (i + 1) (on2.mach.trans hM)
          refine ⟨c', s', ts ++ ts' ++ ts2, acts, fails, fun j => if j = i then (PAM_SUCCESS, t) else (PAM_AUTHTOK_ERR, []), begin_ _ _ l1, on2.andEnded l2, l3,
            fun j hj => ?_, fun newTok hnew info oldTok item => ?_⟩
          · dsimp only at hj ⊢
            split
            · exact (typed.before _).before _
            · next hne => rw [if_neg hne] at hj; exact absurd hj (by decide)
          · rw [hcall _ _ _ _ ((hnew i (Nat.le_refl _)).trans (if_pos rfl))]
            exact l4 info oldTok item newTok ap
      · simp only [if_neg hap] at begin_ hcall
        have hset : ∃ i' : Inner, ∃ code, setItem s2.inner PAM_AUTHTOK .null true true = (code, i') ∧ i'.authtok = none ∧ Kin s2.inner i' := by
          refine ⟨{ s2.inner with authtok := none }, PAM_SUCCESS, ?_, rfl, ⟨_, _, _, _, _, _, _, _, _, rfl⟩⟩
          show putItem s2.inner .authtok .null true true = _
          unfold putItem
          dsimp only
          rw [if_pos (on2.kin.caller.trans hc)]
          rfl
        obtain ⟨i', code, b1, b2, b3⟩ := hset
        have on3 : Onward D s { s2 with inner := i' } (ts ++ ts') := ⟨on2.mach, on2.kin.trans b3, on2.talk⟩
        obtain ⟨c', s', ts2, acts, fails, toks, l1, l2, l3, l4, l5⟩ := ih (i + 1) ap { s2 with inner := i' } hw (on3.kin.caller.trans hc) (on3.kin.chauthtok.trans hch) b2 (on3.mach.trans hM)
        refine ⟨c', s', ts ++ ts' ++ ts2, acts, fails, fun j => if j = i then (PAM_SUCCESS, t) else toks j, begin_ _ _ ?_, on3.andEnded l2, l3,
            fun j hj => ?_, fun newTok hnew info oldTok item => ?_⟩
        · refine runs_api (a := { code := code }) ?_ l1
          show some (({ code := (setItem s2.inner PAM_AUTHTOK .null true true).1 } : Ans), { s2 with inner := (setItem s2.inner PAM_AUTHTOK .null true true).2 }) = _
          rw [b1]
        · dsimp only at hj ⊢
          split
          · exact (typed.before _).before _
          · next hne => rw [if_neg hne] at hj; exact (l4 j hj).after _
        · rw [hcall _ _ _ _ ((hnew i (Nat.le_refl _)).trans (if_pos rfl))]
          exact l5 newTok (fun j hj => (hnew j (by omega)).trans (if_neg (by omega))) info oldTok item
    · refine ⟨c, s1, ts, [], fun _ => 0, fun _ => (c, []), runs_api h1 ?_, h2.ended, h4, fun j h => absurd h hs, fun newTok hnew info oldTok item => ?_⟩
      · dsimp only
        rw [if_pos hs]
        exact runs_ret _ _ _
      · unfold Unix.askNew
        dsimp only
        rw [show (callOf M true o name info oldTok item newTok).newTok i = (c, []) from hnew i (Nat.le_refl _), if_pos hs]
        exact ⟨rfl, rfl⟩

/-- The second pass does what the model of the module says. -/
theorem renew_runs {D : Disk W} (hD : D.Law) {cv : Convs W} (hq : Quiet D cv) {s : S W} (hc : s.inner.caller = .module) (hch : s.inner.chauthtok = true)
    (ht : s.inner.authtok = none) (ctrl : Unix.Ctrl) (o : Unix.Opts) (name : Str) {M : Mach} (hM : D.mach s.world = M) :
    ∃ c s' ts acts fails, ∃ toks : Nat → Int × Str, Runs cv (unixRenew D o ctrl name) s c s' ∧ Ended D s s' ts acts ∧ c ≠ PAM_INCOMPLETE ∧
      (∀ j, (toks j).1 = PAM_SUCCESS → TypedTwice ts (toks j).2) ∧
      ∀ info oldTok,
        codeOf (Unix.update M.world M.etc M.bin M.proc (callOf M true o name info oldTok s.inner.oldauthtok toks) ctrl fails) = c ∧
        actsOf (Unix.update M.world M.etc M.bin M.proc (callOf M true o name info oldTok s.inner.oldauthtok toks) ctrl fails) = acts := by
  obtain ⟨c, s', ts, acts, fails, toks, h1, h2, h3, h4, h5⟩ := ask_runs hD (cv := cv) hq o ctrl name s.inner.oldauthtok
    (if Unix.on Unix.UNIX_USE_AUTHTOK ctrl ∨ Unix.on Unix.UNIX_USE_FIRST_PASS ctrl then 1 else 3) 0 PAM_AUTHTOK_ERR s (by decide) hc hch ht hM
  refine ⟨c, s', ts, acts, fails, toks, ?_, h2, h3, h4, fun info oldTok => ?_⟩
  · unfold unixRenew
    have hg : effect cv (.getItem PAM_OLDAUTHTOK) s = some ({ code := PAM_SUCCESS, value := .ofStr s.inner.oldauthtok }, s) := by
      show some (({ code := (readItem s.inner .oldauthtok).1, value := (readItem s.inner .oldauthtok).2 } : Ans), s) = _
      unfold readItem
      dsimp only
      rw [if_pos hc]
    refine runs_api hg ?_
    dsimp only
    rw [if_neg (by simp), show storedOf (.ofStr s.inner.oldauthtok) = s.inner.oldauthtok by cases s.inner.oldauthtok <;> rfl]
    exact h1
  · rw [update_after _ _ _ _ _ _ _ rfl]
    exact h5 toks (fun _ _ => rfl) info oldTok s.inner.oldauthtok

end Pam.Whole
