import Verif.Whole.GuardProps
import Verif.Whole.ChangeProps
/-
The first pass of pam_chauthtok with pam_unix among other modules: what any answer of pam_unix but a failure says.
-/
namespace Pam.Whole
open Pam Pam.Config Pam.Config.Spec Pam.Handle Pam.Dispatch
open Pam.Stack (Line fileLinesOf fileLinesOf_tree rstep)

variable {W : Type}

/-- the current password a module is given: PAM_OLDAUTHTOK, or the answer to the question for it -/
inductive GivesOld (lib : Lib W) (s : S W) : Str → Prop
  | kept (pw : Str) : s.inner.oldauthtok = some pw → GivesOld lib s pw
  | typed (pw kind : Str) (w : W) : s.inner.oldauthtok = none →
      (lib.conv s.inner.conv .echoOff (asks "Current".toList kind) w).1 = (PAM_SUCCESS, some (some pw)) → GivesOld lib s pw

/-! ### no answer is PAM_IGNORE -/

theorem ordinary_counts {c : Int} (h : Ordinary c) : c ≠ PAM_IGNORE := by
  rintro rfl; exact absurd h (by decide)

theorem aging_counts {e : Unix.Aging} {d : Int} {r : Int × Int} (h : Unix.checkExpiry e d = some r) : r.1 ≠ PAM_IGNORE := by
  have young : ∀ p q, (Unix.tooYoung e p q).1 ≠ PAM_IGNORE := by
    intro p q
    unfold Unix.tooYoung
    split
    · exact show (PAM_AUTHTOK_ERR : Int) ≠ _ by decide
    · exact show (PAM_SUCCESS : Int) ≠ _ by decide
  have aged : ∀ p, Unix.aged e p = some r → r.1 ≠ PAM_IGNORE := by
    intro p h
    unfold Unix.aged at h
    split at h
    · cases hi : Unix.inactive e p with
      | none => rw [hi] at h; cases h
      | some x =>
        rw [hi] at h
        cases x with
        | some d => have e := Option.some.inj h; rw [← e]; exact show (PAM_AUTHTOK_EXPIRED : Int) ≠ _ by decide
        | none =>
          replace h : (if p ≥ e.max then some (PAM_NEW_AUTHTOK_REQD, -1) else (Unix.warning e p).bind fun d => some (Unix.tooYoung e p d)) = some r := h
          split at h
          · have e := Option.some.inj h; rw [← e]; exact show (PAM_NEW_AUTHTOK_REQD : Int) ≠ _ by decide
          · cases hw : Unix.warning e p with
            | none => rw [hw] at h; cases h
            | some d => rw [hw] at h; have e := Option.some.inj h; rw [← e]; exact young _ _
    · have e := Option.some.inj h; rw [← e]; exact young _ _
  unfold Unix.checkExpiry at h
  split at h
  · have e := Option.some.inj h; rw [← e]; exact show (PAM_ACCT_EXPIRED : Int) ≠ _ by decide
  split at h
  · have e := Option.some.inj h; rw [← e]; exact show (PAM_NEW_AUTHTOK_REQD : Int) ≠ _ by decide
  split at h
  · have e := Option.some.inj h; rw [← e]; exact show (PAM_SUCCESS : Int) ≠ _ by decide
  split at h
  · have e := Option.some.inj h; rw [← e]; exact show (PAM_SUCCESS : Int) ≠ _ by decide
  cases hl : Unix.long (d - e.lstchg) with
  | none => rw [hl] at h; cases h
  | some p => rw [hl] at h; exact aged p h

theorem chkpwd_counts {s : Unix.Sys} {q : Unix.Proc} {i : Unix.Stdin} {args : List Str} {e : Unix.Exit} (h : Unix.chkpwd s q i false args = some e) :
    e.code ≠ PAM_IGNORE := by
  by_cases ho : ∀ user, args ≠ [user, "chkexpiry".toList]
  · exact ordinary_counts (chkpwd_ordinary h ho)
  · have ⟨user, hu⟩ := Classical.not_forall.mp ho
    have hu : args = [user, "chkexpiry".toList] := Classical.not_not.mp hu
    subst hu
    have has : ∀ q, Unix.chkpwdAs s q i user "chkexpiry".toList = some e → e.code ≠ PAM_IGNORE := by
      intro q h
      unfold Unix.chkpwdAs at h
      rw [if_pos rfl] at h
      unfold Unix.checkExpiryOf at h
      have ha : (Unix.accountInfo s q user).1 ≠ PAM_IGNORE := by
        unfold Unix.accountInfo
        repeat' split
        all_goals (dsimp only; decide)
      generalize Unix.accountInfo s q user = a at h ha
      obtain ⟨rv, pw, sp⟩ := a
      dsimp only at h ha
      split at h
      · have e := Option.some.inj h; rw [← e]; exact ha
      · cases sp with
        | none => have e := Option.some.inj h; rw [← e]; exact ha
        | some sp =>
          obtain ⟨r, hr, e⟩ := Option.map_eq_some_iff.mp h
          rw [← e]
          exact aging_counts hr
    unfold Unix.chkpwd at h
    dsimp only at h
    split at h
    · split at h
      · have e := Option.some.inj h; rw [← e]; exact show (PAM_AUTH_ERR : Int) ≠ _ by decide
      · exact has _ h
    · exact has _ h

theorem shadow_counts {s : Unix.Sys} {b : Unix.Bin} {l : Unix.Luck} {p : Unix.Proc} {ctrl : Unix.Ctrl} {name : Str} {rv : Int}
    (h : Unix.verifyShadow s b l p ctrl name = some rv) : rv ≠ PAM_IGNORE := by
  unfold Unix.verifyShadow at h
  generalize Unix.moduleHash s name = mh at h
  obtain ⟨a, salt⟩ := mh
  dsimp only at h
  by_cases h1 : a = PAM_USER_UNKNOWN
  · rw [if_pos h1] at h; have e := Option.some.inj h; rw [← e, h1]; decide
  rw [if_neg h1] at h
  by_cases h2 : a = PAM_SUCCESS
  · rw [if_pos h2] at h; have e := Option.some.inj h; rw [← e]; decide
  rw [if_neg h2] at h
  cases hr : Unix.runVerify s b l p name with
  | none => rw [hr] at h; cases h
  | some x =>
    have hx : x.1 ≠ PAM_IGNORE := by
      unfold Unix.runVerify at hr
      split at hr
      · have e := Option.some.inj hr; rw [← e]; exact show (PAM_AUTH_ERR : Int) ≠ _ by decide
      split at hr
      · have e := Option.some.inj hr; rw [← e]; exact show (PAM_AUTH_ERR : Int) ≠ _ by decide
      cases hc : Unix.childRun s b l p [] [name, "chkexpiry".toList] (some (-1)) with
      | none => rw [hc] at hr; cases hr
      | some e =>
        rw [hc] at hr
        have he : e.code ≠ PAM_IGNORE := by
          rcases Unix.child_cases s b l p [] [name, "chkexpiry".toList] (some (-1)) with ⟨o, h1, -, -⟩ | ⟨q, -, h1⟩
          · rw [hc] at h1
            have e := Option.some.inj h1
            rw [e]
            exact show (PAM_AUTHINFO_UNAVAIL : Int) ≠ _ by decide
          · rw [hc] at h1
            exact chkpwd_counts h1.symm
        dsimp only at hr
        have e' := Option.some.inj hr
        rw [← e']
        repeat' split
        all_goals first | exact show (PAM_AUTH_ERR : Int) ≠ _ by decide | exact he
    obtain ⟨rv', d⟩ := x
    rw [hr] at h
    dsimp only at h hx
    have e := Option.some.inj h
    rw [← e]
    repeat' split
    all_goals first | exact hx | decide

theorem old_code (cv : Convs W) (s : S W) : (getAuthtok cv PAM_OLDAUTHTOK none false {} s).1 ≠ PAM_IGNORE := by
  have hg : ∀ i : Inner, (getItem i PAM_OLDAUTHTOK).1 ≠ PAM_IGNORE := by
    intro i
    rw [oldItem]
    split
    · exact show (PAM_SUCCESS : Int) ≠ PAM_IGNORE by decide
    · exact show (PAM_BAD_ITEM : Int) ≠ PAM_IGNORE by decide
  have hs : ∀ (i : Inner) (t : Str) (ok : Bool), (setItem i PAM_OLDAUTHTOK (.str t) ok true).1 ≠ PAM_IGNORE := by
    intro i t ok
    show (putItem i .oldauthtok (.str t) ok true).1 ≠ _
    unfold putItem
    simp only
    split
    · cases ok
      · exact show (PAM_BUF_ERR : Int) ≠ PAM_IGNORE by decide
      · exact show (PAM_SUCCESS : Int) ≠ PAM_IGNORE by decide
    · exact show (PAM_BAD_ITEM : Int) ≠ PAM_IGNORE by decide
  unfold getAuthtok
  dsimp only
  split
  · exact show (PAM_SUCCESS : Int) ≠ PAM_IGNORE by decide
  · split
    · dsimp only
      split
      · split <;> decide
      · exact hg _
    · unfold tokenReply
      split
      · exact show (PAM_AUTHTOK_ERR : Int) ≠ PAM_IGNORE by decide
      · split
        · exact show (PAM_AUTHTOK_ERR : Int) ≠ PAM_IGNORE by decide
        · split
          · exact show (PAM_TRY_AGAIN : Int) ≠ PAM_IGNORE by decide
          · unfold keepToken
            dsimp only
            split
            · exact hs _ _ _
            · exact hg _

/-! ### the current password -/

theorem old_any {lib : Lib W} {D : Disk W} (hq : Quiet D lib.conv) {s : S W} (hc : s.inner.caller = .module) :
    ∃ a s1, effect lib.conv (.getAuthtok true none false {}) s = some (a, s1) ∧ D.mach s1.world = D.mach s.world ∧ s1.inner.caller = .module ∧
      a.code ≠ PAM_IGNORE ∧ (a.code = PAM_SUCCESS → GivesOld lib s (textOf a.value)) := by
  cases ho : s.inner.oldauthtok with
  | some t =>
    obtain ⟨-, t2, t3⟩ := authtokTypeOf_tokens s.inner true
    have e3 : getItem (authtokTypeOf s.inner true).2 PAM_OLDAUTHTOK = (PAM_SUCCESS, .str t) := by
      rw [oldItem, if_pos (t3.trans hc), t2, ho]; rfl
    have e4 : getAuthtok lib.conv PAM_OLDAUTHTOK none false {} s = (PAM_SUCCESS, some (.str t), { s with inner := (authtokTypeOf s.inner true).2 }) := by
      unfold getAuthtok
      simp only [e3]
      rw [if_pos (by simp)]
    refine ⟨{ code := PAM_SUCCESS, value := .str t }, { s with inner := (authtokTypeOf s.inner true).2 }, ?_, rfl, t3.trans hc,
      (show (PAM_SUCCESS : Int) ≠ PAM_IGNORE by decide), fun _ => .kept t ho⟩
    unfold effect
    dsimp only
    rw [if_pos rfl, e4]
    rfl
  | none =>
    obtain ⟨ts, c, v, s1, h1, h2, h3, h4, h5⟩ := current_token hq hc ho
    refine ⟨_, s1, h1, h2.mach, h2.kin.caller.trans hc, ?_, ?_⟩
    · have e := congrArg (fun x => x.1.code) (Option.some.inj h1)
      replace e : (getAuthtok lib.conv PAM_OLDAUTHTOK none false {} s).1 = c := e
      show c ≠ _
      rw [← e]
      exact old_code _ _
    · intro hs
      obtain ⟨q, t, kind, -, -, -, k1, -, k2⟩ := h5 hs
      dsimp only
      rw [k1]
      exact .typed t kind s.world ho (by rw [← asks_typed]; exact k2)

/-- what entitles to a change, in the first pass, of pam_unix among other modules: the empty password is accepted; the real user is root and does
not ask for expired passwords only; or pam_unix was given the current password, and a hash that was read accepts it (or, if the transfer of the
password to the helper was cut, accepts an empty one) -/
inductive Permits (lib : Lib W) (M : Mach) (s : S W) (flags : Nat) (name : Str) : Prop
  | blank (x : Str) : Unix.Read (M.etc.sys M.world) M.bin (M.luck false 1) M.proc name x → Unix.Accepts M.world.crypts true x [] → Permits lib M s flags name
  | root : M.proc.uid = 0 → flags.testBit 5 = false → Permits lib M s flags name
  | known (old x : Str) : GivesOld lib s old → Unix.Read (M.etc.sys M.world) M.bin (M.luck false 3) M.proc name x →
      (Unix.Accepts M.world.crypts true x (old.take 512) ∨ ((M.luck false 3).Cut ∧ Unix.Accepts M.world.crypts true x [])) → Permits lib M s flags name

theorem givesOld_of {lib : Lib W} {s s1 : S W} {pw : Str} (h : GivesOld lib s1 pw) (h1 : s1.inner.oldauthtok = s.inner.oldauthtok) (h2 : s1.inner.conv = s.inner.conv) :
    GivesOld lib s pw := by
  cases h with
  | kept h => exact .kept _ (h1 ▸ h)
  | typed kind w h k => exact .typed _ kind w (h1 ▸ h) (h2 ▸ k)

theorem names_mach {lib : Lib W} {D : Disk W} (hq : Quiet D lib.conv) {s : S W} {name : Str} {w1 : W} (h : Names lib s name w1) : D.mach w1 = D.mach s.world := by
  cases h with
  | known => rfl
  | asked prompt _ _ k =>
    have := hq s.inner.conv .echoOn prompt s.world
    rw [k] at this
    exact this

theorem aged_counts {s : Unix.Sys} {b : Unix.Bin} {l : Unix.Luck} {p : Unix.Proc} {ctrl : Unix.Ctrl} {name : Str} {c : Int} {fails : Unix.Fails}
    (h : codeOf ((Unix.verifyShadow s b l p ctrl name).map (fun rv =>
        (⟨if rv = PAM_AUTHTOK_ERR ∧ Unix.off Unix.UNIX_EXPIRED_ONLY ctrl ∧ Unix.on Unix.UNIX__IAMROOT ctrl then PAM_SUCCESS else rv, fails, 0, []⟩ : Unix.ChRes))) = c) :
    c ≠ PAM_IGNORE := by
  rw [← h]
  cases hv : Unix.verifyShadow s b l p ctrl name with
  | none => exact show (PAM_SYSTEM_ERR : Int) ≠ PAM_IGNORE by decide
  | some rv =>
    show (if rv = PAM_AUTHTOK_ERR ∧ Unix.off Unix.UNIX_EXPIRED_ONLY ctrl ∧ Unix.on Unix.UNIX__IAMROOT ctrl then PAM_SUCCESS else rv) ≠ PAM_IGNORE
    split
    · decide
    · exact shadow_counts hv

theorem current_any {lib : Lib W} {D : Disk W} (hq : Quiet D lib.conv) {s : S W} (hc : s.inner.caller = .module)
    (ctrl : Unix.Ctrl) (name : Str) {M : Mach} (hM : D.mach s.world = M) :
    ∃ (c : Int) (s' : S W) (oldTok : Int × Str), Runs lib.conv (unixCurrent D ctrl name) s c s' ∧ c ≠ PAM_IGNORE ∧ (oldTok.1 = PAM_SUCCESS → GivesOld lib s oldTok.2) ∧
      ∃ fails, codeOf (if oldTok.1 ≠ PAM_SUCCESS then some ⟨oldTok.1, fails, 0, []⟩
        else
          match Unix.verifyPassword (M.etc.sys M.world) M.bin (M.luck false 3) M.proc ctrl fails name oldTok.2 with
          | none => none
          | some (rv, fails) => if rv ≠ PAM_SUCCESS then some ⟨rv, fails, 0, []⟩ else
            (Unix.verifyShadow (M.etc.sys M.world) M.bin (M.luck false 4) M.proc ctrl name).map (fun rv =>
              ⟨if rv = PAM_AUTHTOK_ERR ∧ Unix.off Unix.UNIX_EXPIRED_ONLY ctrl ∧ Unix.on Unix.UNIX__IAMROOT ctrl then PAM_SUCCESS else rv, fails, 0, []⟩)) = c := by
  obtain ⟨a, s1, h1, h2, h3, h4, h5⟩ := old_any hq hc
  unfold unixCurrent
  by_cases hs : a.code = PAM_SUCCESS
  · have gives := h5 hs
    have hM1 : D.mach s1.world = M := h2.trans hM
    generalize ht : textOf a.value = t at gives
    obtain ⟨v1, v2⟩ := verify_then (cv := lib.conv) (host := fun w => (D.mach w).host false) (s := s1) h3 ctrl name t
      (fun rv => if rv ≠ PAM_SUCCESS then .ret rv else unixAge D ctrl name)
    rw [hM1] at v1 v2
    have run1 : ∀ c' s', Runs lib.conv (verifyPassword (fun w => (D.mach w).host false) ctrl name t
        (fun rv => if rv ≠ PAM_SUCCESS then .ret rv else unixAge D ctrl name)) s1 c' s' →
        Runs lib.conv (.api (.getAuthtok true none false {}) fun t => if t.code ≠ PAM_SUCCESS then .ret t.code
          else verifyPassword (fun w => (D.mach w).host false) ctrl name (textOf t.value) fun rv =>
            if rv ≠ PAM_SUCCESS then .ret rv else unixAge D ctrl name) s c' s' := by
      intro c' s' hr
      refine runs_api h1 ?_
      rw [if_neg (by simpa using hs), ht]
      exact hr
    cases hv : Unix.verdict (M.etc.sys M.world) M.bin (M.luck false 3) M.proc ctrl name t with
    | none =>
      obtain ⟨s2, e1, e2⟩ := v1 hv
      refine ⟨PAM_SYSTEM_ERR, s2, (PAM_SUCCESS, t), run1 _ _ e2, by decide, fun _ => gives, fun _ => 0, ?_⟩
      rw [if_neg (by simp)]
      unfold Unix.verifyPassword
      rw [hv]
      rfl
    | some rv =>
      obtain ⟨s2, e1, e2⟩ := v2 rv hv
      have hord := verdict_ordinary hv
      by_cases hrv : (Unix.count (failsOf s1.inner) name rv).1 = PAM_SUCCESS
      · obtain ⟨c', s', ts', g1, -, -, -, g5⟩ := age_runs (cv := lib.conv) hq s2 ctrl name (show D.mach s2.world = M by rw [e1.world]; exact hM1)
        refine ⟨c', s', (PAM_SUCCESS, t), run1 _ _ (e2 _ _ ?_), aged_counts (g5 (fun _ => 0)), fun _ => gives, failsOf s1.inner, ?_⟩
        · rw [if_neg (by simpa using hrv)]; exact g1
        · rw [if_neg (by simp)]
          unfold Unix.verifyPassword
          rw [hv]
          dsimp only [Option.map_some]
          rw [if_neg (by simpa using hrv)]
          exact g5 _
      · refine ⟨_, s2, (PAM_SUCCESS, t), run1 _ _ (e2 (Unix.count (failsOf s1.inner) name rv).1 s2 ?_), ordinary_counts (count_ordinary hord),
          fun _ => gives, failsOf s1.inner, ?_⟩
        · rw [if_pos hrv]; exact runs_ret _ _ _
        · rw [if_neg (by simp)]
          unfold Unix.verifyPassword
          rw [hv]
          dsimp only [Option.map_some]
          rw [if_pos hrv]
          rfl
  · refine ⟨a.code, s1, (a.code, []), runs_api h1 ?_, h4, fun h => absurd h hs, fun _ => 0, ?_⟩
    · rw [if_pos hs]
      exact runs_ret _ _ _
    · rw [if_pos hs]
      rfl

theorem prelim_any {lib : Lib W} {D : Disk W} (hq : Quiet D lib.conv) (hinfo : ∀ c msg w, (lib.conv c .info msg w).1.1 ≠ PAM_IGNORE) {s : S W}
    (hc : s.inner.caller = .module) (ctrl : Unix.Ctrl) (o : Unix.Opts) (name : Str) {M : Mach} (hM : D.mach s.world = M) :
    ∃ (c : Int) (s' : S W) (info : Int) (oldTok : Int × Str), Runs lib.conv (unixPrelim D ctrl name) s c s' ∧ c ≠ PAM_IGNORE ∧ (oldTok.1 = PAM_SUCCESS → GivesOld lib s oldTok.2) ∧
      ∃ fails, ∀ old new, codeOf (Unix.prelim M.world M.etc M.bin M.proc (callOf M false o name info oldTok old new) ctrl fails) = c := by
  have look : ∀ (X : Prog W) c s', (match Unix.blankPasswd (M.etc.sys M.world) M.bin (M.luck false) M.proc ctrl name with
        | none => .ret PAM_SYSTEM_ERR
        | some (true, _) => .ret PAM_SUCCESS
        | some (false, _) =>
          if Unix.off Unix.UNIX__IAMROOT ctrl then
            if Unix.off Unix.UNIX__QUIET ctrl then
              .api (.say false ("Changing password for ".toList ++ name ++ ".".toList)) fun a =>
                if a.code ≠ PAM_SUCCESS then .ret a.code else unixCurrent D ctrl name
            else unixCurrent D ctrl name
          else unixAge D ctrl name : Prog W) = X → Runs lib.conv X s c s' → Runs lib.conv (unixPrelim D ctrl name) s c s' := by
    intro X c s' e hr
    unfold unixPrelim
    refine runs_look ?_
    rw [hM]
    subst e
    exact hr
  unfold Unix.prelim
  show ∃ (c : Int) (s' : S W) (info : Int) (oldTok : Int × Str), Runs lib.conv (unixPrelim D ctrl name) s c s' ∧ c ≠ PAM_IGNORE ∧ (oldTok.1 = PAM_SUCCESS → GivesOld lib s oldTok.2) ∧
      ∃ fails, ∀ (old : Option Str) (new : Nat → Int × Str),
      codeOf (match Unix.blankPasswd (M.etc.sys M.world) M.bin (M.luck false) M.proc ctrl name with
        | none => none
        | some (true, _) => some ⟨PAM_SUCCESS, fails, 0, []⟩
        | some (false, _) =>
          if Unix.off Unix.UNIX__IAMROOT ctrl then
            if Unix.off Unix.UNIX__QUIET ctrl ∧ info ≠ PAM_SUCCESS then some ⟨info, fails, 0, []⟩
            else if oldTok.1 ≠ PAM_SUCCESS then some ⟨oldTok.1, fails, 0, []⟩
            else
              match Unix.verifyPassword (M.etc.sys M.world) M.bin (M.luck false 3) M.proc ctrl fails name oldTok.2 with
              | none => none
              | some (rv, fails) => if rv ≠ PAM_SUCCESS then some ⟨rv, fails, 0, []⟩ else
                (Unix.verifyShadow (M.etc.sys M.world) M.bin (M.luck false 4) M.proc ctrl name).map (fun rv =>
                  ⟨if rv = PAM_AUTHTOK_ERR ∧ Unix.off Unix.UNIX_EXPIRED_ONLY ctrl ∧ Unix.on Unix.UNIX__IAMROOT ctrl then PAM_SUCCESS else rv, fails, 0, []⟩)
          else
            (Unix.verifyShadow (M.etc.sys M.world) M.bin (M.luck false 4) M.proc ctrl name).map (fun rv =>
              ⟨if rv = PAM_AUTHTOK_ERR ∧ Unix.off Unix.UNIX_EXPIRED_ONLY ctrl ∧ Unix.on Unix.UNIX__IAMROOT ctrl then PAM_SUCCESS else rv, fails, 0, []⟩)) = c
  cases hb : Unix.blankPasswd (M.etc.sys M.world) M.bin (M.luck false) M.proc ctrl name with
  | none =>
    rw [hb] at look
    exact ⟨PAM_SYSTEM_ERR, s, 0, (PAM_AUTHTOK_ERR, []), look _ _ _ rfl (runs_ret _ _ _), by decide, fun h => absurd h (by decide), fun _ => 0, fun _ _ => rfl⟩
  | some b =>
    obtain ⟨v, runs⟩ := b
    rw [hb] at look
    cases v with
    | true =>
      exact ⟨PAM_SUCCESS, s, 0, (PAM_AUTHTOK_ERR, []), look _ _ _ rfl (runs_ret _ _ _), by decide, fun h => absurd h (by decide), fun _ => 0, fun _ _ => rfl⟩
    | false =>
      dsimp only at look ⊢
      by_cases hr : Unix.off Unix.UNIX__IAMROOT ctrl = true
      · simp only [if_pos hr] at look ⊢
        by_cases hs : Unix.off Unix.UNIX__QUIET ctrl = true
        · simp only [if_pos hs] at look
          obtain ⟨q, q1, q2, g1, g2⟩ := converse_on hq .info ("Changing password for ".toList ++ name ++ ".".toList) s
          have heff : effect lib.conv (.say false ("Changing password for ".toList ++ name ++ ".".toList)) s =
            some ({ code := (converse lib.conv .info ("Changing password for ".toList ++ name ++ ".".toList) s).1.1 },
              (converse lib.conv .info ("Changing password for ".toList ++ name ++ ".".toList) s).2) := rfl
          have hin : (converse lib.conv .info ("Changing password for ".toList ++ name ++ ".".toList) s).1.1 ≠ PAM_IGNORE := hinfo _ _ _
          generalize "Changing password for ".toList ++ name ++ ".".toList = msg at *
          generalize converse lib.conv .info msg s = r at *
          by_cases hi : r.1.1 = PAM_SUCCESS
          · obtain ⟨c, s', oldTok, k1, k2, k3, fails, k6⟩ := current_any hq (s := r.2) (by rw [g2]; exact hc) ctrl name (g1.mach.trans hM)
            refine ⟨c, s', PAM_SUCCESS, oldTok, look _ _ _ rfl (runs_api heff ?_), k2, fun h => givesOld_of (k3 h) (by rw [g2]) (by rw [g2]), fails, fun _ _ => ?_⟩
            · dsimp only
              rw [if_neg (by simpa using hi)]
              exact k1
            · rw [if_neg (fun x => x.2 rfl)]
              exact k6
          · refine ⟨r.1.1, r.2, r.1.1, (PAM_AUTHTOK_ERR, []), look _ _ _ rfl (runs_api heff ?_), hin, fun h => absurd h (by decide), fun _ => 0, fun _ _ => ?_⟩
            · dsimp only
              rw [if_pos hi]
              exact runs_ret _ _ _
            · rw [if_pos ⟨hs, hi⟩]
              rfl
        · simp only [if_neg hs] at look
          obtain ⟨c, s', oldTok, k1, k2, k3, fails, k6⟩ := current_any hq hc ctrl name hM
          refine ⟨c, s', PAM_SUCCESS, oldTok, look _ _ _ rfl k1, k2, k3, fails, fun _ _ => ?_⟩
          rw [if_neg (fun x => x.2 rfl)]
          exact k6
      · simp only [if_neg hr] at look ⊢
        obtain ⟨c, s', ts, k1, -, -, -, k5⟩ := age_runs (cv := lib.conv) hq s ctrl name hM
        exact ⟨c, s', 0, (PAM_AUTHTOK_ERR, []), look _ _ _ rfl k1, aged_counts (k5 (fun _ => 0)), fun h => absurd h (by decide), fun _ => 0, fun _ _ => k5 _⟩

/-- what the program for passwords answers in the first pass, in any state -/
theorem first_any {lib : Lib W} {D : Disk W} (hq : Quiet D lib.conv) (hinfo : ∀ c msg w, (lib.conv c .info msg w).1.1 ≠ PAM_IGNORE) {s : S W}
    (hc : s.inner.caller = .module) (hf : FailOk s.inner.failUser) {flags : Nat} (h14 : flags.testBit 14 = true) (args : List Str) {M : Mach}
    (hM : D.mach s.world = M) :
    ∃ c s' o, Runs lib.conv (unixChange D flags args) s c s' ∧ c ≠ PAM_IGNORE ∧ changeOpts M flags args = some o ∧
      (c = PAM_SUCCESS → ∃ (name : Str) (w1 : W) (info : Int) (oldTok : Int × Str) (fails : Unix.Fails), Names lib s name w1 ∧ (oldTok.1 = PAM_SUCCESS → GivesOld lib s oldTok.2) ∧
        ∀ old new, codeOf (Unix.chauthtok M.world M.etc M.bin M.proc (callOf M false o name info oldTok old new) fails) = PAM_SUCCESS) := by
  obtain ⟨o, hopt⟩ := Unix.C72_defined (decide (M.proc.uid = 0)) (unixFlags flags) M.defs (some (-1)) (some 0) (some 0) args
  have hopt : changeOpts M flags args = some o := hopt
  have hpre : Unix.on Unix.UNIX__PRELIM o.ctrl = true := by
    rw [(Unix.C72_call _ _ _ _ _ _ _ _ hopt).2.1]; exact h14
  obtain ⟨a, s1, g1, g2, g3, g4⟩ := getUser_any lib s hf
  have hlead : ∀ c s', Runs lib.conv (if a.code = PAM_SUCCESS then unixChangeNamed D o (textOf a.value) else .ret a.code) s1 c s' →
      Runs lib.conv (unixChange D flags args) s c s' := by
    intro c s' h
    unfold unixChange
    refine runs_look ?_
    rw [hM, hopt]
    exact runs_api g1 h
  by_cases ha : a.code = PAM_SUCCESS
  · obtain ⟨name, v1, v2, -, v4, v5⟩ := g4 ha
    have hM1 : D.mach s1.world = M := (names_mach hq v2).trans hM
    rw [if_pos ha, v1] at hlead
    replace hlead : ∀ c s', Runs lib.conv (unixChangeNamed D o name) s1 c s' → Runs lib.conv (unixChange D flags args) s c s' := hlead
    unfold unixChangeNamed at hlead
    by_cases hn : name.head? = some '-' ∨ name.head? = some '+'
    · rw [if_pos hn] at hlead
      exact ⟨PAM_USER_UNKNOWN, s1, o, hlead _ _ (runs_ret _ _ _), by decide, hopt, fun h => absurd h (by decide)⟩
    · rw [if_neg hn] at hlead
      have lift : ∀ (X : Prog W) c s', (match M.etc.findPw name with
          | none => .ret PAM_USER_UNKNOWN
          | some _ => (if Unix.on Unix.UNIX__PRELIM (Unix.relaxed o.ctrl) then unixPrelim D (Unix.relaxed o.ctrl) name
            else if Unix.on Unix.UNIX__UPDATE (Unix.relaxed o.ctrl) then unixRenew D o (Unix.relaxed o.ctrl) name
            else .ret PAM_ABORT) : Prog W) = X → Runs lib.conv X s1 c s' → Runs lib.conv (unixChange D flags args) s c s' := by
        intro X c s' e hr
        refine hlead c s' (runs_look ?_)
        rw [hM1]
        subst e
        exact hr
      cases hp : M.etc.findPw name with
      | none =>
        rw [hp] at lift
        exact ⟨PAM_USER_UNKNOWN, s1, o, lift _ _ _ rfl (runs_ret _ _ _), by decide, hopt, fun h => absurd h (by decide)⟩
      | some x =>
        rw [hp] at lift
        dsimp only at lift
        rw [Unix.on_relaxed (by decide) (by decide) (by decide) (by decide), if_pos hpre] at lift
        obtain ⟨c, s', info, oldTok, k1, k2, k3, fails, k6⟩ := prelim_any hq hinfo (s := s1) (g3.caller.trans hc) (Unix.relaxed o.ctrl) o name hM1
        refine ⟨c, s', o, lift _ _ _ rfl k1, k2, hopt, fun hs => ⟨name, s1.world, info, oldTok, fails, v2, fun h => givesOld_of (k3 h) v5 v4, fun old new => ?_⟩⟩
        rw [← hs, ← k6 old new]
        unfold Unix.chauthtok
        rw [if_neg (show ¬ (callOf M false o name info oldTok old new).user.1 ≠ PAM_SUCCESS from fun h => h rfl)]
        rw [if_neg (show ¬ ((callOf M false o name info oldTok old new).user.2.head? = some '-' ∨ (callOf M false o name info oldTok old new).user.2.head? = some '+') from hn)]
        show codeOf (match M.etc.findPw name with | none => _ | some _ => _) = _
        rw [hp]
        show codeOf (if Unix.on Unix.UNIX__PRELIM (Unix.relaxed o.ctrl) = true then _ else _) = _
        rw [Unix.on_relaxed (by decide) (by decide) (by decide) (by decide), if_pos hpre]
        rfl
  · rw [if_neg ha] at hlead
    exact ⟨a.code, s1, o, hlead _ _ (runs_ret _ _ _), g2.2, hopt, fun h => absurd h ha⟩

end Pam.Whole
