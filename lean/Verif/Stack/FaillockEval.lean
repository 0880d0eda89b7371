import Verif.Stack.Faillock
/-
Evaluating the two stacks.
-/
namespace Pam.Stack
open Pam Pam.Config Pam.Config.Spec
open Pam.Faillock (File Conf Opts Kind argsParse)
open Pam.Faillock.Spec (Event Locked counted fileAfter doEvent Forward)
open Pam.Dispatch.Spec (Verdict Stack State Module Body Result eval run)

variable {σ : Type}

/-! ### Controls -/

theorem required_eq : actionsOf "required".toList = onCodes (Dispatch.classicActions .required) := by
  have : flagOf "required".toList = some .required := by decide
  unfold actionsOf; rw [this]

theorem sufficient_eq : actionsOf "sufficient".toList = onCodes (Dispatch.classicActions .sufficient) := by
  have : flagOf "sufficient".toList = some .sufficient := by decide
  unfold actionsOf; rw [this]

theorem unixControl : (List.range 32).map (actionsOf "success=1 default=bad".toList) = 1 :: List.replicate 31 ACT_BAD := by
  decide +kernel

theorem dieControl : (List.range 32).map (actionsOf "default=die".toList) = List.replicate 32 ACT_DIE := by
  decide +kernel

theorem table_get {f : Nat → Int} {l : List Int} (h : (List.range 32).map f = l) (c : Nat) (hc : c < 32) : l[c]? = some (f c) := by
  rw [← h, List.getElem?_map, List.getElem?_range hc]; rfl

theorem unixControl_success : actionsOf "success=1 default=bad".toList 0 = ((1 : Nat) : Int) := by
  have := table_get unixControl 0 (by decide)
  simpa using this.symm

theorem unixControl_bad (c : Nat) (h : 0 < c) (hc : c < 32) : actionsOf "success=1 default=bad".toList c = ACT_BAD := by
  have := table_get unixControl c hc
  obtain ⟨k, rfl⟩ : ∃ k, c = k + 1 := ⟨c - 1, by omega⟩
  rw [List.getElem?_cons_succ, List.getElem?_replicate, if_pos (by omega)] at this
  exact (Option.some.inj this).symm

theorem dieControl_die (c : Nat) (hc : c < 32) : actionsOf "default=die".toList c = ACT_DIE := by
  have := table_get dieControl c hc
  rw [List.getElem?_replicate, if_pos hc] at this
  exact (Option.some.inj this).symm

/-! ### Required and sufficient lines -/

/-- the effect of a required line on the verdict -/
def rstep (v : Verdict) (r : Int) : Verdict :=
  if r = PAM_SUCCESS ∨ r = PAM_NEW_AUTHTOK_REQD then v.accept r
  else if r = PAM_IGNORE then v else v.reject (badCode r)

theorem line_required {b : Body σ} {s : State σ} {r : Int} {w : σ} (ha : Answers b s r w) (entry : Verdict)
    (rest : Stack σ) (pos : Nat) :
    ∃ s', s'.verdict = rstep s.verdict r ∧ s'.world = w ∧
      eval false entry 0 (.mod ⟨b, actionsOf "required".toList⟩ rest) pos s = eval false entry 0 rest (pos + 1) s' := by
  rw [required_eq]
  unfold rstep
  have ha' := ha.whole
  by_cases h1 : r = PAM_SUCCESS ∨ r = PAM_NEW_AUTHTOK_REQD
  · rw [if_pos h1]
    rcases h1 with rfl | rfl
    · exact line_ok ha _ entry rest pos (by decide) (by decide)
    · exact line_ok ha _ entry rest pos (by decide) (by decide)
  · rw [if_neg h1]
    by_cases h2 : r = PAM_IGNORE
    · rw [if_pos h2]; subst h2
      exact line_ignore ha _ entry rest pos (by decide) (by decide)
    · rw [if_neg h2]
      apply line_bad ha _ entry rest pos
      by_cases hv : r < 0 ∨ 32 ≤ r
      · rcases hv with h | h
        · exact Or.inl h
        · exact Or.inr (Or.inl h)
      · refine Or.inr (Or.inr ?_)
        simp only [PAM_SUCCESS, PAM_NEW_AUTHTOK_REQD, PAM_IGNORE] at h1 h2
        have e0 : r.toNat ≠ 0 := by omega
        have e1 : r.toNat ≠ 12 := by omega
        have e2 : r.toNat ≠ 25 := by omega
        have e3 : r.toNat < 32 := by omega
        simp [onCodes, Dispatch.classicActions, e0, e1, e2, e3]

/-- nothing concluded, or plain success -/
def Clean (v : Verdict) : Prop := v = .none ∨ v = .good PAM_SUCCESS

/-- a failure was recorded -/
def Bad (v : Verdict) : Prop := ∃ c, v = .bad c

theorem bad_reject (v : Verdict) (c : Int) : Bad (v.reject c) := by
  cases v <;> exact ⟨_, rfl⟩

theorem Bad.code {v : Verdict} (h : Bad v) : v.code ≠ PAM_SUCCESS := by
  obtain ⟨c, rfl⟩ := h
  simp only [Verdict.code]
  split
  · decide
  · assumption

theorem Bad.accept {v : Verdict} (h : Bad v) (c : Int) : v.accept c = v := by
  obtain ⟨d, rfl⟩ := h; rfl

theorem clean_not_bad {v : Verdict} (h : Clean v) : ¬ Bad v := by
  rintro ⟨c, rfl⟩
  rcases h with h | h <;> cases h

theorem accept_good {v : Verdict} (h : ¬ Bad v) (c : Int) : (v.accept c).isGood = true := by
  cases v with
  | none => rfl
  | good d => simp only [Verdict.accept]; split <;> rfl
  | bad d => exact absurd ⟨d, rfl⟩ h

/-- PAM_SUCCESS on top of a verdict that is not a failure is plain success exactly if the verdict was clean -/
theorem accept_success {v : Verdict} (h : ¬ Bad v) : (v.accept PAM_SUCCESS).code = PAM_SUCCESS ↔ Clean v := by
  cases v with
  | none => simp [Verdict.accept, Verdict.code, Clean]
  | good d =>
    simp only [Verdict.accept, Clean, reduceCtorEq, Verdict.good.injEq, false_or]
    by_cases hd : d = PAM_SUCCESS
    · simp [hd, Verdict.code]
    · simp [hd, Verdict.code]
  | bad d => exact absurd ⟨d, rfl⟩ h

theorem rstep_clean (v : Verdict) (r : Int) : Clean (rstep v r) ↔ Clean v ∧ (r = PAM_SUCCESS ∨ r = PAM_IGNORE) := by
  unfold rstep Clean
  by_cases h1 : r = PAM_SUCCESS
  · subst h1
    cases v with
    | none => simp [Verdict.accept]
    | good d => by_cases hd : d = PAM_SUCCESS <;> simp [Verdict.accept, hd]
    | bad d => simp [Verdict.accept]
  · by_cases h2 : r = PAM_NEW_AUTHTOK_REQD
    · subst h2
      rw [if_pos (Or.inr rfl)]
      have k1 : ¬ PAM_NEW_AUTHTOK_REQD = PAM_SUCCESS := by decide
      have k2 : ¬ PAM_NEW_AUTHTOK_REQD = PAM_IGNORE := by decide
      cases v with
      | none => simp [Verdict.accept, k1, k2]
      | good d => by_cases hd : d = PAM_SUCCESS <;> simp [Verdict.accept, hd, k1, k2]
      | bad d => simp [Verdict.accept]
    · rw [if_neg (fun h => h.elim h1 h2)]
      by_cases h3 : r = PAM_IGNORE
      · rw [if_pos h3]; simp [h3]
      · rw [if_neg h3]
        obtain ⟨c, hc⟩ := bad_reject v (badCode r)
        rw [hc]; simp [h1, h3]

/-- an answer that does not fail a required line -/
def Passes (r : Int) : Prop := r = PAM_SUCCESS ∨ r = PAM_NEW_AUTHTOK_REQD ∨ r = PAM_IGNORE

instance (r : Int) : Decidable (Passes r) := by unfold Passes; infer_instance

theorem rstep_bad (v : Verdict) (r : Int) : Bad (rstep v r) ↔ Bad v ∨ ¬ Passes r := by
  unfold rstep Passes
  by_cases h1 : r = PAM_SUCCESS ∨ r = PAM_NEW_AUTHTOK_REQD
  · rw [if_pos h1]
    have : r = PAM_SUCCESS ∨ r = PAM_NEW_AUTHTOK_REQD ∨ r = PAM_IGNORE := h1.elim Or.inl (fun h => Or.inr (Or.inl h))
    simp only [this, not_true_eq_false, or_false]
    cases v with
    | none => simp [Verdict.accept, Bad]
    | good d => by_cases hd : d = PAM_SUCCESS <;> simp [Verdict.accept, hd, Bad]
    | bad d => simp [Verdict.accept, Bad]
  · rw [if_neg h1]
    by_cases h3 : r = PAM_IGNORE
    · rw [if_pos h3]; simp [h3]
    · rw [if_neg h3]
      simp only [not_or] at h1
      simp [bad_reject, h1.1, h1.2, h3]

/-- a sufficient line whose answer is not a success and is a PAM code -/
theorem line_sufficient_no {b : Body σ} {s : State σ} {r : Int} {w : σ} (ha : Answers b s r w) (entry : Verdict)
    (rest : Stack σ) (pos : Nat) (h1 : r ≠ PAM_SUCCESS) (h2 : r ≠ PAM_NEW_AUTHTOK_REQD) :
    ∃ s', (s'.verdict = s.verdict ∨ Bad s'.verdict) ∧ (Bad s.verdict → Bad s'.verdict) ∧ s'.world = w ∧
      eval false entry 0 (.mod ⟨b, actionsOf "sufficient".toList⟩ rest) pos s = eval false entry 0 rest (pos + 1) s' := by
  rw [sufficient_eq]
  by_cases hv : r < 0 ∨ 32 ≤ r
  · obtain ⟨s', e1, e2, e3⟩ := line_bad ha (onCodes (Dispatch.classicActions .sufficient)) entry rest pos
      (hv.elim Or.inl (fun h => Or.inr (Or.inl h)))
    have hb : Bad s'.verdict := by rw [e1]; exact bad_reject _ _
    exact ⟨s', Or.inr hb, fun _ => hb, e2, e3⟩
  · simp only [PAM_SUCCESS, PAM_NEW_AUTHTOK_REQD] at h1 h2
    have e0 : r.toNat ≠ 0 := by omega
    have e1 : r.toNat ≠ 12 := by omega
    have e2 : r.toNat < 32 := by omega
    obtain ⟨s', e1, e2, e3⟩ := line_ignore ha (onCodes (Dispatch.classicActions .sufficient)) entry rest pos hv
      (by simp only [onCodes, Dispatch.classicActions, e0, e1, e2, if_true, if_false])
    exact ⟨s', Or.inl e1, fun h => by rw [e1]; exact h, e2, e3⟩

theorem line_sufficient_yes {b : Body σ} {s : State σ} {r : Int} {w : σ} (ha : Answers b s r w) (entry : Verdict)
    (rest : Stack σ) (pos : Nat) (h : r = PAM_SUCCESS ∨ r = PAM_NEW_AUTHTOK_REQD) :
    ∃ s', s'.verdict = s.verdict.accept r ∧ s'.world = w ∧
      eval false entry 0 (.mod ⟨b, actionsOf "sufficient".toList⟩ rest) pos s =
        if (s.verdict.accept r).isGood then .finished s' else eval false entry 0 rest (pos + 1) s' := by
  rw [sufficient_eq]
  rcases h with rfl | rfl
  · exact line_done ha _ entry rest pos (by decide) (by decide)
  · exact line_done ha _ entry rest pos (by decide) (by decide)

/-! ### The lines of the two files -/

/-- the words of the authentication lines of the first example -/
theorem firstWords : (fileLines ' ' firstText).1.map mkargv = [
    ["auth".toList, "required".toList, "pam_securetty.so".toList],
    ["auth".toList, "required".toList, "pam_env.so".toList],
    ["auth".toList, "required".toList, "pam_nologin.so".toList],
    ["auth".toList, "success=1 default=bad".toList, "pam_unix.so".toList],
    ["auth".toList, "default=die".toList, "pam_faillock.so".toList, "authfail".toList],
    ["auth".toList, "sufficient".toList, "pam_faillock.so".toList, "authsucc".toList],
    ["auth".toList, "required".toList, "pam_deny.so".toList],
    ["account".toList, "required".toList, "pam_unix.so".toList],
    ["password".toList, "required".toList, "pam_unix.so".toList, "shadow".toList],
    ["session".toList, "required".toList, "pam_selinux.so".toList, "close".toList],
    ["session".toList, "required".toList, "pam_loginuid.so".toList],
    ["session".toList, "required".toList, "pam_unix.so".toList],
    ["session".toList, "required".toList, "pam_selinux.so".toList, "open".toList]] := by decide +kernel

theorem secondWords : (fileLines ' ' secondText).1.map mkargv = [
    ["auth".toList, "required".toList, "pam_securetty.so".toList],
    ["auth".toList, "required".toList, "pam_env.so".toList],
    ["auth".toList, "required".toList, "pam_nologin.so".toList],
    ["auth".toList, "required".toList, "pam_faillock.so".toList, "preauth".toList],
    ["auth".toList, "sufficient".toList, "pam_unix.so".toList],
    ["auth".toList, "default=die".toList, "pam_faillock.so".toList, "authfail".toList],
    ["auth".toList, "required".toList, "pam_deny.so".toList],
    ["account".toList, "required".toList, "pam_faillock.so".toList],
    ["account".toList, "required".toList, "pam_unix.so".toList],
    ["password".toList, "required".toList, "pam_unix.so".toList, "shadow".toList],
    ["session".toList, "required".toList, "pam_selinux.so".toList, "close".toList],
    ["session".toList, "required".toList, "pam_loginuid.so".toList],
    ["session".toList, "required".toList, "pam_unix.so".toList],
    ["session".toList, "required".toList, "pam_selinux.so".toList, "open".toList]] := by decide +kernel

/-- a required line -/
abbrev req (p : Str) (args : List Str) (rest : Tree) : Tree := .line .module (actionsOf "required".toList) (some p) args rest

theorem rowsTree_take {ty : MType} {t c p : Str} {args : List Str} {rest : List (List Str)} (h : typeOf t = some ty) :
    rowsTree ty ((t :: c :: p :: args) :: rest) = .line .module (actionsOf c) (some p) args (rowsTree ty rest) := by
  simp only [rowsTree, h, if_true]

theorem rowsTree_skip {ty ty' : MType} {t c p : Str} {args : List Str} {rest : List (List Str)} (h : typeOf t = some ty')
    (hne : ty' ≠ ty) : rowsTree ty ((t :: c :: p :: args) :: rest) = rowsTree ty rest := by
  simp only [rowsTree, h, Option.some.injEq, hne, if_false]

theorem ty_auth : typeOf "auth".toList = some .auth := by decide
theorem ty_account : typeOf "account".toList = some .acct := by decide
theorem ty_password : typeOf "password".toList = some .pass := by decide
theorem ty_session : typeOf "session".toList = some .sess := by decide

theorem firstStack (sys : Sys) (svc : Str) (ho : openConfig sys svc = some firstText) :
    stackOf sys svc .auth =
      req "pam_securetty.so".toList [] (req "pam_env.so".toList [] (req "pam_nologin.so".toList []
      (.line .module (actionsOf "success=1 default=bad".toList) (some "pam_unix.so".toList) []
      (.line .module (actionsOf "default=die".toList) (some "pam_faillock.so".toList) ["authfail".toList]
      (.line .module (actionsOf "sufficient".toList) (some "pam_faillock.so".toList) ["authsucc".toList]
      (req "pam_deny.so".toList [] .nil)))))) := by
  rw [stackOf_plain sys svc firstText .auth _ ho firstWords (by decide +kernel)]
  simp only [rowsTree_take ty_auth, rowsTree_skip ty_account (show MType.acct ≠ .auth by decide),
    rowsTree_skip ty_password (show MType.pass ≠ .auth by decide), rowsTree_skip ty_session (show MType.sess ≠ .auth by decide)]
  rfl

theorem secondStack (sys : Sys) (svc : Str) (ho : openConfig sys svc = some secondText) :
    stackOf sys svc .auth =
      req "pam_securetty.so".toList [] (req "pam_env.so".toList [] (req "pam_nologin.so".toList []
      (req "pam_faillock.so".toList ["preauth".toList]
      (.line .module (actionsOf "sufficient".toList) (some "pam_unix.so".toList) []
      (.line .module (actionsOf "default=die".toList) (some "pam_faillock.so".toList) ["authfail".toList]
      (req "pam_deny.so".toList [] .nil)))))) := by
  rw [stackOf_plain sys svc secondText .auth _ ho secondWords (by decide +kernel)]
  simp only [rowsTree_take ty_auth, rowsTree_skip ty_account (show MType.acct ≠ .auth by decide),
    rowsTree_skip ty_password (show MType.pass ≠ .auth by decide), rowsTree_skip ty_session (show MType.sess ≠ .auth by decide)]
  rfl

theorem secondAccount (sys : Sys) (svc : Str) (ho : openConfig sys svc = some secondText) :
    stackOf sys svc .acct = req "pam_faillock.so".toList [] (req "pam_unix.so".toList [] .nil) := by
  rw [stackOf_plain sys svc secondText .acct _ ho secondWords (by decide +kernel)]
  simp only [rowsTree_take ty_account, rowsTree_skip ty_auth (show MType.auth ≠ .acct by decide),
    rowsTree_skip ty_password (show MType.pass ≠ .acct by decide), rowsTree_skip ty_session (show MType.sess ≠ .acct by decide)]
  rfl

/-! ### The modules -/

/-- the body of a line whose module is `f` -/
theorem toStack_line (dl : Linker σ) (a : Nat → Int) (p : Str) (v : List Str) (rest : Tree) (f : σ → Int × σ) (h : dl p v = some f) :
    toStack dl (.line .module a (some p) v rest) = .mod ⟨.fn f, a⟩ (toStack dl rest) := by
  simp only [toStack, Option.bind_some, h]

theorem modules_faillock (lines : List Str) (u : User) (a : Attempt) (fn : Fn) (args : List Str) :
    modules lines u a fn "pam_faillock.so".toList args = some (faillockFn lines u a fn args) := by
  unfold modules; rw [if_pos rfl]

theorem modules_deny (lines : List Str) (u : User) (a : Attempt) (fn : Fn) (args : List Str) :
    modules lines u a fn "pam_deny.so".toList args = some (fun w => (PAM_AUTH_ERR, w)) := by
  unfold modules; rw [if_neg (by decide), if_pos rfl]; rfl

theorem modules_other (lines : List Str) (u : User) (a : Attempt) (fn : Fn) (p : Str) (args : List Str)
    (h1 : p ≠ "pam_faillock.so".toList) (h2 : p ≠ "pam_deny.so".toList) :
    modules lines u a fn p args = some (fun w => (a.answer fn p, w)) := by
  unfold modules; rw [if_neg h1, if_neg h2]

/-- `preauth`, `authsucc` and `authfail` only choose the action -/
theorem parse_action (lines : List Str) (c : Conf) (w : Str) (act : Faillock.Action)
    (hc : argsParse (fun _ => .ok lines) false [] = .ok c)
    (hw : (w, act) ∈ [("preauth".toList, Faillock.Action.preauth), ("authsucc".toList, .authsucc), ("authfail".toList, .authfail)]) :
    argsParse (fun _ => .ok lines) false [w] = .ok { c with action := act } := by
  unfold argsParse at *
  have hl : Faillock.lastConf 0 [w] = none := by
    simp only [List.mem_cons, Prod.mk.injEq, List.not_mem_nil, or_false] at hw
    rcases hw with ⟨rfl, -⟩ | ⟨rfl, -⟩ | ⟨rfl, -⟩ <;> decide
  have hl0 : Faillock.lastConf 0 [] = none := rfl
  rw [hl]
  rw [hl0] at hc
  dsimp only [Option.map_none] at hc ⊢
  generalize (Faillock.readLines lines).foldl _ _ = d at *
  have ha : Faillock.argLoop none 0 d [w] = { d with action := act } := by
    simp only [List.mem_cons, Prod.mk.injEq, List.not_mem_nil, or_false] at hw
    unfold Faillock.argLoop
    rcases hw with ⟨rfl, rfl⟩ | ⟨rfl, rfl⟩ | ⟨rfl, rfl⟩
    · simp [Faillock.argLoop]
    · have k1 : ¬ "authsucc".toList = "preauth".toList := by decide
      have k2 : ¬ "authsucc".toList = "authfail".toList := by decide
      simp only [reduceCtorEq, if_false, k1, k2, if_true]; rfl
    · have k1 : ¬ "authfail".toList = "preauth".toList := by decide
      simp only [reduceCtorEq, if_false, k1, if_true]; rfl
  simp only [ha]
  have hb : Faillock.argLoop none 0 d [] = d := rfl
  simp only [hb] at hc
  simp only [Bool.false_eq_true, if_false, Except.ok.injEq] at hc ⊢
  rw [← hc]
  by_cases hr : d.rootUnlockTime = Faillock.maxInterval + 1
  · simp [hr]
  · simp [hr]

end Pam.Stack
