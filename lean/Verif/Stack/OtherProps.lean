import Verif.Stack.Other
/-
C173: with the recommended configuration of `other`, services without a configuration are denied everything.
-/
namespace Pam.Stack
open Pam Pam.Config Pam.Config.Spec

/-- the code for a refusal -/
def refusal : Fn → Int
  | .authenticate | .acctMgmt => PAM_AUTH_ERR
  | .setcred => PAM_CRED_ERR
  | .openSession | .closeSession => PAM_SESSION_ERR
  | .chauthtok => PAM_AUTHTOK_ERR

/-- a required line -/
abbrev must (p : String) : Line := ⟨.required, p.toList, []⟩

theorem otherLines : linesOf .auth ((fileLines ' ' otherText).1.map mkargv) = some [must "pam_warn.so", must "pam_deny.so"] ∧
    linesOf .acct ((fileLines ' ' otherText).1.map mkargv) = some [must "pam_deny.so"] ∧
    linesOf .pass ((fileLines ' ' otherText).1.map mkargv) = some [must "pam_warn.so", must "pam_deny.so"] ∧
    linesOf .sess ((fileLines ' ' otherText).1.map mkargv) = some [must "pam_deny.so"] := by decide +kernel

theorem otherLines' (ty : MType) : linesOf ty ((fileLines ' ' otherText').1.map mkargv) =
    some [must "pam_deny.so", must "pam_warn.so"] := by
  cases ty <;> decide +kernel

theorem otherConfLines (ty : MType) : confLinesOf (fun w => ieq w otherName) otherConf ty =
    some [must "pam_warn.so", must "pam_deny.so"] := by
  cases ty <;> decide +kernel

theorem otherConf_own (svc : Str) (ty : MType) : confLinesOf (fun w => ieq w svc && !ieq w otherName) otherConf ty = some [] := by
  have h : ∀ l ∈ (fileLines ' ' otherConf).1, (mkargv l).head? = some otherName := by
    have : ((fileLines ' ' otherConf).1.all (fun l => (mkargv l).head? == some otherName)) = true := by decide +kernel
    intro l hl
    exact eq_of_beq (List.all_eq_true.mp this l hl)
  have : confRows (fun w => ieq w svc && !ieq w otherName) otherConf = [] := by
    unfold confRows
    rw [List.filterMap_eq_nil_iff]
    intro l hl
    rw [h l hl]
    have : ieq otherName otherName = true := by decide
    simp [this]
  unfold confLinesOf
  rw [this]
  rfl

theorem warnDeny_whole (i : Items) (fn : Fn) (flags : Str) (other : Str → List Str → List Str → Int × List Str)
    (hw : ∀ p a w, (other p a w).1 ≠ PAM_INCOMPLETE) (p : Str) (a : List Str) (w : List Str) :
    (warnDeny i fn flags other p a w).1 ≠ PAM_INCOMPLETE := by
  unfold warnDeny
  split
  · show PAM_IGNORE ≠ PAM_INCOMPLETE
    decide
  split
  · show Simple.deny (denyFn fn) ≠ PAM_INCOMPLETE
    cases fn <;> decide
  · exact hw p a w

theorem walk_deny (i : Items) (fn : Fn) (flags : Str) (other : Str → List Str → List Str → Int × List Str) (log : List Str) :
    (walk (warnDeny i fn flags other) [must "pam_deny.so"] .none log).1.code = refusal fn ∧
    (walk (warnDeny i fn flags other) [must "pam_deny.so"] .none log).2 = log := by
  have h2 : ∀ w, warnDeny i fn flags other "pam_deny.so".toList [] w = (Simple.deny (denyFn fn), w) := by
    intro w; unfold warnDeny; rw [if_neg (by decide), if_pos rfl]
  simp only [walk, h2]
  cases fn <;> exact ⟨rfl, rfl⟩

theorem walk_warn_deny (i : Items) (fn : Fn) (flags : Str) (other : Str → List Str → List Str → Int × List Str) (log : List Str) :
    (walk (warnDeny i fn flags other) [must "pam_warn.so", must "pam_deny.so"] .none log).1.code = refusal fn ∧
    (walk (warnDeny i fn flags other) [must "pam_warn.so", must "pam_deny.so"] .none log).2 = log ++ [warnText i fn flags] := by
  have h1 : ∀ w, warnDeny i fn flags other "pam_warn.so".toList [] w = (PAM_IGNORE, w ++ [warnText i fn flags]) := by
    intro w; unfold warnDeny; rw [if_pos rfl]; rfl
  have h2 : ∀ w, warnDeny i fn flags other "pam_deny.so".toList [] w = (Simple.deny (denyFn fn), w) := by
    intro w; unfold warnDeny; rw [if_neg (by decide), if_pos rfl]
  simp only [walk, h1, h2]
  generalize warnText i fn flags = t
  cases fn <;> exact ⟨rfl, rfl⟩

theorem walk_deny_warn (i : Items) (fn : Fn) (flags : Str) (other : Str → List Str → List Str → Int × List Str) (log : List Str) :
    (walk (warnDeny i fn flags other) [must "pam_deny.so", must "pam_warn.so"] .none log).1.code = refusal fn ∧
    (walk (warnDeny i fn flags other) [must "pam_deny.so", must "pam_warn.so"] .none log).2 = log ++ [warnText i fn flags] := by
  have h1 : ∀ w, warnDeny i fn flags other "pam_warn.so".toList [] w = (PAM_IGNORE, w ++ [warnText i fn flags]) := by
    intro w; unfold warnDeny; rw [if_pos rfl]; rfl
  have h2 : ∀ w, warnDeny i fn flags other "pam_deny.so".toList [] w = (Simple.deny (denyFn fn), w) := by
    intro w; unfold warnDeny; rw [if_neg (by decide), if_pos rfl]
  simp only [walk, h1, h2]
  generalize warnText i fn flags = t
  cases fn <;> exact ⟨rfl, rfl⟩

/-- C173: the file of the administrators' guide for /etc/pam.d/other.  A service whose own file, if there is one, has no line
of a type is refused by the function of that type, and the refusal is logged when it is about authentication or passwords. -/
theorem C173_other_file (sys : Sys) (svc : Str) (T : Tables) (hdir : sys.confdir.isSome ∨ sys.haveDir)
    (hsvc : ieq svc otherName = false) (hT : initHandlers sys svc = some T) (fn : Fn) (hf : fn.first = true)
    (hown : (stackOf sys svc fn.mtype).flatten 0 = []) (hoth : openConfig sys otherName = some otherText)
    (i : Items) (flags : Str) (other : Str → List Str → List Str → Int × List Str)
    (hw : ∀ p a w, (other p a w).1 ≠ PAM_INCOMPLETE) (log : List Str) :
    pass sys svc fn (fun p a => some (warnDeny i fn flags other p a)) log =
      some (refusal fn, if fn = .authenticate ∨ fn = .chauthtok then log ++ [warnText i fn flags] else log) := by
  have hlines : ∀ ls, linesOf fn.mtype ((fileLines ' ' otherText).1.map mkargv) = some ls →
      fileLinesOf sys otherName fn.mtype = some ls := by
    intro ls h; unfold fileLinesOf; rw [hoth]; exact h
  obtain ⟨l1, l2, l3, l4⟩ := otherLines
  have hp := fun ls h => pass_other sys svc T fn (warnDeny i fn flags other) (warnDeny_whole i fn flags other hw) log hdir hsvc hT
    hf hown ls (hlines ls h)
  cases fn with
  | authenticate => rw [hp _ l1, (walk_warn_deny i _ flags other log).1, (walk_warn_deny i _ flags other log).2]; rfl
  | acctMgmt => rw [hp _ l2, (walk_deny i _ flags other log).1, (walk_deny i _ flags other log).2]; rfl
  | openSession => rw [hp _ l4, (walk_deny i _ flags other log).1, (walk_deny i _ flags other log).2]; rfl
  | chauthtok => rw [hp _ l3, (walk_warn_deny i _ flags other log).1, (walk_warn_deny i _ flags other log).2]; rfl
  | setcred => cases hf
  | closeSession => cases hf

/-- C173: the second file of the guide logs every refusal. -/
theorem C173_other_file_logged (sys : Sys) (svc : Str) (T : Tables) (hdir : sys.confdir.isSome ∨ sys.haveDir)
    (hsvc : ieq svc otherName = false) (hT : initHandlers sys svc = some T) (fn : Fn) (hf : fn.first = true)
    (hown : (stackOf sys svc fn.mtype).flatten 0 = []) (hoth : openConfig sys otherName = some otherText')
    (i : Items) (flags : Str) (other : Str → List Str → List Str → Int × List Str)
    (hw : ∀ p a w, (other p a w).1 ≠ PAM_INCOMPLETE) (log : List Str) :
    pass sys svc fn (fun p a => some (warnDeny i fn flags other p a)) log =
      some (refusal fn, log ++ [warnText i fn flags]) := by
  have hl : fileLinesOf sys otherName fn.mtype = some [must "pam_deny.so", must "pam_warn.so"] := by
    unfold fileLinesOf; rw [hoth]; exact otherLines' fn.mtype
  rw [pass_other sys svc T fn (warnDeny i fn flags other) (warnDeny_whole i fn flags other hw) log hdir hsvc hT hf hown _ hl,
    (walk_deny_warn i fn flags other log).1, (walk_deny_warn i fn flags other log).2]

/-- C173: the same with the /etc/pam.conf of pam_deny(8) and pam_warn(8), for every service. -/
theorem C173_other_conf (sys : Sys) (svc : Str) (T : Tables) (hdir : ¬ (sys.confdir.isSome ∨ sys.haveDir))
    (hb : sys.fs pamConf = some otherConf) (hT : initHandlers sys svc = some T) (fn : Fn) (hf : fn.first = true)
    (i : Items) (flags : Str) (other : Str → List Str → List Str → Int × List Str)
    (hw : ∀ p a w, (other p a w).1 ≠ PAM_INCOMPLETE) (log : List Str) :
    pass sys svc fn (fun p a => some (warnDeny i fn flags other p a)) log =
      some (refusal fn, log ++ [warnText i fn flags]) := by
  rw [pass_conf sys svc otherConf T fn (warnDeny i fn flags other) (warnDeny_whole i fn flags other hw) log hdir hb hT hf []
    [must "pam_warn.so", must "pam_deny.so"] (otherConf_own svc fn.mtype) (fun _ => otherConfLines fn.mtype)]
  rw [if_pos rfl, (walk_warn_deny i fn flags other log).1, (walk_warn_deny i fn flags other log).2]

/-- C173: the message says which function was called for which service, terminal and users. -/
theorem C173_message (i : Items) (fn : Fn) (flags : Str) :
    ∃ f, (fn, f) ∈ [(Fn.authenticate, "pam_sm_authenticate"), (.setcred, "pam_sm_setcred"), (.acctMgmt, "pam_sm_acct_mgmt"),
        (.openSession, "pam_sm_open_session"), (.closeSession, "pam_sm_close_session"), (.chauthtok, "pam_sm_chauthtok")] ∧
      warnText i fn flags = "function=[".toList ++ f.toList ++ "] flags=".toList ++ flags ++
        ([("service", i.service), ("terminal", i.tty), ("user", i.user), ("ruser", i.ruser), ("rhost", i.rhost)].flatMap
          (fun p => ' ' :: p.1.toList ++ "=[".toList ++ p.2.getD "<unknown>".toList ++ "]".toList)) ++ ['\n'] := by
  unfold warnText obtain functionName
  cases fn
  all_goals
    refine ⟨_, by first | exact List.mem_cons_self .. | exact List.mem_cons_of_mem _ (List.mem_cons_self ..) |
      exact List.mem_cons_of_mem _ (List.mem_cons_of_mem _ (List.mem_cons_self ..)) |
      exact List.mem_cons_of_mem _ (List.mem_cons_of_mem _ (List.mem_cons_of_mem _ (List.mem_cons_self ..))) |
      exact List.mem_cons_of_mem _ (List.mem_cons_of_mem _ (List.mem_cons_of_mem _ (List.mem_cons_of_mem _ (List.mem_cons_self ..)))) |
      exact List.mem_cons_of_mem _ (List.mem_cons_of_mem _ (List.mem_cons_of_mem _ (List.mem_cons_of_mem _ (List.mem_cons_of_mem _ (List.mem_cons_self ..))))), ?_⟩
    simp

/-! ### The hypotheses can be met -/

/-- a system with the file `other`, and a file for passwd that has password lines only -/
def exOther (t : Str) : Sys where
  fs := fun p => if p = "/etc/pam.d/other".toList then some t
    else if p = "/etc/pam.d/passwd".toList then some (text ["password required pam_unix.so"]) else none
  confdir := none
  dirs := ["/etc/pam.d/".toList]
  haveDir := true

example : openConfig (exOther otherText) otherName = some otherText ∧
    (∃ T, initHandlers (exOther otherText) "ftpd".toList = some T) ∧
    (stackOf (exOther otherText) "ftpd".toList .auth).flatten 0 = [] := by
  refine ⟨by decide +kernel, Option.isSome_iff_exists.mp (by decide +kernel), ?_⟩
  have : fileLinesOf (exOther otherText) "ftpd".toList .auth = some [] := by decide +kernel
  obtain ⟨rows, h1, h2⟩ := fileLinesOf_tree this
  rw [h2]; exact (rowsTree_flatten_empty .auth rows [] h1).mpr rfl

/-- a service with a file of its own, but no line of the type -/
example : openConfig (exOther otherText') otherName = some otherText' ∧
    (∃ T, initHandlers (exOther otherText') "passwd".toList = some T) ∧
    (stackOf (exOther otherText') "passwd".toList .auth).flatten 0 = [] := by
  refine ⟨by decide +kernel, Option.isSome_iff_exists.mp (by decide +kernel), ?_⟩
  have : fileLinesOf (exOther otherText') "passwd".toList .auth = some [] := by decide +kernel
  obtain ⟨rows, h1, h2⟩ := fileLinesOf_tree this
  rw [h2]; exact (rowsTree_flatten_empty .auth rows [] h1).mpr rfl

/-- the single file -/
def exConf (t : Str) : Sys where
  fs := fun p => if p = pamConf then some t else none
  confdir := none
  dirs := []
  haveDir := false

example : (exConf otherConf).fs pamConf = some otherConf ∧ ∃ T, initHandlers (exConf otherConf) "su".toList = some T :=
  ⟨by decide +kernel, Option.isSome_iff_exists.mp (by decide +kernel)⟩

end Pam.Stack
