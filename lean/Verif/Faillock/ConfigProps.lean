import Verif.Faillock.Config
/-
C56: the options of pam_faillock.
-/
namespace Pam.Faillock
open Pam

/-! ## specification -/

/-- the settings in the order they count: those of the file, then the arguments -/
def settings (lines args : List Str) : List (Str × Str) := readLines lines ++ args.map splitArg

/-- the value of the last setting of an option that can be read, or the default -/
def lastSetting {α : Type} (name : String) (read : Str → Option α) (dflt : α) (ss : List (Str × Str)) : α :=
  ((ss.filterMap (fun s => if s.1 = name.toList then read s.2 else none)).getLast?).getD dflt

/-- is the option set? -/
def isSet (name : String) (ss : List (Str × Str)) : Prop := ∃ s ∈ ss, s.1 = name.toList

/-- the words for actions -/
def wordAction (a : Str) : Option Action :=
  if a = "preauth".toList then some .preauth else if a = "authfail".toList then some .authfail
  else if a = "authsucc".toList then some .authsucc else none

/-- the last of the words preauth, authsucc, authfail -/
def lastAction (args : List Str) : Action :=
  ((args.filterMap wordAction).getLast?).getD .preauth

/-! ## lemmas -/

theorem lastSetting_cons {α : Type} (name : String) (read : Str → Option α) (dflt : α) (s : Str × Str) (ss : List (Str × Str)) :
    lastSetting name read dflt (s :: ss) =
      lastSetting name read (if s.1 = name.toList then (read s.2).getD dflt else dflt) ss := by
  unfold lastSetting
  rw [List.filterMap_cons]
  by_cases h : s.1 = name.toList
  · rw [if_pos h, if_pos h]
    cases read s.2 with
    | none => rfl
    | some v =>
      show ((v :: _).getLast?).getD dflt = _
      cases hl : (ss.filterMap (fun s => if s.1 = name.toList then read s.2 else none)) with
      | nil => rfl
      | cons a l => rw [List.getLast?_cons_cons, List.getLast?_eq_some_getLast (by simp)]; rfl
  · rw [if_neg h, if_neg h]

/-- a field that is set by one option is, after all settings, what the last one says -/
theorem fold_field {α : Type} (f : Conf → α) (name : String) (read : Str → Option α)
    (hset : ∀ c n v, f (setConfOpt c n v) = if n = name.toList then (read v).getD (f c) else f c)
    (ss : List (Str × Str)) : ∀ c, f (ss.foldl (fun c s => setConfOpt c s.1 s.2) c) = lastSetting name read (f c) ss := by
  induction ss with
  | nil => intro c; rfl
  | cons s ss ih => intro c; rw [List.foldl_cons, ih, lastSetting_cons, hset]

theorem fold_flag (f : Conf → Bool) (name : String)
    (hset : ∀ c n v, f (setConfOpt c n v) = (decide (n = name.toList) || f c))
    (ss : List (Str × Str)) : ∀ c, f (ss.foldl (fun c s => setConfOpt c s.1 s.2) c) = true ↔ (isSet name ss ∨ f c = true) := by
  induction ss with
  | nil => intro c; simp [isSet]
  | cons s ss ih =>
    intro c
    rw [List.foldl_cons, ih, hset]
    simp only [isSet, Bool.or_eq_true, decide_eq_true_eq, List.mem_cons, exists_eq_or_imp]
    constructor
    · rintro (h | h | h)
      · exact Or.inl (Or.inr h)
      · exact Or.inl (Or.inl h)
      · exact Or.inr h
    · rintro ((h | h) | h)
      · exact Or.inr (Or.inl h)
      · exact Or.inl h
      · exact Or.inr (Or.inr h)

/-- all cases of `setConfOpt`, for one field -/
local macro "each_option" f:term:max v:term:max r:term:max : tactic => `(tactic|
  repeat' first
    | with_reducible rfl
    | refine iteInduction (motive := fun x : Conf => $f x = $r) (fun _ => ?_) (fun _ => ?_)
    | (cases scanUnsigned 16 $v <;> with_reducible rfl)
    | (cases readInterval $v <;> with_reducible rfl)
    | (cases readUnlock $v <;> with_reducible rfl))

theorem set_action (c : Conf) (n v : Str) : (setConfOpt c n v).action = c.action := by
  unfold setConfOpt
  each_option Conf.action v (Conf.action c)

theorem set_deny (c : Conf) (n v : Str) :
    (setConfOpt c n v).deny = if n = "deny".toList then (scanUnsigned 16 v).getD c.deny else c.deny := by
  unfold setConfOpt
  by_cases h : n = "deny".toList
  · subst h
    rw [if_neg (by decide), if_pos rfl, if_pos rfl]
    split <;> (rename_i e; rw [e]; rfl)
  · rw [if_neg h, if_neg h]
    each_option Conf.deny v (Conf.deny c)

theorem set_interval (c : Conf) (n v : Str) :
    (setConfOpt c n v).failInterval = if n = "fail_interval".toList then (readInterval v).getD c.failInterval else c.failInterval := by
  unfold setConfOpt
  by_cases h : n = "fail_interval".toList
  · subst h
    rw [if_neg (by decide), if_neg (by decide), if_pos rfl, if_pos rfl]
    split <;> (rename_i e; rw [e]; rfl)
  · rw [if_neg h, if_neg h]
    each_option Conf.failInterval v (Conf.failInterval c)

theorem set_unlock (c : Conf) (n v : Str) :
    (setConfOpt c n v).unlockTime = if n = "unlock_time".toList then (readUnlock v).getD c.unlockTime else c.unlockTime := by
  unfold setConfOpt
  by_cases h : n = "unlock_time".toList
  · subst h
    rw [if_neg (by decide), if_neg (by decide), if_neg (by decide), if_pos rfl, if_pos rfl]
    split <;> (rename_i e; rw [e]; rfl)
  · rw [if_neg h, if_neg h]
    each_option Conf.unlockTime v (Conf.unlockTime c)

theorem set_rootUnlock (c : Conf) (n v : Str) :
    (setConfOpt c n v).rootUnlockTime =
      if n = "root_unlock_time".toList then (readUnlock v).getD c.rootUnlockTime else c.rootUnlockTime := by
  unfold setConfOpt
  by_cases h : n = "root_unlock_time".toList
  · subst h
    rw [if_neg (by decide), if_neg (by decide), if_neg (by decide), if_neg (by decide), if_pos rfl, if_pos rfl]
    split <;> (rename_i e; rw [e]; rfl)
  · rw [if_neg h, if_neg h]
    each_option Conf.rootUnlockTime v (Conf.rootUnlockTime c)

theorem set_denyRoot (c : Conf) (n v : Str) :
    (setConfOpt c n v).denyRoot = (decide (n = "even_deny_root".toList) || c.denyRoot) := by
  unfold setConfOpt
  by_cases h : n = "even_deny_root".toList
  · subst h; rfl
  · rw [decide_eq_false h, Bool.false_or, if_neg h]
    each_option Conf.denyRoot v (Conf.denyRoot c)

theorem set_localOnly (c : Conf) (n v : Str) :
    (setConfOpt c n v).localOnly = (decide (n = "local_users_only".toList) || c.localOnly) := by
  unfold setConfOpt
  by_cases h : n = "local_users_only".toList
  · subst h; rfl
  · rw [decide_eq_false h, Bool.false_or, if_neg h]
    each_option Conf.localOnly v (Conf.localOnly c)

theorem set_audit (c : Conf) (n v : Str) :
    (setConfOpt c n v).audit = (decide (n = "audit".toList) || c.audit) := by
  unfold setConfOpt
  by_cases h : n = "audit".toList
  · subst h; rfl
  · rw [decide_eq_false h, Bool.false_or, if_neg h]
    each_option Conf.audit v (Conf.audit c)

theorem set_silent (c : Conf) (n v : Str) :
    (setConfOpt c n v).silent = (decide (n = "silent".toList) || c.silent) := by
  unfold setConfOpt
  by_cases h : n = "silent".toList
  · subst h; rfl
  · rw [decide_eq_false h, Bool.false_or, if_neg h]
    each_option Conf.silent v (Conf.silent c)

theorem set_noLogInfo (c : Conf) (n v : Str) :
    (setConfOpt c n v).noLogInfo = (decide (n = "no_log_info".toList) || c.noLogInfo) := by
  unfold setConfOpt
  by_cases h : n = "no_log_info".toList
  · subst h; rfl
  · rw [decide_eq_false h, Bool.false_or, if_neg h]
    each_option Conf.noLogInfo v (Conf.noLogInfo c)

theorem set_noDelay (c : Conf) (n v : Str) :
    (setConfOpt c n v).noDelay = (decide (n = "nodelay".toList) || c.noDelay) := by
  unfold setConfOpt
  by_cases h : n = "nodelay".toList
  · subst h; rfl
  · rw [decide_eq_false h, Bool.false_or, if_neg h]
    each_option Conf.noDelay v (Conf.noDelay c)

/-- a directory must be an absolute path -/
def readDir (v : Str) : Option (Option Str) := if v.head? = some '/' then some (some v) else none

theorem set_dir (c : Conf) (n v : Str) :
    (setConfOpt c n v).dir = if n = "dir".toList then (readDir v).getD c.dir else c.dir := by
  unfold setConfOpt
  by_cases h : n = "dir".toList
  · rw [if_pos h, if_pos h]
    unfold readDir
    by_cases hv : v.head? = some '/'
    · rw [if_neg (fun h => h hv), if_pos hv]; rfl
    · rw [if_pos hv, if_neg hv]; rfl
  · rw [if_neg h, if_neg h]
    each_option Conf.dir v (Conf.dir c)

theorem set_adminGroup (c : Conf) (n v : Str) :
    (setConfOpt c n v).adminGroup = if n = "admin_group".toList then some v else c.adminGroup := by
  unfold setConfOpt
  by_cases h : n = "admin_group".toList
  · subst h; rfl
  · rw [if_neg h, if_neg h]
    each_option Conf.adminGroup v (Conf.adminGroup c)

def Conf.withAction (x : Action) (c : Conf) : Conf := { c with action := x }

theorem set_with (c : Conf) (n v : Str) (x : Action) :
    setConfOpt (c.withAction x) n v = (setConfOpt c n v).withAction x := by
  let g : Conf → Conf := Conf.withAction x
  show setConfOpt (g c) n v = g (setConfOpt c n v)
  unfold setConfOpt
  cases scanUnsigned 16 v <;> cases readInterval v <;> cases readUnlock v <;> (simp only [apply_ite g]; rfl)

/-- words that are no options change nothing -/
theorem set_other_word (c : Conf) (w : String) (v : Str)
    (h : w = "preauth" ∨ w = "authfail" ∨ w = "authsucc" ∨ w = "conf") : setConfOpt c w.toList v = c := by
  rcases h with rfl | rfl | rfl | rfl <;> rfl

theorem lastConf_mem : ∀ (args : List Str) (i j : Nat) (v : Str), lastConf i args = some (j, v) →
    i ≤ j ∧ ∃ a, args[j - i]? = some a ∧ "conf=".toList.isPrefixOf a = true := by
  intro args
  induction args with
  | nil => intro i j v h; cases h
  | cons a as ih =>
    intro i j v h
    rw [lastConf] at h
    split at h
    · rename_i r hr
      cases h
      obtain ⟨h1, b, h2, h3⟩ := ih _ _ _ hr
      refine ⟨by omega, b, ?_, h3⟩
      rw [show j - i = (j - (i + 1)) + 1 by omega, List.getElem?_cons_succ]
      exact h2
    · split at h
      · rename_i hp
        cases h
        exact ⟨Nat.le_refl _, a, by simp, hp⟩
      · cases h

theorem splitArg_conf {a : Str} (h : "conf=".toList.isPrefixOf a = true) : (splitArg a).1 = "conf".toList := by
  obtain ⟨t, rfl⟩ := List.isPrefixOf_iff_prefix.mp h
  rfl

theorem fold_with (ss : List (Str × Str)) : ∀ (c : Conf) (x : Action),
    ss.foldl (fun c s => setConfOpt c s.1 s.2) (c.withAction x) = (ss.foldl (fun c s => setConfOpt c s.1 s.2) c).withAction x := by
  induction ss with
  | nil => intro c x; rfl
  | cons s ss ih => intro c x; rw [List.foldl_cons, List.foldl_cons, set_with, ih]

theorem fold_action (ss : List (Str × Str)) : ∀ c : Conf, (ss.foldl (fun c s => setConfOpt c s.1 s.2) c).action = c.action := by
  induction ss with
  | nil => intro c; rfl
  | cons s ss ih => intro c; rw [List.foldl_cons, ih, set_action]

theorem finish_word (x : Action) (c : Conf) (as : List Str) :
    ((as.map splitArg).foldl (fun c s => setConfOpt c s.1 s.2) (c.withAction x)).withAction
      (((as.filterMap wordAction).getLast?).getD (c.withAction x).action) =
    ((as.map splitArg).foldl (fun c s => setConfOpt c s.1 s.2) c).withAction
      (((x :: as.filterMap wordAction).getLast?).getD c.action) := by
  rw [fold_with]
  have : ((x :: as.filterMap wordAction).getLast?).getD c.action = ((as.filterMap wordAction).getLast?).getD x := by
    cases as.filterMap wordAction with
    | nil => rfl
    | cons y l => rw [List.getLast?_cons_cons, List.getLast?_eq_some_getLast (by simp)]; rfl
  rw [this]
  rfl

/-- the loop over the arguments is the settings one after the other, and the last action -/
theorem argLoop_eq (skip : Option Nat) (args : List Str) : ∀ (i : Nat) (c : Conf),
    (∀ j, skip = some j → i ≤ j → ∀ a, args[j - i]? = some a → "conf=".toList.isPrefixOf a = true) →
    argLoop skip i c args =
      ((args.map splitArg).foldl (fun c s => setConfOpt c s.1 s.2) c).withAction
        (((args.filterMap wordAction).getLast?).getD c.action) := by
  induction args with
  | nil => intro i c _; rfl
  | cons a as ih =>
    intro i c hskip
    have hskip' : ∀ j, skip = some j → i + 1 ≤ j → ∀ b, as[j - (i + 1)]? = some b → "conf=".toList.isPrefixOf b = true := by
      intro j hj hle b hb
      refine hskip j hj (by omega) b ?_
      rw [show j - i = (j - (i + 1)) + 1 by omega, List.getElem?_cons_succ]
      exact hb
    rw [argLoop, ih _ _ hskip', List.map_cons, List.foldl_cons, List.filterMap_cons]
    by_cases h0 : some i = skip
    · have hc := hskip i h0.symm (Nat.le_refl _) a (by simp)
      have hn := splitArg_conf hc
      obtain ⟨t, ht⟩ := List.isPrefixOf_iff_prefix.mp hc
      have h1 : a ≠ "preauth".toList := by rintro rfl; simp at ht
      have h2 : a ≠ "authfail".toList := by rintro rfl; simp at ht
      have h3 : a ≠ "authsucc".toList := by rintro rfl; simp at ht
      rw [if_pos h0, hn, set_other_word c "conf" _ (by simp)]
      have : wordAction a = none := by unfold wordAction; rw [if_neg h1, if_neg h2, if_neg h3]
      rw [this]
    · rw [if_neg h0]
      by_cases h1 : a = "preauth".toList
      · have e1 : splitArg a = ("preauth".toList, []) := by subst h1; rfl
        have e2 : wordAction a = some .preauth := by unfold wordAction; rw [if_pos h1]
        rw [if_pos h1, e1, set_other_word c "preauth" _ (by simp), e2]
        exact finish_word .preauth c as
      · rw [if_neg h1]
        by_cases h2 : a = "authfail".toList
        · have e1 : splitArg a = ("authfail".toList, []) := by subst h2; rfl
          have e2 : wordAction a = some .authfail := by unfold wordAction; rw [if_neg h1, if_pos h2]
          rw [if_pos h2, e1, set_other_word c "authfail" _ (by simp), e2]
          exact finish_word .authfail c as
        · rw [if_neg h2]
          by_cases h3 : a = "authsucc".toList
          · have e1 : splitArg a = ("authsucc".toList, []) := by subst h3; rfl
            have e2 : wordAction a = some .authsucc := by unfold wordAction; rw [if_neg h1, if_neg h2, if_pos h3]
            rw [if_pos h3, e1, set_other_word c "authsucc" _ (by simp), e2]
            exact finish_word .authsucc c as
          · have e2 : wordAction a = none := by unfold wordAction; rw [if_neg h1, if_neg h2, if_neg h3]
            rw [if_neg h3, set_action, e2]

/-- the end of args_parse -/
def atEnd (silent : Bool) (d : Conf) : Conf :=
  let c := if d.rootUnlockTime = maxInterval + 1 then { d with rootUnlockTime := d.unlockTime } else d
  if silent then { c with silent := true } else c

theorem argsParse_eq {files : Option Str → Except Int (List Str)} {silent : Bool} {args : List Str} {c : Conf}
    (h : argsParse files silent args = .ok c) :
    ∃ lines, files ((lastConf 0 args).map (·.2)) = .ok lines ∧
      c = atEnd silent (((settings lines args).foldl (fun c s => setConfOpt c s.1 s.2) defaults).withAction (lastAction args)) := by
  unfold argsParse at h
  simp only at h
  cases hf : files ((lastConf 0 args).map (·.2)) with
  | error k => rw [hf] at h; cases h
  | ok lines =>
    rw [hf] at h
    refine ⟨lines, rfl, ?_⟩
    simp only at h
    rw [argLoop_eq] at h
    · rw [fold_action, ← List.foldl_append] at h
      injection h with h
      exact h.symm
    · intro j hj _ a ha
      obtain ⟨p, hp, rfl⟩ := Option.map_eq_some_iff.mp hj
      obtain ⟨-, b, h1, h2⟩ := lastConf_mem args 0 p.1 p.2 hp
      rw [Nat.sub_zero] at h1 ha
      rw [h1] at ha; cases ha
      exact h2

theorem atEnd_fields (silent : Bool) (d : Conf) :
    (atEnd silent d).deny = d.deny ∧ (atEnd silent d).failInterval = d.failInterval ∧
    (atEnd silent d).unlockTime = d.unlockTime ∧
    (atEnd silent d).rootUnlockTime = (if d.rootUnlockTime = maxInterval + 1 then d.unlockTime else d.rootUnlockTime) ∧
    (atEnd silent d).denyRoot = d.denyRoot ∧ (atEnd silent d).localOnly = d.localOnly ∧ (atEnd silent d).action = d.action := by
  unfold atEnd
  by_cases h : d.rootUnlockTime = maxInterval + 1
  · rw [if_pos h, if_pos h]
    cases silent <;> exact ⟨rfl, rfl, rfl, rfl, rfl, rfl, rfl⟩
  · rw [if_neg h, if_neg h]
    cases silent <;> exact ⟨rfl, rfl, rfl, rfl, rfl, rfl, rfl⟩

/-! ## C56 -/

/-- C56: when the options can be read, each number is what its last readable setting says, the arguments coming after the
file, and otherwise the default; root_unlock_time falls back to unlock_time. -/
theorem C56_options (files : Option Str → Except Int (List Str)) (silent : Bool) (args : List Str) (c : Conf)
    (h : argsParse files silent args = .ok c) :
    ∃ lines, files ((lastConf 0 args).map (·.2)) = .ok lines ∧
      c.deny = lastSetting "deny" (scanUnsigned 16) 3 (settings lines args) ∧
      c.failInterval = lastSetting "fail_interval" readInterval 900 (settings lines args) ∧
      c.unlockTime = lastSetting "unlock_time" readUnlock 600 (settings lines args) ∧
      c.rootUnlockTime = lastSetting "root_unlock_time" readUnlock c.unlockTime (settings lines args) ∧
      (c.denyRoot = true ↔ isSet "even_deny_root" (settings lines args)) ∧
      (c.localOnly = true ↔ isSet "local_users_only" (settings lines args)) ∧
      c.action = lastAction args := by
  obtain ⟨lines, h1, h2⟩ := argsParse_eq h
  refine ⟨lines, h1, ?_⟩
  have hroot := fold_field (·.rootUnlockTime) "root_unlock_time" readUnlock set_rootUnlock (settings lines args) defaults
  have hbound : ∀ v n, readUnlock v = some n → n ≤ maxInterval := by
    intro v n hn
    unfold readUnlock readInterval at hn
    split at hn
    · cases hn; exact Nat.zero_le _
    · split at hn
      · cases hn
      · split at hn
        · cases hn
        · cases hn; omega
  have hfall : ∀ d, (if lastSetting "root_unlock_time" readUnlock (maxInterval + 1) (settings lines args) = maxInterval + 1
      then d else lastSetting "root_unlock_time" readUnlock (maxInterval + 1) (settings lines args)) =
      lastSetting "root_unlock_time" readUnlock d (settings lines args) := by
    intro d
    unfold lastSetting
    cases hl : ((settings lines args).filterMap (fun s => if s.1 = "root_unlock_time".toList then readUnlock s.2 else none)).getLast? with
    | none => simp
    | some n =>
      have hm := List.mem_of_getLast? hl
      obtain ⟨s, -, hs⟩ := List.mem_filterMap.mp hm
      split at hs
      · have := hbound _ _ hs
        simp only [Option.getD_some]
        rw [if_neg (by omega)]
      · cases hs
  obtain ⟨e1, e2, e3, e4, e5, e6, e7⟩ := atEnd_fields silent
    (((settings lines args).foldl (fun c s => setConfOpt c s.1 s.2) defaults).withAction (lastAction args))
  rw [h2, e1, e2, e3, e4, e5, e6, e7]
  refine ⟨fold_field (·.deny) "deny" _ set_deny _ defaults, fold_field (·.failInterval) "fail_interval" _ set_interval _ defaults,
    fold_field (·.unlockTime) "unlock_time" _ set_unlock _ defaults, ?_, ?_, ?_, rfl⟩
  · have hr : (((settings lines args).foldl (fun c s => setConfOpt c s.1 s.2) defaults).withAction (lastAction args)).rootUnlockTime =
        lastSetting "root_unlock_time" readUnlock (maxInterval + 1) (settings lines args) := hroot
    rw [hr]
    exact hfall _
  · have := fold_flag (·.denyRoot) "even_deny_root" set_denyRoot (settings lines args) defaults
    simpa [defaults, Conf.withAction] using this
  · have := fold_flag (·.localOnly) "local_users_only" set_localOnly (settings lines args) defaults
    simpa [defaults, Conf.withAction] using this

/-- C56: the same for the other options: the directory (the last one given as an absolute path), the administrators' group,
and the switches; PAM_SILENT has the effect of `silent`. -/
theorem C56_other_options (files : Option Str → Except Int (List Str)) (silent : Bool) (args : List Str) (c : Conf)
    (h : argsParse files silent args = .ok c) :
    ∃ lines, files ((lastConf 0 args).map (·.2)) = .ok lines ∧
      c.dir = lastSetting "dir" (fun v => if v.head? = some '/' then some (some v) else none) none (settings lines args) ∧
      c.adminGroup = lastSetting "admin_group" (fun v => some (some v)) none (settings lines args) ∧
      (c.audit = true ↔ isSet "audit" (settings lines args)) ∧
      (c.silent = true ↔ isSet "silent" (settings lines args) ∨ silent = true) ∧
      (c.noLogInfo = true ↔ isSet "no_log_info" (settings lines args)) ∧
      (c.noDelay = true ↔ isSet "nodelay" (settings lines args)) := by
  obtain ⟨lines, h1, h2⟩ := argsParse_eq h
  refine ⟨lines, h1, ?_⟩
  have hf : ∀ d : Conf, (atEnd silent d).dir = d.dir ∧ (atEnd silent d).adminGroup = d.adminGroup ∧
      (atEnd silent d).audit = d.audit ∧ (atEnd silent d).silent = (silent || d.silent) ∧
      (atEnd silent d).noLogInfo = d.noLogInfo ∧ (atEnd silent d).noDelay = d.noDelay := by
    intro d
    unfold atEnd
    by_cases h : d.rootUnlockTime = maxInterval + 1
    · rw [if_pos h]
      cases silent <;> exact ⟨rfl, rfl, rfl, rfl, rfl, rfl⟩
    · rw [if_neg h]
      cases silent <;> exact ⟨rfl, rfl, rfl, rfl, rfl, rfl⟩
  obtain ⟨e1, e2, e3, e4, e5, e6⟩ := hf
    (((settings lines args).foldl (fun c s => setConfOpt c s.1 s.2) defaults).withAction (lastAction args))
  rw [h2, e1, e2, e3, e4, e5, e6]
  refine ⟨fold_field (·.dir) "dir" _ set_dir _ defaults,
    fold_field (·.adminGroup) "admin_group" (fun v => some (some v)) set_adminGroup _ defaults, ?_, ?_, ?_, ?_⟩
  · have := fold_flag (·.audit) "audit" set_audit (settings lines args) defaults
    simpa [defaults, Conf.withAction] using this
  · have := fold_flag (·.silent) "silent" set_silent (settings lines args) defaults
    rw [Bool.or_eq_true, Or.comm]
    simpa [defaults, Conf.withAction] using or_congr_left this
  · have := fold_flag (·.noLogInfo) "no_log_info" set_noLogInfo (settings lines args) defaults
    simpa [defaults, Conf.withAction] using this
  · have := fold_flag (·.noDelay) "nodelay" set_noDelay (settings lines args) defaults
    simpa [defaults, Conf.withAction] using this

theorem lastConf_value : ∀ (args : List Str) (i : Nat), (lastConf i args).map (·.2) =
    (args.filterMap (fun a => if "conf=".toList.isPrefixOf a then some (a.drop 5) else none)).getLast? := by
  intro args
  induction args with
  | nil => intro i; rfl
  | cons a as ih =>
    intro i
    rw [lastConf, List.filterMap_cons]
    have := ih (i + 1)
    cases h : lastConf (i + 1) as with
    | some r =>
      rw [h] at this
      by_cases hp : "conf=".toList.isPrefixOf a = true
      · simp only [if_pos hp]
        rw [List.getLast?_cons, ← this]
        rfl
      · simp only [if_neg hp]
        exact this
    | none =>
      rw [h] at this
      have hn := List.getLast?_eq_none_iff.mp this.symm
      by_cases hp : "conf=".toList.isPrefixOf a = true
      · simp only [if_pos hp]
        rw [hn]; rfl
      · simp only [if_neg hp]
        rw [hn]; rfl

/-- C56: the file read is the one of the last argument `conf=<file>`, whatever the other arguments are. -/
theorem C56_file (pre post : List Str) (name : Str) (hpost : ∀ a ∈ post, "conf=".toList.isPrefixOf a = false)
    (files : Option Str → Except Int (List Str)) (silent : Bool) :
    (∀ k, files (some name) = .error k → argsParse files silent (pre ++ ("conf=".toList ++ name) :: post) = .error k) ∧
    (∀ lines files', files (some name) = .ok lines → files' (some name) = .ok lines →
      ∃ c, argsParse files silent (pre ++ ("conf=".toList ++ name) :: post) = .ok c ∧
        argsParse files' silent (pre ++ ("conf=".toList ++ name) :: post) = .ok c) ∧
    (∀ k, files none = .error k → argsParse files silent post = .error k) := by
  have hv : (lastConf 0 (pre ++ ("conf=".toList ++ name) :: post)).map (·.2) = some name := by
    rw [lastConf_value, List.filterMap_append, List.getLast?_append, List.filterMap_cons]
    have h1 : post.filterMap (fun a => if "conf=".toList.isPrefixOf a then some (a.drop 5) else none) = [] := by
      rw [List.filterMap_eq_nil_iff]
      intro a ha
      rw [if_neg (by rw [hpost a ha]; simp)]
    have h2 : "conf=".toList.isPrefixOf ("conf=".toList ++ name) = true :=
      List.isPrefixOf_iff_prefix.mpr (List.prefix_append _ _)
    rw [h1, if_pos h2]
    rfl
  have hn : (lastConf 0 post).map (·.2) = none := by
    rw [lastConf_value]
    rw [List.getLast?_eq_none_iff, List.filterMap_eq_nil_iff]
    intro a ha
    rw [if_neg (by rw [hpost a ha]; simp)]
  refine ⟨?_, ?_, ?_⟩
  · intro k hk
    unfold argsParse
    simp only [hv, hk]
  · intro lines files' h h'
    unfold argsParse
    simp only [hv, h, h']
    exact ⟨_, rfl, rfl⟩
  · intro k hk
    unfold argsParse
    simp only [hn, hk]

example : ∀ a ∈ ["deny=5".toList, "audit".toList], "conf=".toList.isPrefixOf a = false := by decide

/-- decimal digits are read as their number -/
theorem scan_digits {bits n : Nat} {v : Str} (hv : Digits 10 v n) (hn : n < 2 ^ bits) (hb : bits ≤ 64) :
    scanUnsigned bits v = some n := by
  have h : strtoInt 10 v = ((n : Int), []) ∧ v ≠ [] :=
    (strtoInt_base 10 (by decide) (by decide) (by decide) v n).mpr ⟨[], v, n, by simp, hv, Or.inl ⟨rfl, rfl⟩⟩
  have hle : 2 ^ bits ≤ 2 ^ 64 := Nat.pow_le_pow_right (by decide) hb
  unfold scanUnsigned
  rw [h.1]
  simp only
  rw [if_neg (fun e => h.2 e.symm), if_neg (by omega)]
  congr 1
  rw [Int.natAbs_natCast, Nat.min_eq_left (by omega)]
  exact Nat.mod_eq_of_lt hn

/-- C56: a number written in decimal digits is taken as it is: `deny` up to 65535, the times up to 604800 seconds; larger
times (below 2^32) and texts that do not begin with a number are not taken. -/
theorem C56_numbers (v : Str) (n : Nat) :
    (Digits 10 v n → n < 2 ^ 16 → scanUnsigned 16 v = some n) ∧
    (Digits 10 v n → n ≤ 604800 → readInterval v = some n ∧ readUnlock v = some n) ∧
    (Digits 10 v n → 604800 < n → n < 2 ^ 32 → readInterval v = none ∧ readUnlock v = none) ∧
    ((strtoInt 10 v).2 = v → v ≠ "never".toList → readInterval v = none ∧ readUnlock v = none ∧ scanUnsigned 16 v = none) ∧
    readUnlock "never".toList = some 0 := by
  have hnever : Digits 10 v n → v ≠ "never".toList := by
    rintro ⟨-, h, -⟩ rfl
    exact absurd (h 'n' (by decide)) (by decide)
  refine ⟨fun h1 h2 => scan_digits h1 h2 (by decide), fun h1 h2 => ?_, fun h1 h2 h3 => ?_, fun h1 h2 => ?_, rfl⟩
  · have : readInterval v = some n := by
      unfold readInterval
      rw [scan_digits h1 (by omega) (by decide)]
      simp only
      rw [if_neg (by show ¬ 604800 < n; omega)]
    refine ⟨this, ?_⟩
    unfold readUnlock
    rw [if_neg (hnever h1), this]
  · have : readInterval v = none := by
      unfold readInterval
      rw [scan_digits h1 h3 (by decide)]
      simp only
      rw [if_pos h2]
    refine ⟨this, ?_⟩
    unfold readUnlock
    rw [if_neg (hnever h1), this]
  · have h3 : ∀ b, scanUnsigned b v = none := by
      intro b
      unfold scanUnsigned
      simp only
      rw [if_pos h1]
    have h4 : readInterval v = none := by unfold readInterval; rw [h3]
    refine ⟨h4, ?_, h3 16⟩
    unfold readUnlock
    rw [if_neg h2, h4]

/-- C56 is false of numbers out of range: 65536 for `deny` switches locking off, and a time beyond 2^32 is cut. -/
theorem C56_range_counterexample :
    scanUnsigned 16 "65536".toList = some 0 ∧ scanUnsigned 16 "-1".toList = some 65535 ∧
    readInterval "4294967300".toList = some 4 := by decide +kernel

/-! ## lines -/

theorem dropEnd_append {s e : Str} (he : ∀ c ∈ e, isSpace c = true) (hs : ∀ c, s.getLast? = some c → isSpace c = false) :
    dropEnd (s ++ e) = s := by
  unfold dropEnd
  rw [List.reverse_append, dropWhile_blanks (fun c hc => by simpa using he c (List.mem_reverse.mp hc))
    (fun c hc => hs c (by rwa [List.head?_reverse] at hc)), List.reverse_reverse]

theorem splitName_spec {name : Str} (hn : ∀ c ∈ name, isSpace c = false ∧ c ≠ '=') (rest : Str)
    (hr : ∀ c, rest.head? = some c → isSpace c = true ∨ c = '=') :
    splitName (name ++ rest) = (name, decide (rest.head? = some '='), rest.drop 1) := by
  induction name with
  | nil =>
    cases rest with
    | nil => rfl
    | cons c r =>
      have := hr c rfl
      show splitName (c :: r) = _
      rw [splitName, if_pos (by simpa using this)]
      simp
      cases h : c == '=' <;> simp_all
  | cons c s ih =>
    rw [List.cons_append, splitName, ih (fun x hx => hn x (by simp [hx]))]
    have := hn c (by simp)
    rw [if_neg (by simp [this])]

theorem skip_blanks {eq : Bool} {b : Str} (hb : ∀ c ∈ b, isSpace c = true) (rest : Str) :
    skipToValue eq (b ++ rest) = skipToValue eq rest := by
  induction b with
  | nil => rfl
  | cons c s ih =>
    have hc := hb c (by simp)
    have : c ≠ '=' := by rintro rfl; revert hc; decide
    rw [List.cons_append, skipToValue, if_pos (Or.inl this), if_pos hc, ih (fun x hx => hb x (by simp [hx]))]

/-- C56: a line `name = value`, with blanks where one likes and perhaps a comment, is the setting it shows. -/
theorem C56_line (b0 name b1 b2 value b3 comment : Str) (h0 : ∀ c ∈ b0, isSpace c = true) (h1 : ∀ c ∈ b1, isSpace c = true)
    (h2 : ∀ c ∈ b2, isSpace c = true) (h3 : ∀ c ∈ b3, isSpace c = true)
    (hn : name ≠ []) (hname : ∀ c ∈ name, isSpace c = false ∧ c ≠ '=' ∧ c ≠ '#') (hv : value ≠ [])
    (hvalue : ∀ c ∈ value, c ≠ '#') (hfirst : ∀ c, value.head? = some c → isSpace c = false)
    (hlast : ∀ c, value.getLast? = some c → isSpace c = false) (hc : comment = [] ∨ ∃ t, comment = '#' :: t) :
    readLine (b0 ++ name ++ b1 ++ '=' :: b2 ++ value ++ b3 ++ comment) = some (name, value) := by
  have hsp : ∀ {b : Str}, (∀ c ∈ b, isSpace c = true) → ∀ c ∈ b, c ≠ '#' := by
    intro b hb c hc e
    have := hb c hc
    rw [e] at this
    revert this; decide
  have hcut : (b0 ++ name ++ b1 ++ '=' :: b2 ++ value ++ b3 ++ comment).takeWhile (· ≠ '#') =
      b0 ++ name ++ b1 ++ '=' :: b2 ++ value ++ b3 := by
    rw [List.takeWhile_append_of_pos]
    · rcases hc with rfl | ⟨t, rfl⟩
      · simp
      · simp
    · intro c hc'
      simp only [List.mem_append, List.mem_cons] at hc'
      simp only [ne_eq, decide_not, Bool.not_eq_eq_eq_not, Bool.not_true, decide_eq_false_iff_not]
      rcases hc' with ((((h | h) | h) | (h | h)) | h) | h
      · exact hsp h0 c h
      · exact (hname c h).2.2
      · exact hsp h1 c h
      · rw [h]; decide
      · exact hsp h2 c h
      · exact hvalue c h
      · exact hsp h3 c h
  unfold readLine
  simp only
  rw [hcut, dropEnd_append h3 (by
    intro c hc'
    rw [List.getLast?_append, List.getLast?_eq_some_getLast hv] at hc'
    exact hlast c (by rw [List.getLast?_eq_some_getLast hv]; exact hc'))]
  obtain ⟨x, xs, hx⟩ := List.exists_cons_of_ne_nil hn
  have hdrop : (b0 ++ name ++ b1 ++ '=' :: b2 ++ value).dropWhile isSpace = name ++ (b1 ++ '=' :: (b2 ++ value)) := by
    have := dropWhile_blanks (ws := b0) (u := name ++ (b1 ++ '=' :: (b2 ++ value))) h0 (by
      intro c hc'
      rw [hx] at hc'
      simp at hc'
      subst hc'
      exact (hname _ (by rw [hx]; simp)).1)
    rw [← this]; simp
  rw [hdrop, if_neg (by rw [hx]; simp)]
  have hrest : ∀ c, (b1 ++ '=' :: (b2 ++ value)).head? = some c → isSpace c = true ∨ c = '=' := by
    intro c hc'
    cases b1 with
    | nil => simp at hc'; exact Or.inr hc'.symm
    | cons y ys => simp at hc'; subst hc'; exact Or.inl (h1 _ (by simp))
  rw [splitName_spec (fun c hc' => ⟨(hname c hc').1, (hname c hc').2.1⟩) _ hrest]
  have hval : ∀ eq, (eq = true) → skipToValue eq (b2 ++ value) = value := by
    rintro eq rfl
    rw [skip_blanks h2]
    obtain ⟨y, ys, hy⟩ := List.exists_cons_of_ne_nil hv
    rw [hy, skipToValue, if_pos (Or.inr rfl), if_neg]
    have := hfirst y (by rw [hy]; rfl)
    simp [this]
  congr 2
  show skipToValue (decide ((b1 ++ '=' :: (b2 ++ value)).head? = some '=')) ((b1 ++ '=' :: (b2 ++ value)).drop 1) = value
  cases b1 with
  | nil =>
    show skipToValue (decide (some '=' = some '=')) (b2 ++ value) = value
    exact hval _ (by decide)
  | cons y ys =>
    have hy : y ≠ '=' := by
      have := h1 y (by simp)
      rintro rfl
      revert this; decide
    have e1 : ((y :: ys ++ '=' :: (b2 ++ value)).head? = some '=') = False := by simp [hy]
    have e2 : (y :: ys ++ '=' :: (b2 ++ value)).drop 1 = ys ++ '=' :: (b2 ++ value) := rfl
    rw [e2, skip_blanks (fun c hc' => h1 c (by simp [hc']))]
    simp only [e1, decide_false]
    rw [skipToValue, if_neg (by simp)]
    exact hval _ rfl

/-- C56: a comment or a line of blanks is no setting. -/
theorem C56_no_setting (b comment : Str) (hb : ∀ c ∈ b, isSpace c = true) (hc : comment = [] ∨ ∃ t, comment = '#' :: t) :
    readLine (b ++ comment) = none := by
  have hcut : (b ++ comment).takeWhile (· ≠ '#') = b := by
    rw [List.takeWhile_append_of_pos]
    · rcases hc with rfl | ⟨t, rfl⟩
      · simp
      · simp
    · intro c hc'
      have := hb c hc'
      simp only [ne_eq, decide_not, Bool.not_eq_eq_eq_not, Bool.not_true, decide_eq_false_iff_not]
      rintro rfl
      revert this; decide
  unfold readLine
  simp only
  have : dropEnd b = [] := by
    have := dropEnd_append (s := []) hb (by intro c h; cases h)
    simpa using this
  rw [hcut, this]
  rfl

/-- C56: a configuration file named in the arguments must be there; the default one need not. -/
theorem C56_missing_file (fs : Str → Except Errno (List Str)) (dflt : Str) (silent : Bool) (args : List Str) :
    (∀ i n e, lastConf 0 args = some (i, n) → fs n = .error e →
      argsParse (openConf fs dflt) silent args = .error PAM_SERVICE_ERR) ∧
    (lastConf 0 args = none → fs dflt = .error .enoent →
      argsParse (openConf fs dflt) silent args = argsParse (fun _ => .ok []) silent args) := by
  constructor
  · intro i n e h1 h2
    unfold argsParse
    simp only [h1, Option.map_some, openConf, h2]
  · intro h1 h2
    unfold argsParse
    simp only [h1, Option.map_none, openConf, h2]

/-! The hypotheses can be met. -/

example : readLine "  deny =  5 # five\n".toList = some ("deny".toList, "5".toList) := by decide +kernel
example : (argsParse (fun _ => .ok ["deny = 5\n".toList, "unlock_time=never".toList, "even_deny_root\n".toList]) false
    ["authfail".toList, "deny=7".toList, "conf=/x".toList]).toOption.map (fun c => (c.deny, c.unlockTime, c.rootUnlockTime, c.denyRoot, c.action)) =
    some (7, 0, 0, true, .authfail) := by decide +kernel
example : Digits 10 "900".toList 900 := ⟨by decide, by decide, by decide⟩
example : (strtoInt 10 "x".toList).2 = "x".toList := by decide

end Pam.Faillock
