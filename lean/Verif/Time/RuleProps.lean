import Verif.Time.GroupLemmas
/-
C53: what pam_time decides.  C54: which groups pam_group gives.
-/
namespace Pam.Time
open Spec

theorem timeRules_eq (w : Who) : ∀ (rs : List (List Str)) (retval : Int), (∀ r ∈ rs, timeVerdict w r ≠ none) →
    timeRules w retval rs = some (if ∃ r ∈ rs, timeVerdict w r = some true then PAM_PERM_DENIED else retval) := by
  intro rs
  induction rs with
  | nil => intro retval _; simp [timeRules]
  | cons r rs ih =>
    intro retval h
    rw [timeRules]
    cases hv : timeVerdict w r with
    | none => exact absurd hv (h r (by simp))
    | some d =>
      simp only
      rw [ih _ (fun r hr => h r (by simp [hr]))]
      cases d with
      | true => simp [hv]
      | false => simp [hv]

/-- For a file as it is documented, the account check denies exactly when a rule is about this service, terminal and user and
not about this time, and else succeeds.  (Missing: rules with a name on which the comparison is undefined, see
`C52_name_counterexample`.) -/
theorem C53_decision_partial (w : Who) (x : Str) (rs : List (List Str)) (hx : File 4 x rs)
    (hu : ∀ r ∈ rs, NameOk ['@'] (r.getD 2 [])) (hdef : ∀ r ∈ rs, timeVerdict w r ≠ none) :
    timeCheck ⟨some x, false⟩ w =
      some (if ∃ r ∈ rs, timeVerdict w r = some true then PAM_PERM_DENIED else PAM_SUCCESS) := by
  show timeLoop false w PAM_SUCCESS .nl x = _
  rw [timeLoop_file hx w hu, timeRules_eq w rs _ hdef]

/-- Whatever the file, the check answers with success or denial, unless the behaviour is undefined. -/
theorem C53_codes (c : Conf) (w : Who) (r : Int) (h : timeCheck c w = some r) : r = PAM_SUCCESS ∨ r = PAM_PERM_DENIED := by
  unfold timeCheck at h
  split at h
  · cases h; exact Or.inl rfl
  · exact timeLoop_codes c.err w _ _ (Nat.le_refl _) _ _ _ (Or.inl rfl) h

/-- Without a readable file there are no rules, and the check succeeds. -/
theorem C53_no_file (w : Who) (err : Bool) : timeCheck ⟨none, err⟩ w = some PAM_SUCCESS := rfl

/-- Without a service or user the module fails before it looks at the rules. -/
theorem C53_no_user (it : Items) (c : Conf) (now : Instant) (ng ug : Str → Bool) (hs : it.service ≠ none)
    (h : it.user = none ∨ it.user = some []) : timeAcctMgmt it c now ng ug = some PAM_USER_UNKNOWN := by
  unfold timeAcctMgmt findWho
  cases hsv : it.service with
  | none => exact absurd hsv hs
  | some s => rcases h with h | h <;> rw [h]

/-- The terminal is compared without the directory it is in. -/
theorem C53_tty (dir name : Str) (h : '/' ∉ dir) : ttyName ('/' :: dir ++ '/' :: name) = name := by
  have h1 : (dir ++ '/' :: name).dropWhile (fun c => decide (c ≠ '/')) = '/' :: name := by
    rw [List.dropWhile_append_of_pos]
    · simp
    · intro c hc
      simp only [decide_eq_true_eq]
      rintro rfl
      exact h hc
  show (if '/' ∈ dir ++ '/' :: name then ((dir ++ '/' :: name).dropWhile (fun c => decide (c ≠ '/'))).drop 1 else _) = name
  rw [if_pos (by simp), h1]
  rfl

theorem groupRules_eq (w : Who) (getgrnam : Str → Option Nat) : ∀ (rs : List (List Str)) (gids : List Nat), (∀ r ∈ rs, groupVerdict w r ≠ none) →
    groupRules w getgrnam gids rs =
      some (gids ++ (rs.filter (fun r => groupVerdict w r == some true)).flatMap (ruleGroups getgrnam)) := by
  intro rs
  induction rs with
  | nil => intro gids _; simp [groupRules]
  | cons r rs ih =>
    intro gids h
    have hrs : ∀ r ∈ rs, groupVerdict w r ≠ none := fun r hr => h r (by simp [hr])
    rw [groupRules]
    cases hv : groupVerdict w r with
    | none => exact absurd hv (h r (by simp))
    | some d =>
      cases d with
      | true => simp only; rw [ih _ hrs]; simp [hv]
      | false => simp only; rw [ih _ hrs]; simp [hv]

/-- For a file as it is documented, the groups set are those the process had and then, rule by rule, the existing groups of
the rules that apply.  (Missing: rules with a name on which the comparison is undefined.) -/
theorem C54_groups_partial (w : Who) (getgrnam : Str → Option Nat) (groups : List Nat) (x : Str) (rs : List (List Str))
    (hx : File 5 x rs) (hu : ∀ r ∈ rs, NameOk ['@', '%'] (r.getD 2 [])) (hg : ∀ r ∈ rs, ∀ c ∈ r.getD 4 [], isOper c = false)
    (hdef : ∀ r ∈ rs, groupVerdict w r ≠ none) (l : List Nat)
    (hl : l = groups ++ (rs.filter (fun r => groupVerdict w r == some true)).flatMap (ruleGroups getgrnam)) (setOk : Bool) :
    groupCheck ⟨some x, false⟩ w getgrnam groups setOk =
      if l = [] then some (none, PAM_SUCCESS) else some (some l, if setOk then PAM_SUCCESS else PAM_CRED_ERR) := by
  have h := groupLoop_file hx w getgrnam hu hg (firstGroups groups) (Nat.le_refl _)
  rw [groupRules_eq w getgrnam rs _ hdef] at h
  unfold groupCheck
  simp only
  cases hgl : groupLoop false w getgrnam (firstGroups groups) .nl x with
  | none => rw [hgl] at h; cases h
  | some g =>
    rw [hgl] at h
    simp only [Option.map_some, Option.some.injEq] at h
    have h : g.gids = l := h.trans hl.symm
    simp only [h]

/-- Whatever the file, no group is taken away and only the numbers of existing groups are added. -/
theorem C54_only_adds (c : Conf) (w : Who) (getgrnam : Str → Option Nat) (groups : List Nat) (setOk : Bool) (l : List Nat) (r : Int)
    (h : groupCheck c w getgrnam groups setOk = some (some l, r)) : ∃ more, l = groups ++ more ∧ ∀ k ∈ more, ∃ n, getgrnam n = some k := by
  unfold groupCheck at h
  split at h
  · cases h
  · rename_i g hg
    split at h
    · cases h
    · cases h
      split at hg
      · cases hg; exact ⟨[], by simp [firstGroups], by simp⟩
      · exact groupLoop_adds c.err w getgrnam _ _ (Nat.le_refl _) (firstGroups groups) g _ hg

/-- Whatever a rule's list of groups says, building the group list stays inside its memory, and the room it leaves fits the next
rule and the overwriting at the end. -/
theorem C54_memory (getgrnam : Str → Option Nat) (g : Groups) (h : blkSize g.gids.length ≤ g.room) (buf : Str) :
    ∃ g', mkgrplist getgrnam g buf = some g' ∧ blkSize g'.gids.length ≤ g'.room := mkgrplist_safe getgrnam h buf

/-- pam_setcred acts only when credentials are established or reinitialised. -/
theorem C54_other_calls (flags : Nat) (it : Items) (c : Conf) (now : Instant) (ng ug : Str → Bool) (getgrnam : Str → Option Nat)
    (groups : List Nat) (setOk : Bool) (h1 : flags &&& 0x2 = 0) (h2 : flags &&& 0x8 = 0) :
    groupSetcred flags it c now ng ug getgrnam groups setOk = some (none, PAM_SUCCESS) := by
  unfold groupSetcred forCred
  simp [h1, h2]

/-! ## the hypotheses can be met, and what goes wrong -/

def exWho : Who := ⟨"login".toList, "tty1".toList, "joe".toList, timeNow 3 12 0, fun n => n == "staff".toList, fun _ => false⟩

/-- `s` as a field without special characters -/
theorem written_of {s : Str} (h : ∀ c ∈ s, c ≠ NUL ∧ c ≠ '\n' ∧ c ≠ ';' ∧ c ≠ '#' ∧ c ≠ '\\') : Written s s := by
  induction s with
  | nil => exact .nil
  | cons c s ih =>
    obtain ⟨h1, h2, h3, h4, h5⟩ := h c (by simp)
    exact .char c h1 h2 h3 h4 h5 (ih (fun c hc => h c (by simp [hc])))

theorem exFile : File 4 "# rules\nlogin ; tty* ; joe|ann ; Al0900-1000 # morning\n".toList
    [["login ".toList, " tty* ".toList, " joe|ann ".toList, " Al0900-1000 ".toList]] := by
  have h1 := File.rule (n := 4) (f := "login ".toList) (l := " Al0900-1000 ".toList) (e := "# morning\n".toList) (t := [])
    (fs := [(" tty* ".toList, " tty* ".toList), (" joe|ann ".toList, " joe|ann ".toList)])
    (written_of (by decide)) (by decide) ⟨'l', by decide⟩
    (by
      intro p hp
      simp only [List.mem_cons, List.not_mem_nil, or_false] at hp
      rcases hp with rfl | rfl <;> exact ⟨written_of (by decide), by decide⟩)
    (written_of (by decide)) (by decide) (Tail.comment (s := " morning".toList) (by intro c hc; revert c; decide)) rfl .nil
  exact File.empty (b := []) (e := "# rules\n".toList) (by simp) (by decide)
    (Tail.comment (s := " rules".toList) (by intro c hc; revert c; decide)) h1

set_option maxRecDepth 100000 in
example : timeCheck ⟨some "# rules\nlogin ; tty* ; joe|ann ; Al0900-1000 # morning\n".toList, false⟩ exWho = some PAM_PERM_DENIED := by
  rw [C53_decision_partial exWho _ _ exFile]
  · decide +kernel
  · intro r hr
    simp only [List.mem_cons, List.not_mem_nil, or_false] at hr
    subst hr
    intro x hx n h
    simp only [List.mem_cons, List.not_mem_nil, or_false] at hx
    subst hx
    have := congrArg List.head? h
    rw [List.head?_cons] at this
    exact absurd this (by decide)
  · decide +kernel

/-- A last rule without a newline counts as one that is never in time: who it is about is denied at any time. -/
theorem C53_last_line_counterexample :
    timeCheck ⟨some "login;*;joe;Al0000-2400".toList, false⟩ exWho = some PAM_PERM_DENIED ∧
    timeCheck ⟨some "login;*;joe;Al0000-2400\n".toList, false⟩ exWho = some PAM_SUCCESS := by decide +kernel

/-- A file that ends after the third semicolon of a rule makes the module read through a null pointer. -/
theorem C53_end_counterexample : timeCheck ⟨some "login;*;joe;".toList, false⟩ exWho = none := by decide +kernel

/-- A read error hides the rules in the buffer: the check succeeds. -/
theorem C53_error_counterexample :
    timeCheck ⟨some "login;*;joe;Al0000-0001\n".toList, true⟩ exWho = some PAM_SUCCESS ∧
    timeCheck ⟨some "login;*;joe;Al0000-0001\n".toList, false⟩ exWho = some PAM_PERM_DENIED := by decide +kernel

/-- Operators are not meant to be in a list of groups; the character after one is lost: "&floppy" asks for "loppy". -/
theorem C54_operator_counterexample :
    (mkgrplist (fun n => if n = "loppy".toList then some 7 else none) ⟨[], 0⟩ "&floppy".toList).map (·.gids) = some [7] := by
  decide +kernel

example : (mkgrplist (fun n => if n = "floppy".toList then some 7 else none) ⟨[1], 10⟩ "audio, floppy".toList).map (·.gids) = some [1, 7] := by
  decide +kernel
example : groupCheck ⟨some "login;*;%wheel|joe;Al0000-2400;floppy\n".toList, false⟩ exWho (fun _ => some 7) [1] true = some (some [1], PAM_SUCCESS) := by
  decide +kernel
example : groupCheck ⟨some "login;*;joe;Al0000-2400;floppy, audio\n".toList, false⟩ exWho (fun _ => some 7) [1] true =
    some (some [1, 7, 7], PAM_SUCCESS) := by decide +kernel
example : splitNames [] "floppy, audio".toList = ["floppy".toList, "audio".toList] := by decide
example : ttyName "/dev/tty1".toList = "tty1".toList := by decide

end Pam.Time
