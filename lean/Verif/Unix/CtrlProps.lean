import Verif.Unix.Ctrl
/-
Property theorems C72: the options of pam_unix.
-/
namespace Pam.Unix
open Pam

/-! ### bits -/

/-- the bit of an option -/
def pos (x : Nat) : Nat := if x < 14 then x else if x < 30 then x - 1 else x - 2

theorem flag_pos : ∀ x : Fin 35, x.val ≠ 14 → x.val ≠ 30 → flagOf x.val = BitVec.twoPow 64 (pos x.val) := by decide

theorem on_bit {x : Nat} (hx : x < 35) (h1 : x ≠ 14) (h2 : x ≠ 30) (c : Ctrl) : on x c = c.getLsbD (pos x) := by
  rw [on, flag_pos ⟨x, hx⟩ h1 h2, BitVec.twoPow_and]
  have hlt : pos x < 64 := by unfold pos; split <;> (try split) <;> omega
  cases c.getLsbD (pos x) with
  | false => rfl
  | true =>
    have : BitVec.twoPow 64 (pos x) ≠ 0#64 := by
      intro h
      have := congrArg (fun v => v.getLsbD (pos x)) h
      simp [hlt] at this
    simpa using this

theorem set_bit (j i : Nat) (c : Ctrl) : (set j c).getLsbD i = ((c.getLsbD i && (maskOf j).getLsbD i) || (flagOf j).getLsbD i) := by
  rw [set, BitVec.getLsbD_or, BitVec.getLsbD_and]

/-! ### which option an argument names -/

theorem find_some {arg : Str} : ∀ {es : List Ent} {k j : Nat} {str : Str}, findFrom arg k es = some (j, str) →
    k ≤ j ∧ ∃ e t, es[j - k]? = some e ∧ e.token = some t ∧ arg = t ++ str
  | [], _, _, _, h => by cases h
  | e :: es, k, j, str, h => by
    unfold findFrom at h
    have rec' : findFrom arg (k + 1) es = some (j, str) → k ≤ j ∧ ∃ e' t, (e :: es)[j - k]? = some e' ∧ e'.token = some t ∧ arg = t ++ str := by
      intro h
      obtain ⟨h1, e', t, h2, h3⟩ := find_some h
      refine ⟨by omega, e', t, ?_, h3⟩
      rw [show j - k = (j - (k + 1)) + 1 by omega, List.getElem?_cons_succ]; exact h2
    cases ht : e.token with
    | none => rw [ht] at h; exact rec' h
    | some t =>
      rw [ht] at h
      simp only at h
      split at h
      · next hp =>
        cases h
        refine ⟨Nat.le_refl _, e, t, by simp, ht, ?_⟩
        obtain ⟨r, rfl⟩ := List.isPrefixOf_iff_prefix.mp hp
        simp
      · exact rec' h

theorem find_none {arg : Str} : ∀ {es : List Ent} {k : Nat}, findFrom arg k es = none → ∀ e ∈ es, ∀ t, e.token = some t → ¬ t <+: arg
  | [], _, _ => by simp
  | e :: es, k, h => by
    unfold findFrom at h
    intro e' he' t ht
    cases hte : e.token with
    | none =>
      rw [hte] at h
      rcases List.mem_cons.mp he' with rfl | he'
      · rw [hte] at ht; cases ht
      · exact find_none h e' he' t ht
    | some t' =>
      rw [hte] at h
      simp only at h
      split at h
      · cases h
      · next hp =>
        rcases List.mem_cons.mp he' with rfl | he'
        · rw [hte] at ht; cases ht; exact fun hx => hp (List.isPrefixOf_iff_prefix.mpr hx)
        · exact find_none h e' he' t ht

/-- no token is the beginning of another -/
theorem tokens_free : ∀ (j j' : Fin 35), ∀ t ∈ args[j.val]?.bind (·.token), ∀ t' ∈ args[j'.val]?.bind (·.token),
    t.isPrefixOf t' = true → j = j' := by decide +kernel

theorem args_length : args.length = 35 := rfl

theorem tok {j : Nat} {e : Ent} {t : Str} (h1 : args[j]? = some e) (h2 : e.token = some t) :
    ∃ h : j < 35, t ∈ args[(⟨j, h⟩ : Fin 35).val]?.bind (·.token) := by
  have hj : j < 35 := by rw [← args_length]; exact (List.getElem?_eq_some_iff.mp h1).1
  exact ⟨hj, by simp [h1, h2]⟩

theorem free {arg : Str} {j j' : Nat} {e e' : Ent} {t t' : Str} (h1 : args[j]? = some e) (h2 : e.token = some t)
    (h1' : args[j']? = some e') (h2' : e'.token = some t') (hp : t <+: arg) (hp' : t' <+: arg) : j = j' := by
  obtain ⟨hj, ht⟩ := tok h1 h2
  obtain ⟨hj', ht'⟩ := tok h1' h2'
  rcases Nat.le_total t.length t'.length with h | h
  · have := tokens_free ⟨j, hj⟩ ⟨j', hj'⟩ t ht t' ht' (List.isPrefixOf_iff_prefix.mpr (List.prefix_of_prefix_length_le hp hp' h))
    exact congrArg Fin.val this
  · have := tokens_free ⟨j', hj'⟩ ⟨j, hj⟩ t' ht' t ht (List.isPrefixOf_iff_prefix.mpr (List.prefix_of_prefix_length_le hp' hp h))
    exact (congrArg Fin.val this).symm

/-- the option found is the one whose word the argument begins with -/
theorem findArg_iff {arg t str : Str} {j : Nat} {e : Ent} (h1 : args[j]? = some e) (h2 : e.token = some t) :
    findArg arg = some (j, str) ↔ arg = t ++ str := by
  constructor
  · intro h
    obtain ⟨-, e', t', he, ht, ha⟩ := find_some h
    rw [Nat.sub_zero, h1] at he
    cases he
    rw [h2] at ht
    cases ht
    exact ha
  · rintro rfl
    cases hf : findArg (t ++ str) with
    | none =>
      exact absurd (List.prefix_append t str) (find_none hf e (List.mem_of_getElem? h1) t h2)
    | some p =>
      obtain ⟨j', str'⟩ := p
      obtain ⟨-, e', t', he, ht, ha⟩ := find_some hf
      rw [Nat.sub_zero] at he
      have hj := free h1 h2 he ht (List.prefix_append t str) (by rw [ha]; exact List.prefix_append _ _)
      subst hj
      rw [h1] at he
      cases he
      rw [h2] at ht
      cases ht
      rw [List.append_cancel_left ha]

theorem findArg_prefix {arg t : Str} {j : Nat} {e : Ent} (h1 : args[j]? = some e) (h2 : e.token = some t) :
    (∃ str, findArg arg = some (j, str)) ↔ t <+: arg := by
  constructor
  · rintro ⟨str, h⟩; rw [(findArg_iff h1 h2).mp h]; exact List.prefix_append _ _
  · rintro ⟨str, rfl⟩; exact ⟨str, (findArg_iff h1 h2).mpr rfl⟩

/-! ### one argument -/

theorem argStep_none {o : Opts} {a : Str} (h : findArg a = none) : argStep o a = o := by rw [argStep, h]

theorem argStep_ctrl (o : Opts) (a : Str) :
    (argStep o a).ctrl = o.ctrl ∨ ∃ j str, findArg a = some (j, str) ∧ (argStep o a).ctrl = set j o.ctrl := by
  cases hf : findArg a with
  | none => exact Or.inl (by rw [argStep_none hf])
  | some p =>
    obtain ⟨j, str⟩ := p
    unfold argStep
    rw [hf]
    simp only
    split
    · cases o.remember with
      | none => exact Or.inl rfl
      | some r => cases hs : strtoi str (-1) with
        | mk v b => cases b with
          | false => exact Or.inl rfl
          | true => exact Or.inr ⟨j, str, rfl, rfl⟩
    · split
      · cases o.minlen with
        | none => exact Or.inl rfl
        | some r => cases hs : strtoi str 0 with
          | mk v b => cases b with
            | false => exact Or.inl rfl
            | true => exact Or.inr ⟨j, str, rfl, rfl⟩
      · split
        · cases o.rounds with
          | none => exact Or.inl rfl
          | some r => cases hs : strtoi str 0 with
            | mk v b => cases b with
              | false => exact Or.inl rfl
              | true => exact Or.inr ⟨j, str, rfl, rfl⟩
        · exact Or.inr ⟨j, str, rfl, rfl⟩

theorem argStep_set {o : Opts} {a str : Str} {j : Nat} (h : findArg a = some (j, str)) (h1 : j ≠ 20) (h2 : j ≠ 25) (h3 : j ≠ 27) :
    argStep o a = { o with ctrl := set j o.ctrl } := by
  unfold argStep
  rw [h]
  simp only
  rw [if_neg h1, if_neg h3, if_neg h2]

/-- a bit that no mask clears and only the option `x` sets -/
structure Plain (x : Nat) : Prop where
  lt : x < 35
  ordinary : x ≠ 20 ∧ x ≠ 25 ∧ x ≠ 27
  kept : ∀ j : Fin 35, (maskOf j.val).getLsbD (pos x) = true
  only : ∀ j : Fin 35, (flagOf j.val).getLsbD (pos x) = decide (j.val = x)

theorem found_lt {a str : Str} {j : Nat} (h : findArg a = some (j, str)) : j < 35 := by
  obtain ⟨-, e, t, he, -, -⟩ := find_some h
  rw [Nat.sub_zero] at he
  rw [← args_length]
  exact (List.getElem?_eq_some_iff.mp he).1

theorem plain_step {x : Nat} (hp : Plain x) {e : Ent} {t : Str} (h1 : args[x]? = some e) (h2 : e.token = some t) (o : Opts) (a : Str) :
    (argStep o a).ctrl.getLsbD (pos x) = (o.ctrl.getLsbD (pos x) || t.isPrefixOf a) := by
  by_cases hpre : t.isPrefixOf a = true
  · obtain ⟨str, hs⟩ := (findArg_prefix h1 h2).mpr (List.isPrefixOf_iff_prefix.mp hpre)
    rw [argStep_set hs hp.ordinary.1 hp.ordinary.2.1 hp.ordinary.2.2]
    have := hp.only ⟨x, hp.lt⟩
    simp only [decide_true] at this
    rw [set_bit, this, hpre, Bool.or_true, Bool.or_true]
  · have hpf : t.isPrefixOf a = false := Bool.eq_false_iff.mpr hpre
    rw [hpf, Bool.or_false]
    rcases argStep_ctrl o a with h | ⟨j, str, hf, h⟩
    · rw [h]
    · have hjx : j ≠ x := by
        rintro rfl
        exact hpre (List.isPrefixOf_iff_prefix.mpr ((findArg_prefix h1 h2).mp ⟨str, hf⟩))
      have hk := hp.kept ⟨j, found_lt hf⟩
      have ho := hp.only ⟨j, found_lt hf⟩
      simp only [hjx, decide_false] at hk ho
      rw [h, set_bit, hk, ho, Bool.and_true, Bool.or_false]

theorem plain_fold {x : Nat} (hp : Plain x) {e : Ent} {t : Str} (h1 : args[x]? = some e) (h2 : e.token = some t) :
    ∀ (argv : List Str) (o : Opts), (argv.foldl argStep o).ctrl.getLsbD (pos x) = (o.ctrl.getLsbD (pos x) || argv.any (t.isPrefixOf ·))
  | [], o => by simp
  | a :: argv, o => by
    rw [List.foldl_cons, plain_fold hp h1 h2 argv, plain_step hp h1 h2, List.any_cons, Bool.or_assoc]

/-! ### the stages before and after -/

theorem method_some {val : Str} : ∀ {es : List Ent} {k j : Nat}, findMethod val k es = some j →
    k ≤ j ∧ ∃ e t, es[j - k]? = some e ∧ e.token = some t ∧ e.hash = true ∧ ieq (val.take t.length) t = true
  | [], _, _, h => by cases h
  | e :: es, k, j, h => by
    unfold findMethod at h
    have rec' : findMethod val (k + 1) es = some j → k ≤ j ∧ ∃ e' t, (e :: es)[j - k]? = some e' ∧ e'.token = some t ∧ e'.hash = true ∧
        ieq (val.take t.length) t = true := by
      intro h
      obtain ⟨h1, e', t, h2, h3⟩ := method_some h
      refine ⟨by omega, e', t, ?_, h3⟩
      rw [show j - k = (j - (k + 1)) + 1 by omega, List.getElem?_cons_succ]; exact h2
    cases ht : e.token with
    | none => rw [ht] at h; exact rec' h
    | some t =>
      rw [ht] at h
      simp only at h
      split at h
      · next hp =>
        cases h
        rw [Bool.and_eq_true] at hp
        exact ⟨Nat.le_refl _, e, t, by simp, ht, hp⟩
      · exact rec' h

theorem method_none {val : Str} : ∀ {es : List Ent} {k : Nat}, findMethod val k es = none →
    ∀ e ∈ es, ∀ t, e.token = some t → e.hash = true → ieq (val.take t.length) t = false
  | [], _, _ => by simp
  | e :: es, k, h => by
    unfold findMethod at h
    intro e' he' t ht hh
    cases hte : e.token with
    | none =>
      rw [hte] at h
      rcases List.mem_cons.mp he' with rfl | he'
      · rw [hte] at ht; cases ht
      · exact method_none h e' he' t ht hh
    | some t' =>
      rw [hte] at h
      simp only at h
      split at h
      · cases h
      · next hp =>
        rcases List.mem_cons.mp he' with rfl | he'
        · rw [hte] at ht; cases ht
          rw [hh, Bool.true_and] at hp
          simpa using hp
        · exact method_none h e' he' t ht hh

/-- a bit that is neither a call flag nor that of a method is off at the start -/
def Later (i : Nat) : Prop :=
  (∀ j ∈ [2, 7, 8, 9, 10, 34], (flagOf j).getLsbD i = false) ∧ ∀ j : Fin 35, (args[j.val]?.map (·.hash)) = some true → (flagOf j.val).getLsbD i = false

theorem set_off {j i : Nat} {c : Ctrl} (h : (flagOf j).getLsbD i = false) (hc : c.getLsbD i = false) : (set j c).getLsbD i = false := by
  rw [set_bit, h, hc, Bool.false_and, Bool.or_false]

theorem if_off {b : Bool} {j i : Nat} {c : Ctrl} (h : (flagOf j).getLsbD i = false) (hc : c.getLsbD i = false) :
    (if b = true then set j c else c).getLsbD i = false := by
  split
  · exact set_off h hc
  · exact hc

/-- the start without /etc/login.defs -/
def callCtrl (root : Bool) (fl : Flags) : Ctrl :=
  let ctrl := flagOf UNIX__NONULL
  let ctrl := if root && !fl.changeExpired then set UNIX__IAMROOT ctrl else ctrl
  let ctrl := if fl.changeExpired then set UNIX_EXPIRED_ONLY ctrl else ctrl
  let ctrl := if fl.update then set UNIX__UPDATE ctrl else ctrl
  let ctrl := if fl.prelim then set UNIX__PRELIM ctrl else ctrl
  if fl.silent then set UNIX__QUIET ctrl else ctrl

theorem start_eq (root : Bool) (fl : Flags) (defs : Option Str) :
    startCtrl root fl defs = match Util.searchKey defs "ENCRYPT_METHOD".toList with
      | none => callCtrl root fl
      | some val => match findMethod val 0 args with
        | none => callCtrl root fl
        | some j => set j (callCtrl root fl) := rfl

theorem call_off {i : Nat} (h : Later i) (root : Bool) (fl : Flags) : (callCtrl root fl).getLsbD i = false := by
  have h9 := h.1 9 (by simp)
  unfold callCtrl
  exact if_off (h.1 10 (by simp)) (if_off (h.1 7 (by simp)) (if_off (h.1 8 (by simp)) (if_off (h.1 34 (by simp)) (if_off (h.1 2 (by simp)) h9))))

theorem start_off {i : Nat} (h : Later i) (root : Bool) (fl : Flags) (defs : Option Str) : (startCtrl root fl defs).getLsbD i = false := by
  rw [start_eq]
  cases Util.searchKey defs "ENCRYPT_METHOD".toList with
  | none => exact call_off h root fl
  | some val =>
    simp only
    cases hm : findMethod val 0 args with
    | none => exact call_off h root fl
    | some j =>
      obtain ⟨-, e, t, h1, h2, h3, -⟩ := method_some hm
      rw [Nat.sub_zero] at h1
      obtain ⟨hj, -⟩ := tok h1 h2
      exact set_off (h.2 ⟨j, hj⟩ (by simp [h1, h3])) (call_off h root fl)

theorem unset_bit (j i : Nat) (c : Ctrl) (hi : i < 64) : (unset j c).getLsbD i = (c.getLsbD i && !(flagOf j).getLsbD i) := by
  rw [unset, BitVec.getLsbD_and, BitVec.getLsbD_not]
  simp [hi]

/-- what the last stages do to the flags -/
theorem saneRounds_ctrl {o o' : Opts} (h : saneRounds o = some o') : o'.ctrl = o.ctrl ∨ o'.ctrl = unset UNIX_ALGO_ROUNDS o.ctrl := by
  unfold saneRounds at h
  split at h
  · split at h
    · cases ho : o.rounds with
      | none => rw [ho] at h; cases h
      | some r => rw [ho] at h; simp only [Option.some.injEq] at h; subst h; exact Or.inl rfl
    · split at h
      · cases ho : o.rounds with
        | none => rw [ho] at h; cases h
        | some r => rw [ho] at h; simp only [Option.some.injEq] at h; subst h; exact Or.inl rfl
      · split at h
        · cases ho : o.rounds with
          | none => rw [ho] at h; cases h
          | some r =>
            rw [ho] at h
            simp only at h
            split at h
            · cases h; exact Or.inr rfl
            · cases h; exact Or.inl rfl
        · cases h; exact Or.inl rfl
  · cases h; exact Or.inl rfl

theorem defsRounds_ctrl (defs : Option Str) (o : Opts) :
    (defsRounds defs o).ctrl = o.ctrl ∨ (defsRounds defs o).ctrl = set UNIX_ALGO_ROUNDS o.ctrl := by
  unfold defsRounds
  split
  · exact Or.inl rfl
  · cases roundsKey o.ctrl with
    | none => exact Or.inl rfl
    | some key =>
      simp only
      cases Util.searchKey defs key with
      | none => exact Or.inl rfl
      | some val =>
        simp only
        cases hs : strtoi val 0 with
        | mk v b => cases b with
          | false => exact Or.inl rfl
          | true => exact Or.inr rfl

theorem defaultRounds_ctrl (o : Opts) :
    (defaultRounds o).ctrl = o.ctrl ∨ (defaultRounds o).ctrl = set UNIX_ALGO_ROUNDS o.ctrl := by
  unfold defaultRounds
  split
  · exact Or.inl rfl
  · split
    · exact Or.inr rfl
    · exact Or.inl rfl

theorem capMinlen_ctrl (o : Opts) : (capMinlen o).ctrl = o.ctrl := by
  unfold capMinlen
  cases o.minlen with
  | none => rfl
  | some n => simp only; split <;> rfl

theorem rounds_keeps {i : Nat} (hi : i < 64) (h24 : i ≠ 24) {c c' : Ctrl}
    (h : c' = c ∨ c' = set UNIX_ALGO_ROUNDS c ∨ c' = unset UNIX_ALGO_ROUNDS c) : c'.getLsbD i = c.getLsbD i := by
  have hf : (flagOf UNIX_ALGO_ROUNDS).getLsbD i = false := by
    have : ∀ i : Fin 64, i.val ≠ 24 → (flagOf UNIX_ALGO_ROUNDS).getLsbD i.val = false := by decide
    exact this ⟨i, hi⟩ h24
  have hm : (maskOf UNIX_ALGO_ROUNDS).getLsbD i = true := by
    have : ∀ i : Fin 64, (maskOf UNIX_ALGO_ROUNDS).getLsbD i.val = true := by decide
    exact this ⟨i, hi⟩
  rcases h with rfl | rfl | rfl
  · rfl
  · rw [set_bit, hf, hm, Bool.and_true, Bool.or_false]
  · rw [unset_bit _ _ _ hi, hf, Bool.not_false, Bool.and_true]

/-- the flags after all, except those of the rounds, the debugging and the empty passwords, are those after the arguments -/
theorem tail_keeps {root : Bool} {fl : Flags} {defs : Option Str} {r1 r2 r3 : Option Int} {argv : List Str} {o' : Opts}
    (h : setCtrl root fl defs r1 r2 r3 argv = some o') {i : Nat} (hi : i < 64) (h24 : i ≠ 24) (h14 : i ≠ 14) :
    o'.ctrl.getLsbD i = (nullFlag fl (argv.foldl argStep ⟨startCtrl root fl defs, r1, r2, r3⟩)).ctrl.getLsbD i := by
  unfold setCtrl at h
  simp only at h
  generalize argv.foldl argStep ⟨startCtrl root fl defs, r1, r2, r3⟩ = o at h
  have hnull : (nullFlag fl (capMinlen o)).ctrl = (nullFlag fl o).ctrl := by
    unfold nullFlag; split
    · simp only [capMinlen_ctrl]
    · exact capMinlen_ctrl o
  rw [← hnull]
  generalize nullFlag fl (capMinlen o) = o1 at h
  obtain ⟨o4, hs, ha⟩ := Option.map_eq_some_iff.mp h
  subst ha
  have haud : (auditDebug o4).ctrl.getLsbD i = o4.ctrl.getLsbD i := by
    unfold auditDebug
    split
    · have hf : (flagOf UNIX_DEBUG).getLsbD i = false := by
        have : ∀ i : Fin 64, i.val ≠ 14 → (flagOf UNIX_DEBUG).getLsbD i.val = false := by decide
        exact this ⟨i, hi⟩ h14
      have hm : (maskOf UNIX_DEBUG).getLsbD i = true := by
        have : ∀ i : Fin 64, (maskOf UNIX_DEBUG).getLsbD i.val = true := by decide
        exact this ⟨i, hi⟩
      simp only [set_bit, hf, hm, Bool.and_true, Bool.or_false]
    · rfl
  rw [haud]
  have s4 := rounds_keeps hi h24 (by rcases saneRounds_ctrl hs with h | h; exact Or.inl h; exact Or.inr (Or.inr h))
  have s3 := rounds_keeps hi h24 (by rcases defaultRounds_ctrl (defsRounds defs o1) with h | h; exact Or.inl h; exact Or.inr (Or.inl h))
  have s2 := rounds_keeps hi h24 (by rcases defsRounds_ctrl defs o1 with h | h; exact Or.inl h; exact Or.inr (Or.inl h))
  rw [s4, s3, s2]

/-! ### C72 -/

/-- options that are just a word -/
def words : List (Str × Nat) :=
  [("audit".toList, UNIX_AUDIT), ("use_authtok".toList, UNIX_USE_AUTHTOK), ("shadow".toList, UNIX_SHADOW), ("nodelay".toList, UNIX_NODELAY),
   ("likeauth".toList, UNIX_LIKE_AUTH), ("noreap".toList, UNIX_NOREAP), ("broken_shadow".toList, UNIX_BROKEN_SHADOW),
   ("no_pass_expiry".toList, UNIX_NO_PASS_EXPIRY), ("nullresetok".toList, UNIX_NULLRESETOK), ("nis".toList, UNIX_NIS)]

theorem words_plain : ∀ w ∈ words, Plain w.2 ∧ (args[w.2]?.bind (·.token)) = some w.1 ∧ Later (pos w.2) ∧ pos w.2 < 64 ∧ pos w.2 ≠ 24 ∧ pos w.2 ≠ 14 ∧
    pos w.2 ≠ 9 ∧ w.2 ≠ 14 ∧ w.2 ≠ 30 := by
  have dec : ∀ w ∈ words, (w.2 < 35 ∧ (w.2 ≠ 20 ∧ w.2 ≠ 25 ∧ w.2 ≠ 27) ∧ (∀ j : Fin 35, (maskOf j.val).getLsbD (pos w.2) = true) ∧
      (∀ j : Fin 35, (flagOf j.val).getLsbD (pos w.2) = decide (j.val = w.2))) ∧ (args[w.2]?.bind (·.token)) = some w.1 ∧
      ((∀ j ∈ [2, 7, 8, 9, 10, 34], (flagOf j).getLsbD (pos w.2) = false) ∧
        ∀ j : Fin 35, (args[j.val]?.map (·.hash)) = some true → (flagOf j.val).getLsbD (pos w.2) = false) ∧
      pos w.2 < 64 ∧ pos w.2 ≠ 24 ∧ pos w.2 ≠ 14 ∧ pos w.2 ≠ 9 ∧ w.2 ≠ 14 ∧ w.2 ≠ 30 := by decide +kernel
  intro w hw
  obtain ⟨⟨a, b, c, d⟩, r⟩ := dec w hw
  exact ⟨⟨a, b, c, d⟩, r⟩

theorem null_keeps {fl : Flags} {o : Opts} {i : Nat} (hi : i < 64) (h9 : i ≠ 9) : (nullFlag fl o).ctrl.getLsbD i = o.ctrl.getLsbD i := by
  unfold nullFlag
  split
  · have hf : (flagOf UNIX__NONULL).getLsbD i = false := by
      have : ∀ i : Fin 64, i.val ≠ 9 → (flagOf UNIX__NONULL).getLsbD i.val = false := by decide
      exact this ⟨i, hi⟩ h9
    have hm : (maskOf UNIX__NONULL).getLsbD i = true := by
      have : ∀ i : Fin 64, (maskOf UNIX__NONULL).getLsbD i.val = true := by decide
      exact this ⟨i, hi⟩
    simp only [set_bit, hf, hm, Bool.and_true, Bool.or_false]
  · rfl

/-- C72: an option that is a word is in force exactly if an argument begins with it, whatever the other arguments, their order, the
flags of the call and /etc/login.defs. -/
theorem C72_word (w : Str) (x : Nat) (hw : (w, x) ∈ words) (root : Bool) (fl : Flags) (defs : Option Str) (r1 r2 r3 : Option Int)
    (argv : List Str) (o : Opts) (h : setCtrl root fl defs r1 r2 r3 argv = some o) :
    on x o.ctrl = true ↔ ∃ a ∈ argv, w <+: a := by
  obtain ⟨hp, ht, hl, h64, h24, h14, h9, hx1, hx2⟩ := words_plain (w, x) hw
  simp only at hp ht hl h64 h24 h14 h9 hx1 hx2
  obtain ⟨e, he, ht⟩ := Option.bind_eq_some_iff.mp ht
  rw [on_bit hp.lt hx1 hx2, tail_keeps h h64 h24 h14, null_keeps h64 h9, plain_fold hp he ht]
  show ((startCtrl root fl defs).getLsbD (pos x) || _) = true ↔ _
  rw [start_off hl, Bool.false_or, List.any_eq_true]
  constructor
  · rintro ⟨a, ha, hpre⟩; exact ⟨a, ha, List.isPrefixOf_iff_prefix.mp hpre⟩
  · rintro ⟨a, ha, hpre⟩; exact ⟨a, ha, List.isPrefixOf_iff_prefix.mpr hpre⟩

/-- before the last stage -/
theorem tail_audit {root : Bool} {fl : Flags} {defs : Option Str} {r1 r2 r3 : Option Int} {argv : List Str} {o' : Opts}
    (h : setCtrl root fl defs r1 r2 r3 argv = some o') : ∃ o4, o' = auditDebug o4 ∧ ∀ i, i < 64 → i ≠ 24 →
      o4.ctrl.getLsbD i = (nullFlag fl (argv.foldl argStep ⟨startCtrl root fl defs, r1, r2, r3⟩)).ctrl.getLsbD i := by
  unfold setCtrl at h
  simp only at h
  generalize argv.foldl argStep ⟨startCtrl root fl defs, r1, r2, r3⟩ = o at h
  have hnull : (nullFlag fl (capMinlen o)).ctrl = (nullFlag fl o).ctrl := by
    unfold nullFlag; split
    · simp only [capMinlen_ctrl]
    · exact capMinlen_ctrl o
  rw [← hnull]
  generalize nullFlag fl (capMinlen o) = o1 at h
  obtain ⟨o4, hs, ha⟩ := Option.map_eq_some_iff.mp h
  refine ⟨o4, ha.symm, fun i hi h24 => ?_⟩
  have s4 := rounds_keeps hi h24 (by rcases saneRounds_ctrl hs with h | h; exact Or.inl h; exact Or.inr (Or.inr h))
  have s3 := rounds_keeps hi h24 (by rcases defaultRounds_ctrl (defsRounds defs o1) with h | h; exact Or.inl h; exact Or.inr (Or.inl h))
  have s2 := rounds_keeps hi h24 (by rcases defsRounds_ctrl defs o1 with h | h; exact Or.inl h; exact Or.inr (Or.inl h))
  rw [s4, s3, s2]

/-- C72: `debug` is in force exactly if an argument begins with `debug` or `audit`. -/
theorem C72_debug (root : Bool) (fl : Flags) (defs : Option Str) (r1 r2 r3 : Option Int) (argv : List Str) (o : Opts)
    (h : setCtrl root fl defs r1 r2 r3 argv = some o) :
    on UNIX_DEBUG o.ctrl = true ↔ ∃ a ∈ argv, "debug".toList <+: a ∨ "audit".toList <+: a := by
  have haud := C72_word "audit".toList UNIX_AUDIT (by decide) root fl defs r1 r2 r3 argv o h
  obtain ⟨o4, he, hb⟩ := tail_audit h
  have hp : Plain UNIX_DEBUG ∧ Later (pos UNIX_DEBUG) := by
    have dec : (UNIX_DEBUG < 35 ∧ (UNIX_DEBUG ≠ 20 ∧ UNIX_DEBUG ≠ 25 ∧ UNIX_DEBUG ≠ 27) ∧ (∀ j : Fin 35, (maskOf j.val).getLsbD (pos UNIX_DEBUG) = true) ∧
      (∀ j : Fin 35, (flagOf j.val).getLsbD (pos UNIX_DEBUG) = decide (j.val = UNIX_DEBUG))) ∧
      ((∀ j ∈ [2, 7, 8, 9, 10, 34], (flagOf j).getLsbD (pos UNIX_DEBUG) = false) ∧
        ∀ j : Fin 35, (args[j.val]?.map (·.hash)) = some true → (flagOf j.val).getLsbD (pos UNIX_DEBUG) = false) := by decide +kernel
    obtain ⟨⟨a, b, c, d⟩, r⟩ := dec
    exact ⟨⟨a, b, c, d⟩, r⟩
  have h4 : on UNIX_DEBUG o4.ctrl = true ↔ ∃ a ∈ argv, "debug".toList <+: a := by
    have tok : ∃ e, args[UNIX_DEBUG]? = some e ∧ e.token = some "debug".toList := ⟨_, rfl, rfl⟩
    obtain ⟨e, h1, h2⟩ := tok
    rw [on_bit hp.1.lt (by decide) (by decide), hb _ (by decide) (by decide), null_keeps (by decide) (by decide), plain_fold hp.1 h1 h2]
    show ((startCtrl root fl defs).getLsbD (pos UNIX_DEBUG) || _) = true ↔ _
    rw [start_off hp.2, Bool.false_or, List.any_eq_true]
    constructor
    · rintro ⟨a, ha, hpre⟩; exact ⟨a, ha, List.isPrefixOf_iff_prefix.mp hpre⟩
    · rintro ⟨a, ha, hpre⟩; exact ⟨a, ha, List.isPrefixOf_iff_prefix.mpr hpre⟩
  have hq : on UNIX_AUDIT o.ctrl = on UNIX_AUDIT o4.ctrl := by
    rw [he]
    unfold auditDebug
    split
    · rw [on_bit (by decide) (by decide) (by decide), on_bit (by decide) (by decide) (by decide), set_bit]
      have hf : (flagOf UNIX_DEBUG).getLsbD (pos UNIX_AUDIT) = false := by decide
      have hm : (maskOf UNIX_DEBUG).getLsbD (pos UNIX_AUDIT) = true := by decide
      rw [hf, hm, Bool.and_true, Bool.or_false]
    · rfl
  have hd : on UNIX_DEBUG o.ctrl = (on UNIX_DEBUG o4.ctrl || on UNIX_AUDIT o4.ctrl) := by
    rw [he]
    unfold auditDebug
    cases ha : on UNIX_AUDIT o4.ctrl with
    | false => simp
    | true =>
      rw [if_pos rfl, Bool.or_true, on_bit (by decide) (by decide) (by decide), set_bit]
      have hf : (flagOf UNIX_DEBUG).getLsbD (pos UNIX_DEBUG) = true := by decide
      rw [hf, Bool.or_true]
  rw [hd, Bool.or_eq_true, h4, ← hq, haud]
  constructor
  · rintro (⟨a, ha, hpre⟩ | ⟨a, ha, hpre⟩)
    · exact ⟨a, ha, Or.inl hpre⟩
    · exact ⟨a, ha, Or.inr hpre⟩
  · rintro ⟨a, ha, hpre | hpre⟩
    · exact Or.inl ⟨a, ha, hpre⟩
    · exact Or.inr ⟨a, ha, hpre⟩

/-- the bit of empty passwords after the arguments -/
theorem nonull_fold : ∀ (argv : List Str) (o : Opts),
    (argv.foldl argStep o).ctrl.getLsbD 9 = (o.ctrl.getLsbD 9 && argv.all (fun a => !("nullok".toList.isPrefixOf a)))
  | [], o => by simp
  | a :: argv, o => by
    have e : ∃ e, args[14]? = some e ∧ e.token = some "nullok".toList := ⟨_, rfl, rfl⟩
    obtain ⟨e, h1, h2⟩ := e
    rw [List.foldl_cons, nonull_fold argv, List.all_cons, ← Bool.and_assoc]
    congr 1
    by_cases hpre : "nullok".toList.isPrefixOf a = true
    · obtain ⟨str, hs⟩ := (findArg_prefix h1 h2).mpr (List.isPrefixOf_iff_prefix.mp hpre)
      rw [argStep_set hs (by decide) (by decide) (by decide), hpre]
      have m : (maskOf 14).getLsbD 9 = false := by decide
      have f : (flagOf 14).getLsbD 9 = false := by decide
      simp only [set_bit, m, f, Bool.and_false, Bool.or_false, Bool.not_true]
    · have hpf : "nullok".toList.isPrefixOf a = false := Bool.eq_false_iff.mpr hpre
      rw [hpf, Bool.not_false, Bool.and_true]
      rcases argStep_ctrl o a with h | ⟨j, str, hf, h⟩
      · rw [h]
      · have hj14 : j ≠ 14 := by
          rintro rfl
          exact hpre (List.isPrefixOf_iff_prefix.mpr ((findArg_prefix h1 h2).mp ⟨str, hf⟩))
        obtain ⟨-, e', t', he', ht', -⟩ := find_some hf
        rw [Nat.sub_zero] at he'
        have dec : ∀ j : Fin 35, j.val ≠ 14 → (args[j.val]?.bind (·.token)).isSome → (maskOf j.val).getLsbD 9 = true ∧ (flagOf j.val).getLsbD 9 = false := by
          decide +kernel
        obtain ⟨m, f⟩ := dec ⟨j, found_lt hf⟩ hj14 (by simp [he', ht'])
        simp only at m f
        rw [h, set_bit, m, f, Bool.and_true, Bool.or_false]

/-- C72: empty passwords are refused unless an argument begins with `nullok` and the application does not forbid them. -/
theorem C72_nullok (root : Bool) (fl : Flags) (defs : Option Str) (r1 r2 r3 : Option Int) (argv : List Str) (o : Opts)
    (h : setCtrl root fl defs r1 r2 r3 argv = some o) :
    off UNIX__NONULL o.ctrl = true ↔ (∃ a ∈ argv, "nullok".toList <+: a) ∧ fl.disallowNull = false := by
  rw [off, on_bit (by decide) (by decide) (by decide), show pos UNIX__NONULL = 9 from rfl, tail_keeps h (by decide) (by decide) (by decide)]
  have hstart : (startCtrl root fl defs).getLsbD 9 = true := by
    have keep : ∀ (j : Nat) (c : Ctrl), (maskOf j).getLsbD 9 = true → c.getLsbD 9 = true → (set j c).getLsbD 9 = true := by
      intro j c hm hc; rw [set_bit, hm, hc]; rfl
    have keepif : ∀ (b : Bool) (j : Nat) (c : Ctrl), (maskOf j).getLsbD 9 = true → c.getLsbD 9 = true →
        (if b = true then set j c else c).getLsbD 9 = true := by
      intro b j c hm hc; split
      · exact keep j c hm hc
      · exact hc
    have hcall : (callCtrl root fl).getLsbD 9 = true := by
      unfold callCtrl
      exact keepif _ _ _ (by decide) (keepif _ _ _ (by decide) (keepif _ _ _ (by decide) (keepif _ _ _ (by decide)
        (keepif _ _ _ (by decide) (by decide)))))
    rw [start_eq]
    cases Util.searchKey defs "ENCRYPT_METHOD".toList with
    | none => exact hcall
    | some val =>
      simp only
      cases hm : findMethod val 0 args with
      | none => exact hcall
      | some j =>
        obtain ⟨-, e, t, h1, h2, h3, -⟩ := method_some hm
        rw [Nat.sub_zero] at h1
        obtain ⟨hj, -⟩ := tok h1 h2
        have dec : ∀ j : Fin 35, (args[j.val]?.map (·.hash)) = some true → (maskOf j.val).getLsbD 9 = true := by decide +kernel
        exact keep j _ (dec ⟨j, hj⟩ (by simp [h1, h3])) hcall
  have hfold := nonull_fold argv ⟨startCtrl root fl defs, r1, r2, r3⟩
  simp only [hstart, Bool.true_and] at hfold
  unfold nullFlag
  cases hd : fl.disallowNull with
  | true =>
    have f : (flagOf UNIX__NONULL).getLsbD 9 = true := by decide
    simp only [if_true, set_bit, f, Bool.or_true]
    simp
  | false =>
    simp only [Bool.false_eq_true, if_false, hfold, and_true]
    rw [Bool.not_eq_true', List.all_eq_false]
    constructor
    · rintro ⟨a, ha, hp⟩; exact ⟨a, ha, List.isPrefixOf_iff_prefix.mp (by simpa using hp)⟩
    · rintro ⟨a, ha, hp⟩; exact ⟨a, ha, by rw [List.isPrefixOf_iff_prefix.mpr hp]; simp⟩

/-! ### the method -/

/-- the words for the methods -/
def hashWords : List (Str × Algo) :=
  [("md5".toList, .md5), ("bigcrypt".toList, .bigcrypt), ("sha256".toList, .sha256), ("sha512".toList, .sha512), ("blowfish".toList, .blowfish),
   ("des".toList, .des), ("gost_yescrypt".toList, .gost), ("yescrypt".toList, .yescrypt)]

/-- the argument names the method -/
def NamesHash (arg : Str) (a : Algo) : Prop := ∃ w, (w, a) ∈ hashWords ∧ w <+: arg

/-- the method of an entry of the table -/
def methodOf (j : Nat) : Option Algo :=
  match args[j]? with
  | some e => if e.hash then (hashWords.find? (fun w => some w.1 == e.token)).map (·.2) else none
  | none => none

/-- the flags of the methods -/
def hashBits : List Nat := [13, 17, 22, 23, 25, 29, 30]

theorem algo_congr {c c' : Ctrl} (h : ∀ i ∈ hashBits, c'.getLsbD i = c.getLsbD i) : algoOf c' = algoOf c := by
  have key : ∀ x, x < 35 → x ≠ 14 → x ≠ 30 → pos x ∈ hashBits → on x c' = on x c := by
    intro x h1 h2 h3 h4
    rw [on_bit h1 h2 h3, on_bit h1 h2 h3]; exact h _ h4
  unfold algoOf off
  rw [key UNIX_MD5_PASS (by decide) (by decide) (by decide) (by decide), key UNIX_YESCRYPT_PASS (by decide) (by decide) (by decide) (by decide),
    key UNIX_GOST_YESCRYPT_PASS (by decide) (by decide) (by decide) (by decide), key UNIX_BLOWFISH_PASS (by decide) (by decide) (by decide) (by decide),
    key UNIX_SHA256_PASS (by decide) (by decide) (by decide) (by decide), key UNIX_SHA512_PASS (by decide) (by decide) (by decide) (by decide),
    key UNIX_BIGCRYPT (by decide) (by decide) (by decide) (by decide)]

/-- setting a method's option chooses the method; other options of the table change nothing -/
theorem algo_set {j : Nat} (hj : j < 35) (c : Ctrl) : algoOf (set j c) = (methodOf j).getD (algoOf c) := by
  cases hm : methodOf j with
  | none =>
    have dec : ∀ j : Fin 35, methodOf j.val = none → ∀ i ∈ hashBits, (maskOf j.val).getLsbD i = true ∧ (flagOf j.val).getLsbD i = false := by
      decide +kernel
    refine algo_congr (fun i hi => ?_)
    obtain ⟨m, f⟩ := dec ⟨j, hj⟩ hm i hi
    simp only at m f
    rw [set_bit, m, f, Bool.and_true, Bool.or_false]
  | some a =>
    have dec : ∀ j : Fin 35, ∀ a ∈ methodOf j.val, (∀ i ∈ hashBits, (maskOf j.val).getLsbD i = false) ∧ algoOf (flagOf j.val) = a := by
      decide +kernel
    obtain ⟨m, f⟩ := dec ⟨j, hj⟩ a hm
    simp only at m f
    rw [algo_congr (c := flagOf j) (fun i hi => by rw [set_bit, m i hi, Bool.and_false, Bool.false_or]), f]
    rfl

theorem method_word : ∀ j : Fin 35, ∀ t ∈ args[j.val]?.bind (·.token), ∀ a, methodOf j.val = some a ↔ (t, a) ∈ hashWords := by
  have dec : ∀ j : Fin 35, ∀ t ∈ args[j.val]?.bind (·.token), ∀ a ∈ [Algo.md5, .yescrypt, .gost, .blowfish, .sha256, .sha512, .bigcrypt, .des],
    (methodOf j.val = some a ↔ (t, a) ∈ hashWords) := by decide +kernel
  intro j t ht a
  exact dec j t ht a (by cases a <;> decide)

/-- the entry of a method's word -/
theorem word_entry {w : Str} {a : Algo} (h : (w, a) ∈ hashWords) : ∃ j e, args[j]? = some e ∧ e.token = some w ∧ e.hash = true ∧ methodOf j = some a ∧
    j ≠ 20 ∧ j ≠ 25 ∧ j ≠ 27 := by
  have dec : ∀ wa ∈ hashWords, ∃ j : Fin 35, (args[j.val]?.bind (·.token)) = some wa.1 ∧ args[j.val]?.map (·.hash) = some true ∧ methodOf j.val = some wa.2 ∧
      j.val ≠ 20 ∧ j.val ≠ 25 ∧ j.val ≠ 27 := by decide +kernel
  obtain ⟨j, h1, h2, h3⟩ := dec _ h
  obtain ⟨e, he, ht⟩ := Option.bind_eq_some_iff.mp h1
  rw [he] at h2
  exact ⟨j.val, e, he, ht, by simpa using h2, h3⟩

theorem algo_named {o : Opts} {arg : Str} {a : Algo} (h : NamesHash arg a) : algoOf (argStep o arg).ctrl = a := by
  obtain ⟨w, hw, hp⟩ := h
  obtain ⟨j, e, h1, h2, -, h3, h4, h5, h6⟩ := word_entry hw
  obtain ⟨str, hs⟩ := (findArg_prefix h1 h2).mpr hp
  rw [argStep_set hs h4 h5 h6]
  simp only
  rw [algo_set (found_lt hs), h3]
  rfl

theorem algo_other {o : Opts} {arg : Str} (h : ∀ a, ¬ NamesHash arg a) : algoOf (argStep o arg).ctrl = algoOf o.ctrl := by
  rcases argStep_ctrl o arg with e | ⟨j, str, hf, e⟩
  · rw [e]
  · rw [e, algo_set (found_lt hf)]
    cases hm : methodOf j with
    | none => rfl
    | some a =>
      exfalso
      obtain ⟨-, e', t, he, ht, ha⟩ := find_some hf
      rw [Nat.sub_zero] at he
      obtain ⟨hj, htt⟩ := tok he ht
      exact h a ⟨t, (method_word ⟨j, hj⟩ t htt a).mp hm, by rw [ha]; exact List.prefix_append _ _⟩

theorem algo_fold : ∀ (argv : List Str) (o : Opts), (∀ b ∈ argv, ∀ a, ¬ NamesHash b a) → algoOf (argv.foldl argStep o).ctrl = algoOf o.ctrl
  | [], _, _ => rfl
  | b :: argv, o, h => by
    rw [List.foldl_cons, algo_fold argv _ (fun b hb => h b (by simp [hb])), algo_other (h b (by simp))]

/-- the rest changes no method -/
theorem algo_tail {root : Bool} {fl : Flags} {defs : Option Str} {r1 r2 r3 : Option Int} {argv : List Str} {o' : Opts}
    (h : setCtrl root fl defs r1 r2 r3 argv = some o') :
    algoOf o'.ctrl = algoOf (argv.foldl argStep ⟨startCtrl root fl defs, r1, r2, r3⟩).ctrl := by
  apply algo_congr
  intro i hi
  have dec : ∀ i ∈ hashBits, i < 64 ∧ i ≠ 24 ∧ i ≠ 14 ∧ i ≠ 9 := by decide
  obtain ⟨a, b, c, d⟩ := dec i hi
  rw [tail_keeps h a b c, null_keeps a d]

theorem algo_call (root : Bool) (fl : Flags) : algoOf (callCtrl root fl) = .des := by
  have hz : algoOf 0 = .des := by decide
  rw [← hz]
  apply algo_congr
  intro i hi
  have dec : ∀ i ∈ hashBits, ∀ j ∈ [2, 7, 8, 9, 10, 34], (flagOf j).getLsbD i = false := by decide
  have d := dec i hi
  unfold callCtrl
  rw [if_off (d 10 (by simp)) (if_off (d 7 (by simp)) (if_off (d 8 (by simp)) (if_off (d 34 (by simp)) (if_off (d 2 (by simp)) (d 9 (by simp))))))]
  simp

theorem ieq_take_prefix {val t t' : Str} (h : ieq (val.take t.length) t = true) (h' : ieq (val.take t'.length) t' = true)
    (hl : t.length ≤ t'.length) : t.map lower <+: t'.map lower := by
  simp only [ieq, beq_iff_eq] at h h'
  have e : (val.take t.length).map lower <+: (val.take t'.length).map lower := by
    rw [List.map_take, List.map_take]
    exact List.take_prefix_take_left hl
  rw [h, h'] at e
  exact e

theorem lower_free : ∀ (j j' : Fin 35), ∀ t ∈ args[j.val]?.bind (·.token), ∀ t' ∈ args[j'.val]?.bind (·.token),
    (t.map lower).isPrefixOf (t'.map lower) = true → j = j' := by decide +kernel

/-- C72: new hashes are made with the method of the last argument that begins with the name of one; without such an argument with the
one /etc/login.defs names as ENCRYPT_METHOD; and else with traditional DES. -/
theorem C72_method (root : Bool) (fl : Flags) (defs : Option Str) (r1 r2 r3 : Option Int) (argv : List Str) (o : Opts)
    (h : setCtrl root fl defs r1 r2 r3 argv = some o) :
    (∀ pre arg post a, argv = pre ++ arg :: post → NamesHash arg a → (∀ b ∈ post, ∀ a', ¬ NamesHash b a') → algoOf o.ctrl = a) ∧
    ((∀ b ∈ argv, ∀ a, ¬ NamesHash b a) →
      (∀ val w a, Util.searchKey defs "ENCRYPT_METHOD".toList = some val → (w, a) ∈ hashWords → ieq (val.take w.length) w = true → algoOf o.ctrl = a) ∧
      (∀ val, Util.searchKey defs "ENCRYPT_METHOD".toList = some val → (∀ w a, (w, a) ∈ hashWords → ieq (val.take w.length) w = false) →
        algoOf o.ctrl = .des) ∧
      (Util.searchKey defs "ENCRYPT_METHOD".toList = none → algoOf o.ctrl = .des)) := by
  rw [algo_tail h]
  constructor
  · rintro pre arg post a rfl hn hpost
    rw [List.foldl_append, List.foldl_cons, algo_fold post _ hpost, algo_named hn]
  · intro hn
    rw [algo_fold argv _ hn]
    simp only [start_eq]
    refine ⟨?_, ?_, ?_⟩
    · intro val w a hv hw hi
      rw [hv]
      simp only
      obtain ⟨j, e, h1, h2, h3, h4, -⟩ := word_entry hw
      cases hm : findMethod val 0 args with
      | none => have := method_none hm e (List.mem_of_getElem? h1) w h2 h3; rw [hi] at this; cases this
      | some j' =>
        obtain ⟨-, e', t, h1', h2', h3', hi'⟩ := method_some hm
        rw [Nat.sub_zero] at h1'
        obtain ⟨hj, ht⟩ := tok h1 h2
        obtain ⟨hj', ht'⟩ := tok h1' h2'
        have hjj : j = j' := by
          rcases Nat.le_total w.length t.length with hl | hl
          · exact congrArg Fin.val (lower_free ⟨j, hj⟩ ⟨j', hj'⟩ w ht t ht' (List.isPrefixOf_iff_prefix.mpr (ieq_take_prefix hi hi' hl)))
          · exact (congrArg Fin.val (lower_free ⟨j', hj'⟩ ⟨j, hj⟩ t ht' w ht (List.isPrefixOf_iff_prefix.mpr (ieq_take_prefix hi' hi hl)))).symm
        subst hjj
        simp only
        rw [algo_set hj, h4]
        rfl
    · intro val hv hno
      rw [hv]
      simp only
      cases hm : findMethod val 0 args with
      | none => exact algo_call root fl
      | some j' =>
        exfalso
        obtain ⟨-, e', t, h1', h2', h3', hi'⟩ := method_some hm
        rw [Nat.sub_zero] at h1'
        obtain ⟨hj', ht'⟩ := tok h1' h2'
        have dec : ∀ j : Fin 35, args[j.val]?.map (·.hash) = some true → (methodOf j.val).isSome = true := by decide +kernel
        have hs := dec ⟨j', hj'⟩ (by simp [h1', h3'])
        obtain ⟨a, ha⟩ := Option.isSome_iff_exists.mp hs
        have := hno t a ((method_word ⟨j', hj'⟩ t ht' a).mp ha)
        rw [hi'] at this; cases this
    · intro hv
      rw [hv]
      exact algo_call root fl

/-! ### quiet -/

/-- C72 is false of `quiet`: a method named after it switches it off. -/
theorem C72_quiet_counterexample :
    ∃ argv : List Str, "quiet".toList ∈ argv ∧
      ∃ o, setCtrl false {} none none none none argv = some o ∧ on UNIX_QUIET o.ctrl = false :=
  ⟨["quiet".toList, "sha512".toList], by simp, (setCtrl false {} none none none none ["quiet".toList, "sha512".toList]).get (by decide +kernel),
    by decide +kernel, by decide +kernel⟩

/-- C72: `quiet` is in force exactly if an argument begins with it and no later one names a method. -/
theorem C72_quiet_partial (root : Bool) (fl : Flags) (defs : Option Str) (r1 r2 r3 : Option Int) (argv : List Str) (o : Opts)
    (h : setCtrl root fl defs r1 r2 r3 argv = some o) :
    on UNIX_QUIET o.ctrl = true ↔
      ∃ pre arg post, argv = pre ++ arg :: post ∧ "quiet".toList <+: arg ∧ ∀ b ∈ post, ∀ a, ¬ NamesHash b a := by
  rw [on_bit (by decide) (by decide) (by decide), show pos UNIX_QUIET = 27 from rfl, tail_keeps h (by decide) (by decide) (by decide),
    null_keeps (by decide) (by decide)]
  have hstart : (startCtrl root fl defs).getLsbD 27 = false :=
    start_off (by
      have dec : (∀ j ∈ [2, 7, 8, 9, 10, 34], (flagOf j).getLsbD 27 = false) ∧
        ∀ j : Fin 35, (args[j.val]?.map (·.hash)) = some true → (flagOf j.val).getLsbD 27 = false := by decide +kernel
      exact dec) root fl defs
  clear h
  have step : ∀ (o : Opts) (b : Str), (argStep o b).ctrl.getLsbD 27 = true ↔
      "quiet".toList <+: b ∨ (o.ctrl.getLsbD 27 = true ∧ ∀ a, ¬ NamesHash b a) := by
    intro o b
    have e : ∃ e, args[28]? = some e ∧ e.token = some "quiet".toList := ⟨_, rfl, rfl⟩
    obtain ⟨e, h1, h2⟩ := e
    by_cases hq : "quiet".toList <+: b
    · obtain ⟨str, hs⟩ := (findArg_prefix h1 h2).mpr hq
      rw [argStep_set hs (by decide) (by decide) (by decide)]
      have f : (flagOf 28).getLsbD 27 = true := by decide
      simp only [set_bit, f, Bool.or_true, hq, true_or]
    · by_cases hn : ∃ a, NamesHash b a
      · obtain ⟨a, w, hw, hp⟩ := hn
        obtain ⟨j, e', h1', h2', h3', h4', h5, h6, h7⟩ := word_entry hw
        obtain ⟨str, hs⟩ := (findArg_prefix h1' h2').mpr hp
        rw [argStep_set hs h5 h6 h7]
        have dec : ∀ j : Fin 35, (methodOf j.val).isSome → (maskOf j.val).getLsbD 27 = false ∧ (flagOf j.val).getLsbD 27 = false := by decide +kernel
        obtain ⟨m, f⟩ := dec ⟨j, found_lt hs⟩ (by simp [h4'])
        simp only at m f
        simp only [set_bit, m, f, Bool.and_false, Bool.or_false, Bool.false_eq_true, false_iff]
        rintro (hx | ⟨-, hx⟩)
        · exact hq hx
        · exact hx a ⟨w, hw, hp⟩
      · have hn' : ∀ a, ¬ NamesHash b a := fun a ha => hn ⟨a, ha⟩
        have hkeep : (argStep o b).ctrl.getLsbD 27 = o.ctrl.getLsbD 27 := by
          rcases argStep_ctrl o b with h | ⟨j, str, hf, h⟩
          · rw [h]
          · obtain ⟨-, e', t', he', ht', ha⟩ := find_some hf
            rw [Nat.sub_zero] at he'
            obtain ⟨hj, htt⟩ := tok he' ht'
            have hj28 : j ≠ 28 := by
              rintro rfl
              exact hq ((findArg_prefix h1 h2).mp ⟨str, hf⟩)
            have hm : methodOf j = none := by
              cases hm : methodOf j with
              | none => rfl
              | some a => exact absurd ⟨t', (method_word ⟨j, hj⟩ t' htt a).mp hm, by rw [ha]; exact List.prefix_append _ _⟩ (hn' a)
            have dec : ∀ j : Fin 35, j.val ≠ 28 → methodOf j.val = none → (maskOf j.val).getLsbD 27 = true ∧ (flagOf j.val).getLsbD 27 = false := by
              decide +kernel
            obtain ⟨m, f⟩ := dec ⟨j, hj⟩ hj28 hm
            simp only at m f
            rw [h, set_bit, m, f, Bool.and_true, Bool.or_false]
        rw [hkeep]
        constructor
        · intro x; exact Or.inr ⟨x, hn'⟩
        · rintro (x | ⟨x, -⟩)
          · exact absurd x hq
          · exact x
  have fold : ∀ (l : List Str) (o : Opts), (l.foldl argStep o).ctrl.getLsbD 27 = true ↔
      (∃ pre arg post, l = pre ++ arg :: post ∧ "quiet".toList <+: arg ∧ ∀ b ∈ post, ∀ a, ¬ NamesHash b a) ∨
      (o.ctrl.getLsbD 27 = true ∧ ∀ b ∈ l, ∀ a, ¬ NamesHash b a) := by
    intro l
    induction l with
    | nil => intro o; simp
    | cons b l ih =>
      intro o
      rw [List.foldl_cons, ih, step]
      constructor
      · rintro (⟨pre, arg, post, rfl, h1, h2⟩ | ⟨h1 | ⟨h1, h2⟩, h3⟩)
        · exact Or.inl ⟨b :: pre, arg, post, rfl, h1, h2⟩
        · exact Or.inl ⟨[], b, l, rfl, h1, h3⟩
        · exact Or.inr ⟨h1, fun c hc => by rcases List.mem_cons.mp hc with rfl | hc; exact h2; exact h3 c hc⟩
      · rintro (⟨pre, arg, post, hl, h1, h2⟩ | ⟨h1, h2⟩)
        · cases pre with
          | nil => cases hl; exact Or.inr ⟨Or.inl h1, h2⟩
          | cons p pre => cases hl; exact Or.inl ⟨pre, arg, post, rfl, h1, h2⟩
        · exact Or.inr ⟨Or.inr ⟨h1, h2 b (by simp)⟩, fun c hc => h2 c (by simp [hc])⟩
  rw [fold]
  simp only [hstart, Bool.false_eq_true, false_and, or_false]

/-! ### numbers -/

/-- `v` is the text of a number from `lo` to INT_MAX -/
def NumberFrom (lo : Int) (text : Str) (v : Int) : Prop := Signed (Digits 10) text v ∧ lo ≤ v ∧ v ≤ 2147483647

theorem strtoi_spec (str : Str) (lo : Int) :
    (∀ v, strtoi str lo = (v, true) ↔ NumberFrom lo str v) ∧ ((∀ v, ¬ NumberFrom lo str v) → strtoi str lo = (lo, false)) := by
  have hb := strtoInt_base 10 (by decide) (by decide) (by decide) str
  unfold strtoi NumberFrom
  cases hs : strtoInt 10 str with
  | mk n rest =>
    simp only
    have key : ∀ v, (n = v ∧ rest = [] ∧ str ≠ []) ↔ Signed (Digits 10) str v := by
      intro v
      rw [← hb v, hs]
      simp [and_assoc]
    have hiff : ∀ v, (if n < lo ∨ n > 2147483647 ∨ rest.length = str.length ∨ rest ≠ [] then (lo, false) else (n, true)) = (v, true) ↔
        Signed (Digits 10) str v ∧ lo ≤ v ∧ v ≤ 2147483647 := by
      intro v
      rw [← key v]
      by_cases hr : rest = []
      · subst hr
        by_cases hstr : str = []
        · subst hstr; simp
        · have hl : ([] : Str).length ≠ str.length := by
            intro h
            exact hstr (List.length_eq_zero_iff.mp h.symm)
          split
          · next hc =>
            constructor
            · intro h; cases h
            · rintro ⟨⟨rfl, -, -⟩, h1, h2⟩
              rcases hc with hc | hc | hc | hc
              · omega
              · omega
              · exact absurd hc hl
              · exact absurd rfl hc
          · next hc =>
            constructor
            · intro h
              cases h
              exact ⟨⟨rfl, rfl, hstr⟩, by omega, by omega⟩
            · rintro ⟨⟨rfl, -, -⟩, -⟩; rfl
      · rw [if_pos (Or.inr (Or.inr (Or.inr hr)))]
        constructor
        · intro h; cases h
        · rintro ⟨⟨-, h, -⟩, -⟩; exact absurd h hr
    refine ⟨hiff, ?_⟩
    intro hno
    split
    · rfl
    · next hc => exact absurd ((hiff n).mp (by rw [if_neg hc])) (hno n)

/-- the value that counts of the arguments that begin with a word: that of the last one -/
def LastText (w : Str) (argv : List Str) (text : Str) : Prop :=
  ∃ pre post, argv = pre ++ (w ++ text) :: post ∧ ∀ b ∈ post, ¬ w <+: b

theorem fold_last {β : Type} (get : Opts → β) (w : Str) (hother : ∀ o a, ¬ w <+: a → get (argStep o a) = get o) {argv : List Str} {text : Str}
    (h : LastText w argv text) (o : Opts) : ∃ o', get (argv.foldl argStep o) = get (argStep o' (w ++ text)) ∧ ∃ pre : List Str, o' = pre.foldl argStep o := by
  obtain ⟨pre, post, rfl, hpost⟩ := h
  refine ⟨pre.foldl argStep o, ?_, pre, rfl⟩
  rw [List.foldl_append, List.foldl_cons]
  generalize argStep (pre.foldl argStep o) (w ++ text) = o1
  induction post generalizing o1 with
  | nil => rfl
  | cons b post ih => rw [List.foldl_cons, ih (fun c hc => hpost c (by simp [hc])), hother _ _ (hpost b (by simp))]

theorem fold_none {β : Type} (get : Opts → β) (w : Str) (hother : ∀ o a, ¬ w <+: a → get (argStep o a) = get o) :
    ∀ (argv : List Str) (o : Opts), (∀ b ∈ argv, ¬ w <+: b) → get (argv.foldl argStep o) = get o
  | [], _, _ => rfl
  | b :: argv, o, h => by rw [List.foldl_cons, fold_none get w hother argv _ (fun c hc => h c (by simp [hc])), hother _ _ (h b (by simp))]

/-- which values an argument can change -/
theorem argStep_values (o : Opts) (a : Str) :
    (¬ "remember=".toList <+: a → (argStep o a).remember = o.remember) ∧
    (¬ "minlen=".toList <+: a → (argStep o a).minlen = o.minlen) ∧
    (¬ "rounds=".toList <+: a → (argStep o a).rounds = o.rounds) := by
  have e20 : ∃ e, args[20]? = some e ∧ e.token = some "remember=".toList := ⟨_, rfl, rfl⟩
  have e25 : ∃ e, args[25]? = some e ∧ e.token = some "rounds=".toList := ⟨_, rfl, rfl⟩
  have e27 : ∃ e, args[27]? = some e ∧ e.token = some "minlen=".toList := ⟨_, rfl, rfl⟩
  obtain ⟨x20, h20, t20⟩ := e20
  obtain ⟨x25, h25, t25⟩ := e25
  obtain ⟨x27, h27, t27⟩ := e27
  cases hf : findArg a with
  | none => rw [argStep_none hf]; exact ⟨fun _ => rfl, fun _ => rfl, fun _ => rfl⟩
  | some p =>
    obtain ⟨j, str⟩ := p
    by_cases j20 : j = 20
    · subst j20
      have hp := (findArg_prefix h20 t20).mp ⟨str, hf⟩
      refine ⟨fun h => absurd hp h, fun _ => ?_, fun _ => ?_⟩ <;>
      · unfold argStep
        rw [hf]
        simp only [if_true]
        cases o.remember with
        | none => rfl
        | some r => cases strtoi str (-1) with
          | mk v b => cases b <;> rfl
    · by_cases j27 : j = 27
      · subst j27
        have hp := (findArg_prefix h27 t27).mp ⟨str, hf⟩
        refine ⟨fun _ => ?_, fun h => absurd hp h, fun _ => ?_⟩ <;>
        · unfold argStep
          rw [hf]
          simp only [if_true]
          rw [if_neg (by decide)]
          cases o.minlen with
          | none => rfl
          | some r => cases strtoi str 0 with
            | mk v b => cases b <;> rfl
      · by_cases j25 : j = 25
        · subst j25
          have hp := (findArg_prefix h25 t25).mp ⟨str, hf⟩
          refine ⟨fun _ => ?_, fun _ => ?_, fun h => absurd hp h⟩ <;>
          · unfold argStep
            rw [hf]
            simp only [if_true]
            rw [if_neg (by decide), if_neg (by decide)]
            cases o.rounds with
            | none => rfl
            | some r => cases strtoi str 0 with
              | mk v b => cases b <;> rfl
        · rw [argStep_set hf j20 j25 j27]
          exact ⟨fun _ => rfl, fun _ => rfl, fun _ => rfl⟩

theorem isSome_step (o : Opts) (a : Str) : (argStep o a).remember.isSome = o.remember.isSome ∧ (argStep o a).minlen.isSome = o.minlen.isSome ∧
    (argStep o a).rounds.isSome = o.rounds.isSome := by
  cases hf : findArg a with
  | none => rw [argStep_none hf]; exact ⟨rfl, rfl, rfl⟩
  | some p =>
    obtain ⟨j, str⟩ := p
    unfold argStep
    rw [hf]
    simp only
    split
    · cases ho : o.remember with
      | none => rw [ho]; exact ⟨rfl, rfl, rfl⟩
      | some r => cases strtoi str (-1) with
        | mk v b => cases b <;> exact ⟨rfl, rfl, rfl⟩
    · split
      · cases ho : o.minlen with
        | none => rw [ho]; exact ⟨rfl, rfl, rfl⟩
        | some r => cases strtoi str 0 with
          | mk v b => cases b <;> exact ⟨rfl, rfl, rfl⟩
      · split
        · cases ho : o.rounds with
          | none => rw [ho]; exact ⟨rfl, rfl, rfl⟩
          | some r => cases strtoi str 0 with
            | mk v b => cases b <;> exact ⟨rfl, rfl, rfl⟩
        · exact ⟨rfl, rfl, rfl⟩

theorem isSome_fold : ∀ (argv : List Str) (o : Opts), (argv.foldl argStep o).remember.isSome = o.remember.isSome ∧
    (argv.foldl argStep o).minlen.isSome = o.minlen.isSome ∧ (argv.foldl argStep o).rounds.isSome = o.rounds.isSome
  | [], _ => ⟨rfl, rfl, rfl⟩
  | a :: argv, o => by
    rw [List.foldl_cons]
    obtain ⟨h1, h2, h3⟩ := isSome_fold argv (argStep o a)
    obtain ⟨g1, g2, g3⟩ := isSome_step o a
    rw [h1, h2, h3]
    exact ⟨g1, g2, g3⟩

theorem bit24_step (o : Opts) (a : Str) : (argStep o a).ctrl.getLsbD 24 = true → o.ctrl.getLsbD 24 = true ∨ o.rounds.isSome = true := by
  intro h
  rcases argStep_ctrl o a with e | ⟨j, str, hf, e⟩
  · rw [e] at h; exact Or.inl h
  · by_cases j25 : j = 25
    · subst j25
      cases ho : o.rounds with
      | some r => exact Or.inr rfl
      | none =>
        left
        have : argStep o a = o := by
          unfold argStep; rw [hf]; simp only [if_true]
          rw [if_neg (by decide), if_neg (by decide), ho]
        rw [this] at h; exact h
    · left
      have dec : ∀ j : Fin 35, j.val ≠ 25 → (flagOf j.val).getLsbD 24 = false := by decide +kernel
      have f := dec ⟨j, found_lt hf⟩ j25
      simp only at f
      rw [e, set_bit, f, Bool.or_false, Bool.and_eq_true] at h
      exact h.1

theorem bit24_fold : ∀ (argv : List Str) (o : Opts), o.ctrl.getLsbD 24 = false → o.rounds = none → (argv.foldl argStep o).ctrl.getLsbD 24 = false
  | [], _, h, _ => h
  | a :: argv, o, h, hr => by
    rw [List.foldl_cons]
    refine bit24_fold argv _ ?_ ?_
    · cases hb : (argStep o a).ctrl.getLsbD 24 with
      | false => rfl
      | true =>
        rcases bit24_step o a hb with x | x
        · rw [h] at x; cases x
        · rw [hr] at x; cases x
    · have := (isSome_step o a).2.2
      rw [hr] at this
      cases ho : (argStep o a).rounds with
      | none => rfl
      | some r => rw [ho] at this; cases this

theorem start24 (root : Bool) (fl : Flags) (defs : Option Str) : (startCtrl root fl defs).getLsbD 24 = false :=
  start_off (by
    have dec : (∀ j ∈ [2, 7, 8, 9, 10, 34], (flagOf j).getLsbD 24 = false) ∧
      ∀ j : Fin 35, (args[j.val]?.map (·.hash)) = some true → (flagOf j.val).getLsbD 24 = false := by decide +kernel
    exact dec) root fl defs

theorem nullFlag_rest (fl : Flags) (o : Opts) : (nullFlag fl o).remember = o.remember ∧ (nullFlag fl o).rounds = o.rounds ∧
    (nullFlag fl o).minlen = o.minlen := by
  unfold nullFlag; split <;> exact ⟨rfl, rfl, rfl⟩

theorem capMinlen_rest (o : Opts) : (capMinlen o).remember = o.remember ∧ (capMinlen o).rounds = o.rounds := by
  unfold capMinlen
  cases o.minlen with
  | none => exact ⟨rfl, rfl⟩
  | some n => simp only; split <;> exact ⟨rfl, rfl⟩

/-- C72: reading the options never looks at a number the caller did not ask for (no null pointer is dereferenced). -/
theorem C72_defined (root : Bool) (fl : Flags) (defs : Option Str) (r1 r2 r3 : Option Int) (argv : List Str) :
    ∃ o, setCtrl root fl defs r1 r2 r3 argv = some o := by
  have sane : ∀ o : Opts, (o.rounds = none → on UNIX_ALGO_ROUNDS o.ctrl = false) → ∃ o', saneRounds o = some o' := by
    intro o h
    unfold saneRounds
    cases ho : o.rounds with
    | none => rw [h ho]; exact ⟨_, rfl⟩
    | some r =>
      simp only
      split
      · split
        · exact ⟨_, rfl⟩
        · split
          · exact ⟨_, rfl⟩
          · split
            · split <;> exact ⟨_, rfl⟩
            · exact ⟨_, rfl⟩
      · exact ⟨_, rfl⟩
  have fin : ∀ o : Opts, (o.rounds = none → on UNIX_ALGO_ROUNDS o.ctrl = false) →
      ∃ o', (saneRounds (defaultRounds (defsRounds defs o))).map auditDebug = some o' := by
    intro o h
    obtain ⟨o', h'⟩ := sane (defaultRounds (defsRounds defs o)) (by
      cases ho : o.rounds with
      | none =>
        have e1 : defsRounds defs o = o := by unfold defsRounds; rw [ho]; simp
        have e2 : defaultRounds o = o := by unfold defaultRounds; rw [ho]; simp
        rw [e1, e2]
        exact h
      | some r =>
        intro hn
        exfalso
        have s1 : (defsRounds defs o).rounds.isSome = true := by
          unfold defsRounds
          split
          · rw [ho]; rfl
          · cases roundsKey o.ctrl with
            | none => simp only; rw [ho]; rfl
            | some key =>
              simp only
              cases Util.searchKey defs key with
              | none => simp only; rw [ho]; rfl
              | some val => simp only; cases strtoi val 0 with
                | mk v b => cases b <;> rfl
        have s2 : (defaultRounds (defsRounds defs o)).rounds.isSome = true := by
          generalize defsRounds defs o = o1 at s1
          unfold defaultRounds
          split
          · exact s1
          · split
            · rfl
            · exact s1
        rw [hn] at s2; cases s2)
    exact ⟨_, by rw [h']; rfl⟩
  apply fin
  rw [(nullFlag_rest _ _).2.1, (capMinlen_rest _).2]
  intro hn
  have hr2 : r2 = none := by
    have := (isSome_fold argv ⟨startCtrl root fl defs, r1, r2, r3⟩).2.2
    rw [hn] at this
    cases r2 with
    | none => rfl
    | some r => cases this
  subst hr2
  rw [on_bit (by decide) (by decide) (by decide), show pos UNIX_ALGO_ROUNDS = 24 from rfl, null_keeps (by decide) (by decide), capMinlen_ctrl]
  exact bit24_fold argv _ (start24 root fl defs) rfl

theorem rest_keeps {root : Bool} {fl : Flags} {defs : Option Str} {r1 r2 r3 : Option Int} {argv : List Str} {o' : Opts}
    (h : setCtrl root fl defs r1 r2 r3 argv = some o') :
    o'.remember = (argv.foldl argStep ⟨startCtrl root fl defs, r1, r2, r3⟩).remember ∧
    o'.minlen = (capMinlen (argv.foldl argStep ⟨startCtrl root fl defs, r1, r2, r3⟩)).minlen := by
  unfold setCtrl at h
  simp only at h
  generalize argv.foldl argStep ⟨startCtrl root fl defs, r1, r2, r3⟩ = o at h
  obtain ⟨n1, -, n3⟩ := nullFlag_rest fl (capMinlen o)
  rw [← (capMinlen_rest o).1, ← n1, ← n3]
  generalize nullFlag fl (capMinlen o) = o1 at h
  obtain ⟨o4, hs, ha⟩ := Option.map_eq_some_iff.mp h
  subst ha
  have e4 : (auditDebug o4).remember = o4.remember ∧ (auditDebug o4).minlen = o4.minlen := by unfold auditDebug; split <;> exact ⟨rfl, rfl⟩
  have e1 : (defsRounds defs o1).remember = o1.remember ∧ (defsRounds defs o1).minlen = o1.minlen := by
    unfold defsRounds
    split
    · exact ⟨rfl, rfl⟩
    · cases roundsKey o1.ctrl with
      | none => exact ⟨rfl, rfl⟩
      | some key =>
        simp only
        cases Util.searchKey defs key with
        | none => exact ⟨rfl, rfl⟩
        | some val => simp only; cases strtoi val 0 with
          | mk v b => cases b <;> exact ⟨rfl, rfl⟩
  have e2 : ∀ o : Opts, (defaultRounds o).remember = o.remember ∧ (defaultRounds o).minlen = o.minlen := by
    intro o; unfold defaultRounds; split
    · exact ⟨rfl, rfl⟩
    · split <;> exact ⟨rfl, rfl⟩
  have e3 : ∀ {o o' : Opts}, saneRounds o = some o' → o'.remember = o.remember ∧ o'.minlen = o.minlen := by
    intro o o' h
    unfold saneRounds at h
    split at h
    · split at h
      · cases ho : o.rounds with
        | none => rw [ho] at h; cases h
        | some r => rw [ho] at h; simp only [Option.some.injEq] at h; subst h; exact ⟨rfl, rfl⟩
      · split at h
        · cases ho : o.rounds with
          | none => rw [ho] at h; cases h
          | some r => rw [ho] at h; simp only [Option.some.injEq] at h; subst h; exact ⟨rfl, rfl⟩
        · split at h
          · cases ho : o.rounds with
            | none => rw [ho] at h; cases h
            | some r =>
              rw [ho] at h
              simp only at h
              split at h
              · cases h; exact ⟨rfl, rfl⟩
              · cases h; exact ⟨rfl, rfl⟩
          · cases h; exact ⟨rfl, rfl⟩
    · cases h; exact ⟨rfl, rfl⟩
  have s3 := e3 hs
  rw [e4.1, e4.2, s3.1, s3.2, (e2 _).1, (e2 _).2, e1.1, e1.2]
  exact ⟨rfl, rfl⟩

/-- what one argument `remember=` or `minlen=` does -/
theorem argStep_remember {o : Opts} {r : Int} (ho : o.remember = some r) (text : Str) :
    (argStep o ("remember=".toList ++ text)).remember = some (if (strtoi text (-1)).2 then (if (strtoi text (-1)).1 > 400 then 400 else (strtoi text (-1)).1)
      else (strtoi text (-1)).1) := by
  have e : ∃ e, args[20]? = some e ∧ e.token = some "remember=".toList := ⟨_, rfl, rfl⟩
  obtain ⟨e, h1, h2⟩ := e
  unfold argStep
  rw [(findArg_iff h1 h2).mpr rfl]
  simp only [if_true]
  rw [ho]
  simp only
  cases strtoi text (-1) with
  | mk v b => cases b <;> rfl

theorem argStep_minlen {o : Opts} {r : Int} (ho : o.minlen = some r) (text : Str) :
    (argStep o ("minlen=".toList ++ text)).minlen = some (strtoi text 0).1 := by
  have e : ∃ e, args[27]? = some e ∧ e.token = some "minlen=".toList := ⟨_, rfl, rfl⟩
  obtain ⟨e, h1, h2⟩ := e
  unfold argStep
  rw [(findArg_iff h1 h2).mpr rfl]
  simp only [if_true]
  rw [if_neg (by decide), ho]
  simp only
  cases strtoi text 0 with
  | mk v b => cases b <;> rfl

/-- C72: the number of passwords to remember is that of the last `remember=`, at most 400; a text that is no number from -1 on switches
remembering off. -/
theorem C72_remember (root : Bool) (fl : Flags) (defs : Option Str) (d : Int) (r2 r3 : Option Int) (argv : List Str) (o : Opts)
    (h : setCtrl root fl defs (some d) r2 r3 argv = some o) :
    (∀ text v, LastText "remember=".toList argv text → NumberFrom (-1) text v → o.remember = some (if v ≤ 400 then v else 400)) ∧
    (∀ text, LastText "remember=".toList argv text → (∀ v, ¬ NumberFrom (-1) text v) → o.remember = some (-1)) ∧
    ((∀ b ∈ argv, ¬ "remember=".toList <+: b) → o.remember = some d) := by
  rw [(rest_keeps h).1]
  have last : ∀ text, LastText "remember=".toList argv text → (argv.foldl argStep ⟨startCtrl root fl defs, some d, r2, r3⟩).remember =
      some (if (strtoi text (-1)).2 then (if (strtoi text (-1)).1 > 400 then 400 else (strtoi text (-1)).1) else (strtoi text (-1)).1) := by
    intro text hl
    obtain ⟨o', h1, pre, h2⟩ := fold_last (·.remember) "remember=".toList (fun o a => (argStep_values o a).1) hl ⟨startCtrl root fl defs, some d, r2, r3⟩
    rw [h1]
    have hs := (isSome_fold pre ⟨startCtrl root fl defs, some d, r2, r3⟩).1
    rw [← h2] at hs
    obtain ⟨r, hr⟩ := Option.isSome_iff_exists.mp hs
    exact argStep_remember hr text
  refine ⟨?_, ?_, ?_⟩
  · intro text v hl hn
    rw [last text hl, ((strtoi_spec text (-1)).1 v).mpr hn]
    simp only [if_true]
    congr 1
    split <;> split <;> omega
  · intro text hl hn
    rw [last text hl, (strtoi_spec text (-1)).2 hn]
    rfl
  · intro hn
    exact fold_none (·.remember) "remember=".toList (fun o a => (argStep_values o a).1) argv _ hn

theorem des_iff (c : Ctrl) : desCrypt c = true ↔ algoOf c = .des := by
  unfold desCrypt algoOf off
  cases on UNIX_MD5_PASS c <;> cases on UNIX_YESCRYPT_PASS c <;> cases on UNIX_GOST_YESCRYPT_PASS c <;> cases on UNIX_BLOWFISH_PASS c <;>
    cases on UNIX_SHA256_PASS c <;> cases on UNIX_SHA512_PASS c <;> cases on UNIX_BIGCRYPT c <;> decide

/-- C72: the least length of a new password is that of the last `minlen=`, zero if its text is no number, and not more than eight with
traditional DES. -/
theorem C72_minlen (root : Bool) (fl : Flags) (defs : Option Str) (r1 r2 : Option Int) (d : Int) (argv : List Str) (o : Opts)
    (h : setCtrl root fl defs r1 r2 (some d) argv = some o) :
    ∃ m, o.minlen = some (if algoOf o.ctrl = .des ∧ m > 8 then 8 else m) ∧
      (∀ text v, LastText "minlen=".toList argv text → NumberFrom 0 text v → m = v) ∧
      (∀ text, LastText "minlen=".toList argv text → (∀ v, ¬ NumberFrom 0 text v) → m = 0) ∧
      ((∀ b ∈ argv, ¬ "minlen=".toList <+: b) → m = d) := by
  have hs := (isSome_fold argv ⟨startCtrl root fl defs, r1, r2, some d⟩).2.1
  obtain ⟨m, hm⟩ := Option.isSome_iff_exists.mp hs
  have last : ∀ text, LastText "minlen=".toList argv text → m = (strtoi text 0).1 := by
    intro text hl
    obtain ⟨o', h1, pre, h2⟩ := fold_last (·.minlen) "minlen=".toList (fun o a => (argStep_values o a).2.1) hl ⟨startCtrl root fl defs, r1, r2, some d⟩
    have hs := (isSome_fold pre ⟨startCtrl root fl defs, r1, r2, some d⟩).2.1
    rw [← h2] at hs
    obtain ⟨r, hr⟩ := Option.isSome_iff_exists.mp hs
    rw [hm, argStep_minlen hr text] at h1
    exact Option.some.inj h1
  refine ⟨m, ?_, ?_, ?_, ?_⟩
  · rw [(rest_keeps h).2, algo_tail h]
    unfold capMinlen
    rw [hm]
    simp only
    by_cases hd : algoOf (argv.foldl argStep ⟨startCtrl root fl defs, r1, r2, some d⟩).ctrl = .des ∧ m > 8
    · rw [if_pos hd, if_pos (by rw [(des_iff _).mpr hd.1, decide_eq_true hd.2]; rfl)]
    · rw [if_neg hd, if_neg, hm]
      intro hx
      rw [Bool.and_eq_true, des_iff, decide_eq_true_eq] at hx
      exact hd hx
  · intro text v hl hn
    rw [last text hl, ((strtoi_spec text 0).1 v).mpr hn]
  · intro text hl hn
    rw [last text hl, (strtoi_spec text 0).2 hn]
  · intro hn
    have := fold_none (·.minlen) "minlen=".toList (fun o a => (argStep_values o a).2.1) argv ⟨startCtrl root fl defs, r1, r2, some d⟩ hn
    simp only at this
    rw [hm] at this
    exact Option.some.inj this

/-! ### rounds -/

/-- the rounds a method is asked for, when `v` are wished; 0: the default of libcrypt -/
def sane (a : Algo) (v : Int) : Int :=
  match a with
  | .yescrypt | .gost => if v < 3 then 3 else if v > 11 then 11 else v
  | .blowfish => if v < 4 then 4 else if v > 31 then 31 else v
  | .sha256 | .sha512 => if v < 1000 ∨ v = 2147483647 then 0 else if v > 9999999 then 9999999 else v
  | _ => v

/-- at most one method is on -/
def OneMethod (c : Ctrl) : Prop :=
  (on UNIX_MD5_PASS c = true ↔ algoOf c = .md5) ∧ (on UNIX_YESCRYPT_PASS c = true ↔ algoOf c = .yescrypt) ∧
  (on UNIX_GOST_YESCRYPT_PASS c = true ↔ algoOf c = .gost) ∧ (on UNIX_BLOWFISH_PASS c = true ↔ algoOf c = .blowfish) ∧
  (on UNIX_SHA256_PASS c = true ↔ algoOf c = .sha256) ∧ (on UNIX_SHA512_PASS c = true ↔ algoOf c = .sha512) ∧
  (on UNIX_BIGCRYPT c = true ↔ algoOf c = .bigcrypt)

theorem one_congr {c c' : Ctrl} (h : ∀ i ∈ hashBits, c'.getLsbD i = c.getLsbD i) (h1 : OneMethod c) : OneMethod c' := by
  have key : ∀ x, x < 35 → x ≠ 14 → x ≠ 30 → pos x ∈ hashBits → on x c' = on x c := by
    intro x h1 h2 h3 h4
    rw [on_bit h1 h2 h3, on_bit h1 h2 h3]; exact h _ h4
  unfold OneMethod
  rw [algo_congr h, key UNIX_MD5_PASS (by decide) (by decide) (by decide) (by decide), key UNIX_YESCRYPT_PASS (by decide) (by decide) (by decide) (by decide),
    key UNIX_GOST_YESCRYPT_PASS (by decide) (by decide) (by decide) (by decide), key UNIX_BLOWFISH_PASS (by decide) (by decide) (by decide) (by decide),
    key UNIX_SHA256_PASS (by decide) (by decide) (by decide) (by decide), key UNIX_SHA512_PASS (by decide) (by decide) (by decide) (by decide),
    key UNIX_BIGCRYPT (by decide) (by decide) (by decide) (by decide)]
  exact h1

theorem one_set {j : Nat} (hj : j < 35) {c : Ctrl} (h : OneMethod c) : OneMethod (set j c) := by
  cases hm : methodOf j with
  | none =>
    have dec : ∀ j : Fin 35, methodOf j.val = none → ∀ i ∈ hashBits, (maskOf j.val).getLsbD i = true ∧ (flagOf j.val).getLsbD i = false := by
      decide +kernel
    refine one_congr (fun i hi => ?_) h
    obtain ⟨m, f⟩ := dec ⟨j, hj⟩ hm i hi
    simp only at m f
    rw [set_bit, m, f, Bool.and_true, Bool.or_false]
  | some a =>
    have dec : ∀ j : Fin 35, (methodOf j.val).isSome → ∀ i ∈ hashBits, (maskOf j.val).getLsbD i = false := by decide +kernel
    have dec2 : ∀ j : Fin 35, (methodOf j.val).isSome → OneMethod (flagOf j.val) := by unfold OneMethod; decide +kernel
    have m := dec ⟨j, hj⟩ (by simp [hm])
    simp only at m
    exact one_congr (c := flagOf j) (fun i hi => by rw [set_bit, m i hi, Bool.and_false, Bool.false_or]) (dec2 ⟨j, hj⟩ (by simp [hm]))

theorem one_fold : ∀ (argv : List Str) (o : Opts), OneMethod o.ctrl → OneMethod (argv.foldl argStep o).ctrl
  | [], _, h => h
  | a :: argv, o, h => by
    rw [List.foldl_cons]
    refine one_fold argv _ ?_
    rcases argStep_ctrl o a with e | ⟨j, str, hf, e⟩
    · rw [e]; exact h
    · rw [e]; exact one_set (found_lt hf) h

theorem one_start (root : Bool) (fl : Flags) (defs : Option Str) : OneMethod (startCtrl root fl defs) := by
  have hcall : OneMethod (callCtrl root fl) := by
    have hif : ∀ (b : Bool) (j : Nat) (c : Ctrl), j < 35 → OneMethod c → OneMethod (if b = true then set j c else c) := by
      intro b j c hj hc; split
      · exact one_set hj hc
      · exact hc
    unfold callCtrl
    refine hif _ _ _ (by decide) (hif _ _ _ (by decide) (hif _ _ _ (by decide) (hif _ _ _ (by decide) (hif _ _ _ (by decide) ?_))))
    unfold OneMethod; decide +kernel
  rw [start_eq]
  cases Util.searchKey defs "ENCRYPT_METHOD".toList with
  | none => exact hcall
  | some val =>
    simp only
    cases hm : findMethod val 0 args with
    | none => exact hcall
    | some j =>
      obtain ⟨-, e, t, h1, h2, -⟩ := method_some hm
      rw [Nat.sub_zero] at h1
      exact one_set (tok h1 h2).1 hcall

theorem argStep_rounds {o : Opts} {r : Int} (ho : o.rounds = some r) (text : Str) :
    (argStep o ("rounds=".toList ++ text)).rounds = some (strtoi text 0).1 ∧
    (argStep o ("rounds=".toList ++ text)).ctrl.getLsbD 24 = ((strtoi text 0).2 || o.ctrl.getLsbD 24) := by
  have e : ∃ e, args[25]? = some e ∧ e.token = some "rounds=".toList := ⟨_, rfl, rfl⟩
  obtain ⟨e, h1, h2⟩ := e
  unfold argStep
  rw [(findArg_iff h1 h2).mpr rfl]
  simp only [if_true]
  rw [if_neg (by decide), if_neg (by decide), ho]
  simp only
  have f : (flagOf 25).getLsbD 24 = true := by decide
  cases strtoi text 0 with
  | mk v b => cases b with
    | false => exact ⟨rfl, by simp⟩
    | true => exact ⟨rfl, by simp only [set_bit, f, Bool.or_true, Bool.true_or]⟩

theorem bit24_other (o : Opts) (a : Str) (hn : ¬ "rounds=".toList <+: a) : (argStep o a).ctrl.getLsbD 24 = o.ctrl.getLsbD 24 := by
  have e : ∃ e, args[25]? = some e ∧ e.token = some "rounds=".toList := ⟨_, rfl, rfl⟩
  obtain ⟨e, h1, h2⟩ := e
  rcases argStep_ctrl o a with h | ⟨j, str, hf, h⟩
  · rw [h]
  · have j25 : j ≠ 25 := by
      rintro rfl
      exact hn ((findArg_prefix h1 h2).mp ⟨str, hf⟩)
    have dec : ∀ j : Fin 35, j.val ≠ 25 → (maskOf j.val).getLsbD 24 = true ∧ (flagOf j.val).getLsbD 24 = false := by decide +kernel
    obtain ⟨m, f⟩ := dec ⟨j, found_lt hf⟩ j25
    simp only at m f
    rw [h, set_bit, m, f, Bool.and_true, Bool.or_false]

/-- without the flag there is no number -/
def RInv (o : Opts) : Prop := o.rounds.isSome = true ∧ (o.ctrl.getLsbD 24 = false → o.rounds = some 0)

theorem rinv_step {o : Opts} (h : RInv o) (a : Str) : RInv (argStep o a) := by
  refine ⟨by rw [(isSome_step o a).2.2]; exact h.1, ?_⟩
  by_cases hn : "rounds=".toList <+: a
  · obtain ⟨text, rfl⟩ := hn
    obtain ⟨r, hr⟩ := Option.isSome_iff_exists.mp h.1
    obtain ⟨e1, e2⟩ := argStep_rounds hr text
    rw [e1, e2]
    intro hb
    rw [Bool.or_eq_false_iff] at hb
    by_cases hx : ∃ v, NumberFrom 0 text v
    · obtain ⟨v, hv⟩ := hx
      rw [((strtoi_spec text 0).1 v).mpr hv] at hb
      cases hb.1
    · rw [(strtoi_spec text 0).2 (fun v hv => hx ⟨v, hv⟩)]
  · rw [bit24_other o a hn, (argStep_values o a).2.2 hn]
    exact h.2

theorem rinv_fold : ∀ (argv : List Str) {o : Opts}, RInv o → RInv (argv.foldl argStep o)
  | [], _, h => h
  | a :: argv, _, h => by rw [List.foldl_cons]; exact rinv_fold argv (rinv_step h a)

theorem saneRounds_on {o : Opts} {v : Int} (h1 : OneMethod o.ctrl) (h2 : o.ctrl.getLsbD 24 = true) (h3 : o.rounds = some v) :
    ∃ o', saneRounds o = some o' ∧ o'.rounds = some (sane (algoOf o.ctrl) v) := by
  unfold saneRounds
  rw [on_bit (by decide) (by decide) (by decide), show pos UNIX_ALGO_ROUNDS = 24 from rfl, h2, if_pos rfl]
  obtain ⟨-, y, g, b, s2, s5, -⟩ := h1
  generalize algoOf o.ctrl = al at *
  rw [Bool.eq_iff_iff.mpr (show on UNIX_YESCRYPT_PASS o.ctrl = true ↔ decide (al = .yescrypt) = true by simpa using y),
    Bool.eq_iff_iff.mpr (show on UNIX_GOST_YESCRYPT_PASS o.ctrl = true ↔ decide (al = .gost) = true by simpa using g),
    Bool.eq_iff_iff.mpr (show on UNIX_BLOWFISH_PASS o.ctrl = true ↔ decide (al = .blowfish) = true by simpa using b),
    Bool.eq_iff_iff.mpr (show on UNIX_SHA256_PASS o.ctrl = true ↔ decide (al = .sha256) = true by simpa using s2),
    Bool.eq_iff_iff.mpr (show on UNIX_SHA512_PASS o.ctrl = true ↔ decide (al = .sha512) = true by simpa using s5), h3]
  cases al with
  | md5 => exact ⟨_, rfl, h3⟩
  | bigcrypt => exact ⟨_, rfl, h3⟩
  | des => exact ⟨_, rfl, h3⟩
  | yescrypt => exact ⟨_, rfl, rfl⟩
  | gost => exact ⟨_, rfl, rfl⟩
  | blowfish => exact ⟨_, rfl, rfl⟩
  | sha256 =>
    simp only [sane, reduceCtorEq, decide_false, decide_true, Bool.or_false, Bool.false_eq_true, if_false, Bool.true_or, if_true]
    by_cases hv : v < 1000 ∨ v = 2147483647
    · rw [if_pos hv, if_pos hv]; exact ⟨_, rfl, rfl⟩
    · rw [if_neg hv, if_neg hv]
      refine ⟨_, rfl, ?_⟩
      simp only [Option.some.injEq]
      split <;> split <;> omega
  | sha512 =>
    simp only [sane, reduceCtorEq, decide_false, decide_true, Bool.or_false, Bool.false_eq_true, if_false, Bool.or_true, if_true]
    by_cases hv : v < 1000 ∨ v = 2147483647
    · rw [if_pos hv, if_pos hv]; exact ⟨_, rfl, rfl⟩
    · rw [if_neg hv, if_neg hv]
      refine ⟨_, rfl, ?_⟩
      simp only [Option.some.injEq]
      split <;> split <;> omega

theorem saneRounds_off {o : Opts} (h2 : o.ctrl.getLsbD 24 = false) : saneRounds o = some o := by
  unfold saneRounds
  rw [on_bit (by decide) (by decide) (by decide), show pos UNIX_ALGO_ROUNDS = 24 from rfl, h2]
  rfl

theorem set25 (c : Ctrl) : (set UNIX_ALGO_ROUNDS c).getLsbD 24 = true := by
  have f : (flagOf UNIX_ALGO_ROUNDS).getLsbD 24 = true := by decide
  rw [set_bit, f, Bool.or_true]

theorem one_rounds {c c' : Ctrl} (h : OneMethod c) (h' : c' = c ∨ c' = set UNIX_ALGO_ROUNDS c) : OneMethod c' ∧ algoOf c' = algoOf c := by
  rcases h' with rfl | rfl
  · exact ⟨h, rfl⟩
  · exact ⟨one_set (by decide) h, by rw [algo_set (by decide)]; rfl⟩

/-- the last stages: the rounds from those after the arguments -/
theorem rounds_tail {defs : Option Str} {o o' : Opts} (h1 : OneMethod o.ctrl) (h2 : RInv o)
    (h : (saneRounds (defaultRounds (defsRounds defs o))).map auditDebug = some o') :
    (o.ctrl.getLsbD 24 = true → ∀ v, o.rounds = some v → o'.rounds = some (sane (algoOf o.ctrl) v)) ∧
    (o.ctrl.getLsbD 24 = false →
      (∀ key, roundsKey o.ctrl = some key → ∀ val v, Util.searchKey defs key = some val → NumberFrom 0 val v → o'.rounds = some (sane (algoOf o.ctrl) v)) ∧
      ((∀ key, roundsKey o.ctrl = some key → ∀ val v, Util.searchKey defs key = some val → ¬ NumberFrom 0 val v) →
        o'.rounds = some (if algoOf o.ctrl = .yescrypt ∨ algoOf o.ctrl = .gost ∨ algoOf o.ctrl = .blowfish then 5 else 0))) := by
  obtain ⟨o4, hs, rfl⟩ := Option.map_eq_some_iff.mp h
  have haud : (auditDebug o4).rounds = o4.rounds := by unfold auditDebug; split <;> rfl
  rw [haud]
  clear h haud
  have onr : ∀ c : Ctrl, on UNIX_ALGO_ROUNDS c = c.getLsbD 24 := fun c => on_bit (by decide) (by decide) (by decide) c
  have dflt_on : ∀ p : Opts, p.ctrl.getLsbD 24 = true → defaultRounds p = p := by
    intro p hp; unfold defaultRounds; rw [onr, hp]; rfl
  constructor
  · intro hb v hv
    have e1 : defsRounds defs o = o := by unfold defsRounds; rw [onr, hb]; rfl
    rw [e1, dflt_on o hb] at hs
    obtain ⟨o5, hs5, hr⟩ := saneRounds_on h1 hb hv
    rw [hs5] at hs
    cases hs
    exact hr
  · intro hb
    have h0 := h2.2 hb
    -- the stage of /etc/login.defs
    have stage : ∀ p : Opts, p.ctrl = set UNIX_ALGO_ROUNDS o.ctrl → ∀ v, p.rounds = some v → ∀ q, saneRounds (defaultRounds p) = some q →
        q.rounds = some (sane (algoOf o.ctrl) v) := by
      intro p hp v hv q hq
      have hpb : p.ctrl.getLsbD 24 = true := by rw [hp]; exact set25 _
      rw [dflt_on p hpb] at hq
      obtain ⟨a, b⟩ := one_rounds h1 (c' := p.ctrl) (Or.inr hp)
      obtain ⟨o5, hs5, hr⟩ := saneRounds_on a hpb hv
      rw [hs5] at hq
      cases hq
      rw [hr, b]
    have stage0 : ∀ p : Opts, p.ctrl = o.ctrl → p.rounds = some 0 → ∀ q, saneRounds (defaultRounds p) = some q →
        q.rounds = some (if algoOf o.ctrl = .yescrypt ∨ algoOf o.ctrl = .gost ∨ algoOf o.ctrl = .blowfish then 5 else 0) := by
      intro p hp hv q hq
      have hcond : (on UNIX_BLOWFISH_PASS p.ctrl || on UNIX_GOST_YESCRYPT_PASS p.ctrl || on UNIX_YESCRYPT_PASS p.ctrl) = true ↔
          (algoOf o.ctrl = .yescrypt ∨ algoOf o.ctrl = .gost ∨ algoOf o.ctrl = .blowfish) := by
        rw [hp, Bool.or_eq_true, Bool.or_eq_true, h1.2.1, h1.2.2.1, h1.2.2.2.1]
        constructor
        · rintro ((h | h) | h)
          · exact Or.inr (Or.inr h)
          · exact Or.inr (Or.inl h)
          · exact Or.inl h
        · rintro (h | h | h)
          · exact Or.inr h
          · exact Or.inl (Or.inr h)
          · exact Or.inl (Or.inl h)
      unfold defaultRounds at hq
      rw [onr, hp, hb, hv] at hq
      simp only [Option.isNone_some, Bool.or_false, Bool.false_eq_true, if_false] at hq
      rw [hp] at hcond
      by_cases hc : algoOf o.ctrl = .yescrypt ∨ algoOf o.ctrl = .gost ∨ algoOf o.ctrl = .blowfish
      · rw [if_pos hc]
        rw [if_pos (hcond.mpr hc)] at hq
        have hpb : (set UNIX_ALGO_ROUNDS o.ctrl).getLsbD 24 = true := set25 _
        obtain ⟨a, b⟩ := one_rounds h1 (c' := set UNIX_ALGO_ROUNDS o.ctrl) (Or.inr rfl)
        obtain ⟨o5, hs5, hr⟩ := saneRounds_on (o := { p with rounds := some 5, ctrl := set UNIX_ALGO_ROUNDS o.ctrl }) a hpb rfl
        rw [hs5] at hq
        cases hq
        rw [hr]
        simp only [b]
        rcases hc with h | h | h <;> rw [h] <;> rfl
      · rw [if_neg hc]
        rw [if_neg (fun x => hc (hcond.mp x)), saneRounds_off (by rw [hp]; exact hb)] at hq
        cases hq
        exact hv
    have hdefs : defsRounds defs o = match roundsKey o.ctrl with
        | none => o
        | some key => match Util.searchKey defs key with
          | none => o
          | some val => match strtoi val 0 with
            | (v, false) => { o with rounds := some v }
            | (v, true) => { o with rounds := some v, ctrl := set UNIX_ALGO_ROUNDS o.ctrl } := by
      conv => lhs; unfold defsRounds
      rw [onr, hb, h0]
      rfl
    constructor
    · intro key hkey val v hval hnum
      rw [hdefs, hkey] at hs
      simp only [hval, ((strtoi_spec val 0).1 v).mpr hnum] at hs
      exact stage _ rfl v rfl o4 hs
    · intro hno
      rw [hdefs] at hs
      cases hkey : roundsKey o.ctrl with
      | none => rw [hkey] at hs; exact stage0 o rfl h0 o4 hs
      | some key =>
        rw [hkey] at hs
        simp only at hs
        cases hval : Util.searchKey defs key with
        | none => rw [hval] at hs; exact stage0 o rfl h0 o4 hs
        | some val =>
          rw [hval] at hs
          simp only [(strtoi_spec val 0).2 (hno key hkey val · hval)] at hs
          exact stage0 { o with rounds := some 0 } rfl rfl o4 hs

/-- the key of /etc/login.defs for a method -/
def defsKey : Algo → Option Str
  | .yescrypt => some "YESCRYPT_COST_FACTOR".toList
  | .sha256 | .sha512 => some "SHA_CRYPT_MAX_ROUNDS".toList
  | _ => none

theorem roundsKey_eq {c : Ctrl} (h : OneMethod c) : roundsKey c = defsKey (algoOf c) := by
  unfold roundsKey
  obtain ⟨-, y, -, -, s2, s5, -⟩ := h
  generalize algoOf c = al at *
  rw [Bool.eq_iff_iff.mpr (show on UNIX_YESCRYPT_PASS c = true ↔ decide (al = .yescrypt) = true by simpa using y),
    Bool.eq_iff_iff.mpr (show on UNIX_SHA256_PASS c = true ↔ decide (al = .sha256) = true by simpa using s2),
    Bool.eq_iff_iff.mpr (show on UNIX_SHA512_PASS c = true ↔ decide (al = .sha512) = true by simpa using s5)]
  cases al <;> rfl

/-- C72: the number of rounds is that of the last `rounds=` with a number; else that of /etc/login.defs for the method; else five for
yescrypt, gost-yescrypt and blowfish, and the default of libcrypt for the rest.  It is always brought into the range the method allows. -/
theorem C72_rounds (root : Bool) (fl : Flags) (defs : Option Str) (r1 r3 : Option Int) (argv : List Str) (o : Opts)
    (h : setCtrl root fl defs r1 (some 0) r3 argv = some o) :
    (∃ v, o.rounds = some (sane (algoOf o.ctrl) v)) ∧
    (∀ text v, LastText "rounds=".toList argv text → NumberFrom 0 text v → o.rounds = some (sane (algoOf o.ctrl) v)) ∧
    ((∀ b ∈ argv, ¬ "rounds=".toList <+: b) →
      (∀ key val v, defsKey (algoOf o.ctrl) = some key → Util.searchKey defs key = some val → NumberFrom 0 val v →
        o.rounds = some (sane (algoOf o.ctrl) v)) ∧
      ((∀ key val v, defsKey (algoOf o.ctrl) = some key → Util.searchKey defs key = some val → ¬ NumberFrom 0 val v) →
        o.rounds = some (if algoOf o.ctrl = .yescrypt ∨ algoOf o.ctrl = .gost ∨ algoOf o.ctrl = .blowfish then 5 else 0))) := by
  have halgo := algo_tail h
  unfold setCtrl at h
  simp only at h
  have hone : OneMethod (argv.foldl argStep ⟨startCtrl root fl defs, r1, some 0, r3⟩).ctrl := one_fold argv _ (one_start root fl defs)
  have hinv : RInv (argv.foldl argStep ⟨startCtrl root fl defs, r1, some 0, r3⟩) := rinv_fold argv ⟨rfl, fun _ => rfl⟩
  have hlast : ∀ text v, LastText "rounds=".toList argv text → NumberFrom 0 text v →
      (argv.foldl argStep ⟨startCtrl root fl defs, r1, some 0, r3⟩).rounds = some v ∧
      (argv.foldl argStep ⟨startCtrl root fl defs, r1, some 0, r3⟩).ctrl.getLsbD 24 = true := by
    intro text v hl hn
    obtain ⟨o', h1, pre, h2⟩ := fold_last (fun p => (p.rounds, p.ctrl.getLsbD 24)) "rounds=".toList
      (fun o a ha => by rw [(argStep_values o a).2.2 ha, bit24_other o a ha]) hl ⟨startCtrl root fl defs, r1, some 0, r3⟩
    have hs := (isSome_fold pre ⟨startCtrl root fl defs, r1, some 0, r3⟩).2.2
    rw [← h2] at hs
    obtain ⟨r, hr⟩ := Option.isSome_iff_exists.mp hs
    obtain ⟨e1, e2⟩ := argStep_rounds hr text
    rw [((strtoi_spec text 0).1 v).mpr hn] at e1 e2
    simp only [Prod.mk.injEq] at h1
    rw [h1.1, h1.2]
    exact ⟨e1, by rw [e2]; rfl⟩
  have hnone : (∀ b ∈ argv, ¬ "rounds=".toList <+: b) →
      (argv.foldl argStep ⟨startCtrl root fl defs, r1, some 0, r3⟩).ctrl.getLsbD 24 = false := by
    intro hn
    have := fold_none (fun p => p.ctrl.getLsbD 24) "rounds=".toList (fun o a ha => bit24_other o a ha) argv ⟨startCtrl root fl defs, r1, some 0, r3⟩ hn
    simp only at this
    rw [this, start24]
  generalize argv.foldl argStep ⟨startCtrl root fl defs, r1, some 0, r3⟩ = o0 at *
  have hbits : ∀ i, i < 64 → i ≠ 9 → (nullFlag fl (capMinlen o0)).ctrl.getLsbD i = o0.ctrl.getLsbD i := by
    intro i hi h9; rw [null_keeps hi h9, capMinlen_ctrl]
  have hh : ∀ i ∈ hashBits, (nullFlag fl (capMinlen o0)).ctrl.getLsbD i = o0.ctrl.getLsbD i := by
    intro i hi
    have dec : ∀ i ∈ hashBits, i < 64 ∧ i ≠ 9 := by decide
    exact hbits i (dec i hi).1 (dec i hi).2
  have hr : (nullFlag fl (capMinlen o0)).rounds = o0.rounds := by rw [(nullFlag_rest _ _).2.1, (capMinlen_rest _).2]
  have ha : algoOf (nullFlag fl (capMinlen o0)).ctrl = algoOf o0.ctrl := algo_congr hh
  have h24 := hbits 24 (by decide) (by decide)
  obtain ⟨t1, t2⟩ := rounds_tail (one_congr hh hone) (by unfold RInv; rw [hr, h24]; exact hinv) h
  rw [ha, hr, h24] at t1
  rw [roundsKey_eq (one_congr hh hone), ha, h24] at t2
  rw [halgo]
  refine ⟨?_, ?_, ?_⟩
  · cases hb : o0.ctrl.getLsbD 24 with
    | true =>
      obtain ⟨v, hv⟩ := Option.isSome_iff_exists.mp hinv.1
      exact ⟨v, t1 hb v hv⟩
    | false =>
      by_cases hx : ∃ key val v, defsKey (algoOf o0.ctrl) = some key ∧ Util.searchKey defs key = some val ∧ NumberFrom 0 val v
      · obtain ⟨key, val, v, a, b, c⟩ := hx
        exact ⟨v, (t2 hb).1 key a val v b c⟩
      · have := (t2 hb).2 (fun key a val v b c => hx ⟨key, val, v, a, b, c⟩)
        by_cases hc : algoOf o0.ctrl = .yescrypt ∨ algoOf o0.ctrl = .gost ∨ algoOf o0.ctrl = .blowfish
        · rw [if_pos hc] at this
          refine ⟨5, ?_⟩
          rw [this]
          rcases hc with h | h | h <;> rw [h] <;> rfl
        · rw [if_neg hc] at this
          refine ⟨0, ?_⟩
          rw [this]
          generalize algoOf o0.ctrl = al at hc
          cases al <;> first | rfl | exact absurd (Or.inl rfl) hc | exact absurd (Or.inr (Or.inl rfl)) hc | exact absurd (Or.inr (Or.inr rfl)) hc
  · intro text v hl hn
    obtain ⟨a, b⟩ := hlast text v hl hn
    exact t1 b v a
  · intro hn
    have hb := hnone hn
    refine ⟨fun key val v a b c => (t2 hb).1 key a val v b c, fun hno => (t2 hb).2 (fun key a val v b c => hno key val v a b c)⟩

/-! ### examples -/

/-- a typical line of the password stack -/
def demoArgs : List Str := ["debug".toList, "sha512".toList, "remember=500".toList, "rounds=65536".toList, "minlen=12".toList, "nullok".toList, "yescrypt".toList]

example : setCtrl true {} none (some (-1)) (some 0) (some 0) demoArgs =
    some ⟨1091059716#64, some 400, some 11, some 12⟩ := by decide +kernel
example : ∃ o, setCtrl true {} none (some (-1)) (some 0) (some 0) demoArgs = some o ∧ algoOf o.ctrl = .yescrypt ∧ o.remember = some 400 ∧
    off UNIX__NONULL o.ctrl = true ∧ on UNIX_NODELAY o.ctrl = false := by
  obtain ⟨o, h⟩ := C72_defined true {} none (some (-1)) (some 0) (some 0) demoArgs
  refine ⟨o, h, ?_, ?_, ?_, ?_⟩
  · exact (C72_method _ _ _ _ _ _ _ _ h).1 (demoArgs.take 6) "yescrypt".toList [] .yescrypt rfl ⟨"yescrypt".toList, by decide, ⟨[], rfl⟩⟩ (by simp)
  · exact (C72_remember _ _ _ _ _ _ _ _ h).1 "500".toList 500 ⟨demoArgs.take 2, demoArgs.drop 3, rfl, by
      intro b hb
      have : ∀ b ∈ demoArgs.drop 3, "remember=".toList.isPrefixOf b = false := by decide
      intro hp
      have h1 := this b hb
      rw [List.isPrefixOf_iff_prefix.mpr hp] at h1; cases h1⟩
      ⟨by rw [← strtoInt_base 10 (by decide) (by decide) (by decide)]; decide, by decide, by decide⟩
  · exact (C72_nullok _ _ _ _ _ _ _ _ h).mpr ⟨⟨"nullok".toList, by simp [demoArgs], ⟨[], rfl⟩⟩, rfl⟩
  · rw [← Bool.not_eq_true, C72_word "nodelay".toList UNIX_NODELAY (by decide) _ _ _ _ _ _ _ _ h]
    rintro ⟨a, ha, hp⟩
    have : ∀ b ∈ demoArgs, "nodelay".toList.isPrefixOf b = false := by decide
    have h1 := this a ha
    rw [List.isPrefixOf_iff_prefix.mpr hp] at h1; cases h1

end Pam.Unix
