import Verif.SucceedIf.NameLemmas
/-
Helper lemmas: one condition, and the walk over the arguments.
-/
namespace Pam.SucceedIf
open Pam Spec

/-- the password entry at hand is the one of the user, or can still be looked up -/
def Good (sys : Sys) (who : Person) (pwd : Option Pw) : Prop :=
  (pwd = who.pw ∧ pwd ≠ none) ∨ (pwd = none ∧ sys.getpwnam who.name = who.pw)

theorem hasText_textOf {sys : Sys} {who : Person} {a : Attr} {v : Str} :
    HasText sys who a v ↔ textOf sys who.pw who.name a = some v := by
  constructor
  · intro h
    cases h with
    | uid h => simp [textOf, h]
    | gid h => simp [textOf, h]
    | shell h => simp [textOf, h]
    | home h => simp [textOf, h]
    | _ => rfl
  · intro h
    cases a <;> simp only [textOf, Option.some.injEq, Option.map_eq_some_iff] at h
    · subst h; exact .user
    · obtain ⟨p, hp, rfl⟩ := h; exact .uid hp
    · obtain ⟨p, hp, rfl⟩ := h; exact .gid hp
    · obtain ⟨p, hp, rfl⟩ := h; exact .shell hp
    · obtain ⟨p, hp, rfl⟩ := h; exact .home hp
    · subst h; exact .service
    · subst h; exact .ruser
    · subst h; exact .rhost
    · subst h; exact .tty

/-- the text does not depend on the password entry unless it is stored there -/
theorem textOf_pwd (sys : Sys) (p1 p2 : Option Pw) (user : Str) (a : Attr) (h : a.stored = false) :
    textOf sys p1 user a = textOf sys p2 user a := by
  cases a <;> first | rfl | exact absurd h (by decide)

theorem textOf_some (sys : Sys) (p : Option Pw) (user : Str) (a : Attr) (h : a.stored = false ∨ p ≠ none) :
    ∃ v, textOf sys p user a = some v := by
  cases p with
  | some p => cases a <;> exact ⟨_, rfl⟩
  | none =>
    have h := h.resolve_right (by simp)
    cases a <;> first | exact ⟨_, rfl⟩ | exact absurd h (by decide)

/-- a numeric test -/
theorem evaluateNum_cases (v r : Str) (cmp : Int → Int → Bool) :
    (evaluateNum v r cmp = PAM_SERVICE_ERR ∧ (¬ (∃ x, IsNumber v x) ∨ ¬ (∃ y, IsNumber r y))) ∨
    (∃ x y, IsNumber v x ∧ IsNumber r y ∧ evaluateNum v r cmp = if cmp x y then PAM_SUCCESS else PAM_AUTH_ERR) := by
  unfold evaluateNum
  cases h1 : parseNum v with
  | none => left; exact ⟨rfl, Or.inl (parseNum_none h1)⟩
  | some x =>
    cases h2 : parseNum r with
    | none => left; exact ⟨rfl, Or.inr (parseNum_none h2)⟩
    | some y => right; exact ⟨x, y, (parseNum_iff v x).mp h1, (parseNum_iff r y).mp h2, rfl⟩

/-- the numeric tests -/
theorem runTest_num {sys : Sys} {user v r : Str} {t : Test} {cmp : Int → Int → Prop} (h : t.compares = some cmp) :
    (runTest sys user v r t = PAM_SERVICE_ERR ∧ (¬ (∃ x, IsNumber v x) ∨ ¬ (∃ y, IsNumber r y))) ∨
    (∃ x y, IsNumber v x ∧ IsNumber r y ∧
      ((cmp x y ∧ runTest sys user v r t = PAM_SUCCESS) ∨ (¬ cmp x y ∧ runTest sys user v r t = PAM_AUTH_ERR))) := by
  have key : ∀ (c : Int → Int → Bool), (∀ x y, c x y = true ↔ cmp x y) → runTest sys user v r t = evaluateNum v r c →
      (runTest sys user v r t = PAM_SERVICE_ERR ∧ (¬ (∃ x, IsNumber v x) ∨ ¬ (∃ y, IsNumber r y))) ∨
      (∃ x y, IsNumber v x ∧ IsNumber r y ∧
        ((cmp x y ∧ runTest sys user v r t = PAM_SUCCESS) ∨ (¬ cmp x y ∧ runTest sys user v r t = PAM_AUTH_ERR))) := by
    intro c hc e
    rw [e]
    rcases evaluateNum_cases v r c with h | ⟨x, y, hx, hy, h⟩
    · left; exact h
    · right
      refine ⟨x, y, hx, hy, ?_⟩
      by_cases hcc : c x y
      · left; exact ⟨(hc x y).mp hcc, by rw [h, if_pos hcc]⟩
      · right; exact ⟨fun h2 => hcc ((hc x y).mpr h2), by rw [h, if_neg hcc]⟩
  cases t <;> simp only [Test.compares, Option.some.injEq, reduceCtorEq] at h <;> subst h
  · exact key _ (by intro x y; simp) rfl
  · exact key _ (by intro x y; simp only [Bool.or_eq_true, decide_eq_true_eq]; omega) rfl
  · exact key _ (by intro x y; simp) rfl
  · exact key _ (by intro x y; simp only [Bool.or_eq_true, decide_eq_true_eq]; omega) rfl
  · exact key _ (by intro x y; simp) rfl
  · exact key _ (by intro x y; simp) rfl

/-- the other tests -/
theorem runTest_other {sys : Sys} {user v r : Str} {t : Test} (h : t.compares = none)
    (hp : t = .isIn ∨ t = .notIn → ':' ∉ v) :
    (t.Holds sys user v r ∧ runTest sys user v r t = PAM_SUCCESS) ∨
    (¬ t.Holds sys user v r ∧ runTest sys user v r t = PAM_AUTH_ERR) := by
  have key : ∀ b : Bool, (b = true ↔ t.Holds sys user v r) → runTest sys user v r t = codeOf b →
      (t.Holds sys user v r ∧ runTest sys user v r t = PAM_SUCCESS) ∨
      (¬ t.Holds sys user v r ∧ runTest sys user v r t = PAM_AUTH_ERR) := by
    intro b hb e
    rw [e]
    cases b with
    | true => left; exact ⟨hb.mp rfl, rfl⟩
    | false => right; exact ⟨fun h => (by cases hb.mpr h), rfl⟩
  cases t <;> first | (simp [Test.compares] at h; done) | skip
  · exact key _ (by simp [Test.Holds]) rfl
  · exact key _ (by simp [Test.Holds]) rfl
  · exact key _ (by simp [Test.Holds]) rfl
  · exact key _ (by simp [Test.Holds]) rfl
  · exact key _ (inList_iff (hp (Or.inl rfl))) rfl
  · refine key _ ?_ rfl
    rw [Bool.not_eq_true', ← Bool.not_eq_true, inList_iff (hp (Or.inr rfl))]; rfl
  · exact key _ (inGroups_iff sys user r) rfl
  · refine key _ ?_ rfl
    rw [Bool.not_eq_true', ← Bool.not_eq_true, inGroups_iff]; rfl
  · exact key _ (by simp [Test.Holds]) rfl
  · exact key _ (by simp [Test.Holds]) rfl

/-- the password entry used by `evaluate` -/
theorem evaluate_pw {sys : Sys} {who : Person} {pwd : Option Pw} (hg : Good sys who pwd) (l q r : Str) :
    (evaluate sys l q r pwd who.name = (PAM_USER_UNKNOWN, none) ∧ needsPw l = true ∧ who.pw = none ∧ pwd = none) ∨
    (∃ pwd1, Good sys who pwd1 ∧ (needsPw l = true → pwd1 = who.pw ∧ pwd1 ≠ none) ∧
      evaluate sys l q r pwd who.name = (match attrText sys pwd1 who.name l with
        | none => (PAM_SERVICE_ERR, pwd1)
        | some v => (test sys who.name v q r, pwd1))) := by
  rcases hg with ⟨h1, h2⟩ | ⟨h1, h2⟩
  · right
    refine ⟨pwd, Or.inl ⟨h1, h2⟩, fun _ => ⟨h1, h2⟩, ?_⟩
    cases pwd with
    | none => exact absurd rfl h2
    | some p =>
      unfold evaluate
      simp only [Option.isNone_some, Bool.false_and, Bool.false_eq_true, if_false]
      rfl
  · subst h1
    cases hn : needsPw l with
    | false =>
      right
      refine ⟨none, Or.inr ⟨rfl, h2⟩, fun h => absurd h (by decide), ?_⟩
      unfold evaluate
      simp only [hn, Bool.and_false, Bool.false_and, Bool.false_eq_true, if_false]
      rfl
    | true =>
      cases hw : sys.getpwnam who.name with
      | none =>
        left
        refine ⟨?_, rfl, by rw [← h2, hw], rfl⟩
        unfold evaluate
        simp only [hn, hw, Option.isNone_none, Bool.and_self, if_true]
      | some p =>
        right
        refine ⟨some p, Or.inl ⟨by rw [← h2, hw], by simp⟩, fun _ => ⟨by rw [← h2, hw], by simp⟩, ?_⟩
        unfold evaluate
        simp only [hn, hw, Option.isNone_none, Bool.and_self, if_true, Option.isNone_some, Bool.and_false,
          Bool.false_eq_true, if_false]
        rfl

/-- one condition -/
theorem evaluate_spec {sys : Sys} {who : Person} {pwd : Option Pw} (hg : Good sys who pwd) {c : Cond}
    (hp : Plain sys who c) :
    Good sys who (evaluate sys c.1 c.2.1 c.2.2 pwd who.name).2 ∧
    ∀ k, Judged sys who c k ↔ k = (evaluate sys c.1 c.2.1 c.2.2 pwd who.name).1 := by
  obtain ⟨l, q, r⟩ := c
  simp only
  rcases evaluate_pw hg l q r with ⟨he, hn, hw, hpn⟩ | ⟨pwd1, hg1, hn, he⟩
  · rw [he]
    refine ⟨by rw [hpn] at hg; exact hg, ?_⟩
    have hattr := attr_named sys none who.name l
    rw [hn] at hattr
    cases hna : named attrNames l with
    | none => rw [hna] at hattr; exact absurd hattr.2 (by decide)
    | some a =>
      rw [hna] at hattr
      have hst : a.stored = true := hattr.2.symm
      have hno : ∀ v, ¬ HasText sys who a v := by
        intro v hv
        rw [hasText_textOf, hw] at hv
        cases a <;> first | (simp [textOf] at hv; done) | exact absurd hst (by decide)
      intro k
      constructor
      · intro h
        cases h with
        | badAttr h => rw [hna] at h; cases h
        | unknown h => rfl
        | badTest h1 h2 => rw [hna] at h1; cases h1; exact absurd h2 (hno _)
        | notNumber h1 h2 => rw [hna] at h1; cases h1; exact absurd h2 (hno _)
        | number h1 h2 => rw [hna] at h1; cases h1; exact absurd h2 (hno _)
        | numberNot h1 h2 => rw [hna] at h1; cases h1; exact absurd h2 (hno _)
        | holds h1 h2 => rw [hna] at h1; cases h1; exact absurd h2 (hno _)
        | holdsNot h1 h2 => rw [hna] at h1; cases h1; exact absurd h2 (hno _)
      · rintro rfl; exact .unknown hna hst hw
  · have hattr := attr_named sys pwd1 who.name l
    cases hna : named attrNames l with
    | none =>
      rw [hna] at hattr
      rw [he, hattr.1]
      refine ⟨hg1, fun k => ⟨?_, ?_⟩⟩
      · intro h
        cases h with
        | badAttr h => rfl
        | unknown h1 => rw [hna] at h1; cases h1
        | badTest => rfl
        | notNumber => rfl
        | number h1 => rw [hna] at h1; cases h1
        | numberNot h1 => rw [hna] at h1; cases h1
        | holds h1 => rw [hna] at h1; cases h1
        | holdsNot h1 => rw [hna] at h1; cases h1
      · rintro rfl; exact .badAttr hna
    | some a =>
      rw [hna] at hattr
      obtain ⟨hat, hst⟩ := hattr
      -- the text of the attribute
      obtain ⟨v, hv⟩ : ∃ v, textOf sys who.pw who.name a = some v := by
        apply textOf_some
        cases hs : a.stored with
        | false => exact Or.inl rfl
        | true => rw [hs] at hst; obtain ⟨h1, h2⟩ := hn hst; rw [← h1]; exact Or.inr h2
      have hv1 : textOf sys pwd1 who.name a = some v := by
        rw [← hv]
        cases hs : a.stored with
        | false => exact textOf_pwd sys _ _ _ a hs
        | true => rw [hs] at hst; rw [(hn hst).1]
      have htext : HasText sys who a v := hasText_textOf.mpr hv
      have huniq : ∀ {a' w}, named attrNames l = some a' → HasText sys who a' w → w = v := by
        intro a' w h1 h2
        rw [hna] at h1; cases h1
        rw [hasText_textOf, hv] at h2; exact (Option.some.inj h2).symm
      have hnst : ∀ {a'}, named attrNames l = some a' → a'.stored = true → who.pw ≠ none := by
        intro a' h1 h2
        rw [hna] at h1; cases h1
        rw [h2] at hst
        obtain ⟨h3, h4⟩ := hn hst
        rw [← h3]; exact h4
      have he2 : evaluate sys l q r pwd who.name = (test sys who.name v q r, pwd1) := by
        rw [he, hat, hv1]
      rw [he2]
      refine ⟨hg1, fun k => ?_⟩
      simp only
      rw [test_named]
      cases hnt : named testNames q with
      | none =>
        simp only
        constructor
        · intro h
          cases h with
          | badAttr h => rfl
          | unknown h1 h2 h3 => exact absurd h3 (hnst h1 h2)
          | badTest => rfl
          | notNumber => rfl
          | number h1 h2 h3 => rw [hnt] at h3; cases h3
          | numberNot h1 h2 h3 => rw [hnt] at h3; cases h3
          | holds h1 h2 h3 => rw [hnt] at h3; cases h3
          | holdsNot h1 h2 h3 => rw [hnt] at h3; cases h3
        · rintro rfl; exact .badTest hna htext hnt
      | some t =>
        simp only
        have hplain : t = .isIn ∨ t = .notIn → ':' ∉ v := fun h => hp a t v hna hnt h htext
        cases hcmp : t.compares with
        | some cmp =>
          rcases runTest_num (sys := sys) (user := who.name) (v := v) (r := r) hcmp with ⟨hr, hnn⟩ | ⟨x, y, hx, hy, hr⟩
          · rw [hr]
            constructor
            · intro h
              cases h with
              | badAttr h => rfl
              | unknown h1 h2 h3 => exact absurd h3 (hnst h1 h2)
              | badTest => rfl
              | notNumber => rfl
              | number h1 h2 h3 h4 h5 h6 =>
                rw [huniq h1 h2] at h5
                rcases hnn with h | h
                · exact absurd ⟨_, h5⟩ h
                · exact absurd ⟨_, h6⟩ h
              | numberNot h1 h2 h3 h4 h5 h6 =>
                rw [huniq h1 h2] at h5
                rcases hnn with h | h
                · exact absurd ⟨_, h5⟩ h
                · exact absurd ⟨_, h6⟩ h
              | holds h1 h2 h3 h4 => rw [hnt] at h3; cases h3; rw [hcmp] at h4; cases h4
              | holdsNot h1 h2 h3 h4 => rw [hnt] at h3; cases h3; rw [hcmp] at h4; cases h4
            · rintro rfl; exact .notNumber hna htext hnt hcmp hnn
          · constructor
            · intro h
              cases h with
              | badAttr h => rw [hna] at h; cases h
              | unknown h1 h2 h3 => exact absurd h3 (hnst h1 h2)
              | badTest h1 h2 h3 => rw [hnt] at h3; cases h3
              | notNumber h1 h2 h3 h4 h5 =>
                rw [huniq h1 h2] at h5
                rcases h5 with h | h
                · exact absurd ⟨_, hx⟩ h
                · exact absurd ⟨_, hy⟩ h
              | number h1 h2 h3 h4 h5 h6 h7 =>
                rw [huniq h1 h2] at h5
                rw [hnt] at h3; cases h3; rw [hcmp] at h4; cases h4
                rw [isNumber_unique h5 hx, isNumber_unique h6 hy] at h7
                rcases hr with ⟨h8, h9⟩ | ⟨h8, h9⟩
                · exact h9.symm
                · exact absurd h7 h8
              | numberNot h1 h2 h3 h4 h5 h6 h7 =>
                rw [huniq h1 h2] at h5
                rw [hnt] at h3; cases h3; rw [hcmp] at h4; cases h4
                rw [isNumber_unique h5 hx, isNumber_unique h6 hy] at h7
                rcases hr with ⟨h8, h9⟩ | ⟨h8, h9⟩
                · exact absurd h8 h7
                · exact h9.symm
              | holds h1 h2 h3 h4 => rw [hnt] at h3; cases h3; rw [hcmp] at h4; cases h4
              | holdsNot h1 h2 h3 h4 => rw [hnt] at h3; cases h3; rw [hcmp] at h4; cases h4
            · rintro rfl
              rcases hr with ⟨h8, h9⟩ | ⟨h8, h9⟩
              · rw [h9]; exact .number hna htext hnt hcmp hx hy h8
              · rw [h9]; exact .numberNot hna htext hnt hcmp hx hy h8
        | none =>
          have hr := runTest_other (sys := sys) (user := who.name) (v := v) (r := r) hcmp hplain
          constructor
          · intro h
            cases h with
            | badAttr h => rw [hna] at h; cases h
            | unknown h1 h2 h3 => exact absurd h3 (hnst h1 h2)
            | badTest h1 h2 h3 => rw [hnt] at h3; cases h3
            | notNumber h1 h2 h3 h4 => rw [hnt] at h3; cases h3; rw [hcmp] at h4; cases h4
            | number h1 h2 h3 h4 => rw [hnt] at h3; cases h3; rw [hcmp] at h4; cases h4
            | numberNot h1 h2 h3 h4 => rw [hnt] at h3; cases h3; rw [hcmp] at h4; cases h4
            | holds h1 h2 h3 h4 h5 =>
              rw [huniq h1 h2] at h5
              rw [hnt] at h3; cases h3
              rcases hr with ⟨h8, h9⟩ | ⟨h8, h9⟩
              · exact h9.symm
              · exact absurd h5 h8
            | holdsNot h1 h2 h3 h4 h5 =>
              rw [huniq h1 h2] at h5
              rw [hnt] at h3; cases h3
              rcases hr with ⟨h8, h9⟩ | ⟨h8, h9⟩
              · exact absurd h8 h5
              · exact h9.symm
          · rintro rfl
            rcases hr with ⟨h8, h9⟩ | ⟨h8, h9⟩
            · rw [h9]; exact .holds hna htext hnt hcmp h8
            · rw [h9]; exact .holdsNot hna htext hnt hcmp h8

/-! ### the arguments -/

theorem isOption_iff (w : Str) : isOption w = true ↔ w ∈ options.map String.toList := by
  simp only [isOption, options, lit, List.map_cons, List.map_nil, List.mem_cons, List.not_mem_nil, or_false,
    Bool.or_eq_true, decide_eq_true_eq, or_assoc]

section
variable (sys : Sys) (user : Str) (check qf qs : Bool) (n : Nat) (ret : Int) (l q : Option Str) (pwd : Option Pw)

theorem walk_nil : walk sys user check qf qs n ret l q pwd [] = (ret, n, l.isSome || q.isSome) := by
  rw [walk]

theorem walk_option {w : Str} {ws : List Str} (h : isOption w = true) :
    walk sys user check qf qs n ret l q pwd (w :: ws) = walk sys user check qf qs n ret l q pwd ws := by
  rw [walk.eq_def]; simp only [h, if_true]

theorem walk_left {w : Str} {ws : List Str} (h : isOption w = false) :
    walk sys user check qf qs n ret none q pwd (w :: ws) = walk sys user check qf qs n ret (some w) q pwd ws := by
  rw [walk.eq_def]; simp only [h, Bool.false_eq_true, if_false]

theorem walk_qual {w x : Str} {ws : List Str} (h : isOption w = false) :
    walk sys user check qf qs n ret (some x) none pwd (w :: ws) = walk sys user check qf qs n ret (some x) (some w) pwd ws := by
  rw [walk.eq_def]; simp only [h, Bool.false_eq_true, if_false]

theorem walk_right {w x y : Str} {ws : List Str} (h : isOption w = false) :
    walk sys user check qf qs n ret (some x) (some y) pwd (w :: ws) =
      if (evaluate sys x y w pwd user).1 ≠ PAM_SUCCESS then ((evaluate sys x y w pwd user).1, n + 1, false)
      else walk sys user check qf qs (n + 1) (evaluate sys x y w pwd user).1 none none
        (if qs then (evaluate sys x y w pwd user).2 else logLookup sys check (evaluate sys x y w pwd user).2 user) ws := by
  rw [walk.eq_def]; simp only [h, Bool.false_eq_true, if_false]

end

theorem walk_words (sys : Sys) (user : Str) (check qf qs : Bool) : ∀ (argv : List Str) (n : Nat) (ret : Int)
    (l q : Option Str) (pwd : Option Pw),
    walk sys user check qf qs n ret l q pwd argv = walk sys user check qf qs n ret l q pwd (wordsOf argv)
  | [], _, _, _, _, _ => rfl
  | w :: ws, n, ret, l, q, pwd => by
    by_cases h : isOption w
    · have : wordsOf (w :: ws) = wordsOf ws := by
        unfold wordsOf; rw [List.filter_cons_of_neg]; simp [(isOption_iff w).mp h]
      rw [this, walk_option _ _ _ _ _ _ _ _ _ _ h, walk_words]
    · have : wordsOf (w :: ws) = w :: wordsOf ws := by
        unfold wordsOf; rw [List.filter_cons_of_pos]
        simp only [decide_eq_true_eq]; exact fun h2 => h ((isOption_iff w).mpr h2)
      have h : isOption w = false := by simpa using h
      rw [this]
      cases l with
      | none => rw [walk_left _ _ _ _ _ _ _ _ _ h, walk_left _ _ _ _ _ _ _ _ _ h, walk_words]
      | some l =>
        cases q with
        | none => rw [walk_qual _ _ _ _ _ _ _ _ h, walk_qual _ _ _ _ _ _ _ _ h, walk_words]
        | some q =>
          rw [walk_right _ _ _ _ _ _ _ _ h, walk_right _ _ _ _ _ _ _ _ h]
          split
          · rfl
          · exact walk_words sys user check qf qs ws _ _ _ _ _

theorem good_log {sys : Sys} {who : Person} {pwd : Option Pw} (hg : Good sys who pwd) (check qs : Bool) :
    Good sys who (if qs then pwd else logLookup sys check pwd who.name) := by
  cases qs with
  | true => exact hg
  | false =>
    unfold logLookup
    simp only [Bool.false_eq_true, if_false]
    split
    next h =>
      simp only [Bool.and_eq_true, Option.isNone_iff_eq_none] at h
      rcases hg with ⟨h1, h2⟩ | ⟨h1, h2⟩
      · exact absurd h.2 h2
      · cases hw : sys.getpwnam who.name with
        | none => exact Or.inr ⟨rfl, h2⟩
        | some p => exact Or.inl ⟨by rw [← h2, hw], by simp⟩
    next => exact hg

/-- the words of conditions, and what is left over -/
theorem walk_spec (sys : Sys) (who : Person) (check qf qs : Bool) : ∀ (cs : List Cond) (rest : List Str) (n : Nat)
    (ret : Int) (pwd : Option Pw), rest.length < 3 →
    (∀ w ∈ (cs.map Cond.words).flatten ++ rest, isOption w = false) → Good sys who pwd → (∀ c ∈ cs, Plain sys who c) →
    let res := walk sys who.name check qf qs n ret none none pwd ((cs.map Cond.words).flatten ++ rest)
    ((∀ c ∈ cs, Met sys who c) ∧ res = (if cs = [] then ret else PAM_SUCCESS, n + cs.length, decide (rest ≠ []))) ∨
    (∃ pre c post k, cs = pre ++ c :: post ∧ (∀ c ∈ pre, Met sys who c) ∧ Judged sys who c k ∧ k ≠ PAM_SUCCESS ∧
      res = (k, n + pre.length + 1, false))
  | [], rest, n, ret, pwd, hlen, hopt, hg, hpl => by
    left
    refine ⟨by simp, ?_⟩
    simp only [List.map_nil, List.flatten_nil, List.nil_append] at hopt ⊢
    match rest, hlen, hopt with
    | [], _, _ => rfl
    | [a], _, hopt => rw [walk_left _ _ _ _ _ _ _ _ _ (hopt a (by simp)), walk_nil]; rfl
    | [a, b], _, hopt =>
      rw [walk_left _ _ _ _ _ _ _ _ _ (hopt a (by simp)), walk_qual _ _ _ _ _ _ _ _ (hopt b (by simp)), walk_nil]; rfl
  | (l, q, r) :: cs, rest, n, ret, pwd, hlen, hopt, hg, hpl => by
    simp only [List.map_cons, List.flatten_cons, Cond.words, List.cons_append, List.nil_append] at hopt ⊢
    obtain ⟨hg2, hj⟩ := evaluate_spec hg (hpl (l, q, r) (by simp))
    simp only at hg2 hj
    rw [walk_left _ _ _ _ _ _ _ _ _ (hopt l (by simp)), walk_qual _ _ _ _ _ _ _ _ (hopt q (by simp)),
      walk_right _ _ _ _ _ _ _ _ (hopt r (by simp))]
    by_cases h : (evaluate sys l q r pwd who.name).1 ≠ PAM_SUCCESS
    · right
      rw [if_pos h]
      exact ⟨[], (l, q, r), cs, _, rfl, by simp, (hj _).mpr rfl, h, rfl⟩
    · rw [if_neg h]
      have hs : (evaluate sys l q r pwd who.name).1 = PAM_SUCCESS := by simpa using h
      have hmet : Met sys who (l, q, r) := (hj _).mpr hs.symm
      have ih := walk_spec sys who check qf qs cs rest (n + 1) (evaluate sys l q r pwd who.name).1
        (if qs then (evaluate sys l q r pwd who.name).2 else logLookup sys check (evaluate sys l q r pwd who.name).2 who.name)
        hlen (fun w hw => hopt w (by simp only [List.mem_cons]; exact Or.inr (Or.inr (Or.inr hw))))
        (good_log hg2 check qs) (fun c hc => hpl c (by simp [hc]))
      rcases ih with ⟨h1, h2⟩ | ⟨pre, c, post, k, h1, h2, h3, h4, h5⟩
      · left
        refine ⟨?_, ?_⟩
        · intro c hc
          rcases List.mem_cons.mp hc with rfl | hc
          · exact hmet
          · exact h1 c hc
        · rw [h2, hs]
          simp only [List.length_cons, reduceCtorEq, if_false]
          have : n + 1 + cs.length = n + (cs.length + 1) := by omega
          rw [this]
          split <;> rfl
      · right
        refine ⟨(l, q, r) :: pre, c, post, k, by rw [h1]; rfl, ?_, h3, h4, ?_⟩
        · intro c hc
          rcases List.mem_cons.mp hc with rfl | hc
          · exact hmet
          · exact h2 c hc
        · rw [h5, List.length_cons]
          have : n + 1 + pre.length + 1 = n + (pre.length + 1) + 1 := by omega
          rw [this]

theorem chunks (ws : List Str) : ∃ (cs : List Cond) (rest : List Str), ws = (cs.map Cond.words).flatten ++ rest ∧ rest.length < 3 := by
  induction hn : ws.length using Nat.strongRecOn generalizing ws with
  | ind n ih =>
    match ws, hn with
    | [], _ => exact ⟨[], [], rfl, by decide⟩
    | [a], _ => exact ⟨[], [a], rfl, by simp⟩
    | [a, b], _ => exact ⟨[], [a, b], rfl, by simp⟩
    | a :: b :: c :: ws, hn =>
      obtain ⟨cs, rest, h1, h2⟩ := ih ws.length (by simp at hn; omega) ws rfl
      exact ⟨(a, b, c) :: cs, rest, by rw [h1]; rfl, h2⟩

end Pam.SucceedIf
