import Verif.Time.RuleLemmas
namespace Pam.Time
open Spec

/-- the memory has room for whole blocks -/
def Groups.Fits (g : Groups) : Prop := blkSize g.gids.length ≤ g.room

/-- a list of names -/
inductive Names : Str → List Str → Prop where
  | nil : Names [] []
  | sep (c : Char) {s : Str} {ns : List Str} : isGroupChar c = false → isOper c = false → Names s ns → Names (c :: s) ns
  | name (w : Str) {s : Str} {ns : List Str} : w ≠ [] → (∀ c ∈ w, isGroupChar c = true) →
      (∀ c ∈ s.head?, isGroupChar c = false ∧ isOper c = false) → Names s ns → Names (w ++ s) (w :: ns)

theorem names_split : ∀ (x cur : Str), (∀ c ∈ x, isOper c = false) → (∀ c ∈ cur, isGroupChar c = true) →
    Names (cur ++ x) (splitNames cur x) := by
  intro x
  induction x with
  | nil =>
    intro cur _ hc
    rw [splitNames]
    by_cases h : cur = []
    · subst h; exact .nil
    · rw [if_neg h]; exact .name cur h hc (by simp) .nil
  | cons c x ih =>
    intro cur ho hc
    have ho' : ∀ d ∈ x, isOper d = false := fun d hd => ho d (by simp [hd])
    rw [splitNames]
    split
    · rename_i hg
      have := ih (cur ++ [c]) ho' (by
        intro d hd
        rcases List.mem_append.mp hd with hd | hd
        · exact hc d hd
        · simp at hd; subst hd; exact hg)
      simpa using this
    · rename_i hg
      have hg : isGroupChar c = false := by simpa using hg
      have hs := Names.sep c hg (ho c (by simp)) (ih [] ho' (by simp))
      by_cases h : cur = []
      · subst h; simpa using hs
      · rw [if_neg h]
        exact .name cur h hc (by intro d hd; simp at hd; subst hd; exact ⟨hg, ho _ (by simp)⟩) hs

theorem groupChar_word {c : Char} (h : isGroupChar c = true) : isWord c = true := by
  unfold isGroupChar at h; unfold isWord
  simp only [Bool.or_eq_true] at h ⊢
  rcases h with (((h | h) | h) | h) | h <;> simp [h]

theorem oper_not_group {c : Char} (h : isOper c = true) : isGroupChar c = false := by
  cases hg : isGroupChar c with
  | false => rfl
  | true => exact absurd (groupChar_word hg) (by rw [isOper_not_word h]; decide)

theorem group_not_blank {c : Char} (h : isGroupChar c = true) : ¬ (c = '\t' ∨ c = ' ') ∧ c ≠ '!' :=
  word_not_blank (groupChar_word h)

theorem names_squeeze {x : Str} {ns : List Str} (h : Names x ns) : ∀ o, Names (squeeze o x) ns := by
  induction h with
  | nil => intro o; exact .nil
  | sep c hw ho _ ih =>
    intro o
    rw [squeeze]
    split
    · cases o
      · exact .sep ' ' (by decide) (by decide) (ih true)
      · exact ih true
    · split
      · rename_i h; subst h; exact absurd ho (by decide)
      · exact .sep c hw ho (ih false)
  | name w hn hw hs _ ih =>
    rename_i s ns _
    intro o
    rw [squeeze_plain (fun c hc => group_not_blank (hw c hc)) _ o hn]
    refine .name w hn hw ?_ (ih false)
    cases s with
    | nil => simp [squeeze]
    | cons d r =>
      intro c hc
      rw [squeeze] at hc
      split at hc
      · simp at hc; subst hc; decide
      · split at hc
        · rename_i h; subst h; exact absurd (hs '!' (by simp)).2 (by decide)
        · simp at hc; subst hc; exact hs _ (by simp)

theorem names_unblank {x y : Str} {ns : List Str} (h : Names y ns) (he : y = x ++ [' ']) : Names x ns := by
  induction h generalizing x with
  | nil => simp at he
  | sep c hw ho hs ih =>
    cases x with
    | nil => simp at he; obtain ⟨_, rfl⟩ := he; exact hs
    | cons d x =>
      simp at he
      obtain ⟨rfl, he⟩ := he
      exact .sep c hw ho (ih he)
  | name w hn hw hs hns ih =>
    rename_i s ns
    by_cases h : s = []
    · subst h
      simp at he
      have := hw ' ' (by rw [he]; simp)
      exact absurd this (by decide)
    · have e1 := List.dropLast_concat_getLast h
      rw [← e1, ← List.append_assoc] at he
      have e2 := List.append_inj' he rfl
      have e3 : s = s.dropLast ++ [' '] := by rw [← e2.2]; exact e1.symm
      rw [← e2.1]
      refine .name w hn hw ?_ (ih e3)
      intro c hc
      refine hs c ?_
      rw [e3]
      cases hd : s.dropLast with
      | nil => rw [hd] at hc; simp at hc
      | cons a b => rw [hd] at hc; simpa using hc

theorem names_trim {x : Str} {ns : List Str} (h : Names x ns) : Names (trim x) ns := by
  obtain ⟨n, hn⟩ := trim_blanks x
  rw [hn] at h
  revert h
  generalize trim x = y
  clear hn
  induction n with
  | zero => intro h; simpa using h
  | succ n ih =>
    intro h
    rw [List.replicate_succ', ← List.append_assoc] at h
    exact ih (names_unblank h rfl)

/-! ## the loop of mkgrplist -/

theorem findMember_nil : findMember [] = ([], 0) := rfl

theorem findMember_sep {c : Char} (hw : isGroupChar c = false) (ho : isOper c = false) (s : Str) :
    findMember (c :: s) = findMember s := by
  simp [findMember, hw, ho]

theorem takeWhile_group {w s : Str} (hw : ∀ c ∈ w, isGroupChar c = true) (hs : ∀ c ∈ s.head?, isGroupChar c = false) :
    (w ++ s).takeWhile isGroupChar = w := by
  rw [List.takeWhile_append_of_pos hw]
  cases s with
  | nil => simp
  | cons c r => simp [hs c (by simp)]

theorem findMember_name {w : Str} (hn : w ≠ []) (hw : ∀ c ∈ w, isGroupChar c = true) {s : Str}
    (hs : ∀ c ∈ s.head?, isGroupChar c = false) : findMember (w ++ s) = (w ++ s, w.length) := by
  obtain ⟨c, r, rfl⟩ := List.exists_cons_of_ne_nil hn
  have hc : isGroupChar c = true := hw c (by simp)
  have ho : isOper c = false := by
    cases h : isOper c with
    | false => rfl
    | true => rw [oper_not_group h] at hc; exact hc.symm
  have ht := takeWhile_group hw hs
  rw [List.cons_append] at ht ⊢
  simp only [findMember, List.dropWhile_cons, hc, ho, Bool.not_true, Bool.false_and, Bool.false_eq_true, if_false]
  rw [ht]

/-- No write leaves the memory, whatever the text. -/
theorem grpLoop_safe (getgrnam : Str → Option Nat) (n : Nat) : ∀ (s : Str), s.length ≤ n → ∀ (blks : Nat) (g : Groups),
    g.gids.length ≤ blks → blks ≤ g.room → blks % 10 = 0 → ∃ g', grpLoop getgrnam blks g s = some g' ∧ g'.Fits := by
  have fin : ∀ (blks : Nat) (g : Groups), g.gids.length ≤ blks → blks ≤ g.room → blks % 10 = 0 → g.Fits := by
    intro blks g h1 h2 h3
    unfold Groups.Fits blkSize
    omega
  induction n with
  | zero =>
    intro s hs blks g h1 h2 h3
    rw [List.length_eq_zero_iff.mp (Nat.le_zero.mp hs)]
    rw [grpLoop.eq_def]
    exact ⟨g, by simp [findMember_nil], fin blks g h1 h2 h3⟩
  | succ n ih =>
    intro s hs blks g h1 h2 h3
    rw [grpLoop.eq_def]
    by_cases h0 : (findMember s).2 = 0
    · rw [dif_pos h0]; exact ⟨g, rfl, fin blks g h1 h2 h3⟩
    · rw [dif_neg h0]
      have hlt := findMember_lt s h0
      have hr : (((findMember s).1.drop (findMember s).2).drop 1).length ≤ n := by
        rw [List.length_drop]; omega
      by_cases hb : blks ≤ g.gids.length
      · simp only [hb, if_true]
        cases getgrnam ((findMember s).1.take (findMember s).2) with
        | none => exact ih _ hr _ _ (by simp only; omega) (by simp only; omega) (by omega)
        | some gid =>
          simp only
          rw [if_pos (by omega)]
          exact ih _ hr _ _ (by simp only [List.length_append, List.length_singleton]; omega) (by simp only; omega) (by omega)
      · simp only [hb, if_false]
        cases getgrnam ((findMember s).1.take (findMember s).2) with
        | none => exact ih _ hr _ _ (by simp only; omega) (by simp only; omega) (by omega)
        | some gid =>
          simp only
          rw [if_pos (by omega)]
          exact ih _ hr _ _ (by simp only [List.length_append, List.length_singleton]; omega) (by simp only; omega) (by omega)

theorem mkgrplist_safe (getgrnam : Str → Option Nat) {g : Groups} (hg : g.Fits) (buf : Str) :
    ∃ g', mkgrplist getgrnam g buf = some g' ∧ g'.Fits := by
  refine grpLoop_safe getgrnam buf.length buf (Nat.le_refl _) _ g ?_ hg ?_
  · unfold blkSize; omega
  · unfold blkSize; omega

theorem grpLoop_names (getgrnam : Str → Option Nat) (n : Nat) : ∀ {x : Str} {ns : List Str}, x.length ≤ n → Names x ns → ∀ (blks : Nat) (g : Groups),
    ∀ g', grpLoop getgrnam blks g x = some g' → g'.gids = g.gids ++ ns.filterMap getgrnam := by
  induction n with
  | zero =>
    intro x ns hx h blks g g' he
    rw [List.length_eq_zero_iff.mp (Nat.le_zero.mp hx)] at h he
    rw [grpLoop.eq_def] at he
    simp [findMember_nil] at he
    subst he
    generalize hy : ([] : Str) = y at h
    cases h with
    | nil => simp
    | sep => simp at hy
    | name w hn => simp at hy; exact absurd hy.1 hn
  | succ n ih =>
    intro x ns hx h blks g g' he
    cases h with
    | nil => rw [grpLoop.eq_def] at he; simp [findMember_nil] at he; subst he; simp
    | sep c hw ho hs =>
      refine ih (by simpa using hx) hs blks g g' ?_
      rw [grpLoop.eq_def] at he ⊢
      simp only [findMember_sep hw ho] at he
      exact he
    | name w hn hw hs hns =>
      rename_i s ns
      rw [grpLoop.eq_def] at he
      simp only [findMember_name hn hw (fun c hc => (hs c hc).1)] at he
      have hl : w.length ≠ 0 := by simpa using hn
      rw [dif_neg hl] at he
      have hd : (w ++ s).drop w.length = s := by simp
      have ht : (w ++ s).take w.length = w := by simp
      simp only [hd, ht] at he
      have hns' : Names (s.drop 1) ns := by
        cases hns with
        | nil => exact .nil
        | sep c hw ho hs' => exact hs'
        | name w' hn' hw' _ _ =>
          obtain ⟨d, r, rfl⟩ := List.exists_cons_of_ne_nil hn'
          have := (hs d (by simp)).1
          rw [hw' d (by simp)] at this
          cases this
      have hlen : (s.drop 1).length ≤ n := by
        rw [List.length_append] at hx
        rw [List.length_drop]
        omega
      cases hg : getgrnam w with
      | none =>
        rw [hg] at he
        simp only at he
        rw [ih hlen hns' _ _ _ he]
        simp [hg]
      | some gid =>
        rw [hg] at he
        simp only at he
        have key : ∀ r : Nat, (if g.gids.length < r then
            grpLoop getgrnam (if blks ≤ g.gids.length then blks + 10 else blks) ⟨g.gids ++ [gid], r⟩ (s.drop 1) else none) = some g' →
            g'.gids = g.gids ++ (w :: ns).filterMap getgrnam := by
          intro r he
          split at he
          · rw [ih hlen hns' _ _ _ he]
            simp [hg]
          · cases he
        exact key _ he

/-- the groups a field of group names adds -/
theorem mkgrplist_tidy (getgrnam : Str → Option Nat) {g : Groups} (hg : g.Fits) {m : Str} (hm : ∀ c ∈ m, isOper c = false) :
    ∃ g', mkgrplist getgrnam g (tidy m) = some g' ∧ g'.Fits ∧ g'.gids = g.gids ++ (splitNames [] m).filterMap getgrnam := by
  obtain ⟨g', h1, h2⟩ := mkgrplist_safe getgrnam hg (tidy m)
  refine ⟨g', h1, h2, ?_⟩
  have : Names (tidy m) (splitNames [] m) := names_trim (names_squeeze (names_split m [] hm (by simp)) true)
  exact grpLoop_names getgrnam (tidy m).length (Nat.le_refl _) this _ _ _ h1

/-! ## any text -/

/-- what is in the list after some rules: what was there, and then the numbers of some groups -/
def Adds (getgrnam : Str → Option Nat) (a b : List Nat) : Prop := ∃ l, b = a ++ l ∧ ∀ k ∈ l, ∃ n, getgrnam n = some k

theorem Adds.refl (getgrnam : Str → Option Nat) (a : List Nat) : Adds getgrnam a a := ⟨[], by simp, by simp⟩

theorem Adds.trans {getgrnam : Str → Option Nat} {a b c : List Nat} (h : Adds getgrnam a b) (h' : Adds getgrnam b c) :
    Adds getgrnam a c := by
  obtain ⟨l, rfl, hl⟩ := h
  obtain ⟨l', rfl, hl'⟩ := h'
  refine ⟨l ++ l', by simp, fun k hk => ?_⟩
  rcases List.mem_append.mp hk with h | h
  · exact hl k h
  · exact hl' k h

theorem grpLoop_adds (getgrnam : Str → Option Nat) (n : Nat) : ∀ (s : Str), s.length ≤ n → ∀ (blks : Nat) (g g' : Groups),
    grpLoop getgrnam blks g s = some g' → Adds getgrnam g.gids g'.gids := by
  induction n with
  | zero =>
    intro s hs blks g g' h
    rw [List.length_eq_zero_iff.mp (Nat.le_zero.mp hs), grpLoop.eq_def] at h
    simp [findMember_nil] at h
    subst h
    exact Adds.refl _ _
  | succ n ih =>
    intro s hs blks g g' h
    rw [grpLoop.eq_def] at h
    by_cases h0 : (findMember s).2 = 0
    · rw [dif_pos h0] at h; cases h; exact Adds.refl _ _
    · rw [dif_neg h0] at h
      have hlt := findMember_lt s h0
      have hr : (((findMember s).1.drop (findMember s).2).drop 1).length ≤ n := by
        rw [List.length_drop]; omega
      simp only at h
      cases hg : getgrnam ((findMember s).1.take (findMember s).2) with
      | none =>
        rw [hg] at h
        have := ih _ hr _ _ _ h
        exact this
      | some gid =>
        rw [hg] at h
        have key : ∀ r : Nat, (if g.gids.length < r then
            grpLoop getgrnam (if blks ≤ g.gids.length then blks + 10 else blks) ⟨g.gids ++ [gid], r⟩
              (((findMember s).1.drop (findMember s).2).drop 1) else none) = some g' → Adds getgrnam g.gids g'.gids := by
          intro r h
          split at h
          · exact Adds.trans ⟨[gid], rfl, by simp; exact ⟨_, hg⟩⟩ (ih _ hr _ _ _ h)
          · cases h
        exact key _ h

theorem groupRule_adds {err : Bool} {w : Who} {getgrnam : Str → Option Nat} {g : Groups} {service stream : Str}
    {r : Groups × State × Str} (h : groupRule err w getgrnam g service stream = some r) :
    Adds getgrnam g.gids r.1.gids ∧ (g.Fits → r.1.Fits) := by
  have hr : Adds getgrnam g.gids g.gids ∧ (g.Fits → g.Fits) := ⟨Adds.refl _ _, id⟩
  unfold groupRule at h
  split at h
  · cases h
  · split at h
    · cases h
    · cases h; exact hr
    · split at h
      · cases h
      · cases h; exact hr
      · split at h
        · cases h
        · cases h; exact hr
        · split at h
          · cases h; exact hr
          · split at h
            · split at h
              · cases h
              · split at h
                · cases h
                · rename_i g' hm
                  cases h
                  refine ⟨grpLoop_adds getgrnam _ _ (Nat.le_refl _) _ _ _ hm, fun hg => ?_⟩
                  obtain ⟨g'', h1, h2⟩ := mkgrplist_safe getgrnam hg _
                  have e := hm.symm.trans h1
                  cases e
                  exact h2
            · cases h; exact hr

theorem groupLoop_adds (err : Bool) (w : Who) (getgrnam : Str → Option Nat) (n : Nat) : ∀ (stream : Str), stream.length ≤ n →
    ∀ (g g' : Groups) (st : State), groupLoop err w getgrnam g st stream = some g' → Adds getgrnam g.gids g'.gids := by
  induction n using Nat.strongRecOn with
  | ind n ih =>
    intro stream hn g g' st h
    rw [groupLoop.eq_def] at h
    have hlt := readField_lt err st stream
    split at h
    · cases h; exact Adds.refl _ _
    · rename_i buf st1 s1 he
      rw [he] at hlt
      have hlt : s1.length < stream.length := by
        rcases hlt with h | ⟨h, _⟩
        · exact h
        · cases h
      split at h
      · exact ih s1.length (by omega) s1 (Nat.le_refl _) _ _ _ h
      · split at h
        · cases h
        · rename_i g1 st2 s2 hr
          have h1 := (groupRule_adds hr).1
          have h2 := groupRule_le hr
          split at h
          · cases h; exact h1
          · simp only at h2
            exact Adds.trans h1 (ih s2.length (by omega) s2 (Nat.le_refl _) _ _ _ h)

theorem timeLoop_codes (err : Bool) (w : Who) (n : Nat) : ∀ (stream : Str), stream.length ≤ n →
    ∀ (rv : Int) (st : State) (r : Int), (rv = PAM_SUCCESS ∨ rv = PAM_PERM_DENIED) → timeLoop err w rv st stream = some r →
    r = PAM_SUCCESS ∨ r = PAM_PERM_DENIED := by
  induction n using Nat.strongRecOn with
  | ind n ih =>
    intro stream hn rv st r hrv h
    rw [timeLoop.eq_def] at h
    have hlt := readField_lt err st stream
    have hd : ∀ d : Bool, (if d then PAM_PERM_DENIED else rv) = PAM_SUCCESS ∨ (if d then PAM_PERM_DENIED else rv) = PAM_PERM_DENIED := by
      intro d; cases d
      · exact hrv
      · exact Or.inr rfl
    split at h
    · cases h; exact hrv
    · rename_i buf st1 s1 he
      rw [he] at hlt
      have hlt : s1.length < stream.length := by
        rcases hlt with h | ⟨h, _⟩
        · exact h
        · cases h
      split at h
      · exact ih s1.length (by omega) s1 (Nat.le_refl _) _ _ _ hrv h
      · split at h
        · cases h
        · rename_i d st2 s2 hr
          have h2 := timeRule_le hr
          split at h
          · cases h; exact hd d
          · simp only at h2
            exact ih s2.length (by omega) s2 (Nat.le_refl _) _ _ _ (hd d) h

/-! ## whole files -/

theorem groupLoop_skip (w : Who) (getgrnam : Str → Option Nat) (g : Groups) (n : Nat) : ∀ (s R : Str), s.length ≤ n → CommentText s →
    NUL ∉ s ++ '\n' :: R →
    groupLoop false w getgrnam g .comment (s ++ '\n' :: R) = groupLoop false w getgrnam g .nl R := by
  induction n with
  | zero =>
    intro s R hl hs hn
    rw [groupLoop]
    rcases readField_skip hs hn with h | ⟨s2, _, hlt, _⟩
    · rw [h]; simp
    · omega
  | succ n ih =>
    intro s R hl hs hn
    rw [groupLoop]
    rcases readField_skip hs hn with h | ⟨s2, hs2, hlt, h⟩
    · rw [h]; simp
    · rw [h]
      simp only [true_or, if_true]
      refine ih s2 R (by omega) hs2 ?_
      intro hm
      rw [List.mem_append] at hm
      rcases hm with hm | hm
      · exact (hs2 _ hm).1 rfl
      · exact hn (by rw [List.mem_append]; exact Or.inr hm)

/-- the groups the rules of a file give, one after the other -/
def groupRules (w : Who) (getgrnam : Str → Option Nat) : List Nat → List (List Str) → Option (List Nat)
  | gids, [] => some gids
  | gids, r :: rs =>
    match groupVerdict w r with
    | none => none
    | some true => groupRules w getgrnam (gids ++ ruleGroups getgrnam r) rs
    | some false => groupRules w getgrnam gids rs

theorem groupLoop_file {x : Str} {rs : List (List Str)} (h : File 5 x rs) (w : Who) (getgrnam : Str → Option Nat)
    (hu : ∀ r ∈ rs, NameOk ['@', '%'] (r.getD 2 [])) (hg : ∀ r ∈ rs, ∀ c ∈ r.getD 4 [], isOper c = false) :
    ∀ g : Groups, g.Fits → (groupLoop false w getgrnam g .nl x).map (·.gids) = groupRules w getgrnam g.gids rs := by
  induction h with
  | nil => intro g _; rw [groupLoop]; simp [readField, groupRules]
  | empty hb hlen he hf ih =>
    rename_i b e t rs
    intro g hfit
    have hn := file_nul (File.empty hb hlen he hf)
    rw [groupLoop]
    rcases readField_tail (written_blank hb) hlen he hn (st := .nl) (by decide) with h | ⟨s2, hs2, h⟩
    · rw [h]
      simp only [tidy_blank hb, true_or, if_true]
      exact ih hu hg g hfit
    · rw [h]
      simp only [tidy_blank hb, true_or, if_true]
      rw [groupLoop_skip w getgrnam g s2.length s2 t (Nat.le_refl _) hs2, ih hu hg g hfit]
      intro hm
      rw [List.mem_append] at hm
      rcases hm with hm | hm
      · exact (hs2 _ hm).1 rfl
      · rcases List.mem_cons.mp hm with hm | hm
        · revert hm; decide
        · exact file_nul hf hm
  | rule hf hfl hne hfs hl hll he hcount hfile ih =>
    rename_i f l e t fs m lm rs
    intro g hfit
    have hn := file_nul (File.rule hf hfl hne hfs hl hll he hcount hfile)
    obtain ⟨p1, p2, p3, rfl⟩ : ∃ p1 p2 p3, fs = [p1, p2, p3] := by
      match fs, hcount with
      | [p1, p2, p3], _ => exact ⟨p1, p2, p3, rfl⟩
    obtain ⟨hp1, hp1l⟩ := hfs p1 (by simp)
    obtain ⟨hp2, hp2l⟩ := hfs p2 (by simp)
    obtain ⟨hp3, hp3l⟩ := hfs p3 (by simp)
    have e1 : f ++ [p1, p2, p3].flatMap (fun p => ';' :: p.1) ++ ';' :: l ++ e ++ t =
      f ++ ';' :: (p1.1 ++ ';' :: (p2.1 ++ ';' :: (p3.1 ++ ';' :: (l ++ e ++ t)))) := by simp
    rw [e1] at hn ⊢
    have hn1 := nul_right hn
    have hn2 := nul_right hn1
    have hn3 := nul_right hn2
    have hn4 := nul_right hn3
    rw [groupLoop, readField_sep hf hfl hn (by decide)]
    simp only [tidy_ne hne, ne_eq, not_true_eq_false, or_self, if_false]
    have hu1 := hu _ (List.mem_cons_self)
    have hg1 := hg _ (List.mem_cons_self)
    obtain ⟨g', hm1, hm2, hm3⟩ := mkgrplist_tidy getgrnam hfit (m := lm) (by simpa using hg1)
    have key : groupRule false w getgrnam g (tidy m) (p1.1 ++ ';' :: (p2.1 ++ ';' :: (p3.1 ++ ';' :: (l ++ e ++ t)))) =
        match groupVerdict w (m :: [p1, p2, p3].map (·.2) ++ [lm]) with
        | none => none
        | some d => some (if d then g' else g, (readField false .field (l ++ e ++ t)).2) := by
      unfold groupRule
      rw [logicField_tidy (isSame_onlyWord _), needField_sep hp1 hp1l hn1, logicField_tidy (isSame_onlyWord _)]
      simp only [List.map_cons, List.map_nil, List.cons_append, List.nil_append, groupVerdict]
      cases logicField (isSame w.service) m with
      | none => rfl
      | some g1 =>
        cases logicField (isSame w.tty) p1.2 with
        | none => rfl
        | some g2 =>
          simp only
          rw [needField_sep hp2 hp2l hn2, groupUserField_tidy w (by simpa using hu1)]
          cases groupUserValue w p2.2 with
          | none => rfl
          | some g3 =>
            simp only
            rw [needField_sep hp3 hp3l hn3, logicField_tidy (checkTime_onlyWord w.now)]
            cases logicField (checkTime w.now) p3.2 with
            | none => rfl
            | some g4 =>
              simp only
              have : ∃ st', readField false .field (l ++ e ++ t) = (some (tidy lm), st', (readField false .field (l ++ e ++ t)).2.2) ∧ st' ≠ .field := by
                rcases readField_tail hl hll he hn4 (st := .field) (by decide) with h | ⟨s2, hs2, h⟩
                · exact ⟨.nl, by rw [h], by decide⟩
                · exact ⟨.comment, by rw [h], by decide⟩
              obtain ⟨st', h1, h2⟩ := this
              rw [h1]
              cases hst : st' with
              | field => exact absurd hst h2
              | nl => simp only [hm1]; cases (g1 && g2 && g3 && g4) <;> rfl
              | comment => simp only [hm1]; cases (g1 && g2 && g3 && g4) <;> rfl
              | eof => simp only [hm1]; cases (g1 && g2 && g3 && g4) <;> rfl
    have hrule : ruleGroups getgrnam (m :: [p1, p2, p3].map (·.2) ++ [lm]) = (splitNames [] lm).filterMap getgrnam := rfl
    have hrest : ∀ (g0 : Groups), g0.Fits → ∀ st2 s2, (st2, s2) = (readField false .field (l ++ e ++ t)).2 →
        (if st2 = .eof then some g0 else groupLoop false w getgrnam g0 st2 s2).map (·.gids) = groupRules w getgrnam g0.gids rs := by
      intro g0 hg0 st2 s2 hk
      rcases readField_tail hl hll he hn4 (st := .field) (by decide) with h | ⟨s2', hs2, h⟩
      · rw [h] at hk
        cases hk
        simp only [reduceCtorEq, if_false]
        exact ih (fun r hr => hu r (by simp [hr])) (fun r hr => hg r (by simp [hr])) g0 hg0
      · rw [h] at hk
        cases hk
        simp only [reduceCtorEq, if_false]
        rw [groupLoop_skip w getgrnam _ s2'.length s2' t (Nat.le_refl _) hs2]
        · exact ih (fun r hr => hu r (by simp [hr])) (fun r hr => hg r (by simp [hr])) g0 hg0
        · intro hm
          rw [List.mem_append] at hm
          rcases hm with hm | hm
          · exact (hs2 _ hm).1 rfl
          · rcases List.mem_cons.mp hm with hm | hm
            · revert hm; decide
            · exact file_nul hfile hm
    rw [groupRules]
    generalize hv : groupVerdict w (m :: [p1, p2, p3].map (·.2) ++ [lm]) = v at key
    rw [hrule]
    split
    · rename_i hk
      rw [key] at hk
      cases v with
      | none => rfl
      | some d => cases hk
    · rename_i g0 st2 s2 hk
      rw [key] at hk
      cases v with
      | none => cases hk
      | some d =>
        simp only [Option.some.injEq, Prod.mk.injEq] at hk
        obtain ⟨rfl, hk⟩ := hk
        cases d with
        | true =>
          have := hrest g' hm2 st2 s2 hk.symm
          rw [hm3] at this
          exact this
        | false => exact hrest g hfit st2 s2 hk.symm

end Pam.Time
