import Verif.Pamc.Spec
/-
Property theorems about libpamc: C49 (pamc_list_agents), C50 (agent names), C51 (agent directories).
-/
namespace Pam.Pamc
open Spec

/-! ### C50: agent names -/

/-- the bytes at even positions -/
def evens : Bytes → Bytes
  | [] => []
  | [a] => [a]
  | a :: _ :: rest => a :: evens rest

theorem isIdChar_iff (c : UInt8) : isIdChar c = true ↔ Word c := by
  unfold isIdChar Word
  simp only [Bool.or_eq_true, Bool.and_eq_true, decide_eq_true_eq, beq_iff_eq, UInt8.le_iff_toNat_le, ← UInt8.toNat_inj]
  simp
  omega

theorem word_ne (c : UInt8) (h : Word c) : c ≠ 64 ∧ c ≠ 46 := by
  constructor <;> (rintro rfl; revert h; unfold Word; decide)

theorem valid_post : ∀ (n : Nat) (l : Bytes), l.length ≤ n → ∀ i, i ≠ 0 →
    (validLoop i true l = true ↔ ∀ c ∈ evens l, Word c ∨ c = 46) := by
  intro n
  induction n with
  | zero =>
    intro l hl i hi
    have : l = [] := List.eq_nil_of_length_eq_zero (by omega)
    subst this
    simp [validLoop, evens, hi]
  | succ n ih =>
    intro l hl i hi
    match l, hl with
    | [], _ => simp [validLoop, evens, hi]
    | [a], _ =>
      simp only [validLoop, evens, List.mem_singleton, forall_eq, Bool.true_and, Bool.not_true, Bool.and_false, Bool.false_and,
        Bool.false_eq_true, if_false, ← isIdChar_iff]
      by_cases h : (isIdChar a || a == 46) = true
      · simp [h]; simpa using h
      · simp only [h, if_false]
        simpa using h
    | a :: b :: rest, hl =>
      simp only [validLoop, evens, List.mem_cons, forall_eq_or_imp, Bool.true_and, Bool.not_true, Bool.and_false, Bool.false_and,
        Bool.false_eq_true, if_false]
      rw [← ih rest (by simp at hl; omega) (i + 2) (by omega), ← isIdChar_iff]
      by_cases h : (isIdChar a || a == 46) = true
      · simp only [h, if_true]
        simp at h
        simp [h]
      · simp only [h, if_false]
        simp at h
        simp [h]

theorem valid_pre : ∀ (n : Nat) (l : Bytes), l.length ≤ n → ∀ i, i ≠ 0 →
    (validLoop i false l = true ↔ ∃ name domain, (evens l = name ∧ domain = [] ∨ evens l = name ++ 64 :: domain) ∧
      (∀ c ∈ name, Word c) ∧ (∀ c ∈ domain, Word c ∨ c = 46)) := by
  intro n
  induction n with
  | zero =>
    intro l hl i hi
    have : l = [] := List.eq_nil_of_length_eq_zero (by omega)
    subst this
    simp only [validLoop, evens, bne_iff_ne, ne_eq, hi, not_false_eq_true, true_iff]
    exact ⟨[], [], by simp⟩
  | succ n ih =>
    intro l hl i hi
    have hw64 : ¬ Word 64 := by unfold Word; decide
    have key : ∀ (a : UInt8) (rest : Bytes) (post : Bytes → Bool) (pre : Bytes → Bool),
        (post rest = true ↔ ∀ c ∈ evens rest, Word c ∨ c = 46) →
        (pre rest = true ↔ ∃ name domain, (evens rest = name ∧ domain = [] ∨ evens rest = name ++ 64 :: domain) ∧
          (∀ c ∈ name, Word c) ∧ (∀ c ∈ domain, Word c ∨ c = 46)) →
        ((if isIdChar a = true then pre rest else if (a == 64) = true then post rest else false) = true ↔
          ∃ name domain, (a :: evens rest = name ∧ domain = [] ∨ a :: evens rest = name ++ 64 :: domain) ∧
          (∀ c ∈ name, Word c) ∧ (∀ c ∈ domain, Word c ∨ c = 46)) := by
      intro a rest post pre h1 h2
      by_cases ha : isIdChar a = true
      · rw [if_pos ha, h2]
        have hwa := (isIdChar_iff a).mp ha
        constructor
        · rintro ⟨name, domain, h3, h4, h5⟩
          refine ⟨a :: name, domain, ?_, ?_, h5⟩
          · rcases h3 with ⟨h3, h6⟩ | h3
            · exact Or.inl ⟨by rw [h3], h6⟩
            · exact Or.inr (by rw [h3]; rfl)
          · intro c hc
            simp only [List.mem_cons] at hc
            rcases hc with rfl | hc
            · exact hwa
            · exact h4 c hc
        · rintro ⟨name, domain, h3, h4, h5⟩
          rcases h3 with ⟨h3, h6⟩ | h3
          · exact ⟨evens rest, [], Or.inl ⟨rfl, rfl⟩, fun c hc => h4 c (by rw [← h3]; simp [hc]), by simp⟩
          · cases name with
            | nil =>
              simp only [List.nil_append, List.cons.injEq] at h3
              exact absurd (h3.1 ▸ hwa) hw64
            | cons x name =>
              simp only [List.cons_append, List.cons.injEq] at h3
              exact ⟨name, domain, Or.inr h3.2, fun c hc => h4 c (by simp [hc]), h5⟩
      · rw [if_neg ha]
        have hwa : ¬ Word a := fun h => ha ((isIdChar_iff a).mpr h)
        by_cases hat : (a == 64) = true
        · rw [if_pos hat, h1]
          rw [beq_iff_eq] at hat
          subst hat
          constructor
          · intro h; exact ⟨[], evens rest, Or.inr rfl, by simp, h⟩
          · rintro ⟨name, domain, h3, h4, h5⟩
            rcases h3 with ⟨h3, h6⟩ | h3
            · exact absurd (h4 64 (by rw [← h3]; simp)) hw64
            · cases name with
              | nil => simp only [List.nil_append, List.cons.injEq, true_and] at h3; rw [h3]; exact h5
              | cons x name =>
                simp only [List.cons_append, List.cons.injEq] at h3
                exact absurd (h4 64 (by rw [h3.1]; simp)) hw64
        · rw [if_neg hat]
          simp only [Bool.false_eq_true, false_iff]
          rintro ⟨name, domain, h3, h4, h5⟩
          cases name with
          | nil =>
            rcases h3 with ⟨h3, _⟩ | h3
            · cases h3
            · simp only [List.nil_append, List.cons.injEq] at h3
              exact hat (by rw [h3.1]; rfl)
          | cons x name =>
            rcases h3 with ⟨h3, _⟩ | h3 <;>
            · simp only [List.cons_append, List.cons.injEq] at h3
              exact hwa (h4 a (by rw [h3.1]; simp))
    match l, hl with
    | [], _ =>
      simp only [validLoop, evens, bne_iff_ne, ne_eq, hi, not_false_eq_true, true_iff]
      exact ⟨[], [], by simp⟩
    | [a], _ =>
      have := key a [] (fun _ => true) (fun _ => true) (by simp [evens])
        ⟨fun _ => ⟨[], [], by simp [evens]⟩, fun _ => rfl⟩
      rw [show evens [a] = a :: evens [] from rfl, ← this]
      simp only [validLoop, Bool.false_and, Bool.or_false, Bool.not_false, Bool.and_true]
      have : (decide (1 < i + 1)) = true := by simp; omega
      simp only [this, Bool.true_and]
    | a :: b :: rest, hl =>
      have := key a rest (validLoop (i + 2) true) (validLoop (i + 2) false)
        (valid_post rest.length rest (by omega) _ (by omega)) (ih rest (by simp at hl; omega) _ (by omega))
      rw [show evens (a :: b :: rest) = a :: evens rest from rfl, ← this]
      simp [validLoop]
      have : 0 < i := by omega
      simp [this]

theorem valid_iff (id : Bytes) : validAgentId id = true ↔ AgentName (evens id) := by
  have hw64 : ¬ Word 64 := by unfold Word; decide
  have key : ∀ (a : UInt8) (rest : Bytes) (pre : Bytes → Bool),
      (pre rest = true ↔ ∃ name domain, (evens rest = name ∧ domain = [] ∨ evens rest = name ++ 64 :: domain) ∧
        (∀ c ∈ name, Word c) ∧ (∀ c ∈ domain, Word c ∨ c = 46)) →
      ((if isIdChar a = true then pre rest else false) = true ↔ AgentName (a :: evens rest)) := by
    intro a rest pre h2
    unfold AgentName
    by_cases ha : isIdChar a = true
    · rw [if_pos ha, h2]
      have hwa := (isIdChar_iff a).mp ha
      constructor
      · rintro ⟨name, domain, h3, h4, h5⟩
        refine ⟨a :: name, domain, ?_, by simp, ?_, h5⟩
        · rcases h3 with ⟨h3, h6⟩ | h3
          · exact Or.inl ⟨by rw [h3], h6⟩
          · exact Or.inr (by rw [h3]; rfl)
        · intro c hc
          simp only [List.mem_cons] at hc
          rcases hc with rfl | hc
          · exact hwa
          · exact h4 c hc
      · rintro ⟨name, domain, h3, _, h4, h5⟩
        rcases h3 with ⟨h3, h6⟩ | h3
        · exact ⟨evens rest, [], Or.inl ⟨rfl, rfl⟩, fun c hc => h4 c (by rw [← h3]; simp [hc]), by simp⟩
        · cases name with
          | nil =>
            simp only [List.nil_append, List.cons.injEq] at h3
            exact absurd (h3.1 ▸ hwa) hw64
          | cons x name =>
            simp only [List.cons_append, List.cons.injEq] at h3
            exact ⟨name, domain, Or.inr h3.2, fun c hc => h4 c (by simp [hc]), h5⟩
    · rw [if_neg ha]
      simp only [Bool.false_eq_true, false_iff]
      rintro ⟨name, domain, h3, hne, h4, h5⟩
      cases name with
      | nil => exact hne rfl
      | cons x name =>
        rcases h3 with ⟨h3, _⟩ | h3 <;>
        · simp only [List.cons_append, List.cons.injEq] at h3
          exact ha ((isIdChar_iff a).mpr (h4 a (by rw [h3.1]; simp)))
  unfold validAgentId
  match id with
  | [] =>
    simp only [validLoop, evens, bne_self_eq_false, Bool.false_eq_true, false_iff]
    rintro ⟨name, domain, h, hne, _⟩
    rcases h with ⟨h, _⟩ | h
    · exact hne h.symm
    · simp at h
  | [a] =>
    have := key a [] (fun _ => true) ⟨fun _ => ⟨[], [], by simp [evens]⟩, fun _ => rfl⟩
    rw [show evens [a] = a :: evens [] from rfl, ← this]
    simp [validLoop]
  | a :: b :: rest =>
    have := key a rest (validLoop 2 false) (valid_pre rest.length rest (by omega) _ (by omega))
    rw [show evens (a :: b :: rest) = a :: evens rest from rfl, ← this]
    simp [validLoop]

/-- C50 as stated is false in both directions: `a-` passes, and the well-formed `a@bc.d` does not. -/
theorem C50_agent_name_counterexample :
    (validAgentId (ascii "a-") = true ∧ ¬ AgentName (ascii "a-")) ∧
    (validAgentId (ascii "a@bc.d") = false ∧ AgentName (ascii "a@bc.d")) := by
  refine ⟨⟨by decide, ?_⟩, by decide, ?_⟩
  · rintro ⟨name, domain, h, _, h4, _⟩
    have hw : ¬ Word 45 := by unfold Word; decide
    rcases h with ⟨h, _⟩ | h
    · exact hw (h4 45 (by rw [← h]; decide))
    · have : (64 : UInt8) ∈ ascii "a-" := by rw [h]; simp
      revert this; decide
  · refine ⟨ascii "a", ascii "bc.d", Or.inr (by decide), by decide, ?_, ?_⟩
    · unfold Word; decide
    · unfold Word; decide

/-- C50 (what is checked): a name is accepted exactly if the characters at its even positions (first,
third, ...) form a well-formed name; the characters in between are not looked at. -/
theorem C50_every_second_character_partial (id : Bytes) :
    validAgentId id = true ↔ AgentName ((List.range id.length).filterMap (fun i => if i % 2 = 0 then id[i]? else none)) := by
  rw [valid_iff]
  have : ∀ (n : Nat) (l : Bytes), l.length ≤ n →
      evens l = (List.range l.length).filterMap (fun i => if i % 2 = 0 then l[i]? else none) := by
    intro n
    induction n with
    | zero =>
      intro l hl
      have : l = [] := List.eq_nil_of_length_eq_zero (by omega)
      subst this; rfl
    | succ n ih =>
      intro l hl
      match l, hl with
      | [], _ => rfl
      | [a], _ => rfl
      | a :: b :: rest, hl =>
        rw [evens, ih rest (by simp at hl; omega)]
        rw [List.length_cons, List.length_cons, List.range_succ_eq_map, List.range_succ_eq_map]
        simp only [List.map_cons, List.map_map, List.filterMap_cons, List.filterMap_map]
        simp
        congr 1
        funext i
        simp only [Function.comp]
        have : (i + 1 + 1) % 2 = i % 2 := by omega
        simp [this]
  rw [this id.length id (Nat.le_refl _)]

/-- a name of letters, digits and underscores only is always accepted -/
theorem C50_plain_name_accepted (id : Bytes) (hne : id ≠ []) (h : ∀ c ∈ id, Word c) : validAgentId id = true := by
  rw [valid_iff]
  have hsub : ∀ (n : Nat) (l : Bytes), l.length ≤ n → ∀ c ∈ evens l, c ∈ l := by
    intro n
    induction n with
    | zero =>
      intro l hl
      have : l = [] := List.eq_nil_of_length_eq_zero (by omega)
      subst this; simp [evens]
    | succ n ih =>
      intro l hl c hc
      match l, hl, hc with
      | [], _, hc => simp [evens] at hc
      | [a], _, hc => exact hc
      | a :: b :: rest, hl, hc =>
        simp only [evens, List.mem_cons] at hc
        rcases hc with rfl | hc
        · simp
        · have := ih rest (by simp at hl; omega) c hc
          simp [this]
  refine ⟨evens id, [], Or.inl ⟨rfl, rfl⟩, ?_, fun c hc => h c (hsub _ id (Nat.le_refl _) c hc), by simp⟩
  match id, hne with
  | [a], _ => simp [evens]
  | a :: b :: rest, _ => simp [evens]

/-! ### C51: agent directories -/

theorem intercalate_cons {sep x y : Bytes} {l : List Bytes} :
    List.intercalate sep (x :: y :: l) = x ++ sep ++ List.intercalate sep (y :: l) := by
  simp [List.intercalate, List.intersperse]

theorem startLoop_spec : ∀ (rest cur : Bytes) (left : Nat), left = 1 + (rest.filter (fun c => c == 58)).length →
    (58 : UInt8) ∉ cur →
    (∀ p ∈ startLoop left cur rest, (58 : UInt8) ∉ p) ∧
    (cur ++ rest = [] → startLoop left cur rest = []) ∧
    (cur ++ rest ≠ [] → startLoop left cur rest ≠ [] ∧
      cur ++ rest = List.intercalate [58] (startLoop left cur rest) ++ (if (cur ++ rest).getLast? = some 58 then [58] else [])) := by
  intro rest
  induction rest with
  | nil =>
    intro cur left hl h58
    rw [startLoop]
    by_cases hc : cur = []
    · subst hc; simp
    · rw [if_neg hc]
      refine ⟨by simpa using h58, by simp [hc], fun _ => ⟨by simp, ?_⟩⟩
      rw [if_neg]
      · simp [List.intercalate]
      · intro h
        rw [List.append_nil] at h
        exact h58 (List.mem_of_getLast? h)
  | cons c rest ih =>
    intro cur left hl h58
    rw [startLoop]
    by_cases hc : c = 58
    · subst hc
      rw [if_pos rfl, if_neg (by rw [hl]; simp)]
      have hl' : left - 1 = 1 + (rest.filter (fun c => c == 58)).length := by rw [hl]; simp; omega
      obtain ⟨i1, i2, i3⟩ := ih [] (left - 1) hl' (by simp)
      refine ⟨?_, by simp, fun _ => ⟨by simp, ?_⟩⟩
      · intro p hp
        simp only [List.mem_cons] at hp
        rcases hp with rfl | hp
        · exact h58
        · exact i1 p hp
      · by_cases hr : rest = []
        · subst hr
          rw [i2 rfl]
          simp [List.intercalate]
        · obtain ⟨i4, i5⟩ := i3 (by simpa using hr)
          have hgl : (cur ++ 58 :: rest).getLast? = ([] ++ rest).getLast? := by
            cases rest with
            | nil => exact absurd rfl hr
            | cons x xs =>
              rw [show cur ++ 58 :: x :: xs = (cur ++ [58]) ++ (x :: xs) by simp, List.getLast?_append]
              rw [List.getLast?_eq_some_getLast (l := x :: xs) (by simp)]
              rfl
          rw [hgl]
          cases hR : startLoop (left - 1) [] rest with
          | nil => exact absurd hR i4
          | cons y ys =>
            rw [intercalate_cons]
            rw [hR] at i5
            rw [List.nil_append] at i5 ⊢
            rw [List.append_assoc, ← i5]
            simp
    · rw [if_neg hc]
      have hl' : left = 1 + (rest.filter (fun c => c == 58)).length := by
        rw [hl]; simp [hc]
      obtain ⟨i1, i2, i3⟩ := ih (cur ++ [c]) left hl' (by simp [h58]; exact fun h => hc h.symm)
      rw [show cur ++ c :: rest = cur ++ [c] ++ rest by simp]
      exact ⟨i1, i2, i3⟩

/-- C51: the agent directories are exactly the colon-separated components of the search path, in order;
a colon at the very end does not add an empty one, and the empty path has none. -/
theorem C51_agent_directories (path : Bytes) :
    (∀ dir ∈ (start path).paths, (58 : UInt8) ∉ dir) ∧
    (path = [] → (start path).paths = []) ∧
    (path ≠ [] → (start path).paths ≠ [] ∧
      path = List.intercalate [58] (start path).paths ++ (if path.getLast? = some 58 then [58] else [])) := by
  have := startLoop_spec path [] _ rfl (by simp)
  simpa [start] using this

example : (start (ascii "/a:/b::/c:")).paths = [ascii "/a", ascii "/b", [], ascii "/c"] ∧
    (start defaultPath).paths = [ascii "/lib/pamc", ascii "/usr/lib/pamc"] := by decide

/-! ### C49: the list of agents -/

/-- in-order contents -/
def Tree.toList : Tree → List Bytes
  | .nil => []
  | .node l x r _ => l.toList ++ x :: r.toList

theorem addNode_mem (t : Tree) (id x : Bytes) : x ∈ (addNode t id).1.toList ↔ x = id ∨ x ∈ t.toList := by
  induction t with
  | nil => simp [addNode, Tree.toList]
  | node l y r n ihl ihr =>
    rw [addNode]
    split
    · rename_i h
      subst h
      simp only [Tree.toList, List.mem_append, List.mem_cons]
      constructor
      · intro h; exact Or.inr h
      · rintro (h | h)
        · exact Or.inr (Or.inl h)
        · exact h
    · split
      · simp only [Tree.toList, List.mem_append, List.mem_cons, ihr]
        constructor
        · rintro (h | h | h | h)
          · exact Or.inr (Or.inl h)
          · exact Or.inr (Or.inr (Or.inl h))
          · exact Or.inl h
          · exact Or.inr (Or.inr (Or.inr h))
        · rintro (h | h | h | h)
          · exact Or.inr (Or.inr (Or.inl h))
          · exact Or.inl h
          · exact Or.inr (Or.inl h)
          · exact Or.inr (Or.inr (Or.inr h))
      · simp only [Tree.toList, List.mem_append, List.mem_cons, ihl]
        constructor
        · rintro ((h | h) | h)
          · exact Or.inl h
          · exact Or.inr (Or.inl h)
          · exact Or.inr (Or.inr h)
        · rintro (h | h | h)
          · exact Or.inl (Or.inl h)
          · exact Or.inl (Or.inr h)
          · exact Or.inr h

theorem addNode_count (t : Tree) (id : Bytes) : (addNode t id).2 = if t.toList = [] then 1 else 0 := by
  cases t with
  | nil => rfl
  | node l y r n =>
    rw [addNode]
    have : (Tree.node l y r n).toList ≠ [] := by simp [Tree.toList]
    rw [if_neg this]
    split
    · rfl
    · split <;> rfl

theorem collect_spec : ∀ (ds : List Bytes) (t : Tree) (n : Nat), n = (if t.toList = [] then 0 else 1) →
    (∀ x, x ∈ (collect t n ds).1.toList ↔ x ∈ t.toList ∨ (x ∈ ds ∧ validAgentId x = true)) ∧
    (collect t n ds).2 = if (collect t n ds).1.toList = [] then 0 else 1 := by
  intro ds
  induction ds with
  | nil => intro t n hn; rw [collect]; exact ⟨by simp, hn⟩
  | cons d ds ih =>
    intro t n hn
    rw [collect]
    by_cases hv : validAgentId d = true
    · rw [if_pos hv]
      have hne : (addNode t d).1.toList ≠ [] := by
        intro h
        have := (addNode_mem t d d).mpr (Or.inl rfl)
        rw [h] at this; simp at this
      obtain ⟨h1, h2⟩ := ih (addNode t d).1 (n + (addNode t d).2) (by
        rw [if_neg hne, addNode_count, hn]; split <;> rfl)
      refine ⟨?_, h2⟩
      intro x
      rw [h1, addNode_mem]
      simp only [List.mem_cons]
      constructor
      · rintro ((h | h) | h)
        · subst h; exact Or.inr ⟨Or.inl rfl, hv⟩
        · exact Or.inl h
        · exact Or.inr ⟨Or.inr h.1, h.2⟩
      · rintro (h | ⟨h | h, hv'⟩)
        · exact Or.inl (Or.inr h)
        · exact Or.inl (Or.inl h)
        · exact Or.inr ⟨h, hv'⟩
    · rw [if_neg hv]
      obtain ⟨h1, h2⟩ := ih t n hn
      refine ⟨?_, h2⟩
      intro x
      rw [h1]
      simp only [List.mem_cons]
      constructor
      · rintro (h | h)
        · exact Or.inl h
        · exact Or.inr ⟨Or.inr h.1, h.2⟩
      · rintro (h | ⟨h | h, hv'⟩)
        · exact Or.inl h
        · subst h; exact absurd hv' hv
        · exact Or.inr ⟨h, hv'⟩

theorem fillList_count : ∀ (t : Tree) (l : List (Option Bytes)) (i : Nat) (l' : List (Option Bytes)) (n : Nat),
    fillList t l i = some (l', n) → n = i + t.toList.length := by
  intro t
  induction t with
  | nil => intro l i l' n h; simp only [fillList, Option.some.injEq, Prod.mk.injEq] at h; simp [Tree.toList, h.2]
  | node a x b c iha ihb =>
    intro l i l' n h
    rw [fillList] at h
    split at h
    · cases h
    · rename_i l1 i1 h1
      split at h
      · cases h
      · have e1 := iha _ _ _ _ h1
        have e2 := ihb _ _ _ _ h
        rw [Tree.toList, List.length_append, List.length_cons]
        omega

/-- C49 as stated is false, and not only for one configuration: whenever the agent directories
contain two agents with different (accepted) names, pamc_list_agents does not return: it writes
behind its list or ends the process. -/
theorem C49_two_agents_counterexample (entries : List Bytes) (a b : Bytes) (ha : a ∈ entries) (hb : b ∈ entries)
    (hva : validAgentId a = true) (hvb : validAgentId b = true) (hne : a ≠ b) :
    listAgents entries true = .ub ∨ listAgents entries true = .exit := by
  obtain ⟨h1, h2⟩ := collect_spec entries .nil 0 rfl
  have hma : a ∈ (collect .nil 0 entries).1.toList := (h1 a).mpr (Or.inr ⟨ha, hva⟩)
  have hmb : b ∈ (collect .nil 0 entries).1.toList := (h1 b).mpr (Or.inr ⟨hb, hvb⟩)
  have hlen : 2 ≤ (collect .nil 0 entries).1.toList.length := by
    match hl : (collect .nil 0 entries).1.toList, hma, hmb with
    | [x], hma, hmb =>
      simp only [List.mem_singleton] at hma hmb
      exact absurd (hma.trans hmb.symm) hne
    | x :: y :: r, _, _ => simp
  have hc : (collect .nil 0 entries).2 = 1 := by
    rw [h2, if_neg]
    intro h; rw [h] at hma; simp at hma
  unfold listAgents
  simp only [Bool.not_true, Bool.false_eq_true, if_false]
  split
  · left; rfl
  · rename_i l n hf
    have := fillList_count _ _ _ _ _ hf
    right
    rw [if_pos (by omega)]

theorem addNode_same {t : Tree} {d : Bytes} (h : ∃ n, t = .node .nil d .nil n) : addNode t d = (t, 0) := by
  obtain ⟨n, rfl⟩ := h
  rw [addNode, if_pos rfl]

/-- C49 (one agent or none): if all accepted names are equal the list has that name (if any) and ends
with NULL; out of memory the result is NULL. -/
theorem C49_at_most_one_agent_partial (entries : List Bytes) (x : Bytes)
    (hall : ∀ d ∈ entries, validAgentId d = true → d = x) :
    (listAgents entries true = if ∃ d ∈ entries, validAgentId d = true then .ret (some [some x, none]) else .ret (some [none])) ∧
    listAgents entries false = .ret none := by
  refine ⟨?_, by simp [listAgents]⟩
  have hin : ∀ (ds : List Bytes), (∀ d ∈ ds, validAgentId d = true → d = x) →
      collect (.node .nil x .nil 0) 1 ds = (.node .nil x .nil 0, 1) := by
    intro ds
    induction ds with
    | nil => intro _; rfl
    | cons d ds ih =>
      intro h
      rw [collect]
      by_cases hv : validAgentId d = true
      · rw [if_pos hv]
        have := h d (by simp) hv
        subst this
        rw [addNode_same ⟨0, rfl⟩]
        exact ih (fun e he => h e (by simp [he]))
      · rw [if_neg hv]
        exact ih (fun e he => h e (by simp [he]))
  have hout : ∀ (ds : List Bytes), (∀ d ∈ ds, validAgentId d = true → d = x) →
      collect .nil 0 ds = if ∃ d ∈ ds, validAgentId d = true then (.node .nil x .nil 0, 1) else (.nil, 0) := by
    intro ds
    induction ds with
    | nil => intro _; simp [collect]
    | cons d ds ih =>
      intro h
      rw [collect]
      by_cases hv : validAgentId d = true
      · rw [if_pos hv, if_pos ⟨d, by simp, hv⟩]
        have := h d (by simp) hv
        subst this
        exact hin ds (fun e he => h e (by simp [he]))
      · rw [if_neg hv, ih (fun e he => h e (by simp [he]))]
        simp [hv]
  unfold listAgents
  simp only [Bool.not_true, Bool.false_eq_true, if_false]
  rw [hout entries hall]
  by_cases hx : ∃ d ∈ entries, validAgentId d = true
  · simp only [hx, if_true]
    simp [fillList, Util.storeAt]
  · simp only [hx, if_false]
    simp [fillList]

/-- the hypotheses are met: no agent, one agent in two directories, two agents, three -/
example : listAgents [ascii ".", ascii ".."] true = .ret (some [none]) ∧
    listAgents [ascii ".", ascii "ops", ascii ".", ascii "ops"] true = .ret (some [some (ascii "ops"), none]) ∧
    listAgents [ascii "ops", ascii "secret"] true = .exit ∧
    listAgents [ascii "ops", ascii "secret", ascii "x"] true = .ub :=
  ⟨rfl, rfl, rfl, rfl⟩

end Pam.Pamc
