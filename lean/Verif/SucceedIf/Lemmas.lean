import Verif.SucceedIf.Spec
/-
Helper lemmas about the model of pam_succeed_if.
-/
namespace Pam.SucceedIf
open Pam Spec

/-! ### numbers -/

theorem parseNum_iff (s : Str) (v : Int) : parseNum s = some v ↔ IsNumber s v := by
  unfold IsNumber
  rw [← strtoInt_zero]
  unfold parseNum
  simp only
  by_cases h1 : (strtoInt 0 s).2 ≠ [] ∨ s = []
  · rw [if_pos h1]
    constructor
    · intro h; cases h
    · rintro ⟨⟨h2, h3⟩, -⟩
      rcases h1 with h1 | h1
      · exact absurd (by rw [h2]) h1
      · exact absurd h1 h3
  · rw [if_neg h1]
    have h1a : (strtoInt 0 s).2 = [] := by
      cases h : (strtoInt 0 s).2 with
      | nil => rfl
      | cons c r => exact absurd (Or.inl (by simp [h])) h1
    have h1b : s ≠ [] := fun e => h1 (Or.inr e)
    by_cases h2 : (strtoInt 0 s).1 < -(2 : Int) ^ 63 ∨ (2 : Int) ^ 63 ≤ (strtoInt 0 s).1
    · rw [if_pos h2]
      constructor
      · intro h; cases h
      · rintro ⟨⟨h3, -⟩, h4, h5⟩
        rw [h3] at h2; simp only at h2; omega
    · rw [if_neg h2]
      constructor
      · intro h; cases h
        exact ⟨⟨by rw [← h1a], h1b⟩, by omega, by omega⟩
      · rintro ⟨⟨h3, -⟩, -⟩
        rw [h3]

theorem isNumber_unique {s : Str} {v w : Int} (h1 : IsNumber s v) (h2 : IsNumber s w) : v = w := by
  have e1 := (parseNum_iff s v).mpr h1
  have e2 := (parseNum_iff s w).mpr h2
  rw [e1] at e2; exact Option.some.inj e2

theorem parseNum_none {s : Str} (h : parseNum s = none) : ¬ ∃ x, IsNumber s x := by
  rintro ⟨x, hx⟩
  rw [(parseNum_iff s x).mpr hx] at h; cases h

/-! ### lists -/

theorem elements_ne (r : Str) : elements r ≠ [] := by
  cases r with
  | nil => simp [elements]
  | cons c r => rw [elements]; split <;> (try split) <;> simp

/-- the first element and the others -/
theorem elements_eq (r : Str) : elements r = r.takeWhile (fun c => c != ':') ::
    (match afterColon r with | none => [] | some r' => elements r') := by
  induction r with
  | nil => rfl
  | cons c r ih =>
    rw [elements]
    by_cases h : c = ':'
    · subst h; simp [afterColon]
    · have hb : (c != ':') = true := by simp [h]
      rw [if_neg h, ih]
      simp only [List.takeWhile_cons, hb, if_true]
      have : afterColon (c :: r) = afterColon r := by
        unfold afterColon; rw [List.dropWhile_cons, if_pos hb]
      rw [this]

theorem elements_colon (x y : Str) : elements (x ++ ':' :: y) = elements x ++ elements y := by
  induction x with
  | nil => simp [elements]
  | cons c x ih =>
    rw [List.cons_append, elements, elements]
    split
    · rw [ih]; rfl
    · rw [ih]
      cases h : elements x with
      | nil => exact absurd h (elements_ne x)
      | cons e es => rfl

theorem afterColon_append {w z : Str} (hw : ':' ∉ w) : afterColon (w ++ z) = afterColon z := by
  induction w with
  | nil => rfl
  | cons c w ih =>
    have hc : c ≠ ':' := fun e => hw (by simp [e])
    have : afterColon (c :: (w ++ z)) = afterColon (w ++ z) := by
      unfold afterColon; rw [List.dropWhile_cons, if_pos (by simp [hc])]
    rw [List.cons_append, this]; exact ih (fun h => hw (by simp [h]))

theorem takeWhile_append {w z : Str} (hw : ':' ∉ w) :
    (w ++ z).takeWhile (fun c => c != ':') = w ++ z.takeWhile (fun c => c != ':') := by
  induction w with
  | nil => rfl
  | cons c w ih =>
    have hc : c ≠ ':' := fun e => hw (by simp [e])
    rw [List.cons_append, List.takeWhile_cons, if_pos (by simp [hc]), ih (fun h => hw (by simp [h]))]
    rfl

theorem elements_infix {e : Str} : ∀ {r : Str}, e ∈ elements r → ∃ x y, r = x ++ e ++ y
  | [], h => by simp [elements] at h; exact ⟨[], [], by simp [h]⟩
  | c :: r, h => by
    rw [elements] at h
    by_cases hc : c = ':'
    · rw [if_pos hc] at h
      rcases List.mem_cons.mp h with rfl | h
      · exact ⟨[], c :: r, by simp⟩
      · obtain ⟨x, y, rfl⟩ := elements_infix h
        exact ⟨c :: x, y, by simp⟩
    · rw [if_neg hc] at h
      cases hr : elements r with
      | nil => exact absurd hr (elements_ne r)
      | cons f fs =>
        rw [hr] at h
        rcases List.mem_cons.mp h with rfl | h
        · have h1 := elements_eq r
          rw [hr] at h1
          have h2 : f = r.takeWhile (fun c => c != ':') := (List.cons.inj h1).1
          refine ⟨[], r.dropWhile (fun c => c != ':'), ?_⟩
          rw [h2]; simp [List.takeWhile_append_dropWhile]
        · obtain ⟨x, y, e'⟩ := elements_infix (e := e) (r := r) (by rw [hr]; simp [h])
          exact ⟨c :: x, y, by rw [e']; rfl⟩

/-- `strstr` finds the first occurrence -/
theorem strstr_first {left : Str} : ∀ {right x y : Str}, right = x ++ left ++ y →
    ∃ a b, strstr left right = some (a, b) ∧ a.length ≤ x.length
  | [], x, y, h => by
    have h' := h.symm
    simp at h'
    refine ⟨[], [], ?_, by simp⟩
    rw [strstr, if_pos h'.2.1]
  | c :: r, x, y, h => by
    rw [strstr]
    by_cases hp : left.isPrefixOf (c :: r)
    · exact ⟨[], c :: r, by rw [if_pos hp], by simp⟩
    · cases x with
      | nil =>
        exact absurd (List.isPrefixOf_iff_prefix.mpr ⟨y, by simpa using h.symm⟩) hp
      | cons d x =>
        have hr : r = x ++ left ++ y := by
          have := (List.cons.inj h).2; simpa using this
        obtain ⟨a, b, e, hl⟩ := strstr_first hr
        exact ⟨c :: a, b, by rw [if_neg hp, e], by simpa using hl⟩

/-- a text ends in a part without colon, after a colon or the beginning -/
theorem last_part (a : Str) : ∃ u w, a = u ++ w ∧ ':' ∉ w ∧ (u = [] ∨ ∃ u', u = u' ++ [':']) := by
  induction a with
  | nil => exact ⟨[], [], rfl, by simp, Or.inl rfl⟩
  | cons c a ih =>
    obtain ⟨u, w, rfl, hw, hu⟩ := ih
    rcases hu with rfl | ⟨u', rfl⟩
    · by_cases hc : c = ':'
      · exact ⟨[c], w, rfl, hw, Or.inr ⟨[], by simp [hc]⟩⟩
      · exact ⟨[], c :: w, rfl, by simp [hw, Ne.symm hc], Or.inl rfl⟩
    · exact ⟨c :: (u' ++ [':']), w, rfl, hw, Or.inr ⟨c :: u', rfl⟩⟩

theorem atStart_iff {u w : Str} (hw : ':' ∉ w) (hu : u = [] ∨ ∃ u', u = u' ++ [':']) :
    (u ++ w = [] ∨ (u ++ w).getLast? = some ':') ↔ w = [] := by
  constructor
  · intro h
    cases hw' : w with
    | nil => rfl
    | cons c r =>
      exfalso
      have hne : w ≠ [] := by simp [hw']
      rcases h with h | h
      · exact hne (List.append_eq_nil_iff.mp h).2
      · rw [List.getLast?_append] at h
        have h2 : w.getLast? = some (w.getLast hne) := List.getLast?_eq_some_getLast hne
        rw [h2] at h
        simp at h
        exact hw (h ▸ List.getLast_mem hne)
  · rintro rfl
    rcases hu with rfl | ⟨u', rfl⟩
    · left; rfl
    · right; simp

theorem inList_no {left right : Str} (h : listStep left right = .no) : inList left right = false := by
  rw [inList]; split
  · rfl
  · next e => rw [h] at e; cases e
  · next e => rw [h] at e; cases e

theorem inList_yes {left right : Str} (h : listStep left right = .yes) : inList left right = true := by
  rw [inList]; split
  · next e => rw [h] at e; cases e
  · rfl
  · next e => rw [h] at e; cases e

theorem inList_more {left right r : Str} (h : listStep left right = .more r) : inList left right = inList left r := by
  rw [inList]; split
  · next e => rw [h] at e; cases e
  · next e => rw [h] at e; cases e
  · next e => rw [h] at e; cases e; rfl

/-- what one iteration finds, if the text has no colon -/
theorem listStep_spec {left right : Str} (hl : ':' ∉ left) :
    (listStep left right = .no ∧ left ∉ elements right) ∨ (listStep left right = .yes ∧ left ∈ elements right) ∨
    (∃ r, listStep left right = .more r ∧ (left ∈ elements right ↔ left ∈ elements r)) := by
  unfold listStep
  split
  next h =>
    left
    refine ⟨rfl, fun hm => ?_⟩
    obtain ⟨x, y, e⟩ := elements_infix hm
    obtain ⟨a, b, e2, -⟩ := strstr_first e
    rw [h] at e2; cases e2
  next a p h =>
    obtain ⟨hr, t, rfl⟩ := strstr_length h
    have hfirst : ∀ x y, right = x ++ left ++ y → a.length ≤ x.length := by
      intro x y e
      obtain ⟨a', b', e2, hle⟩ := strstr_first e
      rw [h] at e2; cases e2; exact hle
    obtain ⟨u, w, rfl, hw, hu⟩ := last_part a
    simp only [atStart_iff hw hu]
    have hdrop : (left ++ t).drop left.length = t := by simp
    rw [hdrop]
    -- the elements of the list
    have hel : ∃ pre, left ∉ pre ∧ elements right = pre ++ elements (w ++ (left ++ t)) := by
      rcases hu with rfl | ⟨u', rfl⟩
      · exact ⟨[], by simp, by rw [hr]; rfl⟩
      · refine ⟨elements u', ?_, ?_⟩
        · intro hm
          obtain ⟨x, y, e⟩ := elements_infix hm
          have := hfirst x (y ++ [':'] ++ w ++ (left ++ t)) (by rw [hr, e]; simp)
          rw [e] at this
          simp only [List.length_append, List.length_singleton] at this
          omega
        · rw [hr]
          have : u' ++ [':'] ++ w ++ (left ++ t) = u' ++ ':' :: (w ++ (left ++ t)) := by simp
          rw [this, elements_colon]
    obtain ⟨pre, hpre, hel⟩ := hel
    rw [hel, elements_eq, takeWhile_append hw, takeWhile_append hl, afterColon_append hw, afterColon_append hl]
    have hg : goOn (left ++ t) = goOn t := by unfold goOn; rw [afterColon_append hl]
    -- the element found is the text itself exactly if nothing precedes and nothing follows
    have hself : left = w ++ (left ++ t.takeWhile (fun c => c != ':')) ↔ w = [] ∧ (t = [] ∨ t.head? = some ':') := by
      constructor
      · intro e
        have := congrArg List.length e
        simp only [List.length_append] at this
        have h1 : w.length = 0 := by omega
        have h2 : (t.takeWhile (fun c => c != ':')).length = 0 := by omega
        refine ⟨List.eq_nil_of_length_eq_zero h1, ?_⟩
        cases t with
        | nil => left; rfl
        | cons c t' =>
          right
          rw [List.takeWhile_cons] at h2
          split at h2
          · simp at h2
          · rename_i hc; simp at hc; simp [hc]
      · rintro ⟨rfl, h | h⟩
        · simp [h]
        · cases t with
          | nil => simp
          | cons c t' => cases h; simp
    have hmem : ¬ (w = [] ∧ (t = [] ∨ t.head? = some ':')) → ∀ rest : List Str,
        left ∈ pre ++ (w ++ (left ++ t.takeWhile (fun c => c != ':'))) :: rest ↔ left ∈ rest := by
      intro hns rest
      rw [List.mem_append, List.mem_cons, hself]
      constructor
      · rintro (h | h | h)
        · exact absurd h hpre
        · exact absurd h hns
        · exact h
      · intro h; exact Or.inr (Or.inr h)
    have hgo : ¬ (w = [] ∧ (t = [] ∨ t.head? = some ':')) →
        (goOn t = .no ∧ left ∉ pre ++ (w ++ (left ++ t.takeWhile (fun c => c != ':'))) ::
          (match afterColon t with | none => [] | some r' => elements r')) ∨
        (∃ r, goOn t = .more r ∧ (left ∈ pre ++ (w ++ (left ++ t.takeWhile (fun c => c != ':'))) ::
          (match afterColon t with | none => [] | some r' => elements r') ↔ left ∈ elements r)) := by
      intro hns
      rw [hmem hns]
      cases hc : afterColon t with
      | none => left; exact ⟨by unfold goOn; rw [hc], by simp⟩
      | some r => right; exact ⟨r, by unfold goOn; rw [hc], Iff.rfl⟩
    by_cases h1 : w = []
    · rw [if_pos h1]
      by_cases h2 : t = [] ∨ t.head? = some ':'
      · rw [if_pos h2]
        right; left
        refine ⟨rfl, ?_⟩
        rw [← hself.mpr ⟨h1, h2⟩]; simp
      · rw [if_neg h2]
        rcases hgo (fun h => h2 h.2) with h | h
        · left; exact h
        · right; right; exact h
    · rw [if_neg h1, hg]
      rcases hgo (fun h => h1 h.1) with h | h
      · left; exact h
      · right; right; exact h

/-- Whole elements are compared, if the text has no colon. -/
theorem inList_iff {left : Str} (hl : ':' ∉ left) {right : Str} : inList left right = true ↔ left ∈ elements right := by
  induction hn : right.length using Nat.strongRecOn generalizing right with
  | ind n ih =>
    rcases listStep_spec (right := right) hl with ⟨h, h2⟩ | ⟨h, h2⟩ | ⟨r, h, h2⟩
    · rw [inList_no h]; simp [h2]
    · rw [inList_yes h]; simp [h2]
    · rw [inList_more h, h2]
      exact ih r.length (by rw [← hn]; exact listStep_length h) rfl

theorem afterColon_split {q s : Str} (hq : afterColon q = some s) : ∃ z, q = z ++ ':' :: s := by
  unfold afterColon at hq
  split at hq
  · cases hq
  · rename_i x s' e
    cases hq
    refine ⟨q.takeWhile (fun c => c != ':'), ?_⟩
    have hx : x = ':' := by
      have hne : q.dropWhile (fun c => c != ':') ≠ [] := by rw [e]; simp
      have := List.head_dropWhile_not (fun c => c != ':') hne
      simp only [e, List.head_cons] at this
      simpa using this
    subst hx; rw [← e, List.takeWhile_append_dropWhile]

/-- a text with colons is found only as a run of elements -/
theorem inList_run {left right : Str} (hin : inList left right = true) :
    ∃ pre post, elements right = pre ++ elements left ++ post := by
  induction hn : right.length using Nat.strongRecOn generalizing right with
  | ind n ih =>
    cases hs : listStep left right with
    | no => rw [inList_no hs] at hin; cases hin
    | more r =>
      rw [inList_more hs] at hin
      obtain ⟨pre, post, e⟩ := ih r.length (by rw [← hn]; exact listStep_length hs) hin rfl
      have hsplit : ∃ z, right = z ++ ':' :: r := by
        unfold listStep at hs
        split at hs
        · cases hs
        · next a p h =>
          obtain ⟨hr, t, rfl⟩ := strstr_length h
          split at hs
          · split at hs
            · cases hs
            · obtain ⟨z, hz⟩ := afterColon_split (goOn_more hs)
              rw [List.drop_left] at hz
              exact ⟨a ++ left ++ z, by rw [hr, hz]; simp⟩
          · obtain ⟨z, hz⟩ := afterColon_split (goOn_more hs)
            exact ⟨a ++ z, by rw [hr, hz]; simp⟩
      obtain ⟨z, hz⟩ := hsplit
      exact ⟨elements z ++ pre, post, by rw [hz, elements_colon, e]; simp⟩
    | yes =>
      unfold listStep at hs
      split at hs
      · cases hs
      · next a p h =>
        obtain ⟨hr, t, rfl⟩ := strstr_length h
        have hnm : ∀ q : Str, goOn q ≠ .yes := by
          intro q e; unfold goOn at e; split at e <;> cases e
        split at hs
        next h1 =>
          split at hs
          next h2 =>
            rw [List.drop_left] at h2
            have hpost : ∃ post, elements (left ++ t) = elements left ++ post := by
              rcases h2 with rfl | h2
              · exact ⟨[], by simp⟩
              · cases t with
                | nil => exact ⟨[], by simp⟩
                | cons c t' =>
                  cases h2
                  exact ⟨elements t', elements_colon left t'⟩
            obtain ⟨post, hpost⟩ := hpost
            rcases h1 with h1 | h1
            · exact ⟨[], post, by rw [hr, h1]; simpa using hpost⟩
            · obtain ⟨a', rfl⟩ : ∃ a', a = a' ++ [':'] := by
                have hne : a ≠ [] := by intro e; rw [e] at h1; cases h1
                have := List.getLast?_eq_some_getLast hne
                rw [this] at h1
                refine ⟨a.dropLast, ?_⟩
                rw [← Option.some.inj h1]
                exact (List.dropLast_concat_getLast hne).symm
              refine ⟨elements a', post, ?_⟩
              have : right = a' ++ ':' :: (left ++ t) := by rw [hr]; simp
              rw [this, elements_colon, hpost]; simp
          next => exact absurd hs (hnm _)
        next => exact absurd hs (hnm _)

theorem tokens_eq (r : Str) : ∀ cur : Str, ':' ∉ cur → tokens cur r = (elements (cur ++ r)).filter (fun e => e ≠ []) := by
  induction r with
  | nil =>
    intro cur hc
    rw [tokens, List.append_nil, elements_eq]
    have h1 : cur.takeWhile (fun c => c != ':') = cur := by
      have := takeWhile_append (z := []) hc
      simpa using this
    have h2 : afterColon cur = none := by
      have := afterColon_append (z := []) hc
      rw [List.append_nil] at this; exact this
    rw [h1, h2]
    by_cases h : cur = [] <;> simp [h]
  | cons c r ih =>
    intro cur hc
    rw [tokens]
    by_cases h : c = ':'
    · subst h
      rw [if_pos rfl, elements_colon, List.filter_append, ih [] (by simp)]
      have h1 : elements cur = [cur] := by
        have h1 : cur.takeWhile (fun c => c != ':') = cur := by
          have := takeWhile_append (z := []) hc
          simpa using this
        have h2 : afterColon cur = none := by
          have := afterColon_append (z := []) hc
          rw [List.append_nil] at this; exact this
        rw [elements_eq, h1, h2]
      rw [h1]
      by_cases h : cur = [] <;> simp [h]
    · rw [if_neg h, ih (cur ++ [c]) (by simp [hc, Ne.symm h])]
      simp

theorem anyGroup_iff (sys : Sys) (user : Str) (gs : List Str) : anyGroup sys user gs = true ↔ ∃ g ∈ gs, sys.inGroup user g := by
  induction gs with
  | nil => simp [anyGroup]
  | cons g gs ih =>
    rw [anyGroup]
    by_cases h : sys.inGroup user g <;> simp [h, ih]

theorem inGroups_iff (sys : Sys) (user r : Str) : anyGroup sys user (tokens [] r) = true ↔
    ∃ g ∈ elements r, g ≠ [] ∧ sys.inGroup user g := by
  rw [anyGroup_iff, tokens_eq r [] (by simp)]
  simp only [List.nil_append, List.mem_filter, decide_eq_true_eq, ne_eq]
  constructor
  · rintro ⟨g, ⟨h1, h2⟩, h3⟩; exact ⟨g, h1, by simpa using h2, h3⟩
  · rintro ⟨g, h1, h2, h3⟩; exact ⟨g, ⟨h1, by simpa using h2⟩, h3⟩

end Pam.SucceedIf
