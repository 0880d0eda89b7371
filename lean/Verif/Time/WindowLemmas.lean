import Verif.Time.Spec
namespace Pam.Time
open Spec

theorem isAlpha_of_lower {c : Char} (h : 'a'.toNat ≤ (lower c).toNat ∧ (lower c).toNat ≤ 'z'.toNat) : isAlpha c = true := by
  unfold isAlpha
  rw [decide_eq_true_eq]
  unfold lower at h
  by_cases hc : 'A'.toNat ≤ c.toNat ∧ c.toNat ≤ 'Z'.toNat
  · exact Or.inl hc
  · rw [if_neg hc] at h; exact Or.inr h

/-- the bit set of some weekdays -/
def bits (l : List Nat) : Nat := l.foldr (fun k m => 2 ^ k ||| m) 0

/-- the module's table and the documented one agree -/
theorem dayBit_daysOf (a b : Char) : dayBit a b = (daysOf a b).map bits := by
  unfold dayBit daysOf
  generalize lower a = x
  generalize lower b = y
  have hb : bits [0] = 1 ∧ bits [1] = 2 ∧ bits [2] = 4 ∧ bits [3] = 8 ∧ bits [4] = 16 ∧ bits [5] = 32 ∧ bits [6] = 64 ∧
    bits [1, 2, 3, 4, 5] = 62 ∧ bits [0, 6] = 65 ∧ bits [0, 1, 2, 3, 4, 5, 6] = 127 := by decide
  obtain ⟨h0, h1, h2, h3, h4, h5, h6, h7, h8, h9⟩ := hb
  have e : ∀ (p q : Char), (decide ([p, q] = [x, y])) = (x == p && y == q) := by
    intro p q
    by_cases hx : x = p
    · subst hx
      by_cases hy : y = q
      · subst hy; simp
      · have : ¬ q = y := fun e => hy e.symm
        simp [hy, this]
    · have : ¬ p = x := fun e => hx e.symm
      simp [hx, this]
  have tl : "su".toList = ['s', 'u'] ∧ "mo".toList = ['m', 'o'] ∧ "tu".toList = ['t', 'u'] ∧ "we".toList = ['w', 'e'] ∧
    "th".toList = ['t', 'h'] ∧ "fr".toList = ['f', 'r'] ∧ "sa".toList = ['s', 'a'] ∧ "wk".toList = ['w', 'k'] ∧
    "wd".toList = ['w', 'd'] ∧ "al".toList = ['a', 'l'] := by decide
  obtain ⟨t0, t1, t2, t3, t4, t5, t6, t7, t8, t9⟩ := tl
  simp only [days, namedDays, List.find?_cons, List.find?_nil, t0, t1, t2, t3, t4, t5, t6, t7, t8, t9, e]
  repeat' split
  all_goals simp_all

theorem mem_named {a b : Char} {l : List Nat} (h : daysOf a b = some l) :
    ∃ s, (s, l) ∈ namedDays ∧ s.toList = [lower a, lower b] := by
  unfold daysOf at h
  cases hf : namedDays.find? (fun p => p.1.toList = [lower a, lower b]) with
  | none => rw [hf] at h; cases h
  | some p =>
    rw [hf] at h
    have := List.find?_some hf
    simp only [decide_eq_true_eq] at this
    simp only [Option.map_some, Option.some.injEq] at h
    subst h
    exact ⟨p.1, List.mem_of_find?_eq_some hf, this⟩

theorem daysOf_alpha {a b : Char} {l : List Nat} (h : daysOf a b = some l) : isAlpha a = true ∧ isAlpha b = true := by
  obtain ⟨s, hm, hs⟩ := mem_named h
  have key : ∀ p ∈ namedDays, ∀ x y, p.1.toList = [x, y] → ('a'.toNat ≤ x.toNat ∧ x.toNat ≤ 'z'.toNat) ∧
      ('a'.toNat ≤ y.toNat ∧ y.toNat ≤ 'z'.toNat) := by
    intro p hp x y hxy
    simp only [namedDays, List.mem_cons, List.not_mem_nil, or_false] at hp
    rcases hp with rfl | rfl | rfl | rfl | rfl | rfl | rfl | rfl | rfl | rfl <;>
      (simp only [String.toList] at hxy; cases hxy; decide)
  obtain ⟨h1, h2⟩ := key _ hm _ _ hs
  exact ⟨isAlpha_of_lower h1, isAlpha_of_lower h2⟩

theorem daysOf_bits {a b : Char} {l : List Nat} (h : daysOf a b = some l) :
    bits l < 2 ^ 7 ∧ ∀ d < 7, (bits l).testBit d = decide (d ∈ l) := by
  obtain ⟨s, hm, _⟩ := mem_named h
  revert hm
  have : ∀ p ∈ namedDays, bits p.2 < 2 ^ 7 ∧ ∀ d < 7, (bits p.2).testBit d = decide (d ∈ p.2) := by decide
  exact fun hm => this _ hm

/-- the bits after some day names -/
def markAll : (names : List (Char × Char)) → Nat → Nat
  | [], m => m
  | n :: ns, m => markAll ns (m ^^^ ((dayBit n.1 n.2).getD 0))

theorem dayLoop_names : ∀ (names : List (Char × Char)) (m : Nat) (rest : Str) (len : Nat), AllDays names →
    (∀ c ∈ rest.head?, isAlpha c = false) → names.length ≤ len →
    dayLoop m (dayText names ++ rest) len = some (markAll names m, rest, len - names.length) := by
  intro names
  induction names with
  | nil =>
    intro m rest len _ hr _
    show dayLoop m rest len = some (m, rest, len)
    match rest, hr with
    | [], _ => rfl
    | [a], hr => simp [dayLoop, hr a (by simp)]
    | a :: b :: r, hr => simp [dayLoop, hr a (by simp)]
  | cons n ns ih =>
    intro m rest len ha hr hl
    obtain ⟨l, hd⟩ := Option.isSome_iff_exists.mp (ha n (by simp))
    have h1 := dayBit_daysOf n.1 n.2
    rw [hd] at h1
    have h2 := (daysOf_alpha hd).1
    simp only [List.length_cons] at hl
    show dayLoop m (n.1 :: n.2 :: (dayText ns ++ rest)) len = _
    rw [dayLoop, if_pos ⟨by omega, h2⟩, h1]
    simp only [Option.map_some]
    rw [ih _ _ _ (fun x hx => ha x (by simp [hx])) hr (by omega)]
    simp only [markAll, h1, Option.map_some, Option.getD_some, List.length_cons]
    congr 3
    omega

theorem markAll_bits : ∀ (names : List (Char × Char)) (m : Nat), AllDays names → m < 2 ^ 7 →
    markAll names m < 2 ^ 7 ∧ ∀ d < 7, ((markAll names m).testBit d = true ↔
      (m.testBit d ^^ decide (Marks names d)) = true) := by
  intro names
  induction names with
  | nil => intro m _ hm; exact ⟨hm, fun d _ => by simp [markAll, Marks]⟩
  | cons n ns ih =>
    intro m ha hm
    obtain ⟨l, hd⟩ := Option.isSome_iff_exists.mp (ha n (by simp))
    obtain ⟨b1, b2⟩ := daysOf_bits hd
    have h1 := dayBit_daysOf n.1 n.2
    rw [hd] at h1
    obtain ⟨i1, i2⟩ := ih (m ^^^ bits l) (fun x hx => ha x (by simp [hx])) (Nat.xor_lt_two_pow hm b1)
    simp only [markAll, h1, Option.map_some, Option.getD_some]
    refine ⟨i1, fun d hd7 => ?_⟩
    rw [i2 d hd7, Nat.testBit_xor, b2 d hd7]
    have hc : decide (Marks (n :: ns) d) = (decide (d ∈ l) ^^ decide (Marks ns d)) := by
      by_cases hdl : d ∈ l
      · rw [Bool.eq_iff_iff]
        simp only [hdl, decide_true, Bool.true_xor, decide_eq_true_eq, Bool.not_eq_true', decide_eq_false_iff_not]
        unfold Marks
        rw [List.countP_cons, hd]
        simp only [hdl, decide_true, if_true]
        omega
      · rw [Bool.eq_iff_iff]
        simp only [hdl, decide_false, Bool.false_xor, decide_eq_true_eq]
        unfold Marks
        rw [List.countP_cons, hd]
        simp [hdl]
    rw [hc, ← Bool.xor_assoc]

theorem digits_all : ∀ (ds : Str) (k acc : Nat) (rest : Str) (len : Nat), (∀ c ∈ ds, isDigit c = true) → ds.length ≤ k →
    (ds.length = k ∨ ∀ c ∈ rest.head?, isDigit c = false) → ds.length ≤ len →
    digits k acc (ds ++ rest) len =
      (ds.length, ds.foldl (fun n c => n * 10 + (c.toNat - '0'.toNat)) acc, rest, len - ds.length) := by
  intro ds
  induction ds with
  | nil =>
    intro k acc rest len _ _ h _
    cases k with
    | zero => simp [digits]
    | succ k =>
      cases rest with
      | nil => simp [digits]
      | cons c r =>
        have : isDigit c = false := by
          rcases h with h | h
          · simp at h
          · exact h c (by simp)
        simp [digits, this]
  | cons c ds ih =>
    intro k acc rest len hd hk hr hl
    simp only [List.length_cons] at hk hl
    cases k with
    | zero => omega
    | succ k =>
      rw [List.cons_append, digits, if_pos ⟨by omega, hd c (by simp)⟩]
      rw [ih k _ rest (len - 1) (fun x hx => hd x (by simp [hx])) (by omega)
        (by rcases hr with h | h
            · left; simpa using h
            · right; exact h) (by omega)]
      simp only [List.length_cons, List.foldl_cons]
      congr 3
      omega

set_option maxRecDepth 100000 in
theorem day_and : ∀ d < 7, ∀ m < 128, decide ((timeNow d 0 0).day &&& m ≠ 0) = m.testBit d := by decide +kernel

set_option maxRecDepth 100000 in
theorem next_and : ∀ d < 7, ∀ m < 128,
    decide ((timeNow d 0 0).day &&& ((m <<< 1) ||| (if (m <<< 1) &&& 0o200 ≠ 0 then 1 else 0)) ≠ 0) = m.testBit (yesterday d) := by
  decide +kernel

theorem inWindow_iff {m start stop d h mi : Nat} (D : Nat → Prop) (hd : d < 7) (hm : m < 128)
    (hD : ∀ k < 7, (m.testBit k = true ↔ D k)) :
    inWindow (timeNow d h mi) m start stop = true ↔ WithinIncl D start stop d (h * 100 + mi) := by
  have e1 := day_and d hd m hm
  have e2 := next_and d hd m hm
  have hy : yesterday d < 7 := Nat.mod_lt _ (by decide)
  have q1 : ((timeNow d h mi).day &&& m ≠ 0) ↔ D d := by
    rw [← hD d hd, ← e1, decide_eq_true_eq]; rfl
  have q2 : ((timeNow d h mi).day &&& ((m <<< 1) ||| (if (m <<< 1) &&& 0o200 ≠ 0 then 1 else 0)) ≠ 0) ↔ D (yesterday d) := by
    rw [← hD _ hy, ← e2, decide_eq_true_eq]; rfl
  have q3 : (timeNow d h mi).minute = h * 100 + mi := rfl
  unfold inWindow WithinIncl
  by_cases hs : start < stop
  · rw [if_pos hs, if_pos hs]
    simp only [Bool.and_eq_true, decide_eq_true_eq, q1, q3]
    exact and_assoc
  · rw [if_neg hs, if_neg hs]
    by_cases hc : D d ∧ start ≤ h * 100 + mi
    · rw [if_pos ⟨q1.mpr hc.1, hc.2⟩]; simp [hc]
    · rw [if_neg (fun h => hc ⟨q1.mp h.1, h.2⟩)]
      simp only [Bool.and_eq_true, decide_eq_true_eq, q2, q3]
      simp [hc]

/-! only the word counts -/

theorem not_word_alpha {c : Char} (h : isWord c = false) : isAlpha c = false ∧ isDigit c = false ∧ c ≠ '-' := by
  unfold isWord at h
  simp only [Bool.or_eq_false_iff, beq_eq_false_iff_ne] at h
  obtain ⟨⟨⟨⟨⟨⟨⟨h1, _⟩, h2⟩, _⟩, h3⟩, _⟩, _⟩, _⟩ := h
  exact ⟨h1, h2, h3⟩

theorem dayLoop_append (s : Str) (hs : ∀ c ∈ s.head?, isWord c = false) (n : Nat) : ∀ (w : Str) (m len : Nat), w.length ≤ n →
    dayLoop m (w ++ s) len = (dayLoop m w len).map (fun r => (r.1, r.2.1 ++ s, r.2.2)) := by
  induction n with
  | zero =>
    intro w m len hn
    rw [List.length_eq_zero_iff.mp (Nat.le_zero.mp hn)]
    match s, hs with
    | [], _ => rfl
    | [a], hs => simp [dayLoop, (not_word_alpha (hs a (by simp))).1]
    | a :: b :: r, hs => simp [dayLoop, (not_word_alpha (hs a (by simp))).1]
  | succ n ih =>
    intro w m len hn
    match w, hn with
    | [], _ => exact ih [] m len (by simp)
    | [a], _ =>
      match s, hs with
      | [], _ => simp [dayLoop]
      | c :: r, hs =>
        have hc := (not_word_alpha (hs c (by simp))).1
        have hb : dayBit a c = none := by
          rw [dayBit_daysOf]
          cases hd : daysOf a c with
          | none => rfl
          | some l => rw [(daysOf_alpha hd).2] at hc; cases hc
        simp only [dayLoop, List.cons_append, List.nil_append, hb]
        split <;> rfl
    | a :: b :: w, hn =>
      simp only [List.cons_append, dayLoop]
      split
      · cases dayBit a b with
        | none => rfl
        | some d => exact ih w _ _ (by simp at hn; omega)
      · rfl

theorem digits_append (s : Str) (hs : ∀ c ∈ s.head?, isWord c = false) : ∀ (w : Str) (k acc len : Nat),
    digits k acc (w ++ s) len =
      ((digits k acc w len).1, (digits k acc w len).2.1, (digits k acc w len).2.2.1 ++ s, (digits k acc w len).2.2.2) := by
  intro w
  induction w with
  | nil =>
    intro k acc len
    cases k with
    | zero => simp [digits]
    | succ k =>
      cases s with
      | nil => simp [digits]
      | cons c r => simp [digits, (not_word_alpha (hs c (by simp))).2.1]
  | cons c w ih =>
    intro k acc len
    cases k with
    | zero => simp [digits]
    | succ k =>
      simp only [List.cons_append, digits]
      split
      · rw [ih]
      · rfl

theorem checkRange_append (now : Instant) (neg : Bool) (w s : Str) (hs : ∀ c ∈ s.head?, isWord c = false) (len : Nat) :
    checkRange now neg (w ++ s) len = checkRange now neg w len := by
  unfold checkRange
  rw [dayLoop_append s hs w.length w 0 len (Nat.le_refl _)]
  cases dayLoop 0 w len with
  | none => rfl
  | some r =>
    obtain ⟨m, w1, l1⟩ := r
    simp only [Option.map_some]
    by_cases hm : m = 0
    · rw [if_pos hm, if_pos hm]
    · rw [if_neg hm, if_neg hm, digits_append s hs]
      obtain ⟨k, v, w2, l2⟩ := digits 4 0 w1 l1
      simp only
      match w2 with
      | [] =>
        match s, hs with
        | [], _ => rfl
        | c :: r, hs =>
          have := (not_word_alpha (hs c (by simp))).2.2
          simp only [List.nil_append]
          split
          · rename_i h; simp at h; exact absurd h.1 this
          · rfl
      | c :: w3 =>
        by_cases hc : c = '-'
        · subst hc
          simp only [List.cons_append]
          rw [digits_append s hs]
        · simp only [List.cons_append]
          split
          · rename_i h; simp at h; exact absurd h.1 hc
          · split
            · rename_i h; simp at h; exact absurd h.1 hc
            · rfl

end Pam.Time
