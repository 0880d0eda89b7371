import Verif.Time.LogicLemmas
import Verif.Time.NameLemmas
import Verif.Time.WindowLemmas
/-
C35: lists in time.conf and group.conf.  C52: names in them.  C36: time windows.
-/
namespace Pam.Time
open Spec

/-! ## C35 -/

/-- Every field has exactly one sequence of tokens. -/
theorem C35_tokens (x : Str) : ∃ ts, Lexes x ts ∧ ∀ us, Lexes x us → us = ts := by
  obtain ⟨ts, h⟩ := lexes_total x
  exact ⟨ts, h, fun us h' => lexes_unique h' h⟩

/-- A field that is a list of items has the value of the list, read from left to right. -/
theorem C35_value (agrees : Str → Nat → Option Bool) (f : Str → Bool) (x : Str) (e : Formula)
    (hx : Lexes x e.toks) (hf : Judges agrees f e.toks) : logicField agrees x = some (e.value f) := by
  rw [logicField, fieldLoop_run hx hf]
  have := run_formula f [] (Or.inl rfl) e
  rw [List.append_nil] at this
  rw [this]

/-- A field that is not a list of items, and not a list with one operator too many at its end, never matches. -/
theorem C35_malformed_partial (agrees : Str → Nat → Option Bool) (f : Str → Bool) (x : Str) (ts : List Tok)
    (hx : Lexes x ts) (hf : Judges agrees f ts) (hm : ∀ e : Formula, ts ≠ e.toks)
    (hd : ∀ (e : Formula) (o : Oper) (n : Nat), ts ≠ e.toks ++ opTok o :: List.replicate n .bang) :
    logicField agrees x = some false := by
  rw [logicField, fieldLoop_run hx hf]
  cases hr : run f false false .or .val ts with
  | false => rfl
  | true =>
    rcases (run_op_shape f ts.length ts (Nat.le_refl _)).2 _ _ _ hr with ⟨_, _, h⟩ | ⟨i, l, tail, ht, rfl⟩
    · cases h
    · rcases ht with rfl | ⟨t, n, rfl⟩
      · exact absurd (by simp [Formula.toks]) (hm ⟨i, l⟩)
      · exact absurd (by simp [Formula.toks]) (hd ⟨i, l⟩ t n)

/-- An operator with nothing after it is ignored: the field has the value of the list before it. -/
theorem C35_dangling (agrees : Str → Nat → Option Bool) (f : Str → Bool) (x : Str) (e : Formula) (o : Oper) (n : Nat)
    (hx : Lexes x (e.toks ++ opTok o :: List.replicate n .bang))
    (hf : Judges agrees f (e.toks ++ opTok o :: List.replicate n .bang)) :
    logicField agrees x = some (e.value f) := by
  rw [logicField, fieldLoop_run hx hf, run_formula f _ (Or.inr ⟨o, n, rfl⟩) e]

/-- The empty field, and one with only separators, never matches. -/
theorem C35_empty (agrees : Str → Nat → Option Bool) (x : Str) (hx : Lexes x []) : logicField agrees x = some false := by
  rw [logicField, fieldLoop_run (f := fun _ => true) hx (fun w s h => absurd h (by simp))]
  rfl

/-! ## C52 -/

/-- On the words of a field that are not longer than the string plus one, a name matches exactly the strings it
fits, and it is only the word that counts. -/
theorem C52_name_partial (a : Str) (ha : '*' ∉ a) (w : Str)
    (hlen : ∀ pre suf : Str, w = pre ++ '*' :: suf → '*' ∉ pre → pre <+: a → suf.length ≤ a.length) (s : Str) :
    ∃ b, isSame a (w ++ s) w.length = some b ∧ (b = true ↔ Fits w a) := by
  rw [isSame, sameLoop_append]
  by_cases hw : '*' ∈ w
  · obtain ⟨pre, suf, rfl, hp⟩ := split_star hw
    rw [sameLoop_star a suf pre a hp ha, fits_star hp ha]
    by_cases h : pre <+: a
    · rw [if_pos h, if_pos (hlen pre suf rfl hp h)]
      exact ⟨_, rfl, by simp [h]⟩
    · rw [if_neg h]
      exact ⟨false, rfl, by simp [h]⟩
  · rw [sameLoop_plain a w a hw]
    refine ⟨_, rfl, ?_⟩
    rw [decide_eq_true_eq]
    constructor
    · exact fun h => Or.inl h
    · rintro (h | ⟨pre, suf, h, _⟩)
      · exact h
      · exact absurd (h ▸ (by simp : '*' ∈ pre ++ '*' :: suf)) hw

/-- Without the restriction on lengths the property fails: what stands after the star may be longer than the
string, and then memory before the string is read. -/
theorem C52_name_counterexample (a pre suf s : Str) (ha : '*' ∉ a) (hp : '*' ∉ pre) (h : pre <+: a)
    (hl : a.length < suf.length) : isSame a (pre ++ '*' :: suf ++ s) (pre ++ '*' :: suf).length = none := by
  rw [isSame, sameLoop_append, sameLoop_star a suf pre a hp ha, if_pos h, if_neg (by omega)]

/-! ## C36 -/

/-- the window of a range, whatever comes before and after it -/
theorem checkRange_window (names : List (Char × Char)) (start stop : Str) (rest : Str) (d hour min : Nat) (hd : d < 7)
    (hn : AllDays names) (hmark : ∃ k < 7, Marks names k) (hs : start.length ≤ 4) (hsd : ∀ c ∈ start, isDigit c = true)
    (ht : stop.length = 4) (htd : ∀ c ∈ stop, isDigit c = true) (hr : ∀ c ∈ rest.head?, isWord c = false) (neg : Bool)
    (len : Nat) (hlen' : (dayText names ++ start ++ '-' :: stop).length ≤ len) :
    ∃ b, checkRange (timeNow d hour min) neg (dayText names ++ start ++ '-' :: stop ++ rest) len = (neg ^^ b) ∧
      (b = true ↔ WithinIncl (Marks names) (number start) (number stop) d (hour * 100 + min)) := by
  have hlen : names.length ≤ (dayText names).length := by
    unfold dayText
    clear hn hmark hlen'
    induction names with
    | nil => simp
    | cons n ns ih =>
      rw [List.flatMap_cons, List.length_append, List.length_cons]
      have : [n.1, n.2].length = 2 := rfl
      omega
  obtain ⟨m1, m2⟩ := markAll_bits names 0 hn (by decide)
  have m3 : ∀ k < 7, ((markAll names 0).testBit k = true ↔ Marks names k) := by
    intro k hk
    rw [m2 k hk]
    simp
  have m4 : markAll names 0 ≠ 0 := by
    obtain ⟨k, hk, hM⟩ := hmark
    intro h
    have := (m3 k hk).mpr hM
    rw [h] at this
    simp at this
  rw [checkRange_append (timeNow d hour min) neg (dayText names ++ start ++ '-' :: stop) rest hr len]
  have hal : ∀ x ∈ (start ++ '-' :: stop).head?, isAlpha x = false := by
    intro x hx
    have hdig : ∀ x, isDigit x = true → isAlpha x = false := by
      intro x hx
      unfold isDigit at hx; unfold isAlpha
      have e0 : '0'.toNat = 48 := rfl
      have e9 : '9'.toNat = 57 := rfl
      have eA : 'A'.toNat = 65 := rfl
      have eZ : 'Z'.toNat = 90 := rfl
      have ea : 'a'.toNat = 97 := rfl
      have ez : 'z'.toNat = 122 := rfl
      rw [decide_eq_true_eq] at hx
      rw [decide_eq_false_iff_not]
      omega
    cases start with
    | nil => simp at hx; subst hx; decide
    | cons y ys => simp at hx; subst hx; exact hdig _ (hsd _ (by simp))
  have hL : (dayText names ++ start ++ '-' :: stop).length = (dayText names).length + start.length + 5 := by
    simp [ht]; omega
  rw [hL] at hlen'
  refine ⟨inWindow (timeNow d hour min) (markAll names 0) (number start) (number stop), ?_, inWindow_iff (Marks names) hd m1 m3⟩
  unfold checkRange
  rw [List.append_assoc, dayLoop_names names 0 _ _ hn hal (by omega)]
  simp only [m4, if_false]
  rw [digits_all start 4 0 ('-' :: stop) _ hsd hs (Or.inr (by intro x hx; simp at hx; subst hx; decide)) (by omega)]
  simp only
  have := digits_all stop 4 0 [] (len - names.length - start.length) htd (by omega) (Or.inl ht) (by omega)
  rw [List.append_nil] at this
  rw [this]
  simp only [ht, ne_eq, not_true_eq_false, if_false]
  rfl

/-- a range does not begin with '!' -/
theorem range_no_bang (names : List (Char × Char)) (s : Str) (hn : AllDays names) (hmark : ∃ k < 7, Marks names k) :
    ∃ c r, dayText names ++ s = c :: r ∧ c ≠ '!' := by
  have hne : names ≠ [] := by
    rintro rfl
    obtain ⟨k, hk, hM⟩ := hmark
    have := (markAll_bits [] 0 hn (by decide)).2 k hk
    simp only [markAll, Nat.zero_testBit, Bool.false_eq_true, false_iff] at this
    exact this (by simpa using hM)
  obtain ⟨n, ns, rfl⟩ := List.exists_cons_of_ne_nil hne
  obtain ⟨l, hl⟩ := Option.isSome_iff_exists.mp (hn n (by simp))
  refine ⟨n.1, _, by simp [dayText]; rfl, ?_⟩
  intro e
  have := (daysOf_alpha hl).1
  rw [e] at this
  revert this; decide

/-- A time range with at least one marked day: the days are those an odd number of its day names cover, the start
minute counts, the end minute counts only on the day after, and it is only the word that counts. -/
theorem C36_window (names : List (Char × Char)) (start stop : Str) (rest : Str) (d hour min : Nat) (hd : d < 7)
    (hn : AllDays names) (hmark : ∃ k < 7, Marks names k) (hs : start.length ≤ 4) (hsd : ∀ c ∈ start, isDigit c = true)
    (ht : stop.length = 4) (htd : ∀ c ∈ stop, isDigit c = true) (hr : ∀ c ∈ rest.head?, isWord c = false) :
    ∃ b, checkTime (timeNow d hour min) (dayText names ++ start ++ '-' :: stop ++ rest)
        (dayText names ++ start ++ '-' :: stop).length = some b ∧
      (b = true ↔ WithinIncl (Marks names) (number start) (number stop) d (hour * 100 + min)) := by
  obtain ⟨b, e1, e2⟩ := checkRange_window names start stop rest d hour min hd hn hmark hs hsd ht htd hr false _ (Nat.le_refl _)
  obtain ⟨c, r, hc, hne'⟩ := range_no_bang names (start ++ '-' :: stop ++ rest) hn hmark
  refine ⟨b, ?_, e2⟩
  rw [Bool.false_xor] at e1
  rw [← e1]
  have hc' : dayText names ++ start ++ '-' :: stop ++ rest = c :: r := by rw [← hc]; simp
  rw [hc']
  unfold checkTime
  split
  · rename_i h; simp at h; exact absurd h.1 hne'
  · rfl

/-- With a '!' before it, the range matches exactly outside the window. -/
theorem C36_outside (names : List (Char × Char)) (start stop : Str) (rest : Str) (d hour min : Nat) (hd : d < 7)
    (hn : AllDays names) (hmark : ∃ k < 7, Marks names k) (hs : start.length ≤ 4) (hsd : ∀ c ∈ start, isDigit c = true)
    (ht : stop.length = 4) (htd : ∀ c ∈ stop, isDigit c = true) (hr : ∀ c ∈ rest.head?, isWord c = false) :
    ∃ b, checkTime (timeNow d hour min) ('!' :: (dayText names ++ start ++ '-' :: stop ++ rest))
        ('!' :: (dayText names ++ start ++ '-' :: stop)).length = some b ∧
      (b = true ↔ ¬ WithinIncl (Marks names) (number start) (number stop) d (hour * 100 + min)) := by
  obtain ⟨b, e1, e2⟩ := checkRange_window names start stop rest d hour min hd hn hmark hs hsd ht htd hr true
    (('!' :: (dayText names ++ start ++ '-' :: stop)).length) (by rw [List.length_cons]; omega)
  refine ⟨!b, ?_, ?_⟩
  · show some (checkRange _ true _ _) = _
    rw [e1, Bool.true_xor]
  · rw [← e2]; cases b <;> simp

/-- The end is not treated alike: 10 o'clock is outside "0900-1000" and inside "2200-1000" of the day before. -/
theorem C36_end_counterexample :
    ¬ ∀ (start stop d t : Nat) (D : Nat → Prop), d < 7 → (WithinIncl D start stop d t ↔ Within D start stop d t) := by
  intro h
  have := h 2200 1000 1 1000 (fun k => k = 0) (by decide)
  simp [WithinIncl, Within, yesterday] at this

/-- Up to that minute the documented reading holds. -/
theorem C36_documented (D : Nat → Prop) (start stop d t : Nat) (h : t ≠ stop ∨ start < stop) :
    WithinIncl D start stop d t ↔ Within D start stop d t := by
  unfold WithinIncl Within
  by_cases hs : start < stop
  · rw [if_pos hs, if_pos hs]
  · rw [if_neg hs, if_neg hs]
    have : t ≤ stop ↔ t < stop := by omega
    rw [this]

/-- A range that begins with something that is not a day name, or whose day names mark no day, never matches. -/
theorem C36_bad_day (names : List (Char × Char)) (a b : Char) (rest : Str) (now : Instant) (len : Nat)
    (hn : AllDays names) (ha : isAlpha a = true) (hb : daysOf a b = none) (hl : names.length < len) :
    checkTime now (dayText names ++ a :: b :: rest) len = some false := by
  have key : ∀ (names : List (Char × Char)) (m len : Nat), AllDays names → names.length < len →
      dayLoop m (dayText names ++ a :: b :: rest) len = none := by
    intro names
    induction names with
    | nil =>
      intro m len _ hl
      show dayLoop m (a :: b :: rest) len = none
      rw [dayLoop, if_pos ⟨hl, ha⟩, dayBit_daysOf, hb]; rfl
    | cons n ns ih =>
      intro m len hn hl
      obtain ⟨l, hd⟩ := Option.isSome_iff_exists.mp (hn n (by simp))
      simp only [List.length_cons] at hl
      show dayLoop m (n.1 :: n.2 :: (dayText ns ++ a :: b :: rest)) len = none
      rw [dayLoop, if_pos ⟨by omega, (daysOf_alpha hd).1⟩, dayBit_daysOf, hd]
      exact ih _ _ (fun x hx => hn x (by simp [hx])) (by omega)
  have hne : ∀ c r, dayText names ++ a :: b :: rest = c :: r → c ≠ '!' := by
    intro c r h e
    subst e
    cases names with
    | nil => simp [dayText] at h; rw [h.1] at ha; revert ha; decide
    | cons n ns =>
      obtain ⟨l, hd⟩ := Option.isSome_iff_exists.mp (hn n (by simp))
      simp [dayText] at h
      have := (daysOf_alpha hd).1
      rw [h.1] at this
      revert this; decide
  unfold checkTime
  split
  · rename_i h; exact absurd rfl (hne _ _ h)
  · unfold checkRange
    rw [key names 0 len hn hl]

/-- A range without a proper end of four digits always matches on any day: a mistyped time is no restriction. -/
theorem C36_bad_time (names : List (Char × Char)) (start rest : Str) (now : Instant) (len : Nat)
    (hn : AllDays names) (hmark : ∃ k < 7, Marks names k) (hs : start.length ≤ 4) (hsd : ∀ c ∈ start, isDigit c = true)
    (hrest : ∀ c ∈ rest.head?, c ≠ '-' ∧ isDigit c = false ∧ isAlpha c = false)
    (hl : names.length + start.length ≤ len) :
    checkTime now (dayText names ++ start ++ rest) len = some true := by
  obtain ⟨m1, m2⟩ := markAll_bits names 0 hn (by decide)
  have m4 : markAll names 0 ≠ 0 := by
    obtain ⟨k, hk, hM⟩ := hmark
    intro h
    have := (m2 k hk).mpr (by simpa using hM)
    rw [h] at this
    simp at this
  have hdig : ∀ x, isDigit x = true → isAlpha x = false := by
    intro x hx
    unfold isDigit at hx; unfold isAlpha
    have e0 : '0'.toNat = 48 := rfl
    have e9 : '9'.toNat = 57 := rfl
    have eA : 'A'.toNat = 65 := rfl
    have eZ : 'Z'.toNat = 90 := rfl
    have ea : 'a'.toNat = 97 := rfl
    have ez : 'z'.toNat = 122 := rfl
    rw [decide_eq_true_eq] at hx
    rw [decide_eq_false_iff_not]
    omega
  have hne : ∀ c r, dayText names ++ start ++ rest = c :: r → c ≠ '!' := by
    intro c r h e
    subst e
    cases names with
    | nil => exact absurd rfl m4
    | cons n ns =>
      obtain ⟨l, hd⟩ := Option.isSome_iff_exists.mp (hn n (by simp))
      simp [dayText] at h
      have := (daysOf_alpha hd).1
      rw [h.1] at this
      revert this; decide
  have hal : ∀ x ∈ (start ++ rest).head?, isAlpha x = false := by
    intro x hx
    cases start with
    | nil => exact (hrest x (by simpa using hx)).2.2
    | cons y ys => simp at hx; subst hx; exact hdig _ (hsd _ (by simp))
  unfold checkTime
  split
  · rename_i h; exact absurd rfl (hne _ _ h)
  · unfold checkRange
    rw [List.append_assoc, dayLoop_names names 0 _ _ hn hal (by omega)]
    simp only [m4, if_false]
    rw [digits_all start 4 0 rest _ hsd hs (Or.inr (fun x hx => (hrest x hx).2.1)) (by omega)]
    simp only
    split
    · rename_i h; exact absurd rfl (hrest '-' (by simp)).1
    · rfl

/-- The same for an end of fewer than four digits. -/
theorem C36_short_end (names : List (Char × Char)) (start stop rest : Str) (now : Instant) (len : Nat)
    (hn : AllDays names) (hmark : ∃ k < 7, Marks names k) (hs : start.length ≤ 4) (hsd : ∀ c ∈ start, isDigit c = true)
    (ht : stop.length < 4) (htd : ∀ c ∈ stop, isDigit c = true) (hrest : ∀ c ∈ rest.head?, isDigit c = false)
    (hl : names.length + start.length + stop.length ≤ len) :
    checkTime now (dayText names ++ start ++ '-' :: stop ++ rest) len = some true := by
  obtain ⟨m1, m2⟩ := markAll_bits names 0 hn (by decide)
  have m4 : markAll names 0 ≠ 0 := by
    obtain ⟨k, hk, hM⟩ := hmark
    intro h
    have := (m2 k hk).mpr (by simpa using hM)
    rw [h] at this
    simp at this
  obtain ⟨c, r, hc, hne'⟩ := range_no_bang names (start ++ '-' :: stop ++ rest) hn hmark
  have hc' : dayText names ++ start ++ '-' :: stop ++ rest = c :: r := by rw [← hc]; simp
  have e : checkTime now (dayText names ++ start ++ '-' :: stop ++ rest) len =
      some (checkRange now false (dayText names ++ (start ++ ('-' :: (stop ++ rest)))) len) := by
    have : dayText names ++ (start ++ ('-' :: (stop ++ rest))) = c :: r := by rw [← hc]; simp
    rw [hc', this]
    unfold checkTime
    split
    · rename_i h; simp at h; exact absurd h.1 hne'
    · rfl
  rw [e]
  have hal : ∀ x ∈ (start ++ ('-' :: (stop ++ rest))).head?, isAlpha x = false := by
    intro x hx
    have hdig : ∀ x, isDigit x = true → isAlpha x = false := by
      intro x hx
      unfold isDigit at hx; unfold isAlpha
      have e0 : '0'.toNat = 48 := rfl
      have e9 : '9'.toNat = 57 := rfl
      have eA : 'A'.toNat = 65 := rfl
      have eZ : 'Z'.toNat = 90 := rfl
      have ea : 'a'.toNat = 97 := rfl
      have ez : 'z'.toNat = 122 := rfl
      rw [decide_eq_true_eq] at hx
      rw [decide_eq_false_iff_not]
      omega
    cases start with
    | nil => simp at hx; subst hx; decide
    | cons y ys => simp at hx; subst hx; exact hdig _ (hsd _ (by simp))
  unfold checkRange
  rw [dayLoop_names names 0 _ _ hn hal (by omega)]
  simp only [m4, if_false]
  rw [digits_all start 4 0 _ _ hsd hs (Or.inr (by intro x hx; simp at hx; subst hx; decide)) (by omega)]
  simp only
  rw [digits_all stop 4 0 rest _ htd (by omega) (Or.inr hrest) (by omega)]
  simp only
  rw [if_pos (by omega)]

/-! The hypotheses can be met. -/

def exTok : Formula := ⟨⟨0, "root".toList⟩, [(.or, ⟨1, "ttyp*".toList⟩)]⟩

theorem exTok_lexes : Lexes "root | !ttyp*".toList exTok.toks := by
  have h1 := Lexes.word "ttyp*".toList (s := []) (ts := []) (by decide) (by decide) (by decide) .nil
  have h2 := Lexes.junk ' ' (by decide) (by decide) (Lexes.or (Lexes.junk ' ' (by decide) (by decide) (Lexes.bang h1)))
  have h3 := Lexes.word "root".toList (s := " | !ttyp*".toList) (ts := _) (by decide) (by decide) (by decide) h2
  exact h3

-- Judges is met by names on a string long enough: the rule "root | !ttyp*" for the string "tty1"
example : logicField (isSame "tty1".toList) "root | !ttyp*".toList =
    some (exTok.value (fun w => w == "tty1".toList)) := by
  apply C35_value _ _ _ _ exTok_lexes
  intro w s hw hs
  simp only [exTok, Formula.toks, Item.toks, List.flatMap_cons, List.flatMap_nil, opTok, List.mem_append, List.mem_cons,
    List.mem_replicate, Tok.word.injEq, List.not_mem_nil, or_false, reduceCtorEq, and_false, false_or] at hw
  rcases hw with rfl | rfl <;> (rw [isSame, sameLoop_append]; decide)

example : logicField (isSame "tty1".toList) "root | !ttyp*".toList = some true := by decide +kernel
-- malformed: two names with no operator
example : logicField (isSame "a".toList) "a a".toList = some false := by decide +kernel
-- "a &" is not a list, but matches
theorem C35_malformed_counterexample : logicField (isSame "a".toList) "a &".toList = some true := by decide +kernel
example : isSame "tty1".toList "tty*".toList 4 = some true := by decide
example : isSame "aba".toList "ab*ba".toList 5 = some true := by decide
example : isSame "a".toList "*ttyxx".toList 6 = none := by decide
-- Monday to Friday without Friday, 9 to 17
example : checkTime (timeNow 4 16 59) "WkFr0900-1700".toList 13 = some true := by decide +kernel
example : checkTime (timeNow 5 12 0) "WkFr0900-1700".toList 13 = some false := by decide +kernel
example : AllDays [('W', 'k'), ('F', 'r')] ∧ Marks [('W', 'k'), ('F', 'r')] 4 ∧ ¬ Marks [('W', 'k'), ('F', 'r')] 5 := by
  decide +kernel
example : daysOf 'x' 'y' = none ∧ isAlpha 'x' = true := by decide
example : checkTime (timeNow 4 16 59) "Al0900".toList 6 = some true := by decide +kernel
example : checkTime (timeNow 4 16 59) "!Al0900-1700".toList 12 = some false := by decide +kernel
example : checkTime (timeNow 4 3 0) "Al0900-17".toList 9 = some true := by decide +kernel

end Pam.Time
