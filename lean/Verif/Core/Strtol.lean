import Verif.Core.Text
/-
Model of `strtol` and its relatives (libc, not in the repository) in the C locale, as used by the
modules, and what a written number means.
-/
namespace Pam

/-- the value of a character as a digit; 99 if it is none -/
def digitVal (c : Char) : Nat :=
  if isDigit c then c.toNat - 48
  else if 97 ≤ c.toNat ∧ c.toNat ≤ 122 then c.toNat - 87
  else if 65 ≤ c.toNat ∧ c.toNat ≤ 90 then c.toNat - 55
  else 99

/-- a digit of base `b`? -/
def isDigitOf (b : Nat) (c : Char) : Bool := decide (digitVal c < b)

/-- read digits as long as there are some -/
def magnitude (b : Nat) : (acc : Nat) → List Char → Nat × List Char
  | acc, [] => (acc, [])
  | acc, c :: r => if isDigitOf b c then magnitude b (acc * b + digitVal c) r else (acc, c :: r)

/-- the optional sign: is it negative, and what follows -/
def takeSign : List Char → Bool × List Char
  | [] => (false, [])
  | c :: r => if c = '-' then (true, r) else if c = '+' then (false, r) else (false, c :: r)

/-- `0x` before a hexadecimal digit -/
def hexPrefix : List Char → Option (List Char)
  | a :: x :: h :: r => if a = '0' ∧ (x = 'x' ∨ x = 'X') ∧ isDigitOf 16 h then some (h :: r) else none
  | _ => none

/-- the base in force and the digits: base 0 looks at the prefix -/
def takeBase (base : Nat) (u : List Char) : Nat × List Char :=
  if base = 0 ∨ base = 16 then
    match hexPrefix u with
    | some d => (16, d)
    | none => if base = 16 then (16, u) else if u.head? = some '0' then (8, u) else (10, u)
  else (base, u)

/-- does a number begin here? -/
def beginsNumber (b : Nat) : List Char → Bool
  | [] => false
  | c :: _ => isDigitOf b c

/-- `strtol(s, &end, base)` before the result is forced into the range of its type: the value and
`end`, which is `s` itself if there is no number. -/
def strtoInt (base : Nat) (s : List Char) : Int × List Char :=
  let t := takeSign (s.dropWhile isSpace)
  let d := takeBase base t.2
  if beginsNumber d.1 d.2 then
    let m := magnitude d.1 0 d.2
    (if t.1 then -(m.1 : Int) else (m.1 : Int), m.2)
  else (0, s)

/-- the value written by digits of base `b` -/
def valueOf (b : Nat) (ds : List Char) : Nat := ds.foldl (fun a c => a * b + digitVal c) 0

/-- The whole text is a number as C writes them: decimal, octal after 0, hexadecimal after 0x. -/
def Literal (u : List Char) (n : Nat) : Prop :=
  (∃ x ds, u = '0' :: x :: ds ∧ (x = 'x' ∨ x = 'X') ∧ ds ≠ [] ∧ (∀ c ∈ ds, isDigitOf 16 c) ∧ n = valueOf 16 ds) ∨
  (∃ ds, u = '0' :: ds ∧ (∀ c ∈ ds, isDigitOf 8 c) ∧ n = valueOf 8 ds) ∨
  (∃ c ds, u = c :: ds ∧ c ≠ '0' ∧ (∀ c ∈ u, isDigitOf 10 c) ∧ n = valueOf 10 u)

/-- blanks, an optional sign and then `u` with the value `n`; altogether the value is `v` -/
def Signed (P : List Char → Nat → Prop) (s : List Char) (v : Int) : Prop :=
  ∃ ws u n, (∀ c ∈ ws, isSpace c) ∧ P u n ∧
    ((s = ws ++ u ∧ v = n) ∨ (s = ws ++ '+' :: u ∧ v = n) ∨ (s = ws ++ '-' :: u ∧ v = -n))

/-- the text is a number in C notation -/
def Numeral (s : List Char) (v : Int) : Prop := Signed Literal s v

/-- the digits of base `b`, at least one -/
def Digits (b : Nat) (u : List Char) (n : Nat) : Prop := u ≠ [] ∧ (∀ c ∈ u, isDigitOf b c) ∧ n = valueOf b u

theorem magnitude_all (b : Nat) : ∀ (ds : List Char) (acc : Nat), (∀ c ∈ ds, isDigitOf b c) →
    magnitude b acc ds = (ds.foldl (fun a c => a * b + digitVal c) acc, [])
  | [], acc, _ => rfl
  | c :: r, acc, h => by
    rw [magnitude, if_pos (h c (by simp)), magnitude_all b r _ (fun d hd => h d (by simp [hd]))]
    rfl

theorem magnitude_end (b : Nat) : ∀ (ds : List Char) (acc : Nat), (magnitude b acc ds).2 = [] →
    ∀ c ∈ ds, isDigitOf b c
  | [], _, _ => by simp
  | c :: r, acc, h => by
    rw [magnitude] at h
    split at h
    next hc =>
      intro d hd
      rcases List.mem_cons.mp hd with rfl | hd
      · exact hc
      · exact magnitude_end b r _ h d hd
    next => simp at h

theorem beginsNumber_of {b : Nat} {u : List Char} (hne : u ≠ []) (h : ∀ c ∈ u, isDigitOf b c) :
    beginsNumber b u := by
  cases u with
  | nil => exact absurd rfl hne
  | cons c r => exact h c (by simp)

theorem magnitude_length (b : Nat) : ∀ (ds : List Char) (acc : Nat), (magnitude b acc ds).2.length ≤ ds.length
  | [], _ => by simp [magnitude]
  | c :: r, acc => by
    rw [magnitude]; split
    · have := magnitude_length b r (acc * b + digitVal c); simp; omega
    · simp

/-- a digit of base at most 16 is no blank and no sign -/
theorem digit_not_space {b : Nat} {c : Char} (hb : b ≤ 36) (h : isDigitOf b c) :
    isSpace c = false ∧ c ≠ '-' ∧ c ≠ '+' := by
  have key : ∀ d : Char, 36 ≤ digitVal d → c ≠ d := by
    intro d hd e; subst e
    simp only [isDigitOf, decide_eq_true_eq] at h; omega
  refine ⟨?_, key _ (by decide), key _ (by decide)⟩
  cases hs : isSpace c with
  | false => rfl
  | true =>
    simp only [isSpace, Bool.or_eq_true, beq_iff_eq] at hs
    rcases hs with ((((h | h) | h) | h) | h) | h <;> exact absurd h (key _ (by decide))

theorem dropWhile_blanks {ws u : List Char} (hw : ∀ c ∈ ws, isSpace c) (hu : ∀ c, u.head? = some c → isSpace c = false) :
    (ws ++ u).dropWhile isSpace = u := by
  induction ws with
  | nil =>
    cases u with
    | nil => rfl
    | cons c r => simp [List.dropWhile_cons, hu c rfl]
  | cons w ws ih =>
    rw [List.cons_append, List.dropWhile_cons, if_pos (hw w (by simp))]
    exact ih (fun c hc => hw c (by simp [hc]))

theorem split_blanks (s : List Char) : ∃ ws, (∀ c ∈ ws, isSpace c) ∧ s = ws ++ s.dropWhile isSpace := by
  induction s with
  | nil => exact ⟨[], by simp, rfl⟩
  | cons c r ih =>
    rw [List.dropWhile_cons]
    split
    next h =>
      obtain ⟨ws, hw, e⟩ := ih
      refine ⟨c :: ws, ?_, by rw [List.cons_append, ← e]⟩
      intro d hd
      rcases List.mem_cons.mp hd with rfl | hd
      · exact h
      · exact hw d hd
    next => exact ⟨[], by simp, rfl⟩

/-- the sign and what follows -/
theorem takeSign_spec (t : List Char) :
    (t = (takeSign t).2 ∧ (takeSign t).1 = false) ∨ (t = '+' :: (takeSign t).2 ∧ (takeSign t).1 = false) ∨
    (t = '-' :: (takeSign t).2 ∧ (takeSign t).1 = true) := by
  cases t with
  | nil => left; exact ⟨rfl, rfl⟩
  | cons c r =>
    rw [takeSign]
    by_cases h1 : c = '-'
    · subst h1; simp
    · by_cases h2 : c = '+'
      · subst h2; simp
      · simp [h1, h2]

/-- the text of a number is read whole, up to the range -/
theorem strtoInt_signed {base : Nat} {P : List Char → Nat → Prop}
    (hP : ∀ u n, P u n → ∃ b d, takeBase base u = (b, d) ∧ d ≠ [] ∧ (∀ c ∈ d, isDigitOf b c) ∧ n = valueOf b d ∧
      ∃ c r, u = c :: r ∧ isSpace c = false ∧ c ≠ '-' ∧ c ≠ '+')
    {s : List Char} {v : Int} (h : Signed P s v) : strtoInt base s = (v, []) ∧ s ≠ [] := by
  obtain ⟨ws, u, n, hw, hu, h⟩ := h
  obtain ⟨b, d, hb, hd, hall, hn, c, r, hc, hsp, hm, hp⟩ := hP u n hu
  have hbeg := beginsNumber_of hd hall
  have hmag : magnitude b 0 d = (n, []) := by rw [magnitude_all b d 0 hall, hn]; rfl
  rcases h with ⟨rfl, rfl⟩ | ⟨rfl, rfl⟩ | ⟨rfl, rfl⟩
  · refine ⟨?_, by simp [hc]⟩
    have e : (ws ++ u).dropWhile isSpace = u := dropWhile_blanks hw (by intro x hx; rw [hc] at hx; cases hx; exact hsp)
    have e2 : takeSign u = (false, u) := by rw [hc, takeSign, if_neg hm, if_neg hp]
    simp only [strtoInt, e, e2, hb, hbeg, hmag, if_true]; rfl
  · refine ⟨?_, by simp⟩
    have e : (ws ++ '+' :: u).dropWhile isSpace = '+' :: u := dropWhile_blanks hw (by intro x hx; cases hx; decide)
    have e2 : takeSign ('+' :: u) = (false, u) := by rw [takeSign, if_neg (by decide), if_pos rfl]
    simp only [strtoInt, e, e2, hb, hbeg, hmag, if_true]; rfl
  · refine ⟨?_, by simp⟩
    have e : (ws ++ '-' :: u).dropWhile isSpace = '-' :: u := dropWhile_blanks hw (by intro x hx; cases hx; decide)
    have e2 : takeSign ('-' :: u) = (true, u) := by rw [takeSign, if_pos rfl]
    simp only [strtoInt, e, e2, hb, hbeg, hmag, if_true]

/-- and only such a text is -/
theorem signed_strtoInt {base : Nat} {P : List Char → Nat → Prop}
    (hP : ∀ u b d, takeBase base u = (b, d) → d ≠ [] → (∀ c ∈ d, isDigitOf b c) → P u (valueOf b d))
    {s : List Char} {v : Int} (h : strtoInt base s = (v, [])) (hs : s ≠ []) : Signed P s v := by
  obtain ⟨ws, hw, e⟩ := split_blanks s
  have hsg := takeSign_spec (s.dropWhile isSpace)
  simp only [strtoInt] at h
  generalize ht : takeSign (s.dropWhile isSpace) = t at h hsg
  obtain ⟨sg, u⟩ := t
  simp only at h hsg
  generalize hd : takeBase base u = d at h
  obtain ⟨b, d⟩ := d
  simp only at h
  split at h
  next hbeg =>
    have hall : ∀ c ∈ d, isDigitOf b c := magnitude_end b d 0 (by
      have := congrArg Prod.snd h; simpa using this)
    have hne : d ≠ [] := by intro e; subst e; simp [beginsNumber] at hbeg
    have hm : magnitude b 0 d = (valueOf b d, []) := by rw [magnitude_all b d 0 hall]; rfl
    rw [hm] at h
    have hv := congrArg Prod.fst h
    refine ⟨ws, u, valueOf b d, hw, hP u b d hd hne hall, ?_⟩
    rcases hsg with ⟨h1, h2⟩ | ⟨h1, h2⟩ | ⟨h1, h2⟩
    · left; rw [h2] at hv; exact ⟨by rw [← h1]; exact e, by simpa using hv.symm⟩
    · right; left; rw [h2] at hv; exact ⟨by rw [← h1]; exact e, by simpa using hv.symm⟩
    · right; right; rw [h2] at hv; exact ⟨by rw [← h1]; exact e, by simpa using hv.symm⟩
  next => exact absurd (congrArg Prod.snd h) (by simpa using hs)

theorem hexPrefix_some {u d : List Char} (h : hexPrefix u = some d) :
    ∃ x, u = '0' :: x :: d ∧ (x = 'x' ∨ x = 'X') ∧ d ≠ [] := by
  unfold hexPrefix at h
  split at h
  next a x hh r =>
    split at h
    next hc => cases h; exact ⟨x, by rw [hc.1], hc.2.1, by simp⟩
    next => exact absurd h (by simp)
  next => exact absurd h (by simp)

/-- `strtol` with base 0 reads the whole text exactly if it is a number in C notation. -/
theorem strtoInt_zero (s : List Char) (v : Int) : (strtoInt 0 s = (v, []) ∧ s ≠ []) ↔ Numeral s v := by
  constructor
  · rintro ⟨h, hs⟩
    refine signed_strtoInt ?_ h hs
    intro u b d hb hne hall
    unfold takeBase at hb
    rw [if_pos (Or.inl rfl)] at hb
    cases hx : hexPrefix u with
    | some d' =>
      rw [hx] at hb; cases hb
      obtain ⟨x, e, hx, -⟩ := hexPrefix_some hx
      exact Or.inl ⟨x, _, e, hx, hne, hall, rfl⟩
    | none =>
      rw [hx] at hb
      simp only at hb
      rw [if_neg (by decide)] at hb
      split at hb
      next h0 =>
        cases hb
        cases u with
        | nil => cases h0
        | cons c r =>
          cases h0
          refine Or.inr (Or.inl ⟨r, rfl, fun c hc => hall c (by simp [hc]), ?_⟩)
          simp [valueOf, digitVal, isDigit]
      next h0 =>
        cases hb
        cases u with
        | nil => exact absurd rfl hne
        | cons c r =>
          exact Or.inr (Or.inr ⟨c, r, rfl, fun e => h0 (by simp [e]), hall, rfl⟩)
  · intro h
    refine strtoInt_signed ?_ h
    intro u n hu
    rcases hu with ⟨x, ds, rfl, hx, hne, hall, rfl⟩ | ⟨ds, rfl, hall, rfl⟩ | ⟨c, ds, rfl, hc, hall, rfl⟩
    · refine ⟨16, ds, ?_, hne, hall, rfl, '0', _, rfl, by decide, by decide, by decide⟩
      cases ds with
      | nil => exact absurd rfl hne
      | cons h r =>
        have : hexPrefix ('0' :: x :: h :: r) = some (h :: r) := by
          rw [hexPrefix, if_pos ⟨rfl, hx, hall h (by simp)⟩]
        unfold takeBase
        rw [if_pos (Or.inl rfl), this]
    · refine ⟨8, '0' :: ds, ?_, by simp, ?_, ?_, '0', ds, rfl, by decide, by decide, by decide⟩
      · have : hexPrefix ('0' :: ds) = none := by
          cases hx : hexPrefix ('0' :: ds) with
          | none => rfl
          | some d =>
            obtain ⟨x, e, hx, -⟩ := hexPrefix_some hx
            have := hall x (by cases e; simp)
            rcases hx with rfl | rfl <;> exact absurd this (by decide)
        unfold takeBase
        rw [if_pos (Or.inl rfl), this]
        simp
      · intro c hc
        rcases List.mem_cons.mp hc with rfl | hc
        · decide
        · exact hall c hc
      · simp [valueOf, digitVal, isDigit]
    · have h1 := hall c (by simp)
      obtain ⟨hsp, hm, hp⟩ := digit_not_space (by decide) h1
      refine ⟨10, c :: ds, ?_, by simp, hall, rfl, c, ds, rfl, hsp, hm, hp⟩
      have : hexPrefix (c :: ds) = none := by
        cases hx : hexPrefix (c :: ds) with
        | none => rfl
        | some d =>
          obtain ⟨x, e, hx, -⟩ := hexPrefix_some hx
          cases e; exact absurd rfl hc
      unfold takeBase
      rw [if_pos (Or.inl rfl), this]
      simp [hc]

/-- `strtol` with a fixed base (other than 16) reads the whole text exactly if it is a number of that
base. -/
theorem strtoInt_base (b : Nat) (h0 : b ≠ 0) (h16 : b ≠ 16) (h36 : b ≤ 36) (s : List Char) (v : Int) :
    (strtoInt b s = (v, []) ∧ s ≠ []) ↔ Signed (Digits b) s v := by
  have hb : ∀ u, takeBase b u = (b, u) := by
    intro u; unfold takeBase; rw [if_neg (by simp [h0, h16])]
  constructor
  · rintro ⟨h, hs⟩
    refine signed_strtoInt ?_ h hs
    intro u b' d hb' hne hall
    rw [hb] at hb'; cases hb'
    exact ⟨hne, hall, rfl⟩
  · refine strtoInt_signed ?_
    rintro u n ⟨hne, hall, hn⟩
    refine ⟨b, u, hb u, hne, hall, hn, ?_⟩
    cases u with
    | nil => exact absurd rfl hne
    | cons c r => exact ⟨c, r, rfl, digit_not_space h36 (hall c (by simp))⟩

example : strtoInt 0 " -0x1F".toList = (-31, []) := by decide
example : strtoInt 0 "010".toList = (8, []) := by decide
example : strtoInt 0 "0xg".toList = (0, "xg".toList) := by decide
example : strtoInt 10 "x".toList = (0, "x".toList) := by decide

/-! ### numbers printed in decimal -/

theorem digitVal_digitChar {d : Nat} (h : d < 10) : digitVal (Nat.digitChar d) = d := by
  revert d; decide

theorem digitChar_zero {d : Nat} (h : d < 10) : Nat.digitChar d = '0' ↔ d = 0 := by
  revert d; decide

/-- what `%lu` prints reads back -/
theorem toDigits_spec (n : Nat) : Nat.toDigits 10 n ≠ [] ∧ (∀ c ∈ Nat.toDigits 10 n, isDigitOf 10 c) ∧
    valueOf 10 (Nat.toDigits 10 n) = n ∧ ((Nat.toDigits 10 n).head? = some '0' → n = 0) := by
  induction n using Nat.strongRecOn with
  | ind n ih =>
    by_cases h : n < 10
    · rw [Nat.toDigits_of_lt_base h]
      refine ⟨by simp, ?_, ?_, ?_⟩
      · intro c hc; rw [List.mem_singleton] at hc; subst hc
        simp only [isDigitOf, digitVal_digitChar h, decide_eq_true_eq]; exact h
      · simp [valueOf, digitVal_digitChar h]
      · intro e
        exact (digitChar_zero h).mp (by simpa using e)
    · have hd : 0 < n / 10 := Nat.div_pos (by omega) (by decide)
      obtain ⟨h1, h2, h3, h4⟩ := ih (n / 10) (by omega)
      have hm : n % 10 < 10 := Nat.mod_lt _ (by decide)
      have e : Nat.toDigits 10 n = Nat.toDigits 10 (n / 10) ++ [Nat.digitChar (n % 10)] := by
        have := Nat.toDigits_append_toDigits (b := 10) (n := n / 10) (d := n % 10) (by decide) hd hm
        rw [Nat.toDigits_of_lt_base hm] at this
        rw [this]; congr 1; omega
      rw [e]
      refine ⟨by simp, ?_, ?_, ?_⟩
      · intro c hc
        rcases List.mem_append.mp hc with hc | hc
        · exact h2 c hc
        · rw [List.mem_singleton] at hc; subst hc
          simp only [isDigitOf, digitVal_digitChar hm, decide_eq_true_eq]; exact hm
      · have : valueOf 10 (Nat.toDigits 10 (n / 10) ++ [Nat.digitChar (n % 10)])
            = valueOf 10 (Nat.toDigits 10 (n / 10)) * 10 + digitVal (Nat.digitChar (n % 10)) := by
          simp [valueOf, List.foldl_append]
        rw [this, h3, digitVal_digitChar hm]; omega
      · intro hh
        cases hq : Nat.toDigits 10 (n / 10) with
        | nil => exact absurd hq h1
        | cons c r =>
          rw [hq] at hh h4
          have := h4 (by simpa using hh); omega

theorem numeral_toDigits (n : Nat) : Numeral (Nat.toDigits 10 n) n := by
  obtain ⟨h1, h2, h3, h4⟩ := toDigits_spec n
  refine ⟨[], Nat.toDigits 10 n, n, by simp, ?_, Or.inl ⟨rfl, rfl⟩⟩
  cases hd : Nat.toDigits 10 n with
  | nil => exact absurd hd h1
  | cons c r =>
    by_cases hc : c = '0'
    · have hn := h4 (by rw [hd, hc]; rfl)
      subst hn
      have hd' : Nat.toDigits 10 0 = ['0'] := by decide
      rw [hd'] at hd
      cases hd
      exact Or.inr (Or.inl ⟨[], rfl, by simp, rfl⟩)
    · rw [hd] at h2 h3
      exact Or.inr (Or.inr ⟨c, r, rfl, hc, h2, h3.symm⟩)

end Pam
