import Verif.Limits.Props
/-
C60: the forms of domains.
-/
namespace Pam.Limits
open Pam Pam.Limits.Spec
open Pam.Access hiding Entry

/-! ## numbers before a colon -/

theorem magnitude_colon : ∀ (t : Str) (b : Str) (acc : Nat),
    magnitude 10 acc (t ++ ':' :: b) = ((magnitude 10 acc t).1, (magnitude 10 acc t).2 ++ ':' :: b)
  | [], b, acc => by
    show (if isDigitOf 10 ':' = true then _ else (acc, ':' :: b)) = (acc, [] ++ ':' :: b)
    rw [if_neg (by decide)]
    rfl
  | c :: t, b, acc => by
    rw [List.cons_append, magnitude, magnitude]
    by_cases h : isDigitOf 10 c = true
    · rw [if_pos h, if_pos h, magnitude_colon t b]
    · rw [if_neg h, if_neg h]
      rfl

theorem dropWhile_colon (a b : Str) : (a ++ ':' :: b).dropWhile isSpace = a.dropWhile isSpace ++ ':' :: b := by
  induction a with
  | nil => rw [List.nil_append, List.dropWhile_cons, if_neg (by decide)]; rfl
  | cons c a ih =>
    rw [List.cons_append, List.dropWhile_cons, List.dropWhile_cons]
    by_cases h : isSpace c = true
    · rw [if_pos h, if_pos h, ih]
    · rw [if_neg h, if_neg h]; rfl

theorem takeSign_colon (t b : Str) : takeSign (t ++ ':' :: b) = ((takeSign t).1, (takeSign t).2 ++ ':' :: b) := by
  cases t with
  | nil => rfl
  | cons c t =>
    rw [List.cons_append, takeSign, takeSign]
    by_cases h1 : c = '-'
    · rw [if_pos h1, if_pos h1]
    · rw [if_neg h1, if_neg h1]
      by_cases h2 : c = '+'
      · rw [if_pos h2, if_pos h2]
      · rw [if_neg h2, if_neg h2]; rfl

theorem begins_colon (t b : Str) : beginsNumber 10 (t ++ ':' :: b) = beginsNumber 10 t := by
  cases t with
  | nil => exact (by decide : isDigitOf 10 ':' = false)
  | cons c t => rfl

theorem takeBase_ten (u : Str) : takeBase 10 u = (10, u) := by
  unfold takeBase
  rw [if_neg (by decide)]

theorem strtoInt_colon (a b : Str) : strtoInt 10 (a ++ ':' :: b) = ((strtoInt 10 a).1, (strtoInt 10 a).2 ++ ':' :: b) := by
  unfold strtoInt
  simp only [dropWhile_colon, takeSign_colon, takeBase_ten, begins_colon, magnitude_colon]
  split <;> rfl

theorem magnitude_suffix : ∀ (t : Str) (acc : Nat), ∀ c ∈ (magnitude 10 acc t).2, c ∈ t
  | [], _ => fun c hc => hc
  | x :: t, acc => by
    intro c hc
    rw [magnitude] at hc
    split at hc
    · exact List.mem_cons_of_mem _ (magnitude_suffix t _ c hc)
    · exact hc

theorem strtoInt_suffix (s : Str) : ∀ c ∈ (strtoInt 10 s).2, c ∈ s := by
  intro c hc
  unfold strtoInt at hc
  simp only [takeBase_ten] at hc
  split at hc
  · have h1 := magnitude_suffix _ _ c hc
    have h2 : c ∈ s.dropWhile isSpace := by
      rcases takeSign_spec (s.dropWhile isSpace) with h | h | h
      · rw [h.1]; exact h1
      · rw [h.1]; exact List.mem_cons_of_mem _ h1
      · rw [h.1]; exact List.mem_cons_of_mem _ h1
    exact (List.dropWhile_sublist _).subset h2
  · exact hc

theorem ulong_mod {v : Int} (h : v.natAbs < 2 ^ 64) : ((ulong v % 2 ^ 32 : Nat) : Int) = v % 2 ^ 32 := by
  unfold ulong
  rw [if_pos h]
  split <;> omega

theorem not_overflows {v : Int} : ¬ (overflows v = true) ↔ v.natAbs < 2 ^ 64 := by
  unfold overflows
  rw [decide_eq_true_eq]
  omega

theorem num_iff {s : Str} {n : Nat} : Num s n ↔ s ≠ [] ∧ (strtoInt 10 s).2 = [] ∧ ¬ (overflows (strtoInt 10 s).1 = true) ∧
    n = ulong (strtoInt 10 s).1 % 2 ^ 32 := by
  unfold Num
  constructor
  · rintro ⟨v, h1, h2, h3⟩
    obtain ⟨e, hne⟩ := strtoInt_signed10 h1
    rw [e]
    refine ⟨hne, rfl, not_overflows.mpr h2, ?_⟩
    have := ulong_mod h2
    simp only
    omega
  · rintro ⟨h1, h2, h3, h4⟩
    have h5 := not_overflows.mp h3
    refine ⟨(strtoInt 10 s).1, (strtoInt_base 10 (by decide) (by decide) (by decide) s _).mp ⟨?_, h1⟩, h5, ?_⟩
    · rw [← h2]
    · rw [h4, ulong_mod h5]

theorem rangeMax_iff {s : Str} {n : Nat} : rangeMax s = some n ↔ Num s n := by
  rw [num_iff]
  unfold rangeMax
  simp only
  constructor
  · intro h
    split at h
    · cases h
    · rename_i hn
      cases h
      refine ⟨fun e => hn (Or.inr (Or.inl ?_)), ?_, fun h => hn (Or.inl h), rfl⟩
      · rw [e]; rfl
      · exact Decidable.of_not_not (fun h => hn (Or.inr (Or.inr h)))
  · rintro ⟨h1, h2, h3, h4⟩
    rw [if_neg, h4]
    rintro (h | h | h)
    · exact h3 h
    · rw [h2] at h; exact h1 h.symm
    · exact h h2

theorem rangeMin_iff {a b : Str} {n : Nat} (ha : ':' ∉ a) : rangeMin (a ++ ':' :: b) = some n ↔ Num a n := by
  rw [num_iff]
  unfold rangeMin
  simp only [strtoInt_colon]
  constructor
  · intro h
    split at h
    · cases h
    · rename_i hn
      cases h
      have h2 : (strtoInt 10 a).2 = [] := by
        cases he : (strtoInt 10 a).2 with
        | nil => rfl
        | cons c t =>
          exfalso
          refine hn (Or.inr (Or.inr ?_))
          rw [he]
          intro hc
          cases hc
          exact ha (strtoInt_suffix a ':' (by rw [he]; simp))
      refine ⟨fun e => hn (Or.inr (Or.inl ?_)), h2, fun h => hn (Or.inl h), rfl⟩
      rw [e]; rfl
  · rintro ⟨h1, h2, h3, h4⟩
    rw [if_neg, h4]
    rintro (h | h | h)
    · exact h3 h
    · rw [h2, List.nil_append] at h
      have := congrArg List.length h
      simp only [List.length_append, List.length_cons] at this
      have := List.length_pos_iff.mpr h1
      omega
    · rw [h2] at h
      exact h rfl

theorem num_colon {s : Str} {n : Nat} (h : Num s n) : ':' ∉ s := by
  obtain ⟨v, ⟨ws, u, m, hw, ⟨_, hd, _⟩, hs⟩, _⟩ := h
  have h1 : ':' ∉ ws := fun h => absurd (hw _ h) (by decide)
  have h2 : ':' ∉ u := fun h => absurd (hd _ h) (by decide)
  rcases hs with ⟨e, _⟩ | ⟨e, _⟩ | ⟨e, _⟩ <;> (rw [e]; simp [h1, h2])

theorem num_head {s : Str} {n : Nat} (h : Num s n) : s ≠ [] ∧ s.head? ≠ some '@' ∧ s.head? ≠ some '%' ∧ s.head? ≠ some ':' := by
  obtain ⟨v, ⟨ws, u, m, hw, ⟨hu, hd, _⟩, hs⟩, _⟩ := h
  have key : ∀ c, isSpace c = false → isDigitOf 10 c = false → c ≠ '+' → c ≠ '-' → s.head? ≠ some c := by
    intro c c1 c2 c3 c4 hc
    cases ws with
    | cons w ws =>
      have hww := hw w (by simp)
      rcases hs with ⟨e, _⟩ | ⟨e, _⟩ | ⟨e, _⟩ <;>
        (rw [e] at hc; cases hc; rw [c1] at hww; exact absurd hww (by decide))
    | nil =>
      cases u with
      | nil => exact hu rfl
      | cons x u =>
        have hx := hd x (by simp)
        rcases hs with ⟨e, _⟩ | ⟨e, _⟩ | ⟨e, _⟩
        · rw [e] at hc; cases hc; rw [c2] at hx; exact absurd hx (by decide)
        · rw [e] at hc; cases hc; exact c3 rfl
        · rw [e] at hc; cases hc; exact c4 rfl
  refine ⟨?_, key _ (by decide) (by decide) (by decide) (by decide), key _ (by decide) (by decide) (by decide) (by decide),
    key _ (by decide) (by decide) (by decide) (by decide)⟩
  rintro rfl
  cases ws with
  | cons w ws => rcases hs with ⟨e, _⟩ | ⟨e, _⟩ | ⟨e, _⟩ <;> cases e
  | nil => rcases hs with ⟨e, _⟩ | ⟨e, _⟩ | ⟨e, _⟩
           · exact hu e.symm
           · cases e
           · cases e

/-! ## ranges -/

/-- the range without the sign before it -/
inductive RangeForm : Str → Range → Prop
  | none {s} : ':' ∉ s → RangeForm s .none
  | one {s n} : Num s n → RangeForm (':' :: s) (.one n)
  | min {a n} : Num a n → RangeForm (a ++ [':']) (.min n)
  | mm {a b lo hi} : Num a lo → Num b hi → RangeForm (a ++ ':' :: b) (.mm lo hi)

/-- the text without a sign -/
def body (d : Str) : Str := if d.head? = some '@' ∨ d.head? = some '%' then d.drop 1 else d

theorem mem_body {d : Str} : ':' ∈ d ↔ ':' ∈ body d := by
  unfold body
  split
  · rename_i h
    cases d with
    | nil => rfl
    | cons c d =>
      simp only [List.drop_succ_cons, List.drop_zero, List.mem_cons]
      constructor
      · rintro (e | e)
        · subst e; simp at h
        · exact e
      · exact Or.inr
  · rfl

theorem tail_body {d : Str} : (d.dropWhile (fun c => decide (c ≠ ':'))).drop 1 = ((body d).dropWhile (fun c => decide (c ≠ ':'))).drop 1 := by
  unfold body
  split
  · rename_i h
    cases d with
    | nil => rfl
    | cons c d =>
      rw [List.dropWhile_cons, if_pos (by
        rcases h with h | h <;> (cases h; decide))]
      rfl
  · rfl

theorem split_colon {s : Str} (h : ':' ∈ s) : ∃ a b, s = a ++ ':' :: b ∧ ':' ∉ a := by
  induction s with
  | nil => cases h
  | cons c s ih =>
    by_cases hc : c = ':'
    · exact ⟨[], s, by rw [hc]; rfl, by simp⟩
    · rcases List.mem_cons.mp h with e | h
      · exact absurd e.symm hc
      · obtain ⟨a, b, e, ha⟩ := ih h
        refine ⟨c :: a, b, by rw [e]; rfl, ?_⟩
        intro hm
        rcases List.mem_cons.mp hm with e | hm
        · exact hc e.symm
        · exact ha hm

theorem after_colon {a b : Str} (ha : ':' ∉ a) : ((a ++ ':' :: b).dropWhile (fun c => decide (c ≠ ':'))).drop 1 = b := by
  have := dropWhile_gap (p := fun c => decide (c ≠ ':')) (g := a) (t := ':' :: b)
    (fun c hc => decide_eq_true (fun e => ha (by rw [← e]; exact hc))) (fun c hc => by cases hc; decide)
  rw [this]
  rfl

/-- the range in the text without the sign -/
def rangeBody (s : Str) : Range :=
  if s.head? = some ':' then
    if (s.dropWhile (· ≠ ':')).drop 1 = [] then .err
    else match rangeMax ((s.dropWhile (· ≠ ':')).drop 1) with
      | none => .err
      | some m => .one m
  else match rangeMin s with
    | none => .err
    | some lo =>
      if (s.dropWhile (· ≠ ':')).drop 1 = [] then .min lo
      else match rangeMax ((s.dropWhile (· ≠ ':')).drop 1) with
        | none => .err
        | some hi => .mm lo hi

theorem parseRange_body (d : Str) : parseRange d = if ':' ∉ d then .none else rangeBody (body d) := by
  unfold parseRange
  by_cases h : ':' ∉ d
  · rw [if_pos h, if_pos h]
  · rw [if_neg h, if_neg h]
    simp only
    rw [tail_body]
    rfl

theorem parseRange_iff {d : Str} {rng : Range} : (parseRange d = rng ∧ rng ≠ .err) ↔ RangeForm (body d) rng := by
  rw [parseRange_body]
  by_cases hc : ':' ∈ d
  · rw [if_neg (by simpa using hc)]
    unfold rangeBody
    obtain ⟨a, b, e, ha⟩ := split_colon (mem_body.mp hc)
    rw [e, after_colon ha]
    by_cases hane : a = []
    · subst hane
      rw [if_pos (show List.head? ([] ++ ':' :: b) = some ':' from rfl)]
      constructor
      · rintro ⟨h, hne⟩
        by_cases hb : b = []
        · rw [if_pos hb] at h; exact absurd h.symm hne
        · rw [if_neg hb] at h
          cases hm : rangeMax b with
          | none => rw [hm] at h; exact absurd h.symm hne
          | some n =>
            rw [hm] at h
            simp only at h
            subst h
            exact .one (rangeMax_iff.mp hm)
      · intro h
        generalize hs : ([] ++ ':' :: b : Str) = s at h
        cases h with
        | none h => exact absurd (by rw [← hs]; simp) h
        | one h =>
          cases hs
          rw [if_neg (num_head h).1, rangeMax_iff.mpr h]
          exact ⟨rfl, by simp⟩
        | min h =>
          exfalso
          have := (num_head h).2.2.2
          have h2 := (num_head h).1
          rename_i a' n
          cases a' with
          | nil => exact h2 rfl
          | cons x a' => cases hs; exact this rfl
        | mm h h' =>
          exfalso
          have := (num_head h).2.2.2
          have h2 := (num_head h).1
          rename_i a' b' lo hi
          cases a' with
          | nil => exact h2 rfl
          | cons x a' => cases hs; exact this rfl
    · have hh : ¬ (a ++ ':' :: b).head? = some ':' := by
        cases a with
        | nil => exact absurd rfl hane
        | cons x a =>
          intro h
          cases h
          exact ha (by simp)
      rw [if_neg hh]
      constructor
      · rintro ⟨h, hne⟩
        cases hm : rangeMin (a ++ ':' :: b) with
        | none => rw [hm] at h; exact absurd h.symm hne
        | some lo =>
          rw [hm] at h
          simp only at h
          by_cases hb : b = []
          · rw [if_pos hb] at h
            subst h; subst hb
            exact .min ((rangeMin_iff ha).mp hm)
          · rw [if_neg hb] at h
            cases hx : rangeMax b with
            | none => rw [hx] at h; exact absurd h.symm hne
            | some hi =>
              rw [hx] at h
              simp only at h
              subst h
              exact .mm ((rangeMin_iff ha).mp hm) (rangeMax_iff.mp hx)
      · intro h
        generalize hs : a ++ ':' :: b = s at h
        have uniq : ∀ a' b', ':' ∉ a' → a ++ ':' :: b = a' ++ ':' :: b' → a = a' ∧ b = b' := by
          intro a' b' ha' he
          have e1 := congrArg (List.takeWhile (fun c => decide (c ≠ ':'))) he
          rw [takeWhile_gap (p := fun c => decide (c ≠ ':')) (g := a) (t := ':' :: b)
              (fun c hc => decide_eq_true (fun e => ha (by rw [← e]; exact hc))) (fun c hc => by cases hc; decide),
            takeWhile_gap (p := fun c => decide (c ≠ ':')) (g := a') (t := ':' :: b')
              (fun c hc => decide_eq_true (fun e => ha' (by rw [← e]; exact hc))) (fun c hc => by cases hc; decide)] at e1
          subst e1
          have e2 := List.append_cancel_left he
          cases e2
          exact ⟨rfl, rfl⟩
        cases h with
        | none h => exact absurd (by rw [← hs]; simp) h
        | one h =>
          rw [hs] at hh
          exact absurd rfl hh
        | min h =>
          obtain ⟨e1, e2⟩ := uniq _ _ (num_colon h) hs
          subst e1; subst e2
          rw [(rangeMin_iff ha).mpr h]
          exact ⟨rfl, by simp⟩
        | mm h h' =>
          obtain ⟨e1, e2⟩ := uniq _ _ (num_colon h) hs
          subst e1; subst e2
          rw [(rangeMin_iff ha).mpr h]
          simp only
          rw [if_neg (num_head h').1, rangeMax_iff.mpr h']
          exact ⟨rfl, by simp⟩
  · rw [if_pos hc]
    constructor
    · rintro ⟨rfl, _⟩
      exact .none (fun h => hc (mem_body.mpr h))
    · intro h
      have hb : ':' ∉ body d := fun h => hc (mem_body.mpr h)
      generalize body d = s at h hb
      cases h with
      | none h => exact ⟨rfl, by simp⟩
      | one h => simp at hb
      | min h => simp at hb
      | mm h => simp at hb

theorem stands_iff {sys : Sys} {u : User} {d : Str} {k : Src} :
    Stands sys u d k ↔ ∃ rng, RangeForm (body d) rng ∧ sourceOf sys u d rng = some k := by
  constructor
  · rintro ⟨h1, h2⟩
    exact ⟨_, parseRange_iff.mp ⟨rfl, h1⟩, h2⟩
  · rintro ⟨rng, h1, h2⟩
    obtain ⟨e, hne⟩ := parseRange_iff.mpr h1
    exact ⟨by rw [e]; exact hne, by rw [e]; exact h2⟩

theorem exempts_iff {sys : Sys} {u : User} {d : Str} :
    Exempts sys u d ↔ ∃ rng, RangeForm (body d) rng ∧ exempt sys u d rng = true := by
  constructor
  · rintro ⟨h1, h2⟩
    exact ⟨_, parseRange_iff.mp ⟨rfl, h1⟩, h2⟩
  · rintro ⟨rng, h1, h2⟩
    obtain ⟨e, hne⟩ := parseRange_iff.mpr h1
    exact ⟨by rw [e]; exact hne, by rw [e]; exact h2⟩

theorem body_at (s : Str) : body ('@' :: s) = s := if_pos (Or.inl rfl)
theorem body_percent (s : Str) : body ('%' :: s) = s := if_pos (Or.inr rfl)
theorem body_plain {s : Str} (h1 : s.head? ≠ some '@') (h2 : s.head? ≠ some '%') : body s = s := if_neg (fun h => h.elim h1 h2)

theorem form_mem {s : Str} {rng : Range} (h : RangeForm s rng) (hr : rng ≠ .none) : ':' ∈ s := by
  cases h with
  | none h => exact absurd rfl hr
  | one h => simp
  | min h => simp
  | mm h => simp

/-- **C60** A domain stands for the user exactly if it has one of the documented forms, and it makes an entry of the kind that the form
says.  (Numbers count modulo 2^32.) -/
theorem C60_domains (sys : Sys) (u : User) (hn : ':' ∉ u.name) (d : Str) (k : Src) : Stands sys u d k ↔ Domain sys u d k := by
  rw [stands_iff]
  constructor
  · rintro ⟨rng, hf, hs⟩
    unfold sourceOf at hs
    by_cases h0 : u.name = d
    · rw [if_pos h0] at hs
      cases hs
      rw [← h0]
      exact .name
    rw [if_neg h0] at hs
    by_cases h1 : d.head? = some '@'
    · rw [if_pos h1] at hs
      cases d with
      | nil => cases h1
      | cons c d =>
        cases h1
        rw [body_at] at hf
        cases hf with
        | none h =>
          simp only [List.drop_succ_cons, List.drop_zero] at hs
          split at hs
          · rename_i hg; cases hs; exact .group (fun e => h0 e.symm) h hg
          · cases hs
        | one h =>
          simp only at hs
          split at hs
          · rename_i hg; cases hs; exact .gid h hg
          · cases hs
        | min h =>
          simp only at hs
          split at hs
          · rename_i hg; cases hs; exact .gidMin h hg
          · cases hs
        | mm h h' =>
          simp only at hs
          split at hs
          · cases hs
          · split at hs
            · rename_i hg hg'; cases hs; exact .gidRange h h' hg' (by omega)
            · cases hs
    rw [if_neg h1] at hs
    by_cases h2 : d.head? = some '%'
    · rw [if_pos h2] at hs
      cases d with
      | nil => cases h2
      | cons c d =>
        cases h2
        rw [body_percent] at hf
        cases hf with
        | none h =>
          simp only [List.drop_succ_cons, List.drop_zero] at hs
          split at hs
          · rename_i hg
            cases hs
            rw [hg]
            exact .all (fun e => h0 (by rw [hg, e]))
          · rename_i hg
            split at hs
            · rename_i hg'
              cases hs
              exact .allGroup (fun e => h0 e.symm) (fun e => hg (by rw [e]; decide)) h hg'
            · cases hs
        | one h =>
          simp only at hs
          split at hs
          · rename_i hg; cases hs; exact .allGid h hg
          · cases hs
        | min h => cases hs
        | mm h h' => cases hs
    rw [if_neg h2] at hs
    rw [body_plain h1 h2] at hf
    cases hf with
    | none h =>
      simp only at hs
      split at hs
      · rename_i hg
        cases hs
        rw [hg]
        exact .default (fun e => h0 (by rw [hg, e]))
      · cases hs
    | one h =>
      simp only at hs
      split at hs
      · rename_i hg; cases hs; exact .uid (by rw [hg]; exact h)
      · cases hs
    | min h =>
      simp only at hs
      split at hs
      · rename_i hg; cases hs; exact .uidMin h hg
      · cases hs
    | mm h h' =>
      simp only at hs
      split at hs
      · cases hs
      · split at hs
        · rename_i hg hg'; cases hs; exact .uidRange h h' hg' (by omega)
        · cases hs
  · intro h
    have noName : ∀ {s : Str}, ':' ∈ s → ¬ u.name = s := fun hm e => hn (by rw [e]; exact hm)
    have plain : ∀ {a b : Str} {lo : Nat}, Num a lo → (a ++ ':' :: b).head? ≠ some '@' ∧ (a ++ ':' :: b).head? ≠ some '%' := by
      intro a b lo h
      obtain ⟨h1, h2, h3, _⟩ := num_head h
      cases a with
      | nil => exact absurd rfl h1
      | cons x a => exact ⟨h2, h3⟩
    cases h with
    | name =>
      refine ⟨.none, .none (fun h => hn (mem_body.mpr h)), ?_⟩
      unfold sourceOf
      rw [if_pos rfl]
    | @group g h0 h h' =>
      refine ⟨.none, by rw [body_at]; exact .none h, ?_⟩
      unfold sourceOf
      rw [if_neg (fun e => h0 e.symm), if_pos List.head?_cons]
      simp only [List.drop_succ_cons, List.drop_zero, h', if_true]
    | @gid s n h h' =>
      refine ⟨.one n, by rw [body_at]; exact .one h, ?_⟩
      unfold sourceOf
      rw [if_neg (noName (by simp)), if_pos List.head?_cons]
      simp only [h', if_true]
    | @gidMin a lo h h' =>
      refine ⟨.min lo, by rw [body_at]; exact .min h, ?_⟩
      unfold sourceOf
      rw [if_neg (noName (by simp)), if_pos List.head?_cons]
      simp only [h', if_true]
    | @gidRange a b lo hi h h' h1 h2 =>
      refine ⟨.mm lo hi, by rw [body_at]; exact .mm h h', ?_⟩
      unfold sourceOf
      rw [if_neg (noName (by simp)), if_pos List.head?_cons]
      simp only [h1, if_true]
      rw [if_neg (by omega)]
    | all h0 =>
      refine ⟨.none, .none (by decide), ?_⟩
      unfold sourceOf
      rw [if_neg (fun e => h0 e.symm), if_neg (by decide), if_pos (by decide)]
      simp only [if_true]
    | @allGroup g h0 h1 h h' =>
      refine ⟨.none, by rw [body_percent]; exact .none h, ?_⟩
      unfold sourceOf
      rw [if_neg (fun e => h0 e.symm), if_neg (by show ¬ some '%' = some '@'; decide), if_pos List.head?_cons]
      simp only [List.drop_succ_cons, List.drop_zero, h', if_true]
      rw [if_neg]
      intro e
      exact h1 (by cases e; rfl)
    | @allGid s n h h' =>
      refine ⟨.one n, by rw [body_percent]; exact .one h, ?_⟩
      unfold sourceOf
      rw [if_neg (noName (by simp)), if_neg (by show ¬ some '%' = some '@'; decide), if_pos List.head?_cons]
      simp only [h', if_true]
    | default h0 =>
      refine ⟨.none, .none (by decide), ?_⟩
      unfold sourceOf
      rw [if_neg (fun e => h0 e.symm), if_neg (by decide), if_neg (by decide)]
      simp only [if_true]
    | @uid s h =>
      refine ⟨.one u.uid, by rw [body_plain (by show ¬ some ':' = some '@'; decide) (by show ¬ some ':' = some '%'; decide)]; exact .one h, ?_⟩
      unfold sourceOf
      rw [if_neg (noName (by simp)), if_neg (by show ¬ some ':' = some '@'; decide), if_neg (by show ¬ some ':' = some '%'; decide)]
      simp only [if_true]
    | @uidMin a lo h h' =>
      obtain ⟨p1, p2⟩ := plain (b := []) h
      refine ⟨.min lo, by rw [body_plain p1 p2]; exact .min h, ?_⟩
      unfold sourceOf
      rw [if_neg (noName (by simp)), if_neg p1, if_neg p2]
      simp only [h', if_true]
    | @uidRange a b lo hi h h' h1 h2 =>
      obtain ⟨p1, p2⟩ := plain (b := b) h
      refine ⟨.mm lo hi, by rw [body_plain p1 p2]; exact .mm h h', ?_⟩
      unfold sourceOf
      rw [if_neg (noName (by simp)), if_neg p1, if_neg p2]
      simp only [h1, if_true]
      rw [if_neg (by omega)]

example : ':' ∉ exUser.name ∧ Domain exSys exUser "1000:".toList .user ∧ Domain exSys exUser "@staff".toList .group ∧
    Domain exSys exUser "%:50".toList .allgroup :=
  ⟨by decide,
    .uidMin (a := "1000".toList) (lo := 1000) ⟨1000, ⟨[], _, 1000, fun c hc => by (cases hc), ⟨by decide, by decide, by decide⟩, Or.inl ⟨rfl, rfl⟩⟩, by decide, by decide⟩ (by decide),
    .group (by decide) (by decide) (by decide),
    .allGid (s := "50".toList) (n := 50) ⟨50, ⟨[], _, 50, fun c hc => by (cases hc), ⟨by decide, by decide, by decide⟩, Or.inl ⟨rfl, rfl⟩⟩, by decide, by decide⟩ (by decide)⟩

/-- **C60** A line `domain -` is about the user exactly if the domain is the user's name, a group of theirs, or a range of numbers that
holds theirs.  (Missing: domains that begin with `%`.) -/
theorem C60_free_partial (sys : Sys) (u : User) (hn : ':' ∉ u.name) (d : Str) (hd : d.head? ≠ some '%') : Exempts sys u d ↔ Free sys u d := by
  rw [exempts_iff]
  constructor
  · rintro ⟨rng, hf, hs⟩
    unfold exempt at hs
    by_cases h0 : u.name = d
    · rw [← h0]
      exact .name
    rw [if_neg h0] at hs
    by_cases h1 : d.head? = some '@'
    · rw [if_pos h1] at hs
      cases d with
      | nil => cases h1
      | cons c d =>
        cases h1
        rw [body_at] at hf
        cases hf with
        | none h => exact .group (fun e => h0 e.symm) h hs
        | one h => exact .gid h hs
        | min h => exact .gidMin h (by simpa using hs)
        | mm h h' =>
          simp only [Bool.and_eq_true, decide_eq_true_eq] at hs
          exact .gidRange h h' hs.2 hs.1
    rw [if_neg h1] at hs
    rw [body_plain h1 hd] at hf
    cases hf with
    | none h => cases hs
    | one h =>
      have : u.uid = _ := of_decide_eq_true hs
      exact .uid (by rw [this]; exact h)
    | min h => exact .uidMin h (by simpa using hs)
    | mm h h' =>
      simp only [Bool.and_eq_true, decide_eq_true_eq] at hs
      exact .uidRange h h' hs.2 hs.1
  · intro h
    have noName : ∀ {s : Str}, ':' ∈ s → ¬ u.name = s := fun hm e => hn (by rw [e]; exact hm)
    have plain : ∀ {a b : Str} {lo : Nat}, Num a lo → (a ++ ':' :: b).head? ≠ some '@' ∧ (a ++ ':' :: b).head? ≠ some '%' := by
      intro a b lo h
      obtain ⟨h1, h2, h3, _⟩ := num_head h
      cases a with
      | nil => exact absurd rfl h1
      | cons x a => exact ⟨h2, h3⟩
    cases h with
    | name =>
      refine ⟨.none, .none (fun h => hn (mem_body.mpr h)), ?_⟩
      unfold exempt
      rw [if_pos rfl]
    | @group g h0 h h' =>
      refine ⟨.none, by rw [body_at]; exact .none h, ?_⟩
      unfold exempt
      rw [if_neg (fun e => h0 e.symm), if_pos List.head?_cons]
      exact h'
    | @gid s n h h' =>
      refine ⟨.one n, by rw [body_at]; exact .one h, ?_⟩
      unfold exempt
      rw [if_neg (noName (by simp)), if_pos List.head?_cons]
      exact h'
    | @gidMin a lo h h' =>
      refine ⟨.min lo, by rw [body_at]; exact .min h, ?_⟩
      unfold exempt
      rw [if_neg (noName (by simp)), if_pos List.head?_cons]
      exact decide_eq_true h'
    | @gidRange a b lo hi h h' h1 h2 =>
      refine ⟨.mm lo hi, by rw [body_at]; exact .mm h h', ?_⟩
      unfold exempt
      rw [if_neg (noName (by simp)), if_pos List.head?_cons]
      simp [h1, h2]
    | @uid s h =>
      refine ⟨.one u.uid, by rw [body_plain (by show ¬ some ':' = some '@'; decide) (by show ¬ some ':' = some '%'; decide)]; exact .one h, ?_⟩
      unfold exempt
      rw [if_neg (noName (by simp)), if_neg (by show ¬ some ':' = some '@'; decide)]
      simp
    | @uidMin a lo h h' =>
      obtain ⟨p1, p2⟩ := plain (b := []) h
      refine ⟨.min lo, by rw [body_plain p1 p2]; exact .min h, ?_⟩
      unfold exempt
      rw [if_neg (noName (by simp)), if_neg p1]
      exact decide_eq_true h'
    | @uidRange a b lo hi h h' h1 h2 =>
      obtain ⟨p1, p2⟩ := plain (b := b) h
      refine ⟨.mm lo hi, by rw [body_plain p1 p2]; exact .mm h h', ?_⟩
      unfold exempt
      rw [if_neg (noName (by simp)), if_neg p1]
      simp [h1, h2]

example : Free exSys exUser "@staff".toList := .group (by decide) (by decide) (by decide)

/-- The line `%:1000 -` frees the user with the number 1000 from all limits, although `%:1000` is about the group with that number, to which
they do not belong. -/
theorem C60_percent_counterexample : Exempts exSys exUser "%:1000".toList ∧ exSys.inGid exUser.name 1000 = false ∧ exUser.gid ≠ 1000 ∧
    ∀ k, ¬ Stands exSys exUser "%:1000".toList k := by
  refine ⟨⟨by decide, by decide⟩, by decide, by decide, ?_⟩
  rintro k ⟨_, h⟩
  have : sourceOf exSys exUser "%:1000".toList (parseRange "%:1000".toList) = none := by decide
  rw [this] at h
  cases h

end Pam.Limits
