import Verif.Time.Spec
namespace Pam.Time
open Spec

theorem isOper_not_word {c : Char} (h : isOper c = true) : isWord c = false := by
  simp only [isOper, Bool.or_eq_true, beq_iff_eq] at h
  rcases h with (h | h) | h <;> subst h <;> decide

theorem takeWhile_word {w s : Str} (hw : ∀ c ∈ w, isWord c = true) (hs : ∀ c ∈ s.head?, isWord c = false) :
    (w ++ s).takeWhile isWord = w := by
  rw [List.takeWhile_append_of_pos hw]
  cases s with
  | nil => simp
  | cons c r => simp [hs c (by simp)]

theorem member_nil : member [] = ([], 0) := rfl

theorem member_junk {c : Char} (hw : isWord c = false) (ho : isOper c = false) (s : Str) :
    member (c :: s) = member s := by
  simp [member, hw, ho]

theorem member_op {c : Char} (ho : isOper c = true) (s : Str) : member (c :: s) = (c :: s, 1) := by
  simp [member, ho]

theorem member_word {w : Str} (hn : w ≠ []) (hw : ∀ c ∈ w, isWord c = true) {s : Str}
    (hs : ∀ c ∈ s.head?, isWord c = false) : member (w ++ s) = (w ++ s, w.length) := by
  obtain ⟨c, r, rfl⟩ := List.exists_cons_of_ne_nil hn
  have hc : isWord c = true := hw c (by simp)
  have ho : isOper c = false := by
    cases h : isOper c with
    | false => rfl
    | true => rw [isOper_not_word h] at hc; exact hc.symm
  have ht := takeWhile_word hw hs
  rw [List.cons_append] at ht ⊢
  simp only [member, List.dropWhile_cons, hc, ho, Bool.not_true, Bool.false_and, Bool.false_eq_true, if_false]
  rw [ht]

/-- the loop of logic_field on tokens -/
def run (f : Str → Bool) : (left neg : Bool) → (oper : Oper) → (next : Expect) → List Tok → Bool
  | left, _, _, _, [] => left
  | left, neg, o, .val, .bang :: ts => run f left (!neg) o .val ts
  | left, neg, o, .val, .word w :: ts => run f (combine o left (neg ^^ f w)) neg o .op ts
  | left, _, _, .op, .and :: ts => run f left false .and .val ts
  | left, _, _, .op, .or :: ts => run f left false .or .val ts
  | _, _, _, _, _ :: _ => false

theorem fieldLoop_run {agrees : Str → Nat → Option Bool} {f : Str → Bool} {x : Str} {ts : List Tok}
    (h : Lexes x ts) : Judges agrees f ts → ∀ left neg o next, fieldLoop agrees left neg o next x = some (run f left neg o next ts) := by
  induction h with
  | nil => intro hf left neg o next; rw [fieldLoop.eq_def]; simp [member_nil, run]
  | junk c hw ho _ ih =>
    intro hf left neg o next
    have := ih hf left neg o next
    rw [fieldLoop.eq_def] at this ⊢
    simp only [member_junk hw ho]
    exact this
  | and _ ih =>
    intro hf left neg o next
    have ih := ih (fun w s h => hf w s (by simp [h]))
    rw [fieldLoop.eq_def]
    cases next <;> simp only [member_op (c := '&') (by decide)] <;> simp [run, ih, show isWord '&' = false from by decide]
  | or _ ih =>
    intro hf left neg o next
    have ih := ih (fun w s h => hf w s (by simp [h]))
    rw [fieldLoop.eq_def]
    cases next <;> simp only [member_op (c := '|') (by decide)] <;> simp [run, ih, show isWord '|' = false from by decide]
  | bang _ ih =>
    intro hf left neg o next
    have ih := ih (fun w s h => hf w s (by simp [h]))
    rw [fieldLoop.eq_def]
    cases next <;> simp only [member_op (c := '!') (by decide)] <;> simp [run, ih]
  | word w hn hw hs _ ih =>
    intro hf left neg o next
    rw [fieldLoop.eq_def]
    simp only [member_word hn hw hs]
    have hl : w.length ≠ 0 := by simpa using hn
    have hj := hf w _ (by simp) hs
    have ih := ih (fun w s h => hf w s (by simp [h]))
    have hd : ∀ s : Str, (w ++ s).drop w.length = s := fun s => by simp
    obtain ⟨c, r, rfl⟩ := List.exists_cons_of_ne_nil hn
    have hc : isWord c = true := hw c (by simp)
    have h1 : c ≠ '!' := by rintro rfl; revert hc; decide
    have h2 : c ≠ '&' := by rintro rfl; revert hc; decide
    have h3 : c ≠ '|' := by rintro rfl; revert hc; decide
    rw [dif_neg hl]
    simp only [hd, hj]
    cases next <;> simp [run, ih, h1, h2, h3, hc]

/-- every text has tokens -/
theorem lexes_total : ∀ x : Str, ∃ ts, Lexes x ts := by
  suffices h : ∀ n, ∀ x : Str, x.length ≤ n → ∃ ts, Lexes x ts from fun x => h x.length x (Nat.le_refl _)
  intro n
  induction n with
  | zero => intro x hx; rw [List.length_eq_zero_iff.mp (Nat.le_zero.mp hx)]; exact ⟨[], .nil⟩
  | succ n ih =>
    intro x hx
    cases x with
    | nil => exact ⟨[], .nil⟩
    | cons c s =>
      have hs : s.length ≤ n := by simpa using hx
      obtain ⟨ts, hts⟩ := ih s hs
      cases hw : isWord c with
      | false =>
        cases ho : isOper c with
        | false => exact ⟨ts, .junk c hw ho hts⟩
        | true =>
          simp only [isOper, Bool.or_eq_true, beq_iff_eq] at ho
          rcases ho with (h | h) | h <;> subst h
          · exact ⟨_, .and hts⟩
          · exact ⟨_, .or hts⟩
          · exact ⟨_, .bang hts⟩
      | true =>
        have he : (c :: s).takeWhile isWord ++ (c :: s).dropWhile isWord = c :: s := List.takeWhile_append_dropWhile
        have hl : ((c :: s).dropWhile isWord).length ≤ n := by
          rw [List.dropWhile_cons, if_pos hw]
          exact Nat.le_trans (List.dropWhile_suffix _).length_le hs
        obtain ⟨ts', hts'⟩ := ih _ hl
        refine ⟨.word ((c :: s).takeWhile isWord) :: ts', ?_⟩
        have := Lexes.word ((c :: s).takeWhile isWord) (s := (c :: s).dropWhile isWord) (ts := ts')
          (by simp [hw]) (fun d hd => List.all_eq_true.mp (List.all_takeWhile (p := isWord)) d hd)
          (by
            intro d hd
            have := List.head?_dropWhile_not isWord (c :: s)
            cases hh : ((c :: s).dropWhile isWord).head? with
            | none => rw [hh] at hd; cases hd
            | some e => rw [hh] at hd this; cases hd; simpa using this) hts'
        rwa [he] at this

/-- the tokens are determined by the text -/
theorem lexes_unique {x : Str} {ts us : List Tok} (h : Lexes x ts) (h' : Lexes x us) : ts = us := by
  induction h generalizing us with
  | nil =>
    generalize hx : ([] : Str) = x at h'
    cases h' with
    | nil => rfl
    | word w hn => simp at hx; exact absurd hx.1 hn
    | _ => simp at hx
  | junk c hw ho hl ih =>
    rename_i s ts
    generalize hx : (c :: s : Str) = x at h'
    cases h' with
    | nil => simp at hx
    | junk d _ _ h2 => simp at hx; obtain ⟨rfl, rfl⟩ := hx; exact ih h2
    | and _ => simp at hx; rw [hx.1] at ho; exact absurd ho (by decide)
    | or _ => simp at hx; rw [hx.1] at ho; exact absurd ho (by decide)
    | bang _ => simp at hx; rw [hx.1] at ho; exact absurd ho (by decide)
    | word w hn hw' =>
      obtain ⟨d, r, rfl⟩ := List.exists_cons_of_ne_nil hn
      simp at hx; rw [hx.1, hw' d (by simp)] at hw; cases hw
  | and hl ih =>
    rename_i s ts
    generalize hx : ('&' :: s : Str) = x at h'
    cases h' with
    | nil => simp at hx
    | junk d _ h1 h2 => simp at hx; rw [← hx.1] at h1; exact absurd h1 (by decide)
    | and h2 => simp at hx; subst hx; rw [ih h2]
    | or _ => simp at hx
    | bang _ => simp at hx
    | word w hn hw' =>
      obtain ⟨d, r, rfl⟩ := List.exists_cons_of_ne_nil hn
      simp at hx; have := hw' d (by simp); rw [← hx.1] at this; exact absurd this (by decide)
  | or hl ih =>
    rename_i s ts
    generalize hx : ('|' :: s : Str) = x at h'
    cases h' with
    | nil => simp at hx
    | junk d _ h1 h2 => simp at hx; rw [← hx.1] at h1; exact absurd h1 (by decide)
    | or h2 => simp at hx; subst hx; rw [ih h2]
    | and _ => simp at hx
    | bang _ => simp at hx
    | word w hn hw' =>
      obtain ⟨d, r, rfl⟩ := List.exists_cons_of_ne_nil hn
      simp at hx; have := hw' d (by simp); rw [← hx.1] at this; exact absurd this (by decide)
  | bang hl ih =>
    rename_i s ts
    generalize hx : ('!' :: s : Str) = x at h'
    cases h' with
    | nil => simp at hx
    | junk d _ h1 h2 => simp at hx; rw [← hx.1] at h1; exact absurd h1 (by decide)
    | bang h2 => simp at hx; subst hx; rw [ih h2]
    | and _ => simp at hx
    | or _ => simp at hx
    | word w hn hw' =>
      obtain ⟨d, r, rfl⟩ := List.exists_cons_of_ne_nil hn
      simp at hx; have := hw' d (by simp); rw [← hx.1] at this; exact absurd this (by decide)
  | word w hn hw hs hl ih =>
    rename_i s ts
    generalize hx : (w ++ s : Str) = x at h'
    obtain ⟨d, r, rfl⟩ := List.exists_cons_of_ne_nil hn
    have hd := hw d (by simp)
    cases h' with
    | nil => simp at hx
    | junk e h1 => simp at hx; rw [← hx.1, hd] at h1; cases h1
    | and _ => simp at hx; rw [hx.1] at hd; exact absurd hd (by decide)
    | or _ => simp at hx; rw [hx.1] at hd; exact absurd hd (by decide)
    | bang _ => simp at hx; rw [hx.1] at hd; exact absurd hd (by decide)
    | word w' hn' hw' hs' h2 =>
      have e1 := takeWhile_word hw hs
      have e2 := takeWhile_word hw' hs'
      rw [hx, e2] at e1
      subst e1
      have := List.append_cancel_left hx
      subst this
      rw [ih h2]

/-! the token loop and formulas -/

theorem run_bangs (f : Str → Bool) (left : Bool) (o : Oper) (ts : List Tok) : ∀ (n : Nat) (neg : Bool),
    run f left neg o .val (List.replicate n .bang ++ ts) = run f left (neg ^^ decide (n % 2 = 1)) o .val ts := by
  intro n
  induction n with
  | zero => intro neg; simp
  | succ n ih =>
    intro neg
    rw [List.replicate_succ, List.cons_append, run, ih]
    congr 1
    rcases Nat.mod_two_eq_zero_or_one n with h | h
    · have : (n + 1) % 2 = 1 := by omega
      simp [h, this]
    · have : (n + 1) % 2 = 0 := by omega
      simp [h, this]

theorem run_item (f : Str → Bool) (left : Bool) (o : Oper) (i : Item) (ts : List Tok) :
    ∃ neg, run f left false o .val (i.toks ++ ts) = run f (combine o left (i.holds f)) neg o .op ts := by
  refine ⟨decide (i.bangs % 2 = 1), ?_⟩
  rw [Item.toks, List.append_assoc, run_bangs, List.singleton_append, run]
  rcases Nat.mod_two_eq_zero_or_one i.bangs with h | h <;> simp [Item.holds, h]

theorem run_tail (f : Str → Bool) (left neg : Bool) (o : Oper) (n : Nat) (t : Oper) :
    run f left neg o .op (opTok t :: List.replicate n .bang) = left := by
  have := run_bangs f left t [] n false
  rw [List.append_nil] at this
  cases t <;> simp [opTok, run, this]

theorem run_rest (f : Str → Bool) (tail : List Tok) (ht : tail = [] ∨ ∃ t n, tail = opTok t :: List.replicate n .bang) :
    ∀ (l : List (Oper × Item)) (left neg : Bool) (o : Oper),
    run f left neg o .op (l.flatMap (fun p => opTok p.1 :: p.2.toks) ++ tail) =
      l.foldl (step f) left := by
  intro l
  induction l with
  | nil =>
    intro left neg o
    rcases ht with rfl | ⟨t, n, rfl⟩
    · simp [run]
    · simpa using run_tail f left neg o n t
  | cons p l ih =>
    intro left neg o
    obtain ⟨t, i⟩ := p
    rw [List.flatMap_cons, List.foldl_cons, List.append_assoc, List.cons_append]
    have key : ∀ t, run f left neg o .op (opTok t :: (i.toks ++ (l.flatMap (fun p => opTok p.1 :: p.2.toks) ++ tail))) =
        run f left false t .val (i.toks ++ (l.flatMap (fun p => opTok p.1 :: p.2.toks) ++ tail)) := by
      intro t; cases t <;> rw [opTok, run]
    rw [key]
    obtain ⟨neg', h⟩ := run_item f left t i (l.flatMap (fun p => opTok p.1 :: p.2.toks) ++ tail)
    rw [h, ih]
    cases t <;> rfl

theorem run_formula (f : Str → Bool) (tail : List Tok) (ht : tail = [] ∨ ∃ t n, tail = opTok t :: List.replicate n .bang)
    (e : Formula) : run f false false .or .val (e.toks ++ tail) = e.value f := by
  rw [Formula.toks, List.append_assoc]
  obtain ⟨neg, h⟩ := run_item f false .or e.first (e.rest.flatMap (fun p => opTok p.1 :: p.2.toks) ++ tail)
  rw [h, run_rest f tail ht]
  simp [combine, Formula.value]

/-- what a token list that is not refused looks like after an item -/
theorem run_op_shape (f : Str → Bool) : ∀ (n : Nat) (ts : List Tok), ts.length ≤ n →
    (∀ left neg o, run f left neg o .op ts = true → ∃ (l : List (Oper × Item)) (tail : List Tok),
      (tail = [] ∨ ∃ t n, tail = opTok t :: List.replicate n .bang) ∧ ts = l.flatMap (fun p => opTok p.1 :: p.2.toks) ++ tail) ∧
    (∀ left neg o, run f left neg o .val ts = true → (∃ k, ts = List.replicate k .bang ∧ left = true) ∨
      ∃ (i : Item) (l : List (Oper × Item)) (tail : List Tok),
      (tail = [] ∨ ∃ t n, tail = opTok t :: List.replicate n .bang) ∧
      ts = i.toks ++ l.flatMap (fun p => opTok p.1 :: p.2.toks) ++ tail) := by
  intro n
  induction n with
  | zero =>
    intro ts h
    rw [List.length_eq_zero_iff.mp (Nat.le_zero.mp h)]
    refine ⟨fun left neg o _ => ⟨[], [], Or.inl rfl, rfl⟩, fun left neg o h => Or.inl ⟨0, rfl, by simpa [run] using h⟩⟩
  | succ n ih =>
    intro ts hlen
    cases ts with
    | nil => exact ⟨fun left neg o _ => ⟨[], [], Or.inl rfl, rfl⟩, fun left neg o h => Or.inl ⟨0, rfl, by simpa [run] using h⟩⟩
    | cons t ts =>
      have hl : ts.length ≤ n := by simpa using hlen
      obtain ⟨ih1, ih2⟩ := ih ts hl
      constructor
      · intro left neg o h
        have key : ∀ q : Oper, run f left false q .val ts = true → ∃ (l : List (Oper × Item)) (tail : List Tok),
            (tail = [] ∨ ∃ t n, tail = opTok t :: List.replicate n .bang) ∧
            opTok q :: ts = l.flatMap (fun p => opTok p.1 :: p.2.toks) ++ tail := by
          intro q hq
          rcases ih2 _ _ _ hq with ⟨k, rfl, _⟩ | ⟨i, l, tail, ht, rfl⟩
          · exact ⟨[], _, Or.inr ⟨q, k, rfl⟩, rfl⟩
          · exact ⟨(q, i) :: l, tail, ht, by simp⟩
        cases t with
        | and => exact key .and (by simpa [run] using h)
        | or => exact key .or (by simpa [run] using h)
        | bang => simp [run] at h
        | word w => simp [run] at h
      · intro left neg o h
        cases t with
        | and => simp [run] at h
        | or => simp [run] at h
        | bang =>
          rw [run] at h
          rcases ih2 _ _ _ h with ⟨k, rfl, hk⟩ | ⟨i, l, tail, ht, rfl⟩
          · exact Or.inl ⟨k + 1, by simp [List.replicate_succ], hk⟩
          · exact Or.inr ⟨⟨i.bangs + 1, i.word⟩, l, tail, ht, by simp [Item.toks, List.replicate_succ]⟩
        | word w =>
          rw [run] at h
          obtain ⟨l, tail, ht, rfl⟩ := ih1 _ _ _ h
          exact Or.inr ⟨⟨0, w⟩, l, tail, ht, by simp [Item.toks]⟩

end Pam.Time
