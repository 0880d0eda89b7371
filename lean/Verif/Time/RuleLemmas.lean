import Verif.Time.LogicLemmas
import Verif.Time.NameLemmas
import Verif.Time.WindowLemmas
import Verif.Time.RuleSpec
namespace Pam.Time
open Spec

/-! ## fields depend only on their tokens -/

/-- the loop of logic_field on tokens, for a matching function that may be undefined -/
def runO (g : Str → Option Bool) : (left neg : Bool) → (oper : Oper) → (next : Expect) → List Tok → Option Bool
  | left, _, _, _, [] => some left
  | left, neg, o, .val, .bang :: ts => runO g left (!neg) o .val ts
  | left, neg, o, .val, .word w :: ts =>
    match g w with
    | none => none
    | some b => runO g (combine o left (neg ^^ b)) neg o .op ts
  | left, _, _, .op, .and :: ts => runO g left false .and .val ts
  | left, _, _, .op, .or :: ts => runO g left false .or .val ts
  | _, _, _, _, _ :: _ => some false

/-- only the word counts -/
def OnlyWord (agrees : Str → Nat → Option Bool) (g : Str → Option Bool) : Prop :=
  ∀ w s : Str, w ≠ [] → (∀ c ∈ w, isWord c = true) → (∀ c ∈ s.head?, isWord c = false) → agrees (w ++ s) w.length = g w

theorem fieldLoop_runO {agrees : Str → Nat → Option Bool} {g : Str → Option Bool} (hf : OnlyWord agrees g) {x : Str}
    {ts : List Tok} (h : Lexes x ts) : ∀ left neg o next, fieldLoop agrees left neg o next x = runO g left neg o next ts := by
  induction h with
  | nil => intro left neg o next; rw [fieldLoop.eq_def]; simp [member_nil, runO]
  | junk c hw ho _ ih =>
    intro left neg o next
    have := ih left neg o next
    rw [fieldLoop.eq_def] at this ⊢
    simp only [member_junk hw ho]
    exact this
  | and _ ih =>
    intro left neg o next
    rw [fieldLoop.eq_def]
    cases next <;> simp only [member_op (c := '&') (by decide)] <;>
      simp [runO, ih, show isWord '&' = false from by decide]
  | or _ ih =>
    intro left neg o next
    rw [fieldLoop.eq_def]
    cases next <;> simp only [member_op (c := '|') (by decide)] <;>
      simp [runO, ih, show isWord '|' = false from by decide]
  | bang _ ih =>
    intro left neg o next
    rw [fieldLoop.eq_def]
    cases next <;> simp only [member_op (c := '!') (by decide)] <;> simp [runO, ih]
  | word w hn hw hs _ ih =>
    intro left neg o next
    rw [fieldLoop.eq_def]
    simp only [member_word hn hw hs]
    have hl : w.length ≠ 0 := by simpa using hn
    have hj := hf w _ hn hw hs
    have hd : ∀ s : Str, (w ++ s).drop w.length = s := fun s => by simp
    obtain ⟨c, r, rfl⟩ := List.exists_cons_of_ne_nil hn
    have hc : isWord c = true := hw c (by simp)
    have h1 : c ≠ '!' := by rintro rfl; revert hc; decide
    have h2 : c ≠ '&' := by rintro rfl; revert hc; decide
    have h3 : c ≠ '|' := by rintro rfl; revert hc; decide
    rw [dif_neg hl]
    simp only [hd, hj]
    cases next
    · simp only [List.cons_append, List.head?_cons, Option.some.injEq, h1, if_false, Option.any_some, hc, if_true, runO]
      cases g (c :: r) with
      | none => rfl
      | some b => exact ih _ _ _ _
    · simp [runO, h2, h3]

theorem isSame_onlyWord (a : Str) : OnlyWord (isSame a) (fun w => isSame a w w.length) := by
  intro w s _ _ _
  rw [isSame, sameLoop_append]
  rfl

theorem checkTime_onlyWord (now : Instant) : OnlyWord (checkTime now) (fun w => checkTime now w w.length) := by
  intro w s hn hw hs
  obtain ⟨c, r, rfl⟩ := List.exists_cons_of_ne_nil hn
  have hc : c ≠ '!' := by
    rintro rfl
    have := hw '!' (by simp)
    revert this; decide
  have e : ∀ t len, checkTime now (c :: t) len = some (checkRange now false (c :: t) len) := by
    intro t len
    unfold checkTime
    split
    · rename_i h; simp at h; exact absurd h.1 hc
    · rfl
  show _ = checkTime now (c :: r) _
  rw [List.cons_append, e, e, ← List.cons_append, checkRange_append now false _ _ hs]

/-- two texts with the same tokens have the same value -/
theorem logicField_lexes {agrees : Str → Nat → Option Bool} {g : Str → Option Bool} (hf : OnlyWord agrees g) {x y : Str}
    {ts : List Tok} (hx : Lexes x ts) (hy : Lexes y ts) : logicField agrees x = logicField agrees y := by
  rw [logicField, logicField, fieldLoop_runO hf hx, fieldLoop_runO hf hy]

/-! ## blanks -/

/-- blanks squeezed, as scanning a field does -/
def squeeze : Bool → Str → Str
  | _, [] => []
  | o, c :: r =>
    if c = '\t' ∨ c = ' ' then (if o then squeeze true r else ' ' :: squeeze true r)
    else if c = '!' then '!' :: squeeze true r
    else c :: squeeze false r

/-- a field as the module sees it -/
def tidy (m : Str) : Str := trim (squeeze true m)

theorem word_not_blank {c : Char} (h : isWord c = true) : ¬ (c = '\t' ∨ c = ' ') ∧ c ≠ '!' := by
  constructor
  · rintro (rfl | rfl) <;> revert h <;> decide
  · rintro rfl; revert h; decide

theorem squeeze_word {w : Str} (hw : ∀ c ∈ w, isWord c = true) (s : Str) : ∀ o, w ≠ [] → squeeze o (w ++ s) = w ++ squeeze false s := by
  induction w with
  | nil => intro o h; exact absurd rfl h
  | cons c w ih =>
    intro o _
    obtain ⟨h1, h2⟩ := word_not_blank (hw c (by simp))
    rw [List.cons_append, squeeze, if_neg h1, if_neg h2]
    by_cases hn : w = []
    · subst hn; rfl
    · rw [ih (fun c hc => hw c (by simp [hc])) false hn]; rfl

theorem squeeze_head {s : Str} (hs : ∀ c ∈ s.head?, isWord c = false) : ∀ c ∈ (squeeze false s).head?, isWord c = false := by
  cases s with
  | nil => simp [squeeze]
  | cons d r =>
    intro c hc
    rw [squeeze] at hc
    split at hc
    · simp at hc; subst hc; decide
    · split at hc
      · simp at hc; subst hc; decide
      · simp at hc; subst hc; exact hs _ (by simp)

theorem lexes_squeeze {x : Str} {ts : List Tok} (h : Lexes x ts) : ∀ o, Lexes (squeeze o x) ts := by
  induction h with
  | nil => intro o; exact .nil
  | junk c hw ho _ ih =>
    intro o
    rw [squeeze]
    split
    · cases o
      · exact .junk ' ' (by decide) (by decide) (ih true)
      · exact ih true
    · split
      · rename_i h; subst h; exact absurd ho (by decide)
      · exact .junk c hw ho (ih false)
  | and _ ih => intro o; simp only [squeeze, show ¬ ('&' = '\t' ∨ '&' = ' ') by decide, if_false, show ¬ '&' = '!' by decide]; exact .and (ih false)
  | or _ ih => intro o; simp only [squeeze, show ¬ ('|' = '\t' ∨ '|' = ' ') by decide, if_false, show ¬ '|' = '!' by decide]; exact .or (ih false)
  | bang _ ih => intro o; simp only [squeeze, show ¬ ('!' = '\t' ∨ '!' = ' ') by decide, if_false, if_true]; exact .bang (ih true)
  | word w hn hw hs _ ih =>
    intro o
    rw [squeeze_word hw _ o hn]
    exact .word w hn hw (squeeze_head hs) (ih false)

theorem lexes_blank {x : Str} {ts : List Tok} (h : Lexes x ts) : Lexes (x ++ [' ']) ts := by
  induction h with
  | nil => exact .junk ' ' (by decide) (by decide) .nil
  | junk c hw ho _ ih => exact .junk c hw ho ih
  | and _ ih => exact .and ih
  | or _ ih => exact .or ih
  | bang _ ih => exact .bang ih
  | word w hn hw hs _ ih =>
    rename_i s ts _
    rw [List.append_assoc]
    refine .word w hn hw ?_ ih
    cases s with
    | nil => intro c hc; simp at hc; subst hc; decide
    | cons d r => intro c hc; exact hs c (by simpa using hc)

theorem lexes_blanks {x : Str} {ts : List Tok} (h : Lexes x ts) : ∀ n, Lexes (x ++ List.replicate n ' ') ts := by
  intro n
  induction n with
  | zero => simpa using h
  | succ n ih =>
    rw [List.replicate_succ', ← List.append_assoc]
    exact lexes_blank ih

theorem dropWhile_blank (s : Str) : ∃ n, s = List.replicate n ' ' ++ s.dropWhile (· == ' ') := by
  induction s with
  | nil => exact ⟨0, rfl⟩
  | cons c s ih =>
    by_cases hc : c = ' '
    · obtain ⟨n, hn⟩ := ih
      refine ⟨n + 1, ?_⟩
      rw [List.dropWhile_cons]
      simp only [hc, beq_self_eq_true, if_true, List.replicate_succ, List.cons_append]
      rw [← hn]
    · refine ⟨0, ?_⟩
      simp [List.dropWhile_cons, hc]

theorem trim_blanks (s : Str) : ∃ n, s = trim s ++ List.replicate n ' ' := by
  obtain ⟨n, hn⟩ := dropWhile_blank s.reverse
  refine ⟨n, ?_⟩
  have := congrArg List.reverse hn
  rw [List.reverse_reverse, List.reverse_append, List.reverse_replicate] at this
  exact this

theorem lexes_trim {x : Str} {ts : List Tok} (h : Lexes x ts) : Lexes (trim x) ts := by
  obtain ⟨n, hn⟩ := trim_blanks x
  obtain ⟨us, hu⟩ := lexes_total (trim x)
  have := lexes_blanks hu n
  rw [← hn] at this
  rw [lexes_unique h this]
  exact hu

theorem lexes_tidy {x : Str} {ts : List Tok} (h : Lexes x ts) : Lexes (tidy x) ts := lexes_trim (lexes_squeeze h true)

/-- squeezing blanks does not change the value of a field -/
theorem logicField_tidy {agrees : Str → Nat → Option Bool} {g : Str → Option Bool} (hf : OnlyWord agrees g) (x : Str) :
    logicField agrees (tidy x) = logicField agrees x := by
  obtain ⟨ts, h⟩ := lexes_total x
  exact logicField_lexes hf (lexes_tidy h) h

/-! ## scanning -/

theorem scan_cons (st : State) (o : Bool) (out : Str) (c : Char) (r : Str) (h : ¬ (c = '\\' ∧ ∃ r', r = '\n' :: r')) :
    scan st o out (c :: r) =
      if st = .comment ∧ c ≠ '\n' then scan st o out r
      else if c = '\n' then (out, .nl, some r)
      else if c = '\t' ∨ c = ' ' then scan st true (if o then out else out ++ [' ']) r
      else if c = '!' then scan st true (out ++ ['!']) r
      else if c = '#' then scan .comment o out r
      else if c = ';' then (out, .field, some r)
      else scan st false (out ++ [c]) r := by
  conv => lhs; unfold scan
  split
  · rename_i hh; cases hh
  · rename_i r' hh
    cases hh
    exact absurd ⟨rfl, _, rfl⟩ h
  · rename_i hh
    cases hh
    rfl

theorem scan_written {t m : Str} (h : Written t m) : ∀ (st : State) (o : Bool) (out rest : Str), st ≠ .comment →
    ∃ o', scan st o out (t ++ rest) = scan st o' (out ++ squeeze o m) rest := by
  induction h with
  | nil => intro st o out rest _; exact ⟨o, by simp [squeeze]⟩
  | char c h0 h1 h2 h3 h4 _ ih =>
    intro st o out rest hst
    rw [List.cons_append, scan_cons _ _ _ _ _ (fun h => h4 h.1), if_neg (fun h => hst h.1), if_neg h1, squeeze]
    by_cases hb : c = '\t' ∨ c = ' '
    · rw [if_pos hb, if_pos hb]
      obtain ⟨o', he⟩ := ih st true (if o then out else out ++ [' ']) rest hst
      refine ⟨o', ?_⟩
      rw [he]
      cases o <;> simp
    · rw [if_neg hb, if_neg hb]
      by_cases hx : c = '!'
      · rw [if_pos hx, if_pos hx]
        obtain ⟨o', he⟩ := ih st true (out ++ ['!']) rest hst
        exact ⟨o', by rw [he]; simp⟩
      · rw [if_neg hx, if_neg hx, if_neg h3, if_neg h2]
        obtain ⟨o', he⟩ := ih st false (out ++ [c]) rest hst
        exact ⟨o', by rw [he]; simp⟩
  | join _ ih =>
    intro st o out rest hst
    obtain ⟨o', he⟩ := ih st o out rest hst
    refine ⟨o', ?_⟩
    rw [← he]
    conv => lhs; unfold scan
    simp only [List.cons_append]
    rw [if_neg hst]

/-- a comment is skipped up to the end of the line -/
theorem scan_comment : ∀ (s : Str) (o : Bool) (out rest : Str), (∀ c ∈ s, c ≠ '\n') →
    scan .comment o out (s ++ '\n' :: rest) = (out, .nl, some rest) := by
  intro s
  induction s with
  | nil =>
    intro o out rest _
    rw [List.nil_append, scan_cons _ _ _ _ _ (fun h => absurd h.1 (by decide))]
    simp
  | cons c s ih =>
    intro o out rest h
    rw [List.cons_append]
    by_cases hb : c = '\\' ∧ ∃ r', s ++ '\n' :: rest = '\n' :: r'
    · obtain ⟨rfl, r', hr⟩ := hb
      have hs : s = [] := by
        cases s with
        | nil => rfl
        | cons d s => simp at hr; exact absurd hr.1 (h d (by simp))
      subst hs
      rw [List.nil_append]
      conv => lhs; unfold scan
      simp
    · rw [scan_cons _ _ _ _ _ hb, if_pos ⟨rfl, h c (by simp)⟩]
      exact ih o out rest (fun c hc => h c (by simp [hc]))

theorem scan_comment_end : ∀ (s : Str) (o : Bool) (out : Str), (∀ c ∈ s, c ≠ '\n') →
    scan .comment o out s = (out, .comment, none) := by
  intro s
  induction s with
  | nil => intro o out _; rfl
  | cons c s ih =>
    intro o out h
    rw [scan_cons _ _ _ _ _ ?_, if_pos ⟨rfl, h c (by simp)⟩]
    · exact ih o out (fun c hc => h c (by simp [hc]))
    · rintro ⟨_, r', rfl⟩
      exact h '\n' (by simp) rfl

/-! ## reading a field -/

theorem window_eq {stream : Str} (h : NUL ∉ stream) : (stream.take BUFLEN).takeWhile (· ≠ NUL) = stream.take BUFLEN := by
  have := List.takeWhile_append_of_pos (p := fun c : Char => decide (c ≠ NUL)) (l₁ := stream.take BUFLEN) (l₂ := [])
    (fun c hc => by
      simp only [decide_eq_true_eq]
      rintro rfl
      exact h (List.mem_of_mem_take hc))
  simpa using this

theorem readField_eq {stream : Str} (hn : NUL ∉ stream) (hne : stream ≠ []) (st : State) :
    readField false st stream = match scan st true [] (stream.take BUFLEN) with
      | (out, st', some rest) => (some (trim out), st', rest ++ stream.drop BUFLEN)
      | (out, st', none) =>
        if st' ≠ .comment then (some [], .comment, stream.drop BUFLEN)
        else (some (trim out), .comment, stream.drop BUFLEN) := by
  unfold readField
  rw [if_neg (by simp), if_neg hne, window_eq hn]
  rfl

theorem take_window {t : Str} {c : Char} {R : Str} (hl : t.length < BUFLEN) :
    (t ++ c :: R).take BUFLEN = t ++ c :: R.take (BUFLEN - t.length - 1) := by
  rw [List.take_append, List.take_of_length_le (Nat.le_of_lt hl)]
  congr 1
  obtain ⟨k, hk⟩ : ∃ k, BUFLEN - t.length = k + 1 := ⟨BUFLEN - t.length - 1, by omega⟩
  rw [hk]
  simp

theorem drop_window {t : Str} {c : Char} {R : Str} (hl : t.length < BUFLEN) :
    (t ++ c :: R).drop BUFLEN = R.drop (BUFLEN - t.length - 1) := by
  rw [List.drop_append, List.drop_eq_nil_of_le (Nat.le_of_lt hl), List.nil_append]
  obtain ⟨k, hk⟩ : ∃ k, BUFLEN - t.length = k + 1 := ⟨BUFLEN - t.length - 1, by omega⟩
  rw [hk]
  simp

theorem readField_sep {t m R : Str} (h : Written t m) (hl : t.length < BUFLEN) (hn : NUL ∉ t ++ ';' :: R) {st : State}
    (hst : st ≠ .comment) : readField false st (t ++ ';' :: R) = (some (tidy m), .field, R) := by
  rw [readField_eq hn (by simp), take_window hl, drop_window hl]
  obtain ⟨o', he⟩ := scan_written h st true [] (';' :: R.take (BUFLEN - t.length - 1)) hst
  rw [he, scan_cons _ _ _ _ _ (fun h => absurd h.1 (by decide)), if_neg (fun h => hst h.1)]
  simp [tidy]

theorem readField_nl {t m R : Str} (h : Written t m) (hl : t.length < BUFLEN) (hn : NUL ∉ t ++ '\n' :: R) {st : State}
    (hst : st ≠ .comment) : readField false st (t ++ '\n' :: R) = (some (tidy m), .nl, R) := by
  rw [readField_eq hn (by simp), take_window hl, drop_window hl]
  obtain ⟨o', he⟩ := scan_written h st true [] ('\n' :: R.take (BUFLEN - t.length - 1)) hst
  rw [he, scan_cons _ _ _ _ _ (fun h => absurd h.1 (by decide)), if_neg (fun h => hst h.1)]
  simp [tidy]

/-- either a window ends inside the comment or it holds the end of the line -/
theorem comment_window (k : Nat) (s R : Str) :
    (∃ R1, (s ++ '\n' :: R).take k = s ++ '\n' :: R1 ∧ R1 ++ (s ++ '\n' :: R).drop k = R) ∨
    (∃ s1 s2, s = s1 ++ s2 ∧ (s ++ '\n' :: R).take k = s1 ∧ (s ++ '\n' :: R).drop k = s2 ++ '\n' :: R ∧ s1.length = k) := by
  by_cases h : s.length < k
  · left
    obtain ⟨j, hj⟩ : ∃ j, k = s.length + (j + 1) := ⟨k - s.length - 1, by omega⟩
    refine ⟨R.take j, ?_, ?_⟩
    · rw [hj, List.take_length_add_append]; rfl
    · rw [hj, List.drop_length_add_append]; simp
  · right
    refine ⟨s.take k, s.drop k, (List.take_append_drop k s).symm, ?_, ?_, ?_⟩
    · rw [List.take_append_of_le_length (by omega)]
    · rw [List.drop_append_of_le_length (by omega)]
    · rw [List.length_take]; omega

theorem readField_comment {t m s R : Str} (h : Written t m) (hl : t.length < BUFLEN) (hs : CommentText s)
    (hn : NUL ∉ t ++ '#' :: (s ++ '\n' :: R)) {st : State} (hst : st ≠ .comment) :
    readField false st (t ++ '#' :: (s ++ '\n' :: R)) = (some (tidy m), .nl, R) ∨
      ∃ s2, CommentText s2 ∧ readField false st (t ++ '#' :: (s ++ '\n' :: R)) = (some (tidy m), .comment, s2 ++ '\n' :: R) := by
  rw [readField_eq hn (by simp), take_window hl, drop_window hl]
  obtain ⟨o', he⟩ := scan_written h st true [] ('#' :: (s ++ '\n' :: R).take (BUFLEN - t.length - 1)) hst
  rw [he, scan_cons _ _ _ _ _ (fun h => absurd h.1 (by decide)), if_neg (fun h => hst h.1)]
  simp only [show ¬ ('#' = '\n') by decide, show ¬ ('#' = '\t' ∨ '#' = ' ') by decide, show ¬ ('#' = '!') by decide,
    if_false, if_true]
  rcases comment_window (BUFLEN - t.length - 1) s R with ⟨R1, h1, h2⟩ | ⟨s1, s2, h0, h1, h2, _⟩
  · left
    rw [h1, scan_comment s _ _ _ (fun c hc => (hs c hc).2), ]
    simp only
    rw [h2]
    simp [tidy]
  · right
    refine ⟨s2, fun c hc => hs c (by simp [h0, hc]), ?_⟩
    rw [h1, scan_comment_end s1 _ _ (fun c hc => (hs c (by simp [h0, hc])).2), h2]
    simp [tidy]

theorem readField_skip {s R : Str} (hs : CommentText s) (hn : NUL ∉ s ++ '\n' :: R) :
    readField false .comment (s ++ '\n' :: R) = (some [], .nl, R) ∨
      ∃ s2, CommentText s2 ∧ s2.length < s.length ∧
        readField false .comment (s ++ '\n' :: R) = (some [], .comment, s2 ++ '\n' :: R) := by
  rw [readField_eq hn (by simp)]
  rcases comment_window BUFLEN s R with ⟨R1, h1, h2⟩ | ⟨s1, s2, h0, h1, h2, h3⟩
  · left
    rw [h1, scan_comment s _ _ _ (fun c hc => (hs c hc).2)]
    simp only
    rw [h2]
    rfl
  · right
    refine ⟨s2, fun c hc => hs c (by simp [h0, hc]), by rw [h0, List.length_append, h3]; unfold BUFLEN; omega, ?_⟩
    rw [h1, scan_comment_end s1 _ _ (fun c hc => (hs c (by simp [h0, hc])).2), h2]
    simp [trim]

/-- a field and the rest of its line: the field is read, and what is left of the line is skipped -/
theorem readField_tail {t m e R : Str} (h : Written t m) (hl : t.length < BUFLEN) (he : Tail e) (hn : NUL ∉ t ++ e ++ R)
    {st : State} (hst : st ≠ .comment) :
    readField false st (t ++ e ++ R) = (some (tidy m), .nl, R) ∨
      ∃ s2, CommentText s2 ∧ readField false st (t ++ e ++ R) = (some (tidy m), .comment, s2 ++ '\n' :: R) := by
  cases he with
  | plain =>
    rw [List.append_assoc] at hn ⊢
    exact Or.inl (readField_nl h hl hn hst)
  | comment hs =>
    rename_i s
    have : t ++ ('#' :: s ++ ['\n']) ++ R = t ++ '#' :: (s ++ '\n' :: R) := by simp
    rw [this] at hn ⊢
    exact readField_comment h hl hs hn hst

theorem written_nul {t m : Str} (h : Written t m) : NUL ∉ t := by
  induction h with
  | nil => simp
  | char c h0 _ _ _ _ _ ih =>
    intro h
    rcases List.mem_cons.mp h with h | h
    · exact h0 h.symm
    · exact ih h
  | join _ ih =>
    intro h
    rcases List.mem_cons.mp h with h | h
    · revert h; decide
    · rcases List.mem_cons.mp h with h | h
      · revert h; decide
      · exact ih h

theorem tail_nul {e : Str} (h : Tail e) : NUL ∉ e := by
  cases h with
  | plain => decide
  | comment hs =>
    intro h
    simp only [List.cons_append, List.mem_cons, List.mem_append, List.not_mem_nil, or_false] at h
    rcases h with h | h | h
    · revert h; decide
    · exact (hs _ h).1 rfl
    · revert h; decide

theorem file_nul {n : Nat} {x : Str} {rs : List (List Str)} (h : File n x rs) : NUL ∉ x := by
  induction h with
  | nil => simp
  | empty hb _ he _ ih =>
    intro h
    simp only [List.mem_append] at h
    rcases h with (h | h) | h
    · rcases hb _ h with h | h <;> revert h <;> decide
    · exact tail_nul he h
    · exact ih h
  | rule hf _ _ hfs hl _ he _ _ ih =>
    intro h
    simp only [List.mem_append, List.mem_cons, List.mem_flatMap] at h
    rcases h with (((h | ⟨p, hp, h⟩) | h) | h) | h
    · exact written_nul hf h
    · rcases h with h | h
      · revert h; decide
      · exact written_nul (hfs p hp).1 h
    · rcases h with h | h
      · revert h; decide
      · exact written_nul hl h
    · exact tail_nul he h
    · exact ih h

theorem written_blank {b : Str} (h : ∀ c ∈ b, c = ' ' ∨ c = '\t') : Written b b := by
  induction b with
  | nil => exact .nil
  | cons c b ih =>
    have hc := h c (by simp)
    refine .char c ?_ ?_ ?_ ?_ ?_ (ih (fun c hc => h c (by simp [hc]))) <;> (rcases hc with rfl | rfl <;> decide)

theorem squeeze_blank {b : Str} (h : ∀ c ∈ b, c = ' ' ∨ c = '\t') : squeeze true b = [] := by
  induction b with
  | nil => rfl
  | cons c b ih =>
    have hc : c = '\t' ∨ c = ' ' := (h c (by simp)).symm
    rw [squeeze, if_pos hc, if_pos rfl]
    exact ih (fun c hc => h c (by simp [hc]))

theorem tidy_blank {b : Str} (h : ∀ c ∈ b, c = ' ' ∨ c = '\t') : tidy b = [] := by
  rw [tidy, squeeze_blank h]; rfl

theorem squeeze_mem {m : Str} {c : Char} (hc : c ∈ m) (h1 : c ≠ ' ') (h2 : c ≠ '\t') : ∀ o, c ∈ squeeze o m := by
  induction m with
  | nil => simp at hc
  | cons d m ih =>
    intro o
    rw [squeeze]
    rcases List.mem_cons.mp hc with rfl | hc
    · rw [if_neg (by rintro (h | h); exact h2 h; exact h1 h)]
      split <;> simp_all
    · split
      · split
        · exact ih hc _
        · exact List.mem_cons_of_mem _ (ih hc _)
      · split <;> exact List.mem_cons_of_mem _ (ih hc _)

theorem tidy_ne {m : Str} (h : ∃ c ∈ m, c ≠ ' ' ∧ c ≠ '\t') : tidy m ≠ [] := by
  obtain ⟨c, hc, h1, h2⟩ := h
  intro he
  obtain ⟨n, hn⟩ := trim_blanks (squeeze true m)
  have hm := squeeze_mem hc h1 h2 true
  rw [hn] at hm
  unfold tidy at he
  rw [he] at hm
  simp at hm
  exact h1 hm.2

/-! ## the user field -/

theorem dropWhile_isBlank (s : Str) : ∃ b, s = b ++ s.dropWhile isBlank ∧ ∀ c ∈ b, c = ' ' ∨ c = '\t' := by
  refine ⟨s.takeWhile isBlank, List.takeWhile_append_dropWhile.symm, fun c hc => ?_⟩
  have := List.all_eq_true.mp (List.all_takeWhile (p := isBlank) (l := s)) c hc
  simpa [isBlank] using this

theorem strip_blanks (s : Str) : ∃ b1 b2, s = b1 ++ strip s ++ b2 ∧ (∀ c ∈ b1, c = ' ' ∨ c = '\t') ∧ ∀ c ∈ b2, c = ' ' ∨ c = '\t' := by
  obtain ⟨b1, h1, hb1⟩ := dropWhile_isBlank s
  obtain ⟨b2, h2, hb2⟩ := dropWhile_isBlank (s.dropWhile isBlank).reverse
  refine ⟨b1, b2.reverse, ?_, hb1, fun c hc => hb2 c (by simpa using hc)⟩
  have := congrArg List.reverse h2
  rw [List.reverse_reverse, List.reverse_append] at this
  conv => lhs; rw [h1, this]
  rw [strip, List.append_assoc]

theorem squeeze_blanks_left {b : Str} (h : ∀ c ∈ b, c = ' ' ∨ c = '\t') (s : Str) : squeeze true (b ++ s) = squeeze true s := by
  induction b with
  | nil => rfl
  | cons c b ih =>
    have hc : c = '\t' ∨ c = ' ' := (h c (by simp)).symm
    rw [List.cons_append, squeeze, if_pos hc, if_pos rfl]
    exact ih (fun c hc => h c (by simp [hc]))

theorem squeeze_plain {n : Str} (h : ∀ c ∈ n, ¬ (c = '\t' ∨ c = ' ') ∧ c ≠ '!') (s : Str) : ∀ o, n ≠ [] → squeeze o (n ++ s) = n ++ squeeze false s := by
  induction n with
  | nil => intro o h; exact absurd rfl h
  | cons c w ih =>
    intro o _
    obtain ⟨h1, h2⟩ := h c (by simp)
    rw [List.cons_append, squeeze, if_neg h1, if_neg h2]
    by_cases hn : w = []
    · subst hn; rfl
    · rw [ih (fun c hc => h c (by simp [hc])) false hn]; rfl

theorem squeeze_blanks_right {b : Str} (h : ∀ c ∈ b, c = ' ' ∨ c = '\t') : squeeze false b = [] ∨ squeeze false b = [' '] := by
  cases b with
  | nil => exact Or.inl rfl
  | cons c b =>
    right
    have hc : c = '\t' ∨ c = ' ' := (h c (by simp)).symm
    rw [squeeze, if_pos hc]
    rw [if_neg (by decide), squeeze_blank (b := b) (fun c hc => h c (by simp [hc]))]

theorem trim_plain {n : Str} (h : ∀ c ∈ n, c ≠ ' ') (k : Nat) : trim (n ++ List.replicate k ' ') = n := by
  unfold trim
  rw [List.reverse_append, List.reverse_replicate, List.dropWhile_append_of_pos (by simp)]
  have : n.reverse.dropWhile (· == ' ') = n.reverse := by
    cases hr : n.reverse with
    | nil => rfl
    | cons c r =>
      have hc : c ∈ n := List.mem_reverse.mp (by rw [hr]; simp)
      rw [List.dropWhile_cons, if_neg (by simpa using h c hc)]
  rw [this, List.reverse_reverse]

theorem tidy_name {m n : Str} {x : Char} (hm : strip m = x :: n) (h : ∀ c ∈ x :: n, ¬ (c = '\t' ∨ c = ' ') ∧ c ≠ '!') : tidy m = x :: n := by
  obtain ⟨b1, b2, he, h1, h2⟩ := strip_blanks m
  rw [tidy, he, hm, List.append_assoc, squeeze_blanks_left h1, squeeze_plain h _ _ (by simp)]
  have hs : ∀ c ∈ x :: n, c ≠ ' ' := fun c hc e => (h c hc).1 (Or.inr e)
  rcases squeeze_blanks_right h2 with hb | hb <;> rw [hb]
  · simpa using trim_plain hs 0
  · simpa using trim_plain hs 1

theorem squeeze_first {m n : Str} {x : Char} (h : squeeze true m = x :: n) (hx : ¬ (x = '\t' ∨ x = ' ')) :
    ∃ n', m.dropWhile isBlank = x :: n' := by
  induction m with
  | nil => simp [squeeze] at h
  | cons c m ih =>
    rw [squeeze] at h
    by_cases hc : c = '\t' ∨ c = ' '
    · rw [if_pos hc, if_pos rfl] at h
      have hb : isBlank c = true := by rcases hc with rfl | rfl <;> decide
      rw [List.dropWhile_cons, if_pos hb]
      exact ih h
    · have hb : isBlank c = false := by
        simp only [isBlank, Bool.or_eq_false_iff, beq_eq_false_iff_ne]
        exact ⟨fun e => hc (Or.inr e), fun e => hc (Or.inl e)⟩
      rw [List.dropWhile_cons, if_neg (by simp [hb])]
      rw [if_neg hc] at h
      split at h
      · rename_i h'; simp at h; exact ⟨m, by rw [h', ← h.1]⟩
      · simp at h; exact ⟨m, by rw [← h.1]⟩

theorem tidy_first {m n : Str} {x : Char} (h : tidy m = x :: n) (hx : ¬ (x = '\t' ∨ x = ' ')) : ∃ n', strip m = x :: n' := by
  obtain ⟨k, hk⟩ := trim_blanks (squeeze true m)
  unfold tidy at h
  rw [h] at hk
  obtain ⟨n', hn'⟩ := squeeze_first hk hx
  obtain ⟨b2, h2, hb2⟩ := dropWhile_isBlank (m.dropWhile isBlank).reverse
  have := congrArg List.reverse h2
  rw [List.reverse_reverse, List.reverse_append, hn'] at this
  unfold strip
  rw [hn'] at h2 ⊢
  cases hs : ((x :: n').reverse.dropWhile isBlank).reverse with
  | nil =>
    rw [hs, List.nil_append] at this
    have hm : x ∈ b2 := List.mem_reverse.mp (by rw [← this]; simp)
    exact absurd (hb2 x hm).symm hx
  | cons y ys =>
    rw [hs] at this
    simp at this
    exact ⟨ys, by rw [this.1]⟩

theorem userField_tidy (w : Who) {m : Str} (h : NameOk ['@'] m) : userField w (tidy m) = userValue w m := by
  unfold userField userValue
  split
  · rename_i n hn
    obtain ⟨n', h'⟩ := tidy_first hn (by decide)
    have := tidy_name h' (fun c hc => h '@' (by simp) n' h' c hc)
    rw [hn] at this
    rw [h']
    simp at this
    simp [this]
  · rename_i hne
    split
    · rename_i n hn
      exact absurd (tidy_name hn (fun c hc => h '@' (by simp) n hn c hc)) (hne n)
    · exact logicField_tidy (isSame_onlyWord w.user) m

theorem groupUserField_tidy (w : Who) {m : Str} (h : NameOk ['@', '%'] m) : groupUserField w (tidy m) = groupUserValue w m := by
  unfold groupUserField groupUserValue
  split
  · rename_i n hn
    obtain ⟨n', h'⟩ := tidy_first hn (by decide)
    have := tidy_name h' (fun c hc => h '@' (by simp) n' h' c hc)
    rw [hn] at this
    rw [h']
    simp at this
    simp [this]
  · rename_i n hn
    obtain ⟨n', h'⟩ := tidy_first hn (by decide)
    have := tidy_name h' (fun c hc => h '%' (by simp) n' h' c hc)
    rw [hn] at this
    rw [h']
    simp at this
    simp [this]
  · rename_i hne hne'
    split
    · rename_i n hn
      exact absurd (tidy_name hn (fun c hc => h '@' (by simp) n hn c hc)) (hne n)
    · rename_i n hn
      exact absurd (tidy_name hn (fun c hc => h '%' (by simp) n hn c hc)) (hne' n)
    · exact logicField_tidy (isSame_onlyWord w.user) m

/-! ## whole files -/

theorem needField_sep {t m R : Str} (h : Written t m) (hl : t.length < BUFLEN) (hn : NUL ∉ t ++ ';' :: R)
    (judge : Str → Option Bool) : needField false judge .field (t ++ ';' :: R) =
      match judge (tidy m) with
      | some b => (.ok b, .field, R)
      | none => (.ub, .field, R) := by
  unfold needField
  rw [readField_sep h hl hn (by decide)]
  cases hj : judge (tidy m) <;> simp [hj]

theorem nul_right {a r : Str} {c : Char} (h : NUL ∉ a ++ c :: r) : NUL ∉ r :=
  fun hm => h (List.mem_append_right _ (List.mem_cons_of_mem _ hm))

theorem timeLoop_skip (w : Who) (retval : Int) (n : Nat) : ∀ (s R : Str), s.length ≤ n → CommentText s → NUL ∉ s ++ '\n' :: R →
    timeLoop false w retval .comment (s ++ '\n' :: R) = timeLoop false w retval .nl R := by
  induction n with
  | zero =>
    intro s R hl hs hn
    rw [timeLoop]
    rcases readField_skip hs hn with h | ⟨s2, _, hlt, _⟩
    · rw [h]; simp
    · omega
  | succ n ih =>
    intro s R hl hs hn
    rw [timeLoop]
    rcases readField_skip hs hn with h | ⟨s2, hs2, hlt, h⟩
    · rw [h]; simp
    · rw [h]
      simp only [true_or, if_true]
      refine ih s2 R (by omega) hs2 ?_
      intro hm
      rw [List.mem_append] at hm
      rcases hm with hm | hm
      · exact (hs2 _ hm).1 rfl
      · exact hn (by rw [List.mem_append]; exact Or.inr hm)

/-- the rules of a file one after the other -/
def timeRules (w : Who) : Int → List (List Str) → Option Int
  | retval, [] => some retval
  | retval, r :: rs =>
    match timeVerdict w r with
    | none => none
    | some d => timeRules w (if d then PAM_PERM_DENIED else retval) rs

theorem timeLoop_file {x : Str} {rs : List (List Str)} (h : File 4 x rs) (w : Who) (hu : ∀ r ∈ rs, NameOk ['@'] (r.getD 2 [])) :
    ∀ retval, timeLoop false w retval .nl x = timeRules w retval rs := by
  induction h with
  | nil => intro retval; rw [timeLoop]; simp [readField, timeRules]
  | empty hb hlen he hf ih =>
    rename_i b e t rs
    intro retval
    have hn := file_nul (File.empty hb hlen he hf)
    rw [timeLoop]
    rcases readField_tail (written_blank hb) hlen he hn (st := .nl) (by decide) with h | ⟨s2, hs2, h⟩
    · rw [h]
      simp only [tidy_blank hb, true_or, if_true]
      exact ih hu retval
    · rw [h]
      simp only [tidy_blank hb, true_or, if_true]
      rw [timeLoop_skip w retval s2.length s2 t (Nat.le_refl _) hs2, ih hu retval]
      intro hm
      rw [List.mem_append] at hm
      rcases hm with hm | hm
      · exact (hs2 _ hm).1 rfl
      · rcases List.mem_cons.mp hm with hm | hm
        · revert hm; decide
        · exact file_nul hf hm
  | rule hf hfl hne hfs hl hll he hcount hfile ih =>
    rename_i f l e t fs m lm rs
    intro retval
    have hn := file_nul (File.rule hf hfl hne hfs hl hll he hcount hfile)
    obtain ⟨p1, p2, rfl⟩ : ∃ p1 p2, fs = [p1, p2] := by
      match fs, hcount with
      | [p1, p2], _ => exact ⟨p1, p2, rfl⟩
    obtain ⟨hp1, hp1l⟩ := hfs p1 (by simp)
    obtain ⟨hp2, hp2l⟩ := hfs p2 (by simp)
    have e1 : f ++ [p1, p2].flatMap (fun p => ';' :: p.1) ++ ';' :: l ++ e ++ t =
      f ++ ';' :: (p1.1 ++ ';' :: (p2.1 ++ ';' :: (l ++ e ++ t))) := by simp
    rw [e1] at hn ⊢
    have hn1 : NUL ∉ p1.1 ++ ';' :: (p2.1 ++ ';' :: (l ++ e ++ t)) := nul_right hn
    have hn2 : NUL ∉ p2.1 ++ ';' :: (l ++ e ++ t) := nul_right hn1
    have hn3 : NUL ∉ l ++ e ++ t := nul_right hn2
    rw [timeLoop, readField_sep hf hfl hn (by decide)]
    simp only [tidy_ne hne, ne_eq, not_true_eq_false, or_self, if_false]
    have hu1 := hu _ (List.mem_cons_self)
    have key : timeRule false w (tidy m) (p1.1 ++ ';' :: (p2.1 ++ ';' :: (l ++ e ++ t))) =
        match timeVerdict w (m :: [p1, p2].map (·.2) ++ [lm]) with
        | none => none
        | some d => some (d, (readField false .field (l ++ e ++ t)).2) := by
      unfold timeRule
      rw [logicField_tidy (isSame_onlyWord _), needField_sep hp1 hp1l hn1, logicField_tidy (isSame_onlyWord _)]
      simp only [List.map_cons, List.map_nil, List.cons_append, List.nil_append, timeVerdict]
      cases logicField (isSame w.service) m with
      | none => rfl
      | some g1 =>
        cases logicField (isSame w.tty) p1.2 with
        | none => rfl
        | some g2 =>
          simp only
          rw [needField_sep hp2 hp2l hn2, userField_tidy w (by simpa using hu1)]
          cases userValue w p2.2 with
          | none => rfl
          | some g3 =>
            simp only
            have : ∃ st', readField false .field (l ++ e ++ t) = (some (tidy lm), st', (readField false .field (l ++ e ++ t)).2.2) ∧ st' ≠ .field := by
              rcases readField_tail hl hll he hn3 (st := .field) (by decide) with h | ⟨s2, hs2, h⟩
              · exact ⟨.nl, by rw [h], by decide⟩
              · exact ⟨.comment, by rw [h], by decide⟩
            obtain ⟨st', h1, h2⟩ := this
            rw [h1]
            have ht := logicField_tidy (checkTime_onlyWord w.now) lm
            cases hst : st' with
            | field => exact absurd hst h2
            | nl => simp only [ht]; cases logicField (checkTime w.now) lm <;> rfl
            | comment => simp only [ht]; cases logicField (checkTime w.now) lm <;> rfl
            | eof => simp only [ht]; cases logicField (checkTime w.now) lm <;> rfl
    rw [timeRules]
    split
    · rename_i hk
      rw [key] at hk
      split at hk
      · rfl
      · cases hk
    · rename_i d st2 s2 hk
      rw [key] at hk
      split at hk
      · cases hk
      · rename_i d' hv
        simp only [Option.some.injEq, Prod.mk.injEq] at hk
        obtain ⟨rfl, hk⟩ := hk
        rcases readField_tail hl hll he hn3 (st := .field) (by decide) with h | ⟨s2', hs2, h⟩
        · rw [h] at hk
          cases hk
          simp only [reduceCtorEq, if_false]
          exact ih (fun r hr => hu r (by simp [hr])) _
        · rw [h] at hk
          cases hk
          simp only [reduceCtorEq, if_false]
          rw [timeLoop_skip w _ s2'.length s2' t (Nat.le_refl _) hs2]
          · exact ih (fun r hr => hu r (by simp [hr])) _
          · intro hm
            rw [List.mem_append] at hm
            rcases hm with hm | hm
            · exact (hs2 _ hm).1 rfl
            · rcases List.mem_cons.mp hm with hm | hm
              · revert hm; decide
              · exact file_nul hfile hm

end Pam.Time
