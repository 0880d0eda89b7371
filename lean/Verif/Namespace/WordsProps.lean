import Verif.Namespace.Spec
/-
Property theorems about the fields of a line (C110).
-/
namespace Pam.Namespace
open Pam

/-! ### lemmas -/

theorem argvLoop_nil (st : State) (buf : Str) (argv : List Nat) : argvLoop st buf argv [] = (st, buf, argv) := by
  cases st <;> rfl

theorem argvLoop_quoted (buf : Str) (argv : List Nat) (c : Char) (r : Str) :
    argvLoop .quoted buf argv (c :: r) = if c = '"' then argvLoop .token buf argv r else argvLoop .quoted (buf ++ [c]) argv r := by
  rw [argvLoop]

theorem argvLoop_token (buf : Str) (argv : List Nat) (c : Char) (r : Str) :
    argvLoop .token buf argv (c :: r) =
      if isSpace c then argvLoop .white (buf ++ [NUL]) argv r
      else if c = '"' then argvLoop .quoted buf argv r
      else if c = '\\' then (match r with | [] => (.token, buf ++ ['\\'], argv) | e :: r => argvLoop .token (buf ++ [escape e]) argv r)
      else argvLoop .token (buf ++ [c]) argv r := by
  rw [argvLoop]
  · rw [if_neg (fun e => by cases e.1)]
    rfl
  · intro e; cases e

theorem argvLoop_white (buf : Str) (argv : List Nat) (c : Char) (r : Str) :
    argvLoop .white buf argv (c :: r) = if isSpace c then argvLoop .white buf argv r else argvLoop .token buf (argv ++ [buf.length]) (c :: r) := by
  rw [argvLoop]
  · by_cases hs : isSpace c = true
    · rw [if_pos ⟨rfl, hs⟩, if_pos hs]
    · rw [if_neg (fun e => hs e.2), if_neg hs, argvLoop_token, if_neg hs, if_neg hs]
      rfl
  · intro e; cases e

theorem loop_blank {b : Str} (hb : Spec.Blank b) (buf : Str) (argv : List Nat) (r : Str) : argvLoop .white buf argv (b ++ r) = argvLoop .white buf argv r := by
  induction b with
  | nil => rfl
  | cons c b ih =>
    rw [List.cons_append, argvLoop_white, if_pos (hb c List.mem_cons_self)]
    exact ih (fun c hc => hb c (List.mem_cons_of_mem _ hc))

theorem loop_quote {q : Str} (hq : '"' ∉ q) (buf : Str) (argv : List Nat) (r : Str) :
    argvLoop .quoted buf argv (q ++ r) = argvLoop .quoted (buf ++ q) argv r := by
  induction q generalizing buf with
  | nil => simp
  | cons c q ih =>
    rw [List.cons_append, argvLoop_quoted, if_neg (by rintro rfl; exact hq List.mem_cons_self), ih (fun e => hq (List.mem_cons_of_mem _ e))]
    simp

theorem loop_piece {s v : Str} (h : Spec.Piece s v) (buf : Str) (argv : List Nat) (r : Str) :
    argvLoop .token buf argv (s ++ r) = argvLoop .token (buf ++ v) argv r := by
  cases h with
  | plain c h1 h2 h3 => rw [List.singleton_append, argvLoop_token, if_neg (by simp [h1]), if_neg h2, if_neg h3]
  | newline => rfl
  | tab => rfl
  | backspace => rfl
  | escaped c h1 h2 h3 =>
    show argvLoop .token buf argv ('\\' :: c :: r) = _
    rw [argvLoop_token, if_neg (by decide), if_neg (by decide), if_pos rfl]
    show argvLoop .token (buf ++ [escape c]) argv r = _
    rw [escape, if_neg h1, if_neg h2, if_neg h3]
  | quoted q hq =>
    rw [List.cons_append, List.cons_append, argvLoop_token, if_neg (by decide), if_pos rfl, List.append_assoc, loop_quote hq, List.singleton_append,
      argvLoop_quoted, if_pos rfl]

theorem loop_field {s v : Str} (h : Spec.Field s v) : ∀ (buf : Str) (argv : List Nat) (r : Str),
    argvLoop .token buf argv (s ++ r) = argvLoop .token (buf ++ v) argv r := by
  induction h with
  | one h => exact loop_piece h
  | more h _ ih => intro buf argv r; rw [List.append_assoc, loop_piece h, ih, List.append_assoc]

theorem piece_head {s v : Str} (h : Spec.Piece s v) : ∃ c r, s = c :: r ∧ isSpace c = false := by
  cases h with
  | plain c h1 _ _ => exact ⟨c, [], rfl, h1⟩
  | newline => exact ⟨_, _, rfl, by decide⟩
  | tab => exact ⟨_, _, rfl, by decide⟩
  | backspace => exact ⟨_, _, rfl, by decide⟩
  | escaped c _ _ _ => exact ⟨_, _, rfl, by decide⟩
  | quoted q _ => exact ⟨_, _, rfl, by decide⟩

theorem field_head {s v : Str} (h : Spec.Field s v) : ∃ c r, s = c :: r ∧ isSpace c = false := by
  cases h with
  | one h => exact piece_head h
  | more h _ =>
    obtain ⟨c, r, rfl, hc⟩ := piece_head h
    exact ⟨c, _, rfl, hc⟩

/-- a field that begins after blanks -/
theorem loop_begin {s v : Str} (h : Spec.Field s v) (buf : Str) (argv : List Nat) (r : Str) :
    argvLoop .white buf argv (s ++ r) = argvLoop .token (buf ++ v) (argv ++ [buf.length]) r := by
  obtain ⟨c, r', e, hc⟩ := field_head h
  rw [← loop_field h, e, List.cons_append, argvLoop_white, if_neg (by simp [hc])]

/-- the words as they lie in the buffer -/
def laid : List Str → Str
  | [] => []
  | w :: ws => w ++ NUL :: laid ws

/-- where they begin -/
def begins (n : Nat) : List Str → List Nat
  | [] => []
  | w :: ws => n :: begins (n + w.length + 1) ws

/-- the end of the loop closes the last word -/
def close (x : State × Str × List Nat) : Str × List Nat := (if x.1 ≠ .white then x.2.1 ++ [NUL] else x.2.1, x.2.2)

theorem argvParse_eq (s : Str) : argvParse s = close (argvLoop .white [] [] s) := rfl

theorem loop_fields {s : Str} {vs : List Str} (h : Spec.Fields s vs) : ∀ (buf : Str) (argv : List Nat),
    close (argvLoop .white buf argv s) = (buf ++ laid vs, argv ++ begins buf.length vs) := by
  induction h with
  | done hb =>
    intro buf argv
    rename_i b
    have := loop_blank hb buf argv []
    rw [List.append_nil] at this
    rw [this, argvLoop_nil]
    simp [close, laid, begins]
  | last hb hf =>
    intro buf argv
    rename_i b f v
    rw [loop_blank hb]
    have := loop_begin hf buf argv []
    rw [List.append_nil] at this
    rw [this, argvLoop_nil]
    simp [close, laid, begins]
  | more hb hf hc _ ih =>
    intro buf argv
    rw [List.append_assoc, loop_blank hb, loop_begin hf, argvLoop_token, if_pos hc, ih]
    simp [laid, begins, Nat.add_assoc]

/-- a word in the buffer is read as it is -/
theorem cstrAt_laid {a w b : Str} (h : NUL ∉ w) : cstrAt (a ++ (w ++ NUL :: b)) a.length = some w := by
  unfold cstrAt
  rw [List.drop_left, if_pos (by simp)]
  congr 1
  induction w with
  | nil => simp
  | cons c w ih =>
    rw [List.cons_append, List.takeWhile_cons, if_pos (by simp; rintro rfl; exact h List.mem_cons_self), ih (fun e => h (List.mem_cons_of_mem _ e))]

theorem read_laid : ∀ (vs : List Str) (a : Str), (∀ v ∈ vs, NUL ∉ v) → (begins a.length vs).mapM (cstrAt (a ++ laid vs)) = some vs
  | [], _, _ => rfl
  | w :: ws, a, h => by
    have h1 : cstrAt (a ++ laid (w :: ws)) a.length = some w := cstrAt_laid (h w List.mem_cons_self)
    have h2 : a ++ laid (w :: ws) = (a ++ w ++ [NUL]) ++ laid ws := by simp [laid]
    have h3 : begins (a.length + w.length + 1) ws = begins (a ++ w ++ [NUL]).length ws := by simp [Nat.add_assoc]
    rw [begins, List.mapM_cons, h1, h2, h3, read_laid ws _ (fun v hv => h v (List.mem_cons_of_mem _ hv))]
    rfl

theorem piece_nul {s v : Str} (h : Spec.Piece s v) (hs : NUL ∉ s) : NUL ∉ v := by
  cases h with
  | plain c _ _ _ => exact hs
  | newline => decide
  | tab => decide
  | backspace => decide
  | escaped c _ _ _ => intro e; exact hs (List.mem_cons_of_mem _ e)
  | quoted q _ => intro e; exact hs (by simp [e])

theorem field_nul {s v : Str} (h : Spec.Field s v) (hs : NUL ∉ s) : NUL ∉ v := by
  induction h with
  | one h => exact piece_nul h hs
  | more h _ ih =>
    intro e
    rcases List.mem_append.1 e with e | e
    · exact piece_nul h (fun x => hs (List.mem_append_left _ x)) e
    · exact ih (fun x => hs (List.mem_append_right _ x)) e

theorem fields_nul {s : Str} {vs : List Str} (h : Spec.Fields s vs) (hs : NUL ∉ s) : ∀ v ∈ vs, NUL ∉ v := by
  induction h with
  | done => simp
  | last hb hf =>
    intro v hv
    rw [List.mem_singleton.1 hv]
    exact field_nul hf (fun x => hs (List.mem_append_right _ x))
  | more hb hf hc _ ih =>
    intro v hv
    rcases List.mem_cons.1 hv with rfl | hv
    · exact field_nul hf (fun x => hs (List.mem_append_left _ (List.mem_append_right _ x)))
    · exact ih (fun x => hs (List.mem_append_right _ (List.mem_cons_of_mem _ x))) v hv

/-- C110: a line is split into its fields. -/
theorem C110_fields {s : Str} {vs : List Str} (h : Spec.Fields s vs) (hs : NUL ∉ s) : words s = some vs := by
  unfold words
  rw [argvParse_eq, loop_fields h]
  exact read_laid vs [] (fields_nul h hs)

/-! ### every line has fields -/

/-- what may follow in a field: nothing, or more of it and more fields -/
def Tail (t : Str) : Prop :=
  t = [] ∨ (∃ c r vs, t = c :: r ∧ isSpace c ∧ Spec.Fields r vs) ∨ (∃ v, Spec.Field t v) ∨
  ∃ f v c r vs, t = f ++ c :: r ∧ Spec.Field f v ∧ isSpace c ∧ Spec.Fields r vs

theorem piece_tail {p v t : Str} (hp : Spec.Piece p v) (ht : Tail t) : Tail (p ++ t) := by
  rcases ht with rfl | ⟨c, r, vs, rfl, hc, hf⟩ | ⟨w, hw⟩ | ⟨f, w, c, r, vs, rfl, hw, hc, hf⟩
  · rw [List.append_nil]; exact .inr (.inr (.inl ⟨v, .one hp⟩))
  · exact .inr (.inr (.inr ⟨p, v, c, r, vs, rfl, .one hp, hc, hf⟩))
  · exact .inr (.inr (.inl ⟨v ++ w, .more hp hw⟩))
  · exact .inr (.inr (.inr ⟨p ++ f, v ++ w, c, r, vs, by simp, .more hp hw, hc, hf⟩))

theorem fields_blank {c : Char} {s : Str} {vs : List Str} (hc : isSpace c) (h : Spec.Fields s vs) : Spec.Fields (c :: s) vs := by
  have hb : ∀ {b : Str}, Spec.Blank b → Spec.Blank (c :: b) := fun hb d hd => by
    rcases List.mem_cons.1 hd with rfl | hd
    · exact hc
    · exact hb d hd
  cases h with
  | done h => exact .done (hb h)
  | last h hf => exact .last (hb h) hf
  | more h hf hc' hr => exact .more (hb h) hf hc' hr

theorem tail_fields {c : Char} {t : Str} (hc : isSpace c = false) (h : Tail (c :: t)) : ∃ vs, Spec.Fields (c :: t) vs := by
  rcases h with h | ⟨d, r, vs, e, hd, _⟩ | ⟨v, hv⟩ | ⟨f, v, d, r, vs, e, hf, hd, hr⟩
  · cases h
  · cases e; rw [hc] at hd; cases hd
  · exact ⟨[v], .last (b := []) (by intro c hc; cases hc) hv⟩
  · rw [e]; exact ⟨v :: vs, .more (b := []) (by intro c hc; cases hc) hf hd hr⟩

/-- what has to be added at the end of a line: nothing, a quote, or a backslash -/
def Missing (e : Str) : Prop := e = [] ∨ e = ['"'] ∨ e = ['\\']

/-- adding `e` makes no difference -/
def Same (st : State) (s e : Str) : Prop := ∀ buf argv, close (argvLoop st buf argv (s ++ e)) = close (argvLoop st buf argv s)

theorem complete (n : Nat) : ∀ s : Str, s.length ≤ n →
    (∃ e, Missing e ∧ Same .white s e ∧ ∃ vs, Spec.Fields (s ++ e) vs) ∧ (∃ e, Missing e ∧ Same .token s e ∧ Tail (s ++ e)) ∧
    (∃ e, Missing e ∧ Same .quoted s e ∧ ∃ q t, '"' ∉ q ∧ s ++ e = q ++ '"' :: t ∧ Tail t) := by
  induction n with
  | zero =>
    intro s hs
    have : s = [] := List.length_eq_zero_iff.1 (by omega)
    subst this
    exact ⟨⟨[], .inl rfl, fun _ _ => rfl, [], .done (by intro c hc; cases hc)⟩, ⟨[], .inl rfl, fun _ _ => rfl, .inl rfl⟩,
      ⟨['"'], .inr (.inl rfl), fun _ _ => rfl, [], [], by simp, rfl, .inl rfl⟩⟩
  | succ n ih =>
    intro s hs
    cases s with
    | nil =>
      exact ⟨⟨[], .inl rfl, fun _ _ => rfl, [], .done (by intro c hc; cases hc)⟩, ⟨[], .inl rfl, fun _ _ => rfl, .inl rfl⟩,
        ⟨['"'], .inr (.inl rfl), fun _ _ => rfl, [], [], by simp, rfl, .inl rfl⟩⟩
    | cons c r =>
      obtain ⟨⟨e1, m1, s1, vs1, f1⟩, ⟨e2, m2, s2, t2⟩, ⟨e3, m3, s3, q3, t3, hq3, h3, ht3⟩⟩ := ih r (by simp at hs; omega)
      have tok : ∃ e, Missing e ∧ Same .token (c :: r) e ∧ Tail (c :: r ++ e) := by
        by_cases hc : isSpace c = true
        · refine ⟨e1, m1, fun buf argv => ?_, .inr (.inl ⟨c, r ++ e1, vs1, rfl, hc, f1⟩)⟩
          rw [List.cons_append, argvLoop_token, argvLoop_token, if_pos hc, if_pos hc]; exact s1 _ _
        · by_cases hq : c = '"'
          · subst hq
            refine ⟨e3, m3, fun buf argv => ?_, ?_⟩
            · rw [List.cons_append, argvLoop_token, argvLoop_token, if_neg hc, if_neg hc, if_pos rfl, if_pos rfl]; exact s3 _ _
            · have := piece_tail (.quoted q3 hq3) ht3
              rw [List.cons_append, h3]
              simpa using this
          · by_cases hb : c = '\\'
            · subst hb
              cases r with
              | nil =>
                refine ⟨['\\'], .inr (.inr rfl), fun buf argv => rfl, ?_⟩
                exact piece_tail (p := ['\\', '\\']) (t := []) (.escaped '\\' (by decide) (by decide) (by decide)) (.inl rfl)
              | cons d r =>
                obtain ⟨-, ⟨e4, m4, s4, t4⟩, -⟩ := ih r (by simp at hs; omega)
                refine ⟨e4, m4, fun buf argv => ?_, ?_⟩
                · rw [List.cons_append, List.cons_append, argvLoop_token, argvLoop_token]
                  exact s4 _ _
                · have hp : ∃ v, Spec.Piece ['\\', d] v := by
                    by_cases h1 : d = 'n'
                    · subst h1; exact ⟨_, .newline⟩
                    · by_cases h2 : d = 't'
                      · subst h2; exact ⟨_, .tab⟩
                      · by_cases h3 : d = 'b'
                        · subst h3; exact ⟨_, .backspace⟩
                        · exact ⟨_, .escaped d h1 h2 h3⟩
                  obtain ⟨v, hp⟩ := hp
                  exact piece_tail (p := ['\\', d]) (t := r ++ e4) hp t4
            · refine ⟨e2, m2, fun buf argv => ?_, ?_⟩
              · rw [List.cons_append, argvLoop_token, argvLoop_token, if_neg hc, if_neg hc, if_neg hq, if_neg hq, if_neg hb, if_neg hb]; exact s2 _ _
              · exact piece_tail (p := [c]) (t := r ++ e2) (.plain c (by simpa using hc) hq hb) t2
      refine ⟨?_, tok, ?_⟩
      · by_cases hc : isSpace c = true
        · refine ⟨e1, m1, fun buf argv => ?_, vs1, fields_blank hc f1⟩
          rw [List.cons_append, argvLoop_white, argvLoop_white, if_pos hc, if_pos hc]; exact s1 _ _
        · obtain ⟨e, m, s, t⟩ := tok
          refine ⟨e, m, fun buf argv => ?_, tail_fields (by simpa using hc) t⟩
          rw [List.cons_append, argvLoop_white, argvLoop_white, if_neg hc, if_neg hc]; exact s _ _
      · by_cases hq : c = '"'
        · subst hq
          refine ⟨e2, m2, fun buf argv => ?_, [], r ++ e2, by simp, rfl, t2⟩
          rw [List.cons_append, argvLoop_quoted, argvLoop_quoted, if_pos rfl, if_pos rfl]; exact s2 _ _
        · refine ⟨e3, m3, fun buf argv => ?_, c :: q3, t3, ?_, by rw [List.cons_append, h3]; rfl, ht3⟩
          · rw [List.cons_append, argvLoop_quoted, argvLoop_quoted, if_neg hq, if_neg hq]; exact s3 _ _
          · intro e
            rcases List.mem_cons.1 e with e | e
            · exact hq e.symm
            · exact hq3 e

theorem missing_nul {e : Str} (h : Missing e) : NUL ∉ e := by
  rcases h with rfl | rfl | rfl <;> decide

/-- C110 (every line): each line without NUL is split into the fields it has, perhaps after a quote that is missing at its end, or with a backslash at
its end standing for itself. -/
theorem C110_every_line (s : Str) (hs : NUL ∉ s) :
    ∃ e vs, (e = [] ∨ e = ['"'] ∨ e = ['\\']) ∧ Spec.Fields (s ++ e) vs ∧ words s = some vs := by
  obtain ⟨⟨e, m, hsame, vs, hf⟩, -⟩ := complete s.length s (Nat.le_refl _)
  refine ⟨e, vs, m, hf, ?_⟩
  have h := C110_fields hf (by intro x; rcases List.mem_append.1 x with x | x; exact hs x; exact missing_nul m x)
  unfold words at h ⊢
  rw [argvParse_eq, hsame] at h
  exact h

theorem loop_length : ∀ (n : Nat) (s : Str), s.length ≤ n → ∀ (st : State) (buf : Str) (argv : List Nat),
    (argvLoop st buf argv s).2.1.length ≤ buf.length + s.length := by
  intro n
  induction n with
  | zero =>
    intro s hs st buf argv
    have : s = [] := List.length_eq_zero_iff.1 (by omega)
    subst this; rw [argvLoop_nil]; simp
  | succ n ih =>
    intro s hs st buf argv
    cases s with
    | nil => rw [argvLoop_nil]; simp
    | cons c r =>
      have hr : r.length ≤ n := by simp at hs; omega
      have i := ih r hr
      have tok : ∀ buf argv, (argvLoop .token buf argv (c :: r)).2.1.length ≤ buf.length + (c :: r).length := by
        intro buf argv
        rw [argvLoop_token]
        split
        · have := i .white (buf ++ [NUL]) argv; simp at this ⊢; omega
        · split
          · have := i .quoted buf argv; simp at this ⊢; omega
          · split
            · cases r with
              | nil => simp
              | cons d r =>
                have := ih r (by simp at hr; omega) .token (buf ++ [escape d]) argv
                simp at this ⊢; omega
            · have := i .token (buf ++ [c]) argv; simp at this ⊢; omega
      cases st with
      | quoted =>
        rw [argvLoop_quoted]
        split
        · have := i .token buf argv; simp at this ⊢; omega
        · have := i .quoted (buf ++ [c]) argv; simp at this ⊢; omega
      | token => exact tok buf argv
      | white =>
        rw [argvLoop_white]
        split
        · have := i .white buf argv; simp at this ⊢; omega
        · exact tok _ _

/-- C110 (the buffer): what is written fits into the buffer, which has one byte more than the line. -/
theorem C110_fits (s : Str) : (argvParse s).1.length ≤ s.length + 1 := by
  rw [argvParse_eq]
  have := loop_length s.length s (Nat.le_refl _) .white [] []
  unfold close
  dsimp only
  split
  · simp at this ⊢; omega
  · simp at this ⊢; omega

/-- a field in quotes -/
def quote (w : Str) : Str := '"' :: w ++ ['"']

/-- fields separated by blanks -/
def join : List Str → Str
  | [] => []
  | [w] => quote w
  | w :: ws => quote w ++ ' ' :: join ws

theorem fields_join : ∀ ws : List Str, (∀ w ∈ ws, '"' ∉ w) → Spec.Fields (join ws) ws
  | [], _ => .done (by intro c hc; cases hc)
  | [w], h => .last (b := []) (by intro c hc; cases hc) (.one (.quoted w (h w List.mem_cons_self)))
  | w :: x :: ws, h => .more (b := []) (by intro c hc; cases hc) (.one (.quoted w (h w List.mem_cons_self))) (by decide)
      (fields_join (x :: ws) (fun v hv => h v (List.mem_cons_of_mem _ hv)))

/-- C110 (round trip): any words without quotes are read back when they are written in quotes. -/
theorem C110_round_trip (ws : List Str) (h : ∀ w ∈ ws, '"' ∉ w ∧ NUL ∉ w) : words (join ws) = some ws := by
  refine C110_fields (fields_join ws (fun w hw => (h w hw).1)) ?_
  induction ws with
  | nil => simp [join]
  | cons w ws ih =>
    have hw : NUL ∉ quote w := by
      unfold quote
      intro e
      simp only [List.cons_append, List.mem_cons, List.mem_append, List.not_mem_nil, or_false] at e
      rcases e with e | e | e
      · exact absurd e (by decide)
      · exact (h w List.mem_cons_self).2 e
      · exact absurd e (by decide)
    cases ws with
    | nil => exact hw
    | cons x ws =>
      have := ih (fun v hv => h v (List.mem_cons_of_mem _ hv))
      rw [join]
      · intro e
        rcases List.mem_append.1 e with e | e
        · exact hw e
        · rcases List.mem_cons.1 e with e | e
          · exact absurd e (by decide)
          · exact this e
      · intro e; cases e

/-- witness: quotes in the middle of a field, escapes and blanks -/
example : words "  /tmp\"a b\"  \"\" x\\\"y".toList = some ["/tmpa b".toList, [], "x\"y".toList] := by decide +kernel

/-- witness: a quote that is not closed, and a backslash at the end -/
example : words "a \"b c".toList = some ["a".toList, "b c".toList] ∧ words "a\\".toList = some ["a\\".toList] := by decide +kernel

end Pam.Namespace
