import Verif.Config.Line
import Verif.Config.LineSpec
/-
Lemmas on line assembly.
-/
namespace Pam.Config
open Spec

theorem physLines_line (l r : List Char) (h : '\n' ∉ l) :
    physLines (l ++ '\n' :: r) = (l ++ ['\n']) :: physLines r := by
  induction l with
  | nil => simp [physLines]
  | cons c t ih =>
    have hc : c ≠ '\n' := fun hh => h (by simp [hh])
    simp only [List.cons_append, physLines]
    rw [if_neg hc, ih (fun hh => h (by simp [hh]))]

theorem dropWhile_append_stop {p : Char → Bool} (x y : List Char) (c : Char) (hc : p c = false) :
    (x ++ c :: y).dropWhile p = x.dropWhile p ++ c :: y := by
  induction x with
  | nil => simp [hc]
  | cons a t ih =>
    simp only [List.cons_append, List.dropWhile]
    split
    · exact ih
    · rfl

theorem dropWhile_blanks {p : Char → Bool} (w s : List Char) (hw : ∀ c ∈ w, p c = true) :
    (w ++ s).dropWhile p = s.dropWhile p := by
  induction w with
  | nil => rfl
  | cons a t ih =>
    simp [hw a (by simp)]
    exact ih (fun c hc => hw c (by simp [hc]))

theorem blanks_lead {w : List Char} (h : Blanks w) : ∀ c ∈ w, isLead c = true := by
  intro c hc; rcases h c hc with rfl | rfl <;> rfl

theorem blanks_trail {w : List Char} (h : Blanks w) : ∀ c ∈ w.reverse, isTrail c = true := by
  intro c hc; rcases h c (by simpa using hc) with rfl | rfl <;> rfl

theorem blanks_nonl {w : List Char} (h : Blanks w) : '\n' ∉ w := by
  intro hh; rcases h _ hh with h | h <;> exact absurd h (by decide)

theorem blanks_nonul {w : List Char} (h : Blanks w) : NUL ∉ w := by
  intro hh; rcases h _ hh with h | h <;> exact absurd h (by decide)

theorem blanks_nohash {w : List Char} (h : Blanks w) : '#' ∉ w := by
  intro hh; rcases h _ hh with h | h <;> exact absurd h (by decide)

theorem body_lead {b : List Char} (h : Body b) (s : List Char) (hb : b ≠ []) :
    (b ++ s).dropWhile isLead = b ++ s := by
  cases b with
  | nil => exact absurd rfl hb
  | cons c t =>
    have := h.2.2.2 c (by simp)
    simp [isLead, this.1, this.2]

theorem cutComment_id (s : List Char) (h1 : '#' ∉ s) (h2 : NUL ∉ s) : cutComment s = s := by
  induction s with
  | nil => rfl
  | cons c t ih =>
    rw [cutComment, if_neg]
    · rw [ih (fun h => h1 (by simp [h])) (fun h => h2 (by simp [h]))]
    · rintro (rfl | rfl)
      · exact h1 (by simp)
      · exact h2 (by simp)

theorem cutComment_hash (s t : List Char) (h1 : '#' ∉ s) (h2 : NUL ∉ s) :
    cutComment (s ++ '#' :: t) = s ++ NUL :: t := by
  induction s with
  | nil => simp [cutComment]
  | cons c t ih =>
    simp only [List.cons_append]
    rw [cutComment, if_neg]
    · rw [ih (fun h => h1 (by simp [h])) (fun h => h2 (by simp [h]))]
    · rintro (rfl | rfl)
      · exact h1 (by simp)
      · exact h2 (by simp)

theorem cstr_id (s : List Char) (h : NUL ∉ s) : cstr s = s := by
  unfold cstr
  induction s with
  | nil => rfl
  | cons c t ih =>
    have hc : c ≠ NUL := fun hh => h (by simp [hh])
    have := ih (fun hh => h (by simp [hh]))
    simp only [List.takeWhile]
    simp only [hc, ne_eq, not_false_eq_true, decide_true]
    rw [this]

theorem cstr_append (s t : List Char) (h : NUL ∉ s) : cstr (s ++ t) = s ++ cstr t := by
  unfold cstr
  induction s with
  | nil => rfl
  | cons c u ih =>
    have hc : c ≠ NUL := fun hh => h (by simp [hh])
    have := ih (fun hh => h (by simp [hh]))
    simp only [List.cons_append, List.takeWhile]
    simp only [hc, ne_eq, not_false_eq_true, decide_true]
    rw [this]

theorem prepare_piece (p : Piece) (h : p.Ok) : prepare ' ' p.text = (false, p.value) := by
  have hu : unescnl ' ' p.text = (true, p.lead ++ p.body ++ [' ']) := by
    have hr : p.text.reverse.dropWhile isTrail = '\\' :: (p.lead ++ p.body).reverse := by
      have : p.text.reverse = ('\n' :: p.trail.reverse) ++ '\\' :: (p.lead ++ p.body).reverse := by
        simp [Piece.text]
      rw [this, dropWhile_append_stop _ _ _ (by decide)]
      have h1 : ('\n' :: p.trail.reverse).dropWhile isTrail = [] := by
        have := dropWhile_blanks (p := isTrail) ('\n' :: p.trail.reverse) [] ?_
        · simpa using this
        intro x hx
        simp only [List.mem_cons] at hx
        rcases hx with rfl | hx
        · rfl
        · exact blanks_trail h.trail x hx
      rw [h1]; rfl
    unfold unescnl
    rw [hr]
    simp [show ' ' ≠ NUL by decide]
  unfold prepare
  simp only [hu]
  have hn : NUL ∉ p.lead ++ p.body ++ [' '] := by
    have := h.body.2.2.1
    have := blanks_nonul h.lead
    have : NUL ≠ ' ' := by decide
    simp_all
  have hh : '#' ∉ p.lead ++ p.body ++ [' '] := by
    have := h.body.1
    have := blanks_nohash h.lead
    simp_all
  rw [cstr_id _ hn]
  have e1 : (p.lead ++ p.body ++ [' ']).contains '#' = false := by
    simpa using hh
  rw [e1]
  simp only [Bool.not_true, Bool.or_false, Prod.mk.injEq, true_and]
  rw [List.append_assoc, dropWhile_blanks _ _ (blanks_lead h.lead)]
  unfold Piece.value
  split
  · next hb => rw [hb]; rfl
  · next hb =>
    rw [body_lead h.body _ hb, cutComment_id]
    · intro h'; exact hh (by rw [List.append_assoc]; exact List.mem_append_right _ h')
    · intro h'; exact hn (by rw [List.append_assoc]; exact List.mem_append_right _ h')

/-- an unescaped line without a comment -/
theorem prepare_plain (lead body : List Char) (hl : Blanks lead) (hb : Body body)
    (hne : NoBackslashAtEnd body) : prepare ' ' (lead ++ body ++ ['\n']) = (true, body ++ ['\n']) := by
  have hu : unescnl ' ' (lead ++ body ++ ['\n']) = (false, lead ++ body ++ ['\n']) := by
    unfold unescnl
    split
    · next r hr =>
      exfalso
      have e := List.takeWhile_append_dropWhile (p := isTrail) (l := (lead ++ body ++ ['\n']).reverse)
      rw [hr] at e
      have ht : ∀ c ∈ (lead ++ body ++ ['\n']).reverse.takeWhile isTrail, isTrail c = true := by
        intro c hc
        exact (List.all_eq_true.1 (List.all_takeWhile (p := isTrail)) c hc)
      generalize (lead ++ body ++ ['\n']).reverse.takeWhile isTrail = w at e ht
      have e2 : lead ++ body ++ ['\n'] = r.reverse ++ ['\\'] ++ w.reverse := by
        have := congrArg List.reverse e
        simpa using this.symm
      -- w ends in the newline
      cases w with
      | nil =>
        have := congrArg List.getLast? e2
        simp at this
      | cons c w' =>
        have e3 : lead ++ body = r.reverse ++ ['\\'] ++ w'.reverse ∧ c = '\n' := by
          have : (lead ++ body) ++ ['\n'] = (r.reverse ++ ['\\'] ++ w'.reverse) ++ [c] := by
            rw [e2]; simp
          have := List.append_inj' this rfl
          exact ⟨this.1, by simpa using this.2.symm⟩
        have hw' : Blanks w'.reverse := by
          intro x hx
          have hx1 : x ∈ lead ++ body := by rw [e3.1]; exact List.mem_append_right _ hx
          have hx2 := ht x (by simp at hx; simp [hx])
          have hx3 : x ≠ '\n' := by
            rintro rfl
            rcases List.mem_append.1 hx1 with h | h
            · exact blanks_nonl hl h
            · exact hb.2.1 h
          simp only [isTrail, Bool.or_eq_true, beq_iff_eq] at hx2
          rcases hx2 with (h | h) | h
          · exact Or.inl h
          · exact Or.inr h
          · exact absurd h hx3
        rw [List.append_assoc, List.append_eq_append_iff] at e3
        rcases e3.1 with ⟨a, ha1, ha2⟩ | ⟨a, ha1, ha2⟩
        · exact hne ⟨a, w'.reverse, by rw [ha2]; simp, hw'⟩
        · cases a with
          | nil =>
            exact hne ⟨[], w'.reverse, by simpa using ha2.symm, hw'⟩
          | cons x xs =>
            simp at ha2
            have : '\\' ∈ lead := by rw [ha1, ← ha2.1]; simp
            rcases hl _ this with h | h <;> exact absurd h (by decide)
    · rfl
  unfold prepare
  simp only [hu, Bool.not_false, Bool.true_or, Prod.mk.injEq, true_and]
  rw [List.append_assoc, dropWhile_blanks _ _ (blanks_lead hl)]
  have hh : '#' ∉ body ++ ['\n'] := by have := hb.1; simp_all
  have hn : NUL ∉ body ++ ['\n'] := by
    have := hb.2.2.1
    simp only [List.mem_append, List.mem_singleton, not_or]
    exact ⟨this, by decide⟩
  by_cases hbe : body = []
  · subst hbe; rfl
  · rw [body_lead hb _ hbe, cutComment_id _ hh hn]

/-- a line with a comment -/
theorem prepare_comment (lead body t : List Char) (hl : Blanks lead) (hb : Body body) :
    ∃ x, prepare ' ' (lead ++ body ++ '#' :: t ++ ['\n']) = (true, body ++ NUL :: x) := by
  have hu : ∃ t', (unescnl ' ' (lead ++ body ++ '#' :: t ++ ['\n'])).2 = lead ++ body ++ '#' :: t' := by
    have hr : (lead ++ body ++ '#' :: t ++ ['\n']).reverse.dropWhile isTrail =
        (t ++ ['\n']).reverse.dropWhile isTrail ++ '#' :: (lead ++ body).reverse := by
      rw [← dropWhile_append_stop _ _ '#' (by decide)]
      congr 1; simp
    unfold unescnl
    rw [hr]
    cases hd : (t ++ ['\n']).reverse.dropWhile isTrail with
    | nil => exact ⟨t ++ ['\n'], by simp⟩
    | cons c r =>
      by_cases hc : c = '\\'
      · subst hc
        refine ⟨r.reverse ++ [' '], ?_⟩
        simp [show ' ' ≠ NUL by decide]
      · refine ⟨t ++ ['\n'], ?_⟩
        split
        · next heq => simp at heq; exact absurd heq.1 hc
        · simp
  obtain ⟨t', ht'⟩ := hu
  refine ⟨t', ?_⟩
  unfold prepare
  simp only [ht']
  have hn : NUL ∉ lead ++ body := by
    simp only [List.mem_append, not_or]; exact ⟨blanks_nonul hl, hb.2.2.1⟩
  rw [cstr_append _ _ hn]
  have e : (lead ++ body ++ cstr ('#' :: t')).contains '#' = true := by
    have : cstr ('#' :: t') = '#' :: cstr t' := by
      unfold cstr
      simp only [List.takeWhile]
      simp [show ('#' : Char) ≠ NUL by decide]
    rw [this]; simp
  rw [e, Bool.or_true, List.append_assoc, dropWhile_blanks _ _ (blanks_lead hl)]
  refine congrArg (Prod.mk true) ?_
  by_cases hbe : body = []
  · subst hbe
    simp [isLead, cutComment]
  · rw [body_lead hb _ hbe, cutComment_hash _ _ hb.1 hb.2.2.1]

/-- accumulated buffer after continued lines -/
def accOf (v : List Char) : Option (List Char) := if v = [] then none else some v

theorem bufAdd_accOf (v s : List Char) : bufAdd (accOf v) s = accOf (v ++ s) := by
  unfold bufAdd accOf
  by_cases hs : s = []
  · simp [hs]
  · by_cases hv : v = [] <;> simp [hs, hv]

theorem assembleLoop_pieces (ps : List Piece) (hp : ∀ p ∈ ps, p.Ok) (v : List Char) (pend : Bool)
    (ls : List (List Char)) :
    assembleLoop ' ' (accOf v) pend (ps.map Piece.text ++ ls) =
      assembleLoop ' ' (accOf (v ++ ps.flatMap Piece.value)) (pend || !ps.isEmpty) ls := by
  induction ps generalizing v pend with
  | nil => simp
  | cons p ps ih =>
    simp only [List.map_cons, List.cons_append, assembleLoop, prepare_piece p (hp p (by simp))]
    simp only [Bool.false_eq_true, if_false]
    rw [bufAdd_accOf, ih (fun p h => hp p (by simp [h]))]
    simp

theorem pieces_value_ne (ps : List Piece) (h : ∃ p ∈ ps, p.body ≠ []) : ps.flatMap Piece.value ≠ [] := by
  obtain ⟨p, h1, h2⟩ := h
  intro hh
  rw [List.flatMap_eq_nil_iff] at hh
  have := hh p h1
  simp [Piece.value, h2] at this

theorem pieces_value_nonul (ps : List Piece) (hp : ∀ p ∈ ps, p.Ok) : NUL ∉ ps.flatMap Piece.value := by
  intro h
  rw [List.mem_flatMap] at h
  obtain ⟨p, h1, h2⟩ := h
  unfold Piece.value at h2
  split at h2
  · simp at h2
  · rcases List.mem_append.1 h2 with h | h
    · exact (hp p h1).body.2.2.1 h
    · exact absurd (List.mem_singleton.1 h) (by decide)

theorem pieces_value_head (ps : List Piece) (hp : ∀ p ∈ ps, p.Ok) (c : Char)
    (h : c ∈ (ps.flatMap Piece.value).head?) : c ≠ NUL := by
  rintro rfl
  exact pieces_value_nonul ps hp (List.mem_of_head? h)

/-- physical lines of an item -/
def itemLines : Item → List (List Char)
  | .blank w cmt => [w ++ commentText cmt ++ ['\n']]
  | .entry conts lead body cmt => conts.map Piece.text ++ [lead ++ body ++ commentText cmt ++ ['\n']]

theorem piece_lines (ps : List Piece) (hp : ∀ p ∈ ps, p.Ok) (r : List Char) :
    physLines (ps.flatMap Piece.text ++ r) = ps.map Piece.text ++ physLines r := by
  induction ps with
  | nil => rfl
  | cons p ps ih =>
    have h := hp p (by simp)
    have hnl : '\n' ∉ p.lead ++ p.body ++ ['\\'] ++ p.trail := by
      have h1 := blanks_nonl h.lead
      have h2 := blanks_nonl h.trail
      have h3 := h.body.2.1
      simp_all
    simp only [List.flatMap_cons, List.map_cons, List.append_assoc, List.cons_append]
    rw [← ih (fun p h => hp p (by simp [h]))]
    have := physLines_line _ (ps.flatMap Piece.text ++ r) hnl
    simp only [Piece.text]
    simpa only [List.append_assoc, List.cons_append, List.nil_append] using this

theorem comment_nonl (cmt : Option (List Char)) (h : CommentOk cmt) : '\n' ∉ commentText cmt := by
  cases cmt with
  | none => simp [commentText]
  | some t => have := h t rfl; simp [commentText, this]

theorem item_lines (it : Item) (h : it.Ok) (r : List Char) :
    physLines (it.text ++ r) = itemLines it ++ physLines r := by
  cases it with
  | blank w cmt =>
    have hnl : '\n' ∉ w ++ commentText cmt := by
      simp only [List.mem_append, not_or]; exact ⟨blanks_nonl h.1, comment_nonl _ h.2⟩
    have := physLines_line _ r hnl
    simpa [Item.text, itemLines] using this
  | entry conts lead body cmt =>
    have hnl : '\n' ∉ lead ++ body ++ commentText cmt := by
      simp only [List.mem_append, not_or]
      exact ⟨⟨blanks_nonl h.2.1, h.2.2.1.2.1⟩, comment_nonl _ h.2.2.2.1⟩
    have h2 := physLines_line _ r hnl
    have h3 := piece_lines conts h.1 (lead ++ body ++ commentText cmt ++ ['\n'] ++ r)
    simp only [Item.text, itemLines, List.append_assoc] at *
    rw [h3]
    simp only [List.cons_append, List.nil_append] at *
    rw [h2]

theorem noBackslash_nil : NoBackslashAtEnd [] := by
  rintro ⟨x, w, h, _⟩
  simp at h

theorem body_nil : Body [] := ⟨by simp, by simp, by simp, by simp⟩

/-- reading one item -/
theorem assemble_item (it : Item) (h : it.Ok) (ls : List (List Char)) :
    assemble ' ' (itemLines it ++ ls) =
      match it.value with
      | none => assemble ' ' ls
      | some v => .line v ls := by
  cases it with
  | blank w cmt =>
    simp only [itemLines, Item.value, assemble, List.cons_append, List.nil_append, assembleLoop]
    cases cmt with
    | none =>
      have := prepare_plain w [] h.1 body_nil noBackslash_nil
      simp only [commentText, List.append_nil, List.nil_append] at this ⊢
      rw [this]
      simp [bufAddEol, cstr]
    | some t =>
      obtain ⟨x, hx⟩ := prepare_comment w [] t h.1 body_nil
      have hx' : prepare ' ' (w ++ commentText (some t) ++ ['\n']) = (true, NUL :: x) := by
        simpa only [commentText, List.append_nil, List.nil_append] using hx
      simp only [hx']
      simp [bufAddEol, cstr]
  | entry conts lead body cmt =>
    obtain ⟨h1, h2, h3, h4, h5, h6⟩ := h
    simp only [itemLines, Item.value, assemble]
    rw [List.append_assoc]
    have e0 : (none : Option (List Char)) = accOf [] := rfl
    rw [e0, assembleLoop_pieces conts h1]
    simp only [List.nil_append, List.cons_append, assembleLoop]
    generalize hv : conts.flatMap Piece.value = v
    have hvn : NUL ∉ v := hv ▸ pieces_value_nonul conts h1
    have hvne : body = [] → v ≠ [] := by
      intro hb
      rw [← hv]
      exact pieces_value_ne conts (h5.resolve_left (fun hh => hh hb))
    -- the buffer is added to
    have hadd : ∀ s : List Char, (body = [] → v ≠ []) → (body ++ s ≠ []) →
        bufAddEol (accOf v) (body ++ s) = some (v ++ body ++ s) := by
      intro s hbv hs
      unfold bufAddEol
      rw [if_pos]
      · rw [bufAdd_accOf]
        simp only [accOf]
        rw [if_neg (by intro hh; simp at hh; exact hs (by simp [hh]))]
        simp
      · by_cases hvn : v = []
        · right
          have hb : body ≠ [] := fun hb => hbv hb hvn
          cases body with
          | nil => exact absurd rfl hb
          | cons c t =>
            simp only [List.cons_append, List.headD_cons]
            exact ⟨fun hh => h3.2.2.1 (by simp [hh]), fun hh => h3.2.1 (by simp [hh])⟩
        · left; simp [accOf, hvn]
    have hvb : NUL ∉ v ++ body := by
      simp only [List.mem_append, not_or]; exact ⟨hvn, h3.2.2.1⟩
    have hvbne : v ++ body ≠ [] := by
      intro hh; simp at hh; exact hvne hh.2 hh.1
    cases cmt with
    | none =>
      have := prepare_plain lead body h2 h3 (h6 rfl)
      simp only [commentText, List.append_nil] at this ⊢
      rw [this]
      simp only [if_true]
      rw [hadd ['\n'] hvne (by simp)]
      have hc : cstr (v ++ body ++ ['\n']) = v ++ body ++ ['\n'] := by
        apply cstr_id
        simp only [List.mem_append, List.mem_singleton, not_or] at hvb ⊢
        exact ⟨hvb, by decide⟩
      simp only [Option.getD_some]
      rw [hc]
      simp
    | some t =>
      obtain ⟨x, hx⟩ := prepare_comment lead body t h2 h3
      have hx' : prepare ' ' (lead ++ body ++ commentText (some t) ++ ['\n']) = (true, body ++ NUL :: x) := hx
      simp only [hx']
      simp only [if_true]
      rw [hadd (NUL :: x) hvne (by simp)]
      have hc : cstr (v ++ body ++ NUL :: x) = v ++ body := by
        rw [cstr_append _ _ hvb]; simp [cstr]
      simp only [Option.getD_some]
      rw [hc, if_pos hvbne]
      simp

theorem logicalLines_eof (repl : Char) (ls : List (List Char)) (h : assemble repl ls = .eof) :
    logicalLines repl ls = ([], false) := by
  rw [logicalLines]; split <;> simp_all

theorem logicalLines_error (repl : Char) (ls : List (List Char)) (h : assemble repl ls = .error) :
    logicalLines repl ls = ([], true) := by
  rw [logicalLines]; split <;> simp_all

theorem logicalLines_line (repl : Char) (ls rest : List (List Char)) (l : List Char)
    (h : assemble repl ls = .line l rest) :
    logicalLines repl ls = (l :: (logicalLines repl rest).1, (logicalLines repl rest).2) := by
  rw [logicalLines]; split <;> simp_all

theorem logicalLines_congr (repl : Char) (a b : List (List Char)) (h : assemble repl a = assemble repl b) :
    logicalLines repl a = logicalLines repl b := by
  cases hb : assemble repl b with
  | eof => rw [logicalLines_eof _ _ hb, logicalLines_eof _ _ (h.trans hb)]
  | error => rw [logicalLines_error _ _ hb, logicalLines_error _ _ (h.trans hb)]
  | line l r => rw [logicalLines_line _ _ _ _ hb, logicalLines_line _ _ _ _ (h.trans hb)]

theorem fileLines_items (its : List Item) (h : ∀ it ∈ its, it.Ok) (r : List Char) :
    fileLines ' ' (its.flatMap Item.text ++ r) =
      (its.filterMap Item.value ++ (fileLines ' ' r).1, (fileLines ' ' r).2) := by
  induction its with
  | nil => rfl
  | cons it its ih =>
    have ih := ih (fun it hh => h it (by simp [hh]))
    unfold fileLines at ih ⊢
    rw [List.flatMap_cons, List.append_assoc, item_lines it (h it (by simp))]
    have := assemble_item it (h it (by simp)) (physLines (its.flatMap Item.text ++ r))
    cases hv : it.value with
    | none =>
      rw [hv] at this
      rw [logicalLines_congr _ _ _ this, ih, List.filterMap_cons, hv]
    | some v =>
      rw [hv] at this
      rw [logicalLines_line _ _ _ _ this, ih, List.filterMap_cons, hv]
      rfl

theorem assemble_pieces_eof (ps : List Piece) (hp : ∀ p ∈ ps, p.Ok) (hne : ps ≠ []) :
    assemble ' ' (ps.map Piece.text) = .error := by
  have := assembleLoop_pieces ps hp [] false []
  simp only [List.append_nil] at this
  unfold assemble
  have e0 : (none : Option (List Char)) = accOf [] := rfl
  rw [e0, this]
  cases ps with
  | nil => exact absurd rfl hne
  | cons p ps => simp [assembleLoop]

/-! ### Shape of the lines of arbitrary files -/

theorem mem_physLines (f l : List Char) (h : l ∈ physLines f) :
    l ≠ [] ∧ ∀ p s, l = p ++ '\n' :: s → s = [] := by
  induction f generalizing l with
  | nil => simp [physLines] at h
  | cons c t ih =>
    simp only [physLines] at h
    split at h
    · next hc =>
      simp at h
      rcases h with rfl | h
      · refine ⟨by simp, ?_⟩
        intro p s hps
        cases p with
        | nil => simp at hps; exact hps
        | cons x xs => simp at hps
      · exact ih l h
    · next hc =>
      split at h
      · simp at h
        subst h
        refine ⟨by simp, ?_⟩
        intro p s hps
        cases p with
        | nil => simp at hps; exact absurd hps.1 hc
        | cons x xs => simp at hps
      · next l' ls hl =>
        simp at h
        rcases h with rfl | h
        · refine ⟨by simp, ?_⟩
          intro p s hps
          cases p with
          | nil => simp at hps; exact absurd hps.1 hc
          | cons x xs =>
            simp at hps
            exact (ih l' (by rw [hl]; simp)).2 xs s hps.2
        · exact ih l (by rw [hl]; simp [h])

theorem cutComment_cstr (s : List Char) : '#' ∉ cstr (cutComment s) := by
  induction s with
  | nil => simp [cutComment, cstr]
  | cons c t ih =>
    rw [cutComment]
    split
    · simp [cstr]
    · next hc =>
      have h1 : c ≠ '#' := fun h => hc (Or.inl h)
      have h2 : c ≠ NUL := fun h => hc (Or.inr h)
      unfold cstr at ih ⊢
      simp only [List.takeWhile]
      simp only [h2, ne_eq, not_false_eq_true, decide_true, List.mem_cons, not_or]
      exact ⟨fun h => h1 h.symm, ih⟩

theorem cstr_append_mem (a b : List Char) (x : Char) (h : x ∈ cstr (a ++ b)) : x ∈ cstr a ∨ x ∈ cstr b := by
  unfold cstr at *
  induction a with
  | nil => right; simpa using h
  | cons c t ih =>
    simp only [List.cons_append, List.takeWhile] at h ⊢
    split at h
    · simp only [List.mem_cons] at h ⊢
      rcases h with rfl | h
      · exact Or.inl (Or.inl rfl)
      · rcases ih h with h | h
        · exact Or.inl (Or.inr h)
        · exact Or.inr h
    · simp at h

theorem cutComment_head (s : List Char) (c : Char) (h : c ∈ (cutComment s).head?) :
    c = NUL ∨ c ∈ s.head? := by
  cases s with
  | nil => simp [cutComment] at h
  | cons d t =>
    rw [cutComment] at h
    split at h
    · simp at h; exact Or.inl h.symm
    · simp at h; exact Or.inr (by simp [h])

theorem dropWhile_head_lead (s : List Char) (c : Char) (h : c ∈ (s.dropWhile isLead).head?) :
    c ≠ ' ' ∧ c ≠ '\t' := by
  have := List.head?_dropWhile_not isLead s
  rw [Option.mem_def] at h
  rw [h] at this
  simp only [isLead, Bool.or_eq_false_iff, beq_eq_false_iff_ne] at this
  exact this

theorem prepare_head (repl : Char) (l : List Char) (c : Char) (h : c ∈ (prepare repl l).2.head?) :
    c ≠ ' ' ∧ c ≠ '\t' := by
  unfold prepare at h
  rcases cutComment_head _ _ h with rfl | h
  · decide
  · exact dropWhile_head_lead _ _ h

theorem prepare_nohash (repl : Char) (l : List Char) : '#' ∉ cstr (prepare repl l).2 :=
  cutComment_cstr _

theorem not_mem_of_physical (l : List Char) (hl : ∀ p s, l = p ++ '\n' :: s → s = []) (r : List Char)
    (x : List Char) (h : l.reverse.dropWhile isTrail = x) (hx : ∀ c ∈ r.reverse, c ∈ x) (hs : r.reverse <:+ x) :
    '\n' ∉ r := by
  intro hmem
  have hsuf : x <:+ l.reverse := h ▸ List.dropWhile_suffix _
  have hr : r <+: l := by
    have := hs.trans hsuf
    rw [List.reverse_suffix] at this
    exact this
  obtain ⟨a, b, rfl⟩ := List.append_of_mem hmem
  obtain ⟨u, hu⟩ := hr
  have e1 := hl a (b ++ u) (by rw [← hu]; simp)
  simp at e1
  obtain ⟨rfl, rfl⟩ := e1
  -- l ends in newline, so the dropped list has it removed
  simp at hu
  subst hu
  rw [List.reverse_append] at h
  simp at hs
  have e2 : x = (a.reverse).dropWhile isTrail := by
    rw [← h]
    simp [isTrail]
  have e3 := hs.length_le
  have e4 : (a.reverse.dropWhile isTrail).length ≤ a.length := by
    have := (List.dropWhile_sublist isTrail (l := a.reverse)).length_le
    simpa using this
  rw [← e2] at e4
  simp at e3
  omega

theorem prepare_cont_head (l : List Char) (hl : ∀ p s, l = p ++ '\n' :: s → s = []) (repl : Char) (hrepl : repl ≠ '\n')
    (hp : (prepare repl l).1 = false) (c : Char) (h : c ∈ (prepare repl l).2.head?) : c ≠ '\n' := by
  unfold prepare at hp h
  simp only [Bool.or_eq_false_iff, Bool.not_eq_false'] at hp
  rcases cutComment_head _ _ h with rfl | h
  · decide
  · rintro rfl
    have hm : '\n' ∈ (unescnl repl l).2 :=
      (List.dropWhile_sublist _).subset (List.mem_of_head? h)
    unfold unescnl at hp hm
    split at hm
    · next r hr =>
      have hn := not_mem_of_physical l hl r.reverse _ hr (by simp; intro c hc; exact Or.inr hc)
        (by simp)
      rcases List.mem_append.1 hm with h | h
      · exact hn h
      · split at h
        · simp at h; exact hrepl h.symm
        · simp at h
    · next hr =>
      have := hp.1
      split at this
      · next r' hr' => exact hr _ hr'
      · cases this

/-- what is known about the buffer while a line is being assembled -/
def AccOk (acc : Option (List Char)) : Prop :=
  ∀ v, acc = some v → v ≠ [] ∧ '#' ∉ cstr v ∧ ∀ c ∈ v.head?, c ≠ ' ' ∧ c ≠ '\t' ∧ c ≠ '\n'

theorem bufAdd_ok (acc : Option (List Char)) (seg : List Char) (h : AccOk acc) (h1 : '#' ∉ cstr seg)
    (h2 : acc = none → ∀ c ∈ seg.head?, c ≠ ' ' ∧ c ≠ '\t' ∧ c ≠ '\n') : AccOk (bufAdd acc seg) := by
  unfold bufAdd
  split
  · exact h
  · next hs =>
    intro v hv
    injection hv with hv
    subst hv
    cases acc with
    | none =>
      simp only [Option.getD_none, List.nil_append]
      exact ⟨hs, h1, h2 rfl⟩
    | some w =>
      obtain ⟨g1, g2, g3⟩ := h w rfl
      simp only [Option.getD_some]
      refine ⟨by simp [g1], ?_, ?_⟩
      · intro hh
        rcases cstr_append_mem _ _ _ hh with h | h
        · exact g2 h
        · exact h1 h
      · cases w with
        | nil => exact absurd rfl g1
        | cons c t => simpa using g3

theorem assembleLoop_shape (repl : Char) (hrepl : repl ≠ '\n') (ls : List (List Char))
    (hls : ∀ l ∈ ls, ∀ p s, l = p ++ '\n' :: s → s = [])
    (acc : Option (List Char)) (pend : Bool) (hacc : AccOk acc) (l : List Char) (rest : List (List Char))
    (h : assembleLoop repl acc pend ls = .line l rest) :
    (l ≠ [] ∧ '#' ∉ l ∧ NUL ∉ l ∧ ∀ c ∈ l.head?, c ≠ ' ' ∧ c ≠ '\t' ∧ c ≠ '\n') ∧ rest <:+ ls := by
  induction ls generalizing acc pend with
  | nil => simp only [assembleLoop] at h; split at h <;> cases h
  | cons x xs ih =>
    simp only [assembleLoop] at h
    split at h
    · next hp =>
      have hok : AccOk (bufAddEol acc (prepare repl x).2) := by
        unfold bufAddEol
        split
        · next hc =>
          refine bufAdd_ok _ _ hacc (prepare_nohash _ _) ?_
          intro hn c hcm
          have h1 := prepare_head repl x c hcm
          refine ⟨h1.1, h1.2, ?_⟩
          rcases hc with hc | hc
          · simp [hn] at hc
          · cases hs : (prepare repl x).2 with
            | nil => rw [hs] at hcm; simp at hcm
            | cons d t =>
              rw [hs] at hcm hc
              simp at hcm hc
              subst hcm
              exact hc.2
        · exact hacc
      split at h
      · next hne =>
        cases h
        refine ⟨?_, List.suffix_cons _ _⟩
        cases hb : bufAddEol acc (prepare repl x).2 with
        | none => rw [hb] at hne; simp [cstr] at hne
        | some v =>
          rw [hb] at hne
          simp only [Option.getD_some] at hne ⊢
          obtain ⟨g1, g2, g3⟩ := hok v hb
          refine ⟨hne, g2, ?_, ?_⟩
          · intro hh
            have := List.all_eq_true.1 (List.all_takeWhile (p := (· ≠ NUL)) (l := v)) NUL hh
            simp at this
          · intro c hc
            cases v with
            | nil => exact absurd rfl g1
            | cons d t =>
              unfold cstr at hc
              rw [List.takeWhile] at hc
              split at hc
              · simp at hc; subst hc; exact g3 d (by simp)
              · simp at hc
      · obtain ⟨h1, h2⟩ := ih (fun l hl => hls l (by simp [hl])) none false (by intro v hv; cases hv) h
        exact ⟨h1, h2.trans (List.suffix_cons _ _)⟩
    · next hp =>
      have hok : AccOk (bufAdd acc (prepare repl x).2) := by
        refine bufAdd_ok _ _ hacc (prepare_nohash _ _) ?_
        intro _ c hc
        have h1 := prepare_head repl x c hc
        exact ⟨h1.1, h1.2, prepare_cont_head x (hls x (by simp)) repl hrepl (by simpa using hp) c hc⟩
      obtain ⟨h1, h2⟩ := ih (fun l hl => hls l (by simp [hl])) _ _ hok h
      exact ⟨h1, h2.trans (List.suffix_cons _ _)⟩

theorem logicalLines_shape (repl : Char) (hrepl : repl ≠ '\n') (ls : List (List Char))
    (hls : ∀ l ∈ ls, ∀ p s, l = p ++ '\n' :: s → s = []) :
    ∀ l ∈ (logicalLines repl ls).1,
      l ≠ [] ∧ '#' ∉ l ∧ NUL ∉ l ∧ ∀ c ∈ l.head?, c ≠ ' ' ∧ c ≠ '\t' ∧ c ≠ '\n' := by
  fun_induction logicalLines repl ls with
  | case1 => simp
  | case2 => simp
  | case3 ls l rest h ih =>
    obtain ⟨h1, h2⟩ := assembleLoop_shape repl hrepl ls hls none false (by intro v hv; cases hv) l rest h
    intro x hx
    simp at hx
    rcases hx with rfl | hx
    · exact h1
    · exact ih (fun l hl => hls l (h2.subset hl)) x hx

end Pam.Config
