import Verif.Config.LineLemmas
/-
`_pam_line_assemble` as pam_env calls it, with nothing in the place of an escaped newline: the counterpart of Config/LineLemmas.lean.
-/
namespace Pam.Config
open Spec

/-- what a continued line contributes: its text -/
def Spec.Piece.glued (p : Piece) : List Char := p.body

/-- the logical line of an item (with its newline, if no comment cut it off) -/
def Spec.Item.glued : Item → Option (List Char)
  | .blank _ _ => none
  | .entry conts _ body cmt =>
    some (conts.flatMap Piece.glued ++ body ++ (if cmt.isSome then [] else ['\n']))

theorem prepare_piece0 (p : Piece) (h : p.Ok) : prepare NUL p.text = (false, p.glued) := by
  have hu : unescnl NUL p.text = (true, p.lead ++ p.body) := by
    have hr : p.text.reverse.dropWhile isTrail = '\\' :: (p.lead ++ p.body).reverse := by
      have : p.text.reverse = ('\n' :: p.trail.reverse) ++ '\\' :: (p.lead ++ p.body).reverse := by
        simp [Piece.text]
      rw [this, dropWhile_append_stop _ _ _ (by decide)]
      have h1 : ('\n' :: p.trail.reverse).dropWhile isTrail = [] := by
        have := dropWhile_blanks (p := isTrail) ('\n' :: p.trail.reverse) [] ?_
        · simpa using this
        intro x hx
        simp only [List.mem_cons] at hx
        rcases hx with rfl | hx
        · rfl
        · exact blanks_trail h.trail x hx
      rw [h1]; rfl
    unfold unescnl
    rw [hr]
    simp
  unfold prepare
  simp only [hu]
  have hn : NUL ∉ p.lead ++ p.body := by
    have := h.body.2.2.1
    have := blanks_nonul h.lead
    simp_all
  have hh : '#' ∉ p.lead ++ p.body := by
    have := h.body.1
    have := blanks_nohash h.lead
    simp_all
  rw [cstr_id _ hn]
  have e1 : (p.lead ++ p.body).contains '#' = false := by
    simpa using hh
  rw [e1]
  simp only [Bool.not_true, Bool.or_false, Prod.mk.injEq, true_and]
  rw [dropWhile_blanks _ _ (blanks_lead h.lead)]
  unfold Piece.glued
  by_cases hb : p.body = []
  · rw [hb]; rfl
  · have := body_lead h.body [] hb
    rw [List.append_nil] at this
    rw [this, cutComment_id]
    · intro h'; exact hh (List.mem_append_right _ h')
    · intro h'; exact hn (List.mem_append_right _ h')

/-- an unescaped line without a comment -/
theorem prepare_plain0 (lead body : List Char) (hl : Blanks lead) (hb : Body body)
    (hne : NoBackslashAtEnd body) : prepare NUL (lead ++ body ++ ['\n']) = (true, body ++ ['\n']) := by
  have hu : unescnl NUL (lead ++ body ++ ['\n']) = (false, lead ++ body ++ ['\n']) := by
    unfold unescnl
    split
    · next r hr =>
      exfalso
      have e := List.takeWhile_append_dropWhile (p := isTrail) (l := (lead ++ body ++ ['\n']).reverse)
      rw [hr] at e
      have ht : ∀ c ∈ (lead ++ body ++ ['\n']).reverse.takeWhile isTrail, isTrail c = true := by
        intro c hc
        exact (List.all_eq_true.1 (List.all_takeWhile (p := isTrail)) c hc)
      generalize (lead ++ body ++ ['\n']).reverse.takeWhile isTrail = w at e ht
      have e2 : lead ++ body ++ ['\n'] = r.reverse ++ ['\\'] ++ w.reverse := by
        have := congrArg List.reverse e
        simpa using this.symm
      -- w ends in the newline
      cases w with
      | nil =>
        have := congrArg List.getLast? e2
        simp at this
      | cons c w' =>
        have e3 : lead ++ body = r.reverse ++ ['\\'] ++ w'.reverse ∧ c = '\n' := by
          have : (lead ++ body) ++ ['\n'] = (r.reverse ++ ['\\'] ++ w'.reverse) ++ [c] := by
            rw [e2]; simp
          have := List.append_inj' this rfl
          exact ⟨this.1, by simpa using this.2.symm⟩
        have hw' : Blanks w'.reverse := by
          intro x hx
          have hx1 : x ∈ lead ++ body := by rw [e3.1]; exact List.mem_append_right _ hx
          have hx2 := ht x (by simp at hx; simp [hx])
          have hx3 : x ≠ '\n' := by
            rintro rfl
            rcases List.mem_append.1 hx1 with h | h
            · exact blanks_nonl hl h
            · exact hb.2.1 h
          simp only [isTrail, Bool.or_eq_true, beq_iff_eq] at hx2
          rcases hx2 with (h | h) | h
          · exact Or.inl h
          · exact Or.inr h
          · exact absurd h hx3
        rw [List.append_assoc, List.append_eq_append_iff] at e3
        rcases e3.1 with ⟨a, ha1, ha2⟩ | ⟨a, ha1, ha2⟩
        · exact hne ⟨a, w'.reverse, by rw [ha2]; simp, hw'⟩
        · cases a with
          | nil =>
            exact hne ⟨[], w'.reverse, by simpa using ha2.symm, hw'⟩
          | cons x xs =>
            simp at ha2
            have : '\\' ∈ lead := by rw [ha1, ← ha2.1]; simp
            rcases hl _ this with h | h <;> exact absurd h (by decide)
    · rfl
  unfold prepare
  simp only [hu, Bool.not_false, Bool.true_or, Prod.mk.injEq, true_and]
  rw [List.append_assoc, dropWhile_blanks _ _ (blanks_lead hl)]
  have hh : '#' ∉ body ++ ['\n'] := by have := hb.1; simp_all
  have hn : NUL ∉ body ++ ['\n'] := by
    have := hb.2.2.1
    simp only [List.mem_append, List.mem_singleton, not_or]
    exact ⟨this, by decide⟩
  by_cases hbe : body = []
  · subst hbe; rfl
  · rw [body_lead hb _ hbe, cutComment_id _ hh hn]

/-- a line with a comment -/
theorem prepare_comment0 (lead body t : List Char) (hl : Blanks lead) (hb : Body body) :
    ∃ x, prepare NUL (lead ++ body ++ '#' :: t ++ ['\n']) = (true, body ++ NUL :: x) := by
  have hu : ∃ t', (unescnl NUL (lead ++ body ++ '#' :: t ++ ['\n'])).2 = lead ++ body ++ '#' :: t' := by
    have hr : (lead ++ body ++ '#' :: t ++ ['\n']).reverse.dropWhile isTrail =
        (t ++ ['\n']).reverse.dropWhile isTrail ++ '#' :: (lead ++ body).reverse := by
      rw [← dropWhile_append_stop _ _ '#' (by decide)]
      congr 1; simp
    unfold unescnl
    rw [hr]
    cases hd : (t ++ ['\n']).reverse.dropWhile isTrail with
    | nil => exact ⟨t ++ ['\n'], by simp⟩
    | cons c r =>
      by_cases hc : c = '\\'
      · subst hc
        refine ⟨r.reverse, ?_⟩
        simp
      · refine ⟨t ++ ['\n'], ?_⟩
        split
        · next heq => simp at heq; exact absurd heq.1 hc
        · simp
  obtain ⟨t', ht'⟩ := hu
  refine ⟨t', ?_⟩
  unfold prepare
  simp only [ht']
  have hn : NUL ∉ lead ++ body := by
    simp only [List.mem_append, not_or]; exact ⟨blanks_nonul hl, hb.2.2.1⟩
  rw [cstr_append _ _ hn]
  have e : (lead ++ body ++ cstr ('#' :: t')).contains '#' = true := by
    have : cstr ('#' :: t') = '#' :: cstr t' := by
      unfold cstr
      simp only [List.takeWhile]
      simp [show ('#' : Char) ≠ NUL by decide]
    rw [this]; simp
  rw [e, Bool.or_true, List.append_assoc, dropWhile_blanks _ _ (blanks_lead hl)]
  refine congrArg (Prod.mk true) ?_
  by_cases hbe : body = []
  · subst hbe
    simp [isLead, cutComment]
  · rw [body_lead hb _ hbe, cutComment_hash _ _ hb.1 hb.2.2.1]

theorem assembleLoop_pieces0 (ps : List Piece) (hp : ∀ p ∈ ps, p.Ok) (v : List Char) (pend : Bool)
    (ls : List (List Char)) :
    assembleLoop NUL (accOf v) pend (ps.map Piece.text ++ ls) =
      assembleLoop NUL (accOf (v ++ ps.flatMap Piece.glued)) (pend || !ps.isEmpty) ls := by
  induction ps generalizing v pend with
  | nil => simp
  | cons p ps ih =>
    simp only [List.map_cons, List.cons_append, assembleLoop, prepare_piece0 p (hp p (by simp))]
    simp only [Bool.false_eq_true, if_false]
    rw [bufAdd_accOf, ih (fun p h => hp p (by simp [h]))]
    simp

theorem pieces_value_ne0 (ps : List Piece) (h : ∃ p ∈ ps, p.body ≠ []) : ps.flatMap Piece.glued ≠ [] := by
  obtain ⟨p, h1, h2⟩ := h
  intro hh
  rw [List.flatMap_eq_nil_iff] at hh
  have := hh p h1
  simp [Piece.glued, h2] at this

theorem pieces_value_nonul0 (ps : List Piece) (hp : ∀ p ∈ ps, p.Ok) : NUL ∉ ps.flatMap Piece.glued := by
  intro h
  rw [List.mem_flatMap] at h
  obtain ⟨p, h1, h2⟩ := h
  exact (hp p h1).body.2.2.1 h2

/-- reading one item -/
theorem assemble_item0 (it : Item) (h : it.Ok) (ls : List (List Char)) :
    assemble NUL (itemLines it ++ ls) =
      match it.glued with
      | none => assemble NUL ls
      | some v => .line v ls := by
  cases it with
  | blank w cmt =>
    simp only [itemLines, Item.glued, assemble, List.cons_append, List.nil_append, assembleLoop]
    cases cmt with
    | none =>
      have := prepare_plain0 w [] h.1 body_nil noBackslash_nil
      simp only [commentText, List.append_nil, List.nil_append] at this ⊢
      rw [this]
      simp [bufAddEol, cstr]
    | some t =>
      obtain ⟨x, hx⟩ := prepare_comment0 w [] t h.1 body_nil
      have hx' : prepare NUL (w ++ commentText (some t) ++ ['\n']) = (true, NUL :: x) := by
        simpa only [commentText, List.append_nil, List.nil_append] using hx
      simp only [hx']
      simp [bufAddEol, cstr]
  | entry conts lead body cmt =>
    obtain ⟨h1, h2, h3, h4, h5, h6⟩ := h
    simp only [itemLines, Item.glued, assemble]
    rw [List.append_assoc]
    have e0 : (none : Option (List Char)) = accOf [] := rfl
    rw [e0, assembleLoop_pieces0 conts h1]
    simp only [List.nil_append, List.cons_append, assembleLoop]
    generalize hv : conts.flatMap Piece.glued = v
    have hvn : NUL ∉ v := hv ▸ pieces_value_nonul0 conts h1
    have hvne : body = [] → v ≠ [] := by
      intro hb
      rw [← hv]
      exact pieces_value_ne0 conts (h5.resolve_left (fun hh => hh hb))
    -- the buffer is added to
    have hadd : ∀ s : List Char, (body = [] → v ≠ []) → (body ++ s ≠ []) →
        bufAddEol (accOf v) (body ++ s) = some (v ++ body ++ s) := by
      intro s hbv hs
      unfold bufAddEol
      rw [if_pos]
      · rw [bufAdd_accOf]
        simp only [accOf]
        rw [if_neg (by intro hh; simp at hh; exact hs (by simp [hh]))]
        simp
      · by_cases hvn : v = []
        · right
          have hb : body ≠ [] := fun hb => hbv hb hvn
          cases body with
          | nil => exact absurd rfl hb
          | cons c t =>
            simp only [List.cons_append, List.headD_cons]
            exact ⟨fun hh => h3.2.2.1 (by simp [hh]), fun hh => h3.2.1 (by simp [hh])⟩
        · left; simp [accOf, hvn]
    have hvb : NUL ∉ v ++ body := by
      simp only [List.mem_append, not_or]; exact ⟨hvn, h3.2.2.1⟩
    have hvbne : v ++ body ≠ [] := by
      intro hh; simp at hh; exact hvne hh.2 hh.1
    cases cmt with
    | none =>
      have := prepare_plain0 lead body h2 h3 (h6 rfl)
      simp only [commentText, List.append_nil] at this ⊢
      rw [this]
      simp only [if_true]
      rw [hadd ['\n'] hvne (by simp)]
      have hc : cstr (v ++ body ++ ['\n']) = v ++ body ++ ['\n'] := by
        apply cstr_id
        simp only [List.mem_append, List.mem_singleton, not_or] at hvb ⊢
        exact ⟨hvb, by decide⟩
      simp only [Option.getD_some]
      rw [hc]
      simp
    | some t =>
      obtain ⟨x, hx⟩ := prepare_comment0 lead body t h2 h3
      have hx' : prepare NUL (lead ++ body ++ commentText (some t) ++ ['\n']) = (true, body ++ NUL :: x) := hx
      simp only [hx']
      simp only [if_true]
      rw [hadd (NUL :: x) hvne (by simp)]
      have hc : cstr (v ++ body ++ NUL :: x) = v ++ body := by
        rw [cstr_append _ _ hvb]; simp [cstr]
      simp only [Option.getD_some]
      rw [hc, if_pos hvbne]
      simp

theorem fileLines_items0 (its : List Item) (h : ∀ it ∈ its, it.Ok) (r : List Char) :
    fileLines NUL (its.flatMap Item.text ++ r) =
      (its.filterMap Item.glued ++ (fileLines NUL r).1, (fileLines NUL r).2) := by
  induction its with
  | nil => rfl
  | cons it its ih =>
    have ih := ih (fun it hh => h it (by simp [hh]))
    unfold fileLines at ih ⊢
    rw [List.flatMap_cons, List.append_assoc, item_lines it (h it (by simp))]
    have := assemble_item0 it (h it (by simp)) (physLines (its.flatMap Item.text ++ r))
    cases hv : it.glued with
    | none =>
      rw [hv] at this
      rw [logicalLines_congr _ _ _ this, ih, List.filterMap_cons, hv]
    | some v =>
      rw [hv] at this
      rw [logicalLines_line _ _ _ _ this, ih, List.filterMap_cons, hv]
      rfl

end Pam.Config
