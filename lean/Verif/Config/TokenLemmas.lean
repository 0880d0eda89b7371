import Verif.Config.Token
namespace Pam.Config

/-- the C string at address `i` of memory `m` is `s` -/
def CStr (m : Mem) (i : Nat) (s : List Char) : Prop :=
  ∃ post, m.drop i = s ++ NUL :: post ∧ NUL ∉ s

theorem drop_cons {α : Type} {m : List α} {i : Nat} {a : α} {t : List α} (h : m.drop i = a :: t) :
    m[i]? = some a ∧ m.drop (i + 1) = t ∧ i < m.length := by
  refine ⟨?_, ?_, ?_⟩
  · have := congrArg (fun l => l[0]?) h; simpa using this
  · rw [← List.tail_drop, h]; rfl
  · rcases Nat.lt_or_ge i m.length with h1 | h1
    · exact h1
    · rw [List.drop_eq_nil_of_le h1] at h; cases h

theorem spanDelim_spec (m : Mem) (s post : List Char) (i : Nat) (h : m.drop i = s ++ NUL :: post) :
    spanDelimMem m i = some (i + (s.takeWhile isDelim).length) ∧
      m.drop (i + (s.takeWhile isDelim).length) = s.dropWhile isDelim ++ NUL :: post := by
  induction s generalizing i with
  | nil =>
    obtain ⟨h1, _, _⟩ := drop_cons h
    rw [spanDelimMem]
    split
    · next hn => rw [hn] at h1; cases h1
    · next c hc =>
      rw [hc] at h1; injection h1 with h1
      have : isDelim c = false := by rw [h1]; decide
      simp [this, h]
  | cons a t ih =>
    obtain ⟨h1, h2, _⟩ := drop_cons h
    rw [spanDelimMem]
    split
    · next hn => rw [hn] at h1; cases h1
    · next c hc =>
      rw [hc] at h1; injection h1 with h1; subst h1
      cases hd : isDelim c with
      | true =>
        obtain ⟨k1, k2⟩ := ih (i + 1) h2
        simp only [if_true, List.takeWhile_cons, hd, List.dropWhile_cons, List.length_cons]
        rw [k1]
        exact ⟨by congr 1; omega, by rw [← k2]; congr 1; omega⟩
      | false => simp [List.takeWhile_cons, hd, List.dropWhile_cons, h]

theorem cspanDelim_spec (m : Mem) (s post : List Char) (i : Nat) (h : m.drop i = s ++ NUL :: post)
    (hs : NUL ∉ s) :
    cspanDelimMem m i = some (i + (s.takeWhile (fun c => !isDelim c)).length) ∧
      m.drop (i + (s.takeWhile (fun c => !isDelim c)).length)
        = s.dropWhile (fun c => !isDelim c) ++ NUL :: post := by
  induction s generalizing i with
  | nil =>
    obtain ⟨h1, _, _⟩ := drop_cons h
    rw [cspanDelimMem]
    split
    · next hn => rw [hn] at h1; cases h1
    · next c hc =>
      rw [hc] at h1; injection h1 with h1
      subst h1
      simp [h]
  | cons a t ih =>
    obtain ⟨h1, h2, _⟩ := drop_cons h
    rw [cspanDelimMem]
    split
    · next hn => rw [hn] at h1; cases h1
    · next c hc =>
      rw [hc] at h1; injection h1 with h1; subst h1
      have hcn : c ≠ NUL := by intro hh; exact hs (by simp [hh])
      cases hd : isDelim c with
      | false =>
        obtain ⟨k1, k2⟩ := ih (i + 1) h2 (fun hh => hs (by simp [hh]))
        simp only [hcn, Bool.false_eq_true, or_self, if_false, List.takeWhile_cons, hd, Bool.not_false, if_true,
          List.dropWhile_cons, List.length_cons]
        rw [k1]
        exact ⟨by congr 1; omega, by rw [← k2]; congr 1; omega⟩
      | true => simp [List.takeWhile_cons, hd, List.dropWhile_cons, h]

theorem wr_spec (m : Mem) (i : Nat) (c : Char) (h : i < m.length) :
    wr m i c = some (m.set i c) := by simp [wr, h]

theorem bracket_close (t : List Char) : bracket (']' :: t) = ([], ']' :: t) := by
  cases t <;> simp [bracket]

/-- what the copy loop leaves in memory -/
theorem bracketLoop_spec (n : Nat) : ∀ (m : Mem) (s post : List Char) (to e : Nat), s.length = n →
    m.drop e = s ++ NUL :: post → NUL ∉ s → to ≤ e →
    ∃ m', bracketLoopMem m to e
        = some (m', to + (bracket s).1.length, e + (s.length - (bracket s).2.length)) ∧
      m'.length = m.length ∧ m'.take to = m.take to ∧
      m'.drop to = (bracket s).1 ++ m'.drop (to + (bracket s).1.length) ∧
      m'.drop (e + (s.length - (bracket s).2.length)) = (bracket s).2 ++ NUL :: post ∧
      to + (bracket s).1.length ≤ e + (s.length - (bracket s).2.length) := by
  induction n using Nat.strongRecOn with
  | _ n ih =>
  intro m s post to e hn h hs hte
  cases s with
  | nil =>
    obtain ⟨h1, _, _⟩ := drop_cons h
    refine ⟨m, ?_, rfl, rfl, by simp [bracket], by simpa [bracket] using h, by simpa [bracket] using hte⟩
    rw [bracketLoopMem]
    split
    · next hx => rw [hx] at h1; cases h1
    · next c hc => rw [hc] at h1; injection h1 with h1; subst h1; simp [bracket]
  | cons c t =>
    obtain ⟨h1, h2, hlt⟩ := drop_cons h
    have hcn : c ≠ NUL := by intro hh; exact hs (by simp [hh])
    by_cases hcb : c = ']'
    · subst hcb
      refine ⟨m, ?_, rfl, rfl, by simp [bracket_close], by simpa [bracket_close] using h,
        by simpa [bracket_close] using hte⟩
      rw [bracketLoopMem]
      split
      · next hx => rw [hx] at h1; cases h1
      · next c' hc => rw [hc] at h1; injection h1 with h1; subst h1; simp [bracket_close]
    -- one copied character
    have step : ∀ (e' : Nat) (d : Char) (t' : List Char), e ≤ e' → m.drop e' = d :: (t' ++ NUL :: post) →
        (if c = '\\' then (m[e + 1]?).map (fun d => if d = ']' then e + 1 else e) else some e) = some e' →
        NUL ∉ t' → t'.length < n → (c :: t).length = (e' - e) + 1 + t'.length →
        bracket (c :: t) = (d :: (bracket t').1, (bracket t').2) →
        ∃ m', bracketLoopMem m to e
            = some (m', to + (bracket (c :: t)).1.length,
                e + ((c :: t).length - (bracket (c :: t)).2.length)) ∧
          m'.length = m.length ∧ m'.take to = m.take to ∧
          m'.drop to = (bracket (c :: t)).1 ++ m'.drop (to + (bracket (c :: t)).1.length) ∧
          m'.drop (e + ((c :: t).length - (bracket (c :: t)).2.length))
            = (bracket (c :: t)).2 ++ NUL :: post ∧
          to + (bracket (c :: t)).1.length ≤ e + ((c :: t).length - (bracket (c :: t)).2.length) := by
      intro e' d t' hee hd hsel ht' hlen hlen2 hbr
      obtain ⟨d1, d2, d3⟩ := drop_cons hd
      have hle := bracket_length t'
      have hlc : (c :: t).length = t.length + 1 := rfl
      -- memory after the copy of this character
      obtain ⟨m1, hm1, hl1, htk1, hto1, hdr1⟩ : ∃ m1, (if to ≠ e' then wr m to d else some m) = some m1 ∧
          m1.length = m.length ∧ m1.take to = m.take to ∧ m1[to]? = some d ∧
          m1.drop (e' + 1) = m.drop (e' + 1) := by
        by_cases hne : to = e'
        · refine ⟨m, by simp [hne], rfl, rfl, by rw [hne]; exact d1, rfl⟩
        · have hlt' : to < m.length := by omega
          refine ⟨m.set to d, by simp [hne, wr, hlt'], by simp, ?_, ?_, ?_⟩
          · rw [List.take_set_of_le (Nat.le_refl _)]
          · simp [hlt']
          · rw [List.drop_set_of_lt (by omega)]
      obtain ⟨m', k1, k2, k3, k4, k5, k6⟩ := ih t'.length hlen m1 t' post (to + 1) (e' + 1) rfl
        (by rw [hdr1, d2]) ht' (by omega)
      have htl : (c :: t).length - (bracket t').2.length = (e' - e) + 1 + (t'.length - (bracket t').2.length) := by
        omega
      have hm't : m'[to]? = some d := by
        have : (m'.take (to + 1))[to]? = (m1.take (to + 1))[to]? := by rw [k3]
        simpa [List.getElem?_take, hto1] using this
      refine ⟨m', ?_, by rw [k2, hl1], ?_, ?_, ?_, ?_⟩
      · rw [bracketLoopMem]
        split
        · next hx => rw [hx] at h1; cases h1
        · next c' hc' =>
          rw [hc'] at h1; injection h1 with h1; subst h1
          simp only [hcn, hcb, or_self, if_false]
          rw [hsel]
          simp only [hee, if_true, d1, hm1, hl1, k1, hbr, htl, List.length_cons]
          congr 3 <;> omega
      · rw [← htk1]
        have := congrArg (List.take to) k3
        simpa [List.take_take, Nat.min_eq_left (Nat.le_succ to)] using this
      · rw [hbr]
        simp only [List.cons_append, List.length_cons]
        have hlt2 : to < m'.length := by
          rcases Nat.lt_or_ge to m'.length with h | h
          · exact h
          · rw [List.getElem?_eq_none h] at hm't; cases hm't
        rw [List.drop_eq_getElem_cons hlt2]
        have he : m'[to] = d := by
          have := List.getElem?_eq_getElem hlt2
          rw [hm't] at this; injection this with this; exact this.symm
        rw [he, k4]; congr 3; omega
      · rw [hbr]; simp only; rw [htl, ← k5]; congr 1; omega
      · rw [hbr]; simp only [htl, List.length_cons]; omega
    cases t with
    | nil =>
      refine step e c [] (Nat.le_refl _) (by simpa using h) ?_ (by simp) (by simp at hn ⊢; omega)
        (by simp) (by simp [bracket, hcb])
      have h2' : m.drop (e + 1) = NUL :: post := by simpa using h2
      obtain ⟨g1, _, _⟩ := drop_cons h2'
      split
      · rw [g1]; rfl
      · rfl
    | cons d t' =>
      have h2' : m.drop (e + 1) = d :: (t' ++ NUL :: post) := by simpa using h2
      obtain ⟨g1, g2, _⟩ := drop_cons h2'
      have hst : NUL ∉ t' := fun hh => hs (by simp [hh])
      by_cases hesc : c = '\\' ∧ d = ']'
      · refine step (e + 1) d t' (by omega) h2' ?_ hst (by simp at hn; omega) (by simp; omega) ?_
        · rw [if_pos hesc.1, g1]; simp [hesc.2]
        · rw [bracket, if_neg hcb]; simp [hesc]
      · refine step e c (d :: t') (Nat.le_refl _) h ?_ (fun hh => hs (by simp at hh ⊢; exact Or.inr hh))
          (by simp at hn ⊢; omega) (by simp; omega) ?_
        · by_cases hb : c = '\\'
          · rw [if_pos hb, g1]
            have : d ≠ ']' := fun hh => hesc ⟨hb, hh⟩
            simp [this]
          · rw [if_neg hb]
        · rw [bracket, if_neg hcb]; simp [hesc]

theorem bracket_mem (s : List Char) : (∀ c ∈ (bracket s).1, c ∈ s ∨ c = ']') ∧ (bracket s).2 <:+ s := by
  fun_induction bracket s with
  | case1 => simp
  | case2 t => simp
  | case3 c d t' h1 h2 ih =>
    refine ⟨?_, (ih.2.trans (List.suffix_cons _ _)).trans (List.suffix_cons _ _)⟩
    intro x hx
    simp at hx
    rcases hx with rfl | hx
    · exact Or.inr rfl
    · rcases ih.1 x hx with h | h
      · exact Or.inl (by simp [h])
      · exact Or.inr h
  | case4 c d t' h1 h2 ih =>
    refine ⟨?_, ih.2.trans (List.suffix_cons _ _)⟩
    intro x hx
    simp at hx
    rcases hx with rfl | hx
    · exact Or.inl (by simp)
    · rcases ih.1 x hx with h | h
      · exact Or.inl (by simp at h ⊢; exact Or.inr h)
      · exact Or.inr h
  | case5 c h => simp

theorem bracket_rest (s : List Char) : (bracket s).2 = [] ∨ ∃ t, (bracket s).2 = ']' :: t := by
  fun_induction bracket s with
  | case1 => simp
  | case2 t => simp
  | case3 c d t' h1 h2 ih => exact ih
  | case4 c d t' h1 h2 ih => exact ih
  | case5 c h => simp

/-- result of one tokenizer call on memory, in terms of the string it stands for -/
def TokPost (m : Mem) (p : Nat) (s post tok : List Char) (nx : Option (List Char)) : Prop :=
  ∃ m' q nxp, tokenizeMem m p = some (m', some (q, nxp)) ∧ m'.length = m.length ∧ p ≤ q ∧
    m'.take p = m.take p ∧ m'.drop (p + s.length) = m.drop (p + s.length) ∧
    (∃ k, m'.drop q = tok ++ NUL :: k) ∧ NUL ∉ tok ∧ q + tok.length ≤ p + s.length ∧
    (nx = none → nxp = none) ∧
    ∀ r, nx = some r → ∃ j, nxp = some j ∧ m'.drop j = r ++ NUL :: post ∧ NUL ∉ r ∧ q + tok.length < j

theorem finishMem_spec (m : Mem) (q to e : Nat) (tok rest post : List Char)
    (htok : m.drop q = tok ++ m.drop to) (hto : to = q + tok.length) (hte : to ≤ e)
    (hnul : to < e → m[to]? = some NUL) (hrest : m.drop e = rest ++ NUL :: post) (hr : NUL ∉ rest) :
    ∃ m' nxp, tokenizeMem.finishMem m q e = some (m', some (q, nxp)) ∧ m'.length = m.length ∧
      m'.take q = m.take q ∧ m'.drop (e + rest.length) = m.drop (e + rest.length) ∧
      (∃ k, m'.drop q = tok ++ NUL :: k) ∧
      (tokenize.next rest = none → nxp = none) ∧
      ∀ r, tokenize.next rest = some r → ∃ j, nxp = some j ∧ m'.drop j = r ++ NUL :: post ∧ NUL ∉ r ∧
        q + tok.length < j := by
  cases rest with
  | nil =>
    obtain ⟨h1, h2, h3⟩ := drop_cons (a := NUL) (t := post) (by simpa using hrest)
    refine ⟨m, none, ?_, rfl, rfl, rfl, ?_, fun _ => rfl, by simp [tokenize.next]⟩
    · simp [tokenizeMem.finishMem, h1]
    · have hto' : m[to]? = some NUL := by
        rcases Nat.lt_or_ge to e with h | h
        · exact hnul h
        · have : to = e := by omega
          rw [this]; exact h1
      have hl : to < m.length := by omega
      refine ⟨m.drop (to + 1), ?_⟩
      rw [htok, List.drop_eq_getElem_cons hl]
      have := List.getElem?_eq_getElem hl
      rw [hto'] at this; injection this with this
      rw [← this]
  | cons c r =>
    obtain ⟨h1, h2, h3⟩ := drop_cons (a := c) (t := r ++ NUL :: post) (by simpa using hrest)
    have hcn : c ≠ NUL := fun hh => hr (by simp [hh])
    have hrn : NUL ∉ r := fun hh => hr (by simp [hh])
    have hd1 : (m.set e NUL).drop (e + 1) = r ++ NUL :: post := by
      rw [List.drop_set_of_lt (by omega)]; exact h2
    have htokn : ∃ k, (m.set e NUL).drop q = tok ++ NUL :: k := by
      have hlen : to < (m.set e NUL).length := by simp; omega
      have ht : (m.set e NUL)[to]? = some NUL := by
        by_cases hh : to = e
        · subst hh; simp [h3]
        · rw [List.getElem?_set_ne (by omega)]; exact hnul (by omega)
      refine ⟨(m.set e NUL).drop (to + 1), ?_⟩
      have hx : NUL :: (m.set e NUL).drop (to + 1) = (m.set e NUL).drop to := by
        rw [List.drop_eq_getElem_cons hlen]
        have := List.getElem?_eq_getElem hlen
        rw [ht] at this; injection this with this
        rw [← this]
      rw [hx]
      apply List.ext_getElem?
      intro i
      rw [List.getElem?_drop, List.getElem?_append]
      split
      · next hi =>
        rw [List.getElem?_set_ne (by omega)]
        have := congrArg (fun l => l[i]?) htok
        simp only [List.getElem?_drop, List.getElem?_append, hi, if_true] at this
        exact this
      · next hi =>
        rw [List.getElem?_drop]
        congr 1; omega
    have hfin : ∀ nxp, (match (m.set e NUL)[e + 1]? with
        | none => none
        | some c => some (m.set e NUL, some (q, if c ≠ NUL then some (e + 1) else none)))
          = some (m.set e NUL, some (q, nxp)) → tokenizeMem.finishMem m q e = some (m.set e NUL, some (q, nxp)) := by
      intro nxp hx
      simp only [tokenizeMem.finishMem, h1, hcn, ne_eq, not_false_eq_true, if_true, wr, h3, Option.map_some]
      exact hx
    have htk : (m.set e NUL).take q = m.take q := List.take_set_of_le (by omega)
    have hdr : (m.set e NUL).drop (e + (c :: r).length) = m.drop (e + (c :: r).length) :=
      List.drop_set_of_lt (by simp only [List.length_cons]; omega)
    cases r with
    | nil =>
      obtain ⟨g1, _, _⟩ := drop_cons (a := NUL) (t := post) (by simpa using hd1)
      refine ⟨m.set e NUL, none, hfin _ (by rw [g1]; simp), by simp, htk, hdr, htokn, fun _ => rfl,
        by simp [tokenize.next]⟩
    | cons d r' =>
      obtain ⟨g1, _, _⟩ := drop_cons (a := d) (t := r' ++ NUL :: post) (by simpa using hd1)
      have hdn : d ≠ NUL := fun hh => hrn (by simp [hh])
      refine ⟨m.set e NUL, some (e + 1), hfin _ (by rw [g1]; simp [hdn]), by simp, htk, hdr, htokn, ?_, ?_⟩
      · simp [tokenize.next]
      · intro x hx
        simp only [tokenize.next, reduceCtorEq, if_false, Option.some.injEq] at hx
        subst hx
        exact ⟨e + 1, rfl, hd1, hrn, by omega⟩

theorem tokenizeMem_spec (m : Mem) (p : Nat) (s post : List Char) (h : m.drop p = s ++ NUL :: post)
    (hs : NUL ∉ s) :
    (tokenize s = none → tokenizeMem m p = some (m, none)) ∧
    ∀ tok nx, tokenize s = some (tok, nx) → TokPost m p s post tok nx := by
  obtain ⟨h1, h2⟩ := spanDelim_spec m s post p h
  have hlen : s.length = (s.takeWhile isDelim).length + (s.dropWhile isDelim).length := by
    rw [← List.length_append, List.takeWhile_append_dropWhile]
  have hs' : NUL ∉ s.dropWhile isDelim := fun hh => hs ((List.dropWhile_sublist isDelim).subset hh)
  generalize hp' : p + (s.takeWhile isDelim).length = p' at h1 h2
  unfold tokenize
  cases hd : s.dropWhile isDelim with
  | nil =>
    rw [hd] at h2
    obtain ⟨g1, _, _⟩ := drop_cons (a := NUL) (t := post) (by simpa using h2)
    refine ⟨fun _ => ?_, by simp⟩
    simp [tokenizeMem, h1, g1, show NUL ≠ '[' by decide]
  | cons c t =>
    rw [hd] at h2 hs' hlen
    obtain ⟨g1, g2, g3⟩ := drop_cons (a := c) (t := t ++ NUL :: post) (by simpa using h2)
    have hcn : c ≠ NUL := fun hh => hs' (by simp [hh])
    have htn : NUL ∉ t := fun hh => hs' (by simp [hh])
    simp only [List.length_cons] at hlen
    by_cases hb : c = '['
    · refine ⟨by simp [hb], ?_⟩
      intro tok nx htk
      simp only [hb, if_true, Option.some.injEq, Prod.mk.injEq] at htk
      obtain ⟨rfl, rfl⟩ := htk
      obtain ⟨m1, k1, k2, k3, k4, k5, k6⟩ := bracketLoop_spec t.length m t post (p' + 1) (p' + 1) rfl g2 htn
        (Nat.le_refl _)
      have hble := bracket_length t
      have hbm := bracket_mem t
      generalize hto : p' + 1 + (bracket t).1.length = to at k1 k4 k6
      generalize he : p' + 1 + (t.length - (bracket t).2.length) = e at k1 k5 k6
      have hel : e < m1.length := by
        rcases Nat.lt_or_ge e m1.length with hh | hh
        · exact hh
        · rw [List.drop_eq_nil_of_le hh] at k5
          have := congrArg List.length k5
          simp at this
      obtain ⟨m2, j1, j2, j3, j4, j5, j6⟩ : ∃ m2, (if to ≠ e then wr m1 to NUL else some m1) = some m2 ∧
          m2.length = m1.length ∧ m2.take (p' + 1) = m1.take (p' + 1) ∧
          m2.drop (p' + 1) = (bracket t).1 ++ m2.drop to ∧ (to < e → m2[to]? = some NUL) ∧
          m2.drop e = m1.drop e := by
        by_cases hne : to = e
        · exact ⟨m1, by simp [hne], rfl, rfl, k4, fun hh => by omega, rfl⟩
        · have hl : to < m1.length := by omega
          refine ⟨m1.set to NUL, by simp [hne, wr, hl], by simp, List.take_set_of_le (by omega), ?_, ?_, ?_⟩
          · apply List.ext_getElem?
            intro i
            rw [List.getElem?_drop, List.getElem?_append]
            split
            · next hi =>
              rw [List.getElem?_set_ne (by omega)]
              have := congrArg (fun l => l[i]?) k4
              simp only [List.getElem?_drop, List.getElem?_append, hi, if_true] at this
              exact this
            · next hi => rw [List.getElem?_drop]; congr 1; omega
          · intro _; simp [hl]
          · rw [List.drop_set_of_lt (by omega)]
      obtain ⟨m3, nxp, f1, f2, f3, f4, f5, f6, f7⟩ := finishMem_spec m2 (p' + 1) to e (bracket t).1 (bracket t).2 post
        j4 hto.symm k6 j5 (by rw [j6, k5]) (fun hh => htn (hbm.2.subset hh))
      have hpp : p' + 1 + t.length = p + s.length := by omega
      have hee : e + (bracket t).2.length = p + s.length := by omega
      refine ⟨m3, p' + 1, nxp, ?_, by omega, by omega, ?_, ?_, f5, ?_, by omega, f6, f7⟩
      · unfold tokenizeMem
        simp only [h1, g1, hb, if_true, k1]
        rw [j1]
        exact f1
      · have e1 : m3.take (p' + 1) = m.take (p' + 1) := by rw [f3, j3, k3]
        have := congrArg (List.take p) e1
        simpa [List.take_take, Nat.min_eq_left (show p ≤ p' + 1 by omega)] using this
      · rw [← hee, f4]
        have e2 : m2.drop e = m.drop (p' + 1 + (t.length - (bracket t).2.length)) := by
          rw [j6, k5, ← List.drop_drop, g2, List.drop_append_of_le_length (by omega)]
          congr 1
          exact List.suffix_iff_eq_drop.1 hbm.2
        rw [← List.drop_drop, e2, he, List.drop_drop]
      · intro hh
        rcases hbm.1 _ hh with h | h
        · exact htn h
        · exact absurd h (by decide)
    · refine ⟨by simp [hb], ?_⟩
      intro tok nx htk
      simp only [hb, if_false, Option.some.injEq, Prod.mk.injEq] at htk
      obtain ⟨rfl, rfl⟩ := htk
      obtain ⟨k1, k2⟩ := cspanDelim_spec m (c :: t) post p' h2 hs'
      have hlen2 : (c :: t).length = ((c :: t).takeWhile (fun c => !isDelim c)).length
          + ((c :: t).dropWhile (fun c => !isDelim c)).length := by
        rw [← List.length_append, List.takeWhile_append_dropWhile]
      have hlc : (c :: t).length = t.length + 1 := rfl
      obtain ⟨m3, nxp, f1, f2, f3, f4, f5, f6, f7⟩ := finishMem_spec m p'
        (p' + ((c :: t).takeWhile (fun c => !isDelim c)).length)
        (p' + ((c :: t).takeWhile (fun c => !isDelim c)).length)
        ((c :: t).takeWhile (fun c => !isDelim c)) ((c :: t).dropWhile (fun c => !isDelim c)) post
        (by rw [h2, k2, ← List.append_assoc, List.takeWhile_append_dropWhile]) rfl (Nat.le_refl _)
        (fun hh => by omega) k2 (fun hh => hs' ((List.dropWhile_sublist _).subset hh))
      refine ⟨m3, p', nxp, ?_, f2, by omega, ?_, ?_, f5, ?_, by omega, f6, f7⟩
      · unfold tokenizeMem
        simp only [h1, g1, hb, if_false, hcn, ne_eq, not_false_eq_true, if_true, k1]
        exact f1
      · have := congrArg (List.take p) f3
        simpa [List.take_take, Nat.min_eq_left (show p ≤ p' by omega)] using this
      · have : p' + ((c :: t).takeWhile (fun c => !isDelim c)).length
            + ((c :: t).dropWhile (fun c => !isDelim c)).length = p + s.length := by omega
        rw [← this]; exact f4
      · exact fun hh => hs' ((List.takeWhile_sublist _).subset hh)

theorem cstr_frame (m m' : Mem) (q j : Nat) (tok k : List Char) (h : m.drop q = tok ++ NUL :: k)
    (hj : q + tok.length < j) (hm : m'.take j = m.take j) : ∃ k', m'.drop q = tok ++ NUL :: k' := by
  refine ⟨m'.drop (q + tok.length + 1), ?_⟩
  apply List.ext_getElem?
  intro i
  rw [List.getElem?_drop, List.getElem?_append]
  have key : ∀ x, x < j → m'[x]? = m[x]? := by
    intro x hx
    have := congrArg (fun l => l[x]?) hm
    simpa [List.getElem?_take, hx] using this
  have hm2 : ∀ x, m[q + x]? = (tok ++ NUL :: k)[x]? := by
    intro x; rw [← h, List.getElem?_drop]
  split
  · next hi => rw [key _ (by omega), hm2, List.getElem?_append, if_pos hi]
  · next hi =>
    by_cases h0 : i = tok.length
    · subst h0
      rw [key _ (by omega), hm2]; simp
    · have : i - tok.length = (i - tok.length - 1) + 1 := by omega
      rw [this, List.getElem?_cons_succ, List.getElem?_drop]
      congr 1; omega

theorem mkargvMem_spec (n : Nat) : ∀ (s post : List Char) (m : Mem) (p slots fuel : Nat), s.length = n →
    m.drop p = s ++ NUL :: post → NUL ∉ s → s.length ≤ slots → s.length < fuel →
    ∃ m' ptrs, mkargvMem slots fuel m p = some (m', ptrs) ∧ m'.take p = m.take p ∧
      ptrs.length = (mkargv s).length ∧ ptrs.length ≤ s.length ∧
      ∀ (i : Nat) (q : Nat) (a : List Char), ptrs[i]? = some q → (mkargv s)[i]? = some a → CStr m' q a := by
  induction n using Nat.strongRecOn with
  | _ n ih =>
  intro s post m p slots fuel hn h hs hsl hf
  obtain ⟨fuel, rfl⟩ : ∃ f, fuel = f + 1 := ⟨fuel - 1, by omega⟩
  obtain ⟨hnone, hsome⟩ := tokenizeMem_spec m p s post h hs
  rw [mkargv]
  split
  · next ht =>
    refine ⟨m, [], ?_, rfl, rfl, by simp, by simp⟩
    rw [mkargvMem, hnone ht]
  · next tok ht =>
    obtain ⟨m', q, nxp, h1, h2, h3, h4, h5, ⟨k, h6⟩, h7, h8, h9, h10⟩ := hsome tok none ht
    have hpos : 0 < s.length := by
      rcases Nat.eq_zero_or_pos s.length with h0 | h0
      · have : s = [] := List.eq_nil_of_length_eq_zero h0
        subst this; simp [tokenize] at ht
      · exact h0
    have hslots : slots ≠ 0 := by omega
    refine ⟨m', [q], ?_, h4, rfl, hpos, ?_⟩
    · rw [mkargvMem, h1]; simp [h9 rfl, hslots]
    · intro i q' a hq ha
      match i with
      | 0 =>
        simp at hq ha; subst hq; subst ha
        exact ⟨k, h6, h7⟩
      | i + 1 => simp at hq
  · next tok r ht =>
    obtain ⟨m', q, nxp, h1, h2, h3, h4, h5, ⟨k, h6⟩, h7, h8, h9, h10⟩ := hsome tok (some r) ht
    obtain ⟨j, j1, j2, j3, j4⟩ := h10 r rfl
    have hrl := tokenize_length s tok r ht
    obtain ⟨m'', ptrs, i1, i2, i3, i4, i5⟩ := ih r.length (by omega) r post m' j (slots - 1) fuel rfl j2 j3
      (by omega) (by omega)
    have hslots : slots ≠ 0 := by omega
    refine ⟨m'', q :: ptrs, ?_, ?_, by simp [i3], by simp; omega, ?_⟩
    · rw [mkargvMem, h1]; simp [j1, hslots, i1]
    · have : p ≤ j := by omega
      have e := congrArg (List.take p) i2
      simp only [List.take_take, Nat.min_eq_left this] at e
      rw [e, h4]
    · intro i q' a hq ha
      match i with
      | 0 =>
        simp at hq ha; subst hq; subst ha
        obtain ⟨k', hk'⟩ := cstr_frame m' m'' q j tok k h6 j4 i2
        exact ⟨k', hk', h7⟩
      | i + 1 =>
        simp at hq ha
        exact i5 i q' a hq ha

end Pam.Config
