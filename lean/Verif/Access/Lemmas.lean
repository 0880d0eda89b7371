import Verif.Access.Spec
/-
Lemmas about the lists and the lines of pam_access.
-/
namespace Pam.Access
open Pam Pam.Access.Spec

/-! ## words -/

theorem dropWhile_all {α : Type} {p : α → Bool} {l : List α} (h : ∀ c ∈ l, p c = true) : l.dropWhile p = [] := by
  induction l with
  | nil => rfl
  | cons a l ih => rw [List.dropWhile_cons, if_pos (h a (by simp)), ih (fun c hc => h c (by simp [hc]))]

theorem dropWhile_gap {α : Type} {p : α → Bool} {g t : List α} (h : ∀ c ∈ g, p c = true)
    (ht : ∀ c, t.head? = some c → p c = false) : (g ++ t).dropWhile p = t := by
  induction g with
  | nil =>
    cases t with
    | nil => rfl
    | cons a t => rw [List.nil_append, List.dropWhile_cons, if_neg (by rw [ht a rfl]; simp)]
  | cons a g ih => rw [List.cons_append, List.dropWhile_cons, if_pos (h a (by simp)), ih (fun c hc => h c (by simp [hc]))]

theorem takeWhile_gap {α : Type} {p : α → Bool} {g t : List α} (h : ∀ c ∈ g, p c = true)
    (ht : ∀ c, t.head? = some c → p c = false) : (g ++ t).takeWhile p = g := by
  induction g with
  | nil =>
    cases t with
    | nil => rfl
    | cons a t => rw [List.nil_append, List.takeWhile_cons, if_neg (by rw [ht a rfl]; simp)]
  | cons a g ih => rw [List.cons_append, List.takeWhile_cons, if_pos (h a (by simp)), ih (fun c hc => h c (by simp [hc]))]

theorem strtok_word {sep gap w rest : Str} (hg : ∀ c ∈ gap, c ∈ sep) (hne : w ≠ []) (hw : ∀ c ∈ w, c ∉ sep)
    (hr : ∀ c, rest.head? = some c → c ∈ sep) : strtok sep (gap ++ w ++ rest) = some (w, rest.drop 1) := by
  have h1 : (gap ++ w ++ rest).dropWhile (fun c => decide (c ∈ sep)) = w ++ rest := by
    rw [List.append_assoc]
    refine dropWhile_gap (fun c hc => by simpa using hg c hc) ?_
    intro c hc
    cases w with
    | nil => exact absurd rfl hne
    | cons a w => cases hc; simpa using hw c (by simp)
  have h2 : (w ++ rest).takeWhile (fun c => decide (c ∉ sep)) = w :=
    takeWhile_gap (fun c hc => by simpa using hw c hc) (fun c hc => by simpa using hr c hc)
  have h3 : (w ++ rest).dropWhile (fun c => decide (c ∉ sep)) = rest :=
    dropWhile_gap (fun c hc => by simpa using hw c hc) (fun c hc => by simpa using hr c hc)
  unfold strtok
  simp only [h1]
  rw [if_neg (by simp [hne]), h2, h3]

theorem strtok_none {sep text : Str} (h : ∀ c ∈ text, c ∈ sep) : strtok sep text = none := by
  unfold strtok
  simp only
  rw [if_pos (dropWhile_all (fun c hc => by simpa using h c hc))]

theorem tokens_eq (sep s : Str) : tokens sep s = match strtok sep s with
    | none => []
    | some (w, t) => w :: tokens sep t := by
  rw [tokens]
  split <;> (rename_i h; rw [h])

theorem words_drop {sep : Str} {rest : Str} : ∀ {ws : List Str}, (∀ c, rest.head? = some c → c ∈ sep) → Words sep rest ws →
    Words sep (rest.drop 1) ws
  | [], _, hw => fun c hc => hw c (List.mem_of_mem_drop hc)
  | w :: ws, hr, hw => by
    obtain ⟨gap, r, h1, h2, h3, h4, h5, h6⟩ := hw
    cases gap with
    | nil =>
      cases w with
      | nil => exact absurd rfl h3
      | cons a w =>
        have := hr a (by rw [h1]; rfl)
        exact absurd this (h4 a (by simp))
    | cons g gap =>
      refine ⟨gap, r, by rw [h1]; rfl, fun c hc => h2 c (by simp [hc]), h3, h4, h5, h6⟩

theorem tokens_words {sep : Str} : ∀ {ws : List Str} {text : Str}, Words sep text ws → tokens sep text = ws
  | [], text, h => by rw [tokens_eq, strtok_none h]
  | w :: ws, text, h => by
    obtain ⟨gap, r, h1, h2, h3, h4, h5, h6⟩ := h
    rw [tokens_eq, h1, strtok_word h2 h3 h4 h5]
    simp only
    rw [tokens_words (words_drop h5 h6)]

/-! ## lists with exceptions -/

open scoped Classical in
theorem excepting_step {M : Str → Prop} {σ : Type} {m : σ → Str → Bool × σ} {Inv : σ → Prop}
    (hm : ∀ st w, Inv st → ((m st w).1 = true ↔ M w) ∧ Inv (m st w).2) :
    ∀ (ws : List Str) (incl matched : Bool) (st : σ), Inv st →
      (∃ a rest, sections ws = a :: rest ∧
        ((listLoop m incl matched (if matched then incl else !incl) st ws).1 = true ↔
          (if (matched = true ∨ ∃ w ∈ a, M w) ∧ ¬ Excepting M rest then incl else !incl) = true)) ∧
      Inv (listLoop m incl matched (if matched then incl else !incl) st ws).2 := by
  intro ws
  induction ws with
  | nil =>
    intro incl matched st hst
    refine ⟨⟨[], [], rfl, ?_⟩, hst⟩
    show (if matched then incl else !incl) = true ↔ _
    cases matched <;> simp [Excepting]
  | cons w ws ih =>
    intro incl matched st hst
    unfold listLoop
    by_cases he : ieq w "EXCEPT".toList = true
    · rw [if_pos he]
      obtain ⟨⟨a, rest, h1, h2⟩, h3⟩ := ih (!incl) false st hst
      cases matched with
      | false =>
        refine ⟨⟨[], sections ws, by rw [sections, if_pos he], ?_⟩, hst⟩
        simp
      | true =>
        simp only [Bool.not_true, Bool.false_eq_true, if_false, if_true, Bool.not_not] at h2 h3 ⊢
        refine ⟨⟨[], sections ws, by rw [sections, if_pos he], ?_⟩, h3⟩
        rw [h2, h1, Excepting]
        by_cases hA : (∃ w ∈ a, M w) ∧ ¬ Excepting M rest
        · simp [hA]
        · simp [hA]
    · rw [if_neg he]
      obtain ⟨hm1, hm2⟩ := hm st w hst
      have hs : ∀ {a rest}, sections ws = a :: rest → sections (w :: ws) = (w :: a) :: rest := by
        intro a rest h
        rw [sections, if_neg he, h]
      by_cases hM : M w
      · rw [if_pos (hm1.mpr hM)]
        obtain ⟨⟨a, rest, h1, h2⟩, h3⟩ := ih incl true (m st w).2 hm2
        simp only [if_true] at h2 h3
        refine ⟨⟨w :: a, rest, hs h1, ?_⟩, h3⟩
        rw [h2]
        simp [hM]
      · rw [if_neg (fun h => hM (hm1.mp h))]
        obtain ⟨⟨a, rest, h1, h2⟩, h3⟩ := ih incl matched (m st w).2 hm2
        refine ⟨⟨w :: a, rest, hs h1, ?_⟩, h3⟩
        rw [h2]
        simp [hM]

open scoped Classical in
theorem listMatch_spec {M : Str → Prop} {σ : Type} {m : σ → Str → Bool × σ} {Inv : σ → Prop}
    (hm : ∀ st w, Inv st → ((m st w).1 = true ↔ M w) ∧ Inv (m st w).2) {sep text : Str} {ws : List Str}
    (hw : Words sep text ws) {st : σ} (hst : Inv st) :
    ((listMatch m sep st text).1 = true ↔ Excepting M (sections ws)) ∧ Inv (listMatch m sep st text).2 := by
  unfold listMatch
  rw [tokens_words hw]
  obtain ⟨⟨a, rest, h1, h2⟩, h3⟩ := excepting_step hm ws true false st hst
  simp only [Bool.false_eq_true, if_false, Bool.not_true, false_or] at h2 h3
  refine ⟨?_, h3⟩
  rw [h2, h1, Excepting]
  by_cases hA : (∃ w ∈ a, M w) ∧ ¬ Excepting M rest
  · simp [hA]
  · simp [hA]

/-! ## lines -/

theorem space_newline : isSpace '\n' = true := by decide

theorem readLine_ignored {fs line : Str} (h : IsIgnored line) : readLine fs line = none := by
  unfold readLine
  simp only
  split
  · rfl
  · rename_i h0
    split
    · rfl
    · split
      · rfl
      · rename_i h1 h2
        rcases h with ⟨t, rfl⟩ | h
        · exact absurd (by rw [List.takeWhile_cons, if_pos (by decide)]; rfl) h2
        · rw [if_pos]
          rw [List.reverse_eq_nil_iff]
          refine dropWhile_all (fun c hc => h c ?_)
          exact List.takeWhile_subset _ (List.dropLast_subset _ (List.mem_reverse.mp hc))

theorem readLine_rule {fs sep line : Str} {r : Rule} (h : IsRule fs sep line r) :
    ∃ users origins, readLine fs line = some (some (if r.allow then '+' else '-'), users, origins) ∧
      Words sep users r.users ∧ Words sep origins r.origins := by
  obtain ⟨sign, mark, s1, users, s2, origins, blanks, hl, hsign, hmark, hs1, hs1n, hune, hu, hs2, hs2n, hol, hone, ho, hb, hwu, hwo⟩ := h
  refine ⟨users, origins, ?_, hwu, hwo⟩
  have hnul : ∀ c ∈ line, c ≠ NUL := by
    intro c hc
    rw [hl] at hc
    simp only [List.mem_append, List.mem_cons, List.not_mem_nil, or_false] at hc
    rcases hc with ((((hc | hc) | hc | hc) | hc | hc) | hc) | hc
    · exact (hmark c (by simp [hc])).2.1
    · exact (hmark c (by simp [hc])).2.1
    · rw [hc]; exact hs1n
    · exact (hu c hc).2.1
    · rw [hc]; exact hs2n
    · exact (ho c hc).1
    · intro e; subst e; exact absurd (hb _ hc) (by decide)
    · rw [hc]; decide
  have htake : line.takeWhile (fun c => decide (c ≠ NUL)) = line := by
    have := takeWhile_gap (p := fun c => decide (c ≠ NUL)) (g := line) (t := []) (fun c hc => by simpa using hnul c hc)
      (fun c hc => by cases hc)
    rwa [List.append_nil] at this
  have hbody : (line.dropLast.reverse.dropWhile isSpace).reverse = sign :: mark ++ s1 :: users ++ s2 :: origins := by
    rw [hl, List.dropLast_concat, List.reverse_append]
    have := dropWhile_gap (p := isSpace) (g := blanks.reverse) (t := (sign :: mark ++ s1 :: users ++ s2 :: origins).reverse)
      (fun c hc => hb c (List.mem_reverse.mp hc)) (by
        intro c hc
        rw [List.head?_reverse, List.getLast?_append, List.getLast?_cons] at hc
        have ho' := List.getLast?_eq_some_getLast hone
        rw [ho'] at hc
        cases hc
        exact hol _ ho')
    rw [this, List.reverse_reverse]
  have hsg : sign = '+' ∨ sign = '-' := by rw [hsign]; split <;> simp
  unfold readLine
  simp only [htake]
  rw [if_neg (by rw [hl]; simp), if_neg (by rw [hl, List.getLast?_append]; simp),
    if_neg (by rw [hl]; rcases hsg with h | h <;> (rw [h]; simp)), hbody, if_neg (by simp)]
  have e1 : strtok fs (sign :: mark ++ s1 :: users ++ s2 :: origins) = some (sign :: mark, users ++ s2 :: origins) := by
    have := strtok_word (sep := fs) (gap := []) (w := sign :: mark) (rest := s1 :: users ++ s2 :: origins) (by simp) (by simp)
      (fun c hc => (hmark c hc).1) (fun c hc => by cases hc; exact hs1)
    simpa using this
  have e2 : strtok fs (users ++ s2 :: origins) = some (users, origins) := by
    have := strtok_word (sep := fs) (gap := []) (w := users) (rest := s2 :: origins) (by simp) hune
      (fun c hc => (hu c hc).1) (fun c hc => by cases hc; exact hs2)
    simpa using this
  have e3 : strtok ['\n'] origins = some (origins, []) := by
    have := strtok_word (sep := ['\n']) (gap := []) (w := origins) (rest := []) (by simp) hone
      (fun c hc => by simpa using (ho c hc).2) (fun c hc => by cases hc)
    simpa using this
  rw [e1]
  simp only
  rw [e2]
  simp only
  rw [e3]
  simp only
  rw [if_neg (by rcases hsg with h | h <;> (rw [h]; simp)), hsign]
  rfl

end Pam.Access
