import Verif.Util.Files
import Verif.Util.FilesSpec
/-
Lemmas for C31 and C32.
-/
namespace Pam.Util
open Spec

/-- what follows a line in the file: nothing, or a newline and the rest -/
inductive Tail : List Char → Option Char × List Char → Prop where
  | eof : Tail [] (none, [])
  | nl (r : List Char) : Tail ('\n' :: r) (some '\n', r)

theorem skipLine_nl (r : List Char) : skipLine (some '\n') r = (some '\n', r) := by
  cases r <;> simp [skipLine]

theorem skipLine_spec {t : List Char} {e : Option Char × List Char} (ht : Tail t e) :
    ∀ (l : List Char) (c : Char), '\n' ∉ l → c ≠ '\n' → skipLine (some c) (l ++ t) = e := by
  intro l
  induction l with
  | nil =>
    intro c _ hc
    cases ht with
    | eof => simp [skipLine, hc]
    | nl r => simp [skipLine, hc, skipLine_nl]
  | cons y l ih =>
    intro c hl hc
    rw [List.cons_append, skipLine, if_neg hc]
    exact ih y (fun h => hl (by simp [h])) (fun h => hl (by simp [h]))

/-- the part of `oneLine` after the comparison -/
def fin (m : List Char × Option Char × List Char) : Bool × Option Char × List Char :=
  let n := if m.2.1 ≠ none ∧ m.2.1 ≠ some '\n' then getc m.2.2 else m.2
  (decide (m.1 = [] ∧ n.1 = some ':'), skipLine n.1 n.2)

theorem fin_tail {t : List Char} {e : Option Char × List Char} (ht : Tail t e) (p l : List Char) (y : Char)
    (hl : '\n' ∉ l) (hy : y ≠ '\n') :
    fin (p, some y, l ++ t) = (decide (p = [] ∧ l.head? = some ':'), e) := by
  have h1 : ((some y : Option Char) ≠ none ∧ (some y : Option Char) ≠ some '\n') := by simp [hy]
  simp only [fin]
  rw [if_pos h1]
  cases l with
  | nil =>
    cases ht with
    | eof => simp [getc, skipLine]
    | nl r => simp [getc, skipLine_nl]
  | cons z l =>
    have hz : z ≠ '\n' := fun h => hl (by simp [h])
    simp only [List.cons_append, getc, List.head?_cons]
    rw [skipLine_spec ht l z (fun h => hl (by simp [h])) hz]
    congr

theorem fin_spec {t : List Char} {e : Option Char × List Char} (ht : Tail t e) :
    ∀ (p l : List Char) (c : Option Char), '\n' ∉ l → (p = [] → ∃ y, c = some y ∧ y ≠ '\n') →
      fin (matchName p c (l ++ t)) = (decide (p ++ [':'] <+: l), e) := by
  intro p
  induction p with
  | nil =>
    intro l c hl hc
    obtain ⟨y, rfl, hy⟩ := hc rfl
    rw [matchName, fin_tail ht [] l y hl hy]
    cases l with
    | nil => simp
    | cons z l => simp [List.cons_prefix_cons, eq_comm]
  | cons x p ih =>
    intro l c hl _
    cases l with
    | nil =>
      cases ht with
      | eof => simp [matchName, fin, skipLine]
      | nl r => simp [matchName, fin, skipLine_nl]
    | cons y l =>
      have hy : y ≠ '\n' := fun h => hl (by simp [h])
      have hl' : '\n' ∉ l := fun h => hl (by simp [h])
      rw [List.cons_append, matchName]
      by_cases hx : y = x
      · subst hx
        rw [if_neg (by simp [hy]), ih l (some y) hl' (fun _ => ⟨y, rfl, hy⟩)]
        simp [List.cons_prefix_cons]
      · rw [if_pos (Or.inr hx), fin_tail ht (x :: p) l y hl' hy]
        have : ¬ x = y := fun h => hx h.symm
        simp [List.cons_prefix_cons, this]

theorem oneLine_spec {t : List Char} {e : Option Char × List Char} (ht : Tail t e) (name l : List Char)
    (hn : name ≠ []) (hl : '\n' ∉ l) :
    oneLine name (l ++ t) = (decide (name ++ [':'] <+: l), e) :=
  fin_spec ht name l none hl (fun h => absurd h hn)

/-- a file is its first line, and an end of file or a newline with the rest -/
theorem firstLine (f : List Char) :
    ∃ l t e, f = l ++ t ∧ Tail t e ∧ '\n' ∉ l ∧
      ((t = [] ∧ lines f = [l]) ∨ ∃ r, t = '\n' :: r ∧ lines f = l :: lines r) := by
  induction f with
  | nil => exact ⟨[], [], _, rfl, .eof, by simp, Or.inl ⟨rfl, rfl⟩⟩
  | cons c f ih =>
    by_cases hc : c = '\n'
    · subst hc
      exact ⟨[], '\n' :: f, _, rfl, .nl f, by simp, Or.inr ⟨f, rfl, by simp [lines]⟩⟩
    · obtain ⟨l, t, e, h1, h2, h3, h4⟩ := ih
      refine ⟨c :: l, t, e, by rw [h1]; rfl, h2, ?_, ?_⟩
      · intro h
        rcases List.mem_cons.1 h with h | h
        · exact hc h.symm
        · exact h3 h
      · rcases h4 with ⟨h5, h6⟩ | ⟨r, h5, h6⟩
        · left; exact ⟨h5, by simp [lines, hc, h6]⟩
        · right; exact ⟨r, h5, by simp [lines, hc, h6]⟩

theorem scan_spec (name : List Char) (hn : name ≠ []) :
    ∀ (n : Nat) (f : List Char) (rc : Bool), f.length < n →
      scan name n rc f = (rc || (lines f).any (fun l => decide (name ++ [':'] <+: l))) := by
  intro n
  induction n with
  | zero => intro f rc h; omega
  | succ n ih =>
    intro f rc hlen
    obtain ⟨l, t, e, h1, h2, h3, h4⟩ := firstLine f
    rw [scan]
    have hone : oneLine name f = (decide (name ++ [':'] <+: l), e) := by
      rw [h1]; exact oneLine_spec h2 name l hn h3
    rw [hone]
    rcases h4 with ⟨h5, h6⟩ | ⟨r, h5, h6⟩
    · subst h5
      cases h2
      simp [h6]
    · subst h5
      cases h2
      simp only
      rw [ih r _ (by rw [h1] at hlen; simp at hlen; omega), h6]
      simp [Bool.or_assoc]

/-! ### pam_modutil_search_key -/

theorem getline_spec (f : List Char) :
    (f = [] ∧ getline f = ([], [])) ∨
    ∃ l, '\n' ∉ l ∧ ((l ≠ [] ∧ f = l ∧ getline f = (l, []) ∧ lines f = [l]) ∨
      ∃ r, f = l ++ '\n' :: r ∧ getline f = (l ++ ['\n'], r) ∧ lines f = l :: lines r) := by
  induction f with
  | nil => left; exact ⟨rfl, rfl⟩
  | cons c f ih =>
    right
    by_cases hc : c = '\n'
    · subst hc
      exact ⟨[], by simp, Or.inr ⟨f, rfl, by simp [getline], by simp [lines]⟩⟩
    · have hm : ∀ l : List Char, '\n' ∉ l → '\n' ∉ c :: l := by
        intro l hl h
        rcases List.mem_cons.1 h with h | h
        · exact hc h.symm
        · exact hl h
      rcases ih with ⟨h1, h2⟩ | ⟨l, h1, ⟨h2, h3, h4, h5⟩ | ⟨r, h3, h4, h5⟩⟩
      · subst h1
        exact ⟨[c], hm [] (by simp), Or.inl ⟨by simp, rfl, by simp [getline, hc], by simp [lines, hc]⟩⟩
      · refine ⟨c :: l, hm l h1, Or.inl ⟨by simp, by rw [h3], ?_, ?_⟩⟩
        · simp [getline, hc, h4]
        · simp [lines, hc, h5]
      · refine ⟨c :: l, hm l h1, Or.inr ⟨r, by rw [h3]; rfl, ?_, ?_⟩⟩
        · simp [getline, hc, h4]
        · simp [lines, hc, h5]

/-- what a line says does not depend on its newline -/
theorem cutLine_nl (l : List Char) (hl : '\n' ∉ l) : cutLine (l ++ ['\n']) = cutLine l := by
  unfold cutLine
  have h1 : (l ++ ['\n']).getLast? = some '\n' := by simp
  have h2 : l.getLast? ≠ some '\n' := fun h => hl (List.mem_of_getLast? h)
  rw [if_pos h1, if_neg h2]
  simp

theorem keyValue_nl (l : List Char) (hl : '\n' ∉ l) : keyValue (l ++ ['\n']) = keyValue l := by
  unfold keyValue
  rw [cutLine_nl l hl]

theorem searchLines_spec (key : List Char) :
    ∀ (n : Nat) (f : List Char), f.length < n →
      searchLines key n f = (lines f).findSome? (fun l => match keyValue l with
        | none => none
        | some (k, v) => if ieq k key then some v else none) := by
  intro n
  induction n with
  | zero => intro f h; omega
  | succ n ih =>
    intro f hlen
    have h00 : keyValue [] = none := by decide
    rw [searchLines]
    rcases getline_spec f with ⟨h1, h2⟩ | ⟨l, h1, ⟨h2, h3, h4, h5⟩ | ⟨r, h3, h4, h5⟩⟩
    · subst h1
      simp [h2, lines, h00]
    · rw [h4, h5]
      simp only [h2, if_false, List.findSome?_cons, List.findSome?_nil]
      have h0 : searchLines key n [] = none := by
        rw [ih [] (by
          cases l with
          | nil => exact absurd rfl h2
          | cons => rw [h3] at hlen; simp at hlen; simp; omega)]
        simp [lines, h00]
      cases hk : keyValue l with
      | none => simp [h0]
      | some kv =>
        simp only
        by_cases hi : ieq kv.1 key
        · simp [hi]
        · simp [hi, h0]
    · rw [h4, h5]
      have hne : ¬ (l ++ ['\n']) = [] := by simp
      simp only [hne, if_false, List.findSome?_cons, keyValue_nl l h1]
      have h0 := ih r (by rw [h3] at hlen; simp at hlen; omega)
      cases hk : keyValue l with
      | none => simp [h0]
      | some kv =>
        simp only
        by_cases hi : ieq kv.1 key
        · simp [hi]
        · simp [hi, h0]

theorem takeWhile_spec (p : Char → Bool) (l : List Char) :
    (∀ c ∈ l.takeWhile p, p c = true) ∧
      (l = l.takeWhile p ∨ ∃ c r, l = l.takeWhile p ++ c :: r ∧ p c = false) := by
  induction l with
  | nil => simp
  | cons x l ih =>
    by_cases hx : p x = true
    · rw [List.takeWhile_cons, if_pos hx]
      refine ⟨?_, ?_⟩
      · intro c hc
        rcases List.mem_cons.1 hc with h | h
        · rw [h]; exact hx
        · exact ih.1 c h
      · rcases ih.2 with h | ⟨c, r, h, hc⟩
        · left; rw [← h]
        · right; exact ⟨c, r, by rw [List.cons_append, ← h], hc⟩
    · rw [List.takeWhile_cons, if_neg hx]
      exact ⟨by simp, Or.inr ⟨x, l, rfl, by simpa using hx⟩⟩

theorem takeWhile_stop (p : Char → Bool) (a : List Char) (b : List Char) (ha : ∀ c ∈ a, p c = true)
    (hb : ∀ c, b.head? = some c → p c = false) : (a ++ b).takeWhile p = a ∧ (a ++ b).dropWhile p = b := by
  induction a with
  | nil =>
    cases b with
    | nil => simp
    | cons c b => simp [List.takeWhile_cons, List.dropWhile_cons, hb c rfl]
  | cons x a ih =>
    have hx := ha x (by simp)
    have := ih (fun c hc => ha c (by simp [hc]))
    simp [List.takeWhile_cons, List.dropWhile_cons, hx, this.1, this.2]

/-- a line has exactly one text, and the model computes it -/
theorem cutLine_text (line : List Char) (hl : '\n' ∉ line) : IsText line (cutLine line) := by
  have h2 : line.getLast? ≠ some '\n' := fun h => hl (List.mem_of_getLast? h)
  unfold cutLine
  rw [if_neg h2]
  obtain ⟨a1, a2⟩ := takeWhile_spec (fun c => c != NUL) line
  obtain ⟨b1, b2⟩ := takeWhile_spec (fun c => c != '#') (line.takeWhile (fun c => c != NUL))
  simp only at a1 a2 b1 b2 ⊢
  generalize hA : line.takeWhile (fun c => c != NUL) = A at *
  generalize hB : A.takeWhile (fun c => c != '#') = B at *
  refine ⟨fun h => by simpa using b1 _ h, fun h => ?_, ?_⟩
  · have : NUL ∈ A := by
      rcases b2 with h' | ⟨c, r, h', _⟩ <;> rw [h'] <;> simp [h]
    simpa using a1 _ this
  · rcases b2 with h' | ⟨c, r, h', hc⟩
    · rcases a2 with h'' | ⟨c, r, h'', hc⟩
      · left; rw [h'', h']
      · right
        have : c = NUL := by simpa using hc
        subst this
        exact ⟨r, Or.inr (by rw [← h']; exact h'')⟩
    · right
      have : c = '#' := by simpa using hc
      subst this
      rcases a2 with h'' | ⟨c, r', h'', _⟩
      · exact ⟨r, Or.inl (by rw [h'']; exact h')⟩
      · exact ⟨r ++ c :: r', Or.inl (by rw [h'', h']; simp)⟩

theorem text_unique (line a b : List Char) (ha : IsText line a) (hb : IsText line b) : a = b := by
  obtain ⟨a1, a2, a3⟩ := ha
  obtain ⟨b1, b2, b3⟩ := hb
  have key : ∀ x : List Char, '#' ∉ x → NUL ∉ x → (line = x ∨ ∃ r, line = x ++ '#' :: r ∨ line = x ++ NUL :: r) →
      x = line.takeWhile (fun c => c != '#' && c != NUL) := by
    intro x h1 h2 h3
    have hx : ∀ c ∈ x, (fun c => c != '#' && c != NUL) c = true := by
      intro c hc
      have e1 : c ≠ '#' := fun h => h1 (h ▸ hc)
      have e2 : c ≠ NUL := fun h => h2 (h ▸ hc)
      simp [e1, e2]
    rcases h3 with h | ⟨r, h | h⟩
    · rw [h]
      have := (takeWhile_stop _ x [] hx (by simp)).1
      simpa using this.symm
    · rw [h, (takeWhile_stop _ x ('#' :: r) hx (by simp)).1]
    · rw [h, (takeWhile_stop _ x (NUL :: r) hx (by simp)).1]
  rw [key a a1 a2 a3, key b b1 b2 b3]

theorem sep_iff (c : Char) : isSep c = true ↔ Ends c := by
  simp [isSep, Ends, or_assoc]

theorem keyValue_defines (line k v : List Char) (hl : '\n' ∉ line) (h : keyValue line = some (k, v)) :
    Defines line k v := by
  unfold keyValue at h
  obtain ⟨p1, p2⟩ := takeWhile_spec isSpace (cutLine line)
  have hsplit := List.takeWhile_append_dropWhile (p := isSpace) (l := cutLine line)
  generalize hpre : (cutLine line).takeWhile isSpace = pre at *
  generalize hcp : (cutLine line).dropWhile isSpace = cp at *
  simp only at h
  by_cases h0 : cp = []
  · rw [if_pos h0] at h; cases h
  · rw [if_neg h0] at h
    have hhead : ∃ c, cp.head? = some c ∧ isSpace c = false := by
      cases cp with
      | nil => exact absurd rfl h0
      | cons c cp =>
        refine ⟨c, rfl, ?_⟩
        have := List.head_dropWhile_not (p := isSpace) (l := cutLine line) (by rw [hcp]; simp)
        simpa [hcp] using this
    obtain ⟨q1, q2⟩ := takeWhile_spec (fun c => !isSep c) cp
    have hsplit2 := List.takeWhile_append_dropWhile (p := fun c => !isSep c) (l := cp)
    generalize htmp : cp.takeWhile (fun c => !isSep c) = tmp at *
    generalize hcp' : cp.dropWhile (fun c => !isSep c) = cp' at *
    have htmpE : ∀ c ∈ tmp, ¬ Ends c := by
      intro c hc he
      have := q1 c hc
      rw [← sep_iff] at he
      simp [he] at this
    by_cases h1 : cp' = []
    · rw [if_pos h1] at h
      cases h
      subst h1
      rw [List.append_nil] at hsplit2
      subst hsplit2
      refine ⟨cutLine line, pre, [], cutLine_text line hl, by rw [← hsplit]; simp, p1, htmpE, ?_, by simp, by simp,
        by simp, by simp⟩
      rw [List.append_nil]; exact hhead
    · rw [if_neg h1] at h
      cases cp' with
      | nil => exact absurd rfl h1
      | cons d ds =>
        simp only [List.drop_succ_cons, List.drop_zero] at h
        have hd : Ends d := by
          rw [← sep_iff]
          have := List.head_dropWhile_not (p := fun c => !isSep c) (l := cp) (by rw [hcp']; simp)
          simpa [hcp'] using this
        obtain ⟨r1, r2⟩ := takeWhile_spec (fun c => isSpace c || c == '=') ds
        have hsplit3 := List.takeWhile_append_dropWhile (p := fun c => isSpace c || c == '=') (l := ds)
        generalize hs1 : ds.takeWhile (fun c => isSpace c || c == '=') = sp at *
        have hv : ∀ c, (ds.dropWhile (fun c => isSpace c || c == '=')).head? = some c → isSpace c = false ∧ c ≠ '=' := by
          intro c hc
          cases hdw : ds.dropWhile (fun c => isSpace c || c == '=') with
          | nil => rw [hdw] at hc; cases hc
          | cons x xs =>
            rw [hdw] at hc
            cases hc
            have := List.head_dropWhile_not (p := fun c => isSpace c || c == '=') (l := ds) (by rw [hdw]; simp)
            simpa [hdw] using this
        generalize hs2 : ds.dropWhile (fun c => isSpace c || c == '=') = v' at *
        cases h
        refine ⟨cutLine line, pre, d :: sp, cutLine_text line hl, ?_, p1, htmpE, ?_, ?_, ?_, by simp, hv⟩
        · rw [← hsplit, ← hsplit2, ← hsplit3]; simp
        · rw [← hsplit2] at hhead
          cases k with
          | nil => simpa using hhead
          | cons => simpa using hhead
        · intro c hc
          rcases List.mem_cons.1 hc with hc | hc
          · subst hc
            rcases hd with h | h | h <;> subst h <;> simp [isSpace]
          · simpa using r1 c hc
        · intro c hc
          cases hc
          exact hd

theorem defines_keyValue (line k v : List Char) (hl : '\n' ∉ line) (h : Defines line k v) :
    keyValue line = some (k, v) := by
  obtain ⟨text, pre, sep, h1, h2, h3, h4, ⟨c0, h5, h6⟩, h7, h8, h9, h10⟩ := h
  have ht : cutLine line = text := text_unique line _ _ (cutLine_text line hl) h1
  unfold keyValue
  rw [ht, h2]
  have e1 : (pre ++ k ++ sep ++ v).dropWhile isSpace = k ++ sep ++ v := by
    rw [List.append_assoc, List.append_assoc]
    rw [(takeWhile_stop isSpace pre (k ++ (sep ++ v)) h3 (by
      intro c hc
      have : (k ++ (sep ++ v)).head? = some c0 := by
        rw [← List.append_assoc]
        cases hks : k ++ sep with
        | nil => rw [hks] at h5; cases h5
        | cons x xs => rw [hks] at h5; cases h5; rfl
      rw [this] at hc
      cases hc
      exact h6)).2]
    simp
  simp only [e1]
  have hne : ¬ (k ++ sep ++ v) = [] := by
    intro h
    have : k ++ sep = [] := by
      cases hks : k ++ sep with
      | nil => rfl
      | cons x xs => rw [hks] at h; cases h
    rw [this] at h5; cases h5
  rw [if_neg hne]
  have hk : ∀ c ∈ k, (fun c => !isSep c) c = true := by
    intro c hc
    have := h4 c hc
    rw [← sep_iff] at this
    simpa using this
  have hsv : ∀ c, (sep ++ v).head? = some c → (fun c => !isSep c) c = false := by
    intro c hc
    cases sep with
    | nil => rw [h9 rfl] at hc; cases hc
    | cons s sep =>
      have := h8 c hc
      rw [← sep_iff] at this
      simp [this]
  rw [List.append_assoc, (takeWhile_stop _ k (sep ++ v) hk hsv).1, (takeWhile_stop _ k (sep ++ v) hk hsv).2]
  cases sep with
  | nil => rw [h9 rfl]; simp
  | cons s sep =>
    rw [if_neg (by simp)]
    simp only [List.cons_append, List.drop_succ_cons, List.drop_zero]
    rw [(takeWhile_stop (fun c => isSpace c || c == '=') sep v (by
      intro c hc
      simpa using h7 c (by simp [hc])) (by
      intro c hc
      simpa using h10 c hc)).2]

theorem lines_no_nl (f l : List Char) (h : l ∈ lines f) : '\n' ∉ l := by
  induction f generalizing l with
  | nil => simp [lines] at h; subst h; simp
  | cons c f ih =>
    rw [lines] at h
    split at h
    · rcases List.mem_cons.1 h with h | h
      · subst h; simp
      · exact ih l h
    · rename_i hc
      cases hls : lines f with
      | nil =>
        rw [hls] at h
        simp at h
        subst h
        simp; exact fun h => hc h.symm
      | cons x xs =>
        rw [hls] at h
        simp only at h
        rcases List.mem_cons.1 h with h | h
        · subst h
          intro hm
          rcases List.mem_cons.1 hm with h | h
          · exact hc h.symm
          · exact ih x (by rw [hls]; simp) h
        · exact ih l (by rw [hls]; simp [h])

end Pam.Util
