import Verif.Pwhistory.Model
import Verif.Pwhistory.Spec
import Verif.Config.LineLemmas
/-
Lemmas for C64 to C67.
-/
namespace Pam.Pwh
open Pam Spec

theorem physLines_cat : ∀ ls : List Str, (∀ l ∈ ls, '\n' ∉ l) → Config.physLines (cat ls) = ls.map (· ++ ['\n'])
  | [], _ => rfl
  | l :: ls, h => by
    have := Config.physLines_line l (cat ls) (h l (by simp))
    simp only [cat, List.flatMap_cons, List.append_assoc, List.singleton_append, List.map_cons] at this ⊢
    rw [this, ← physLines_cat ls (fun l hl => h l (by simp [hl]))]
    rfl

theorem takeWhile_ne {c : Char} : ∀ {a : Str} (b : Str), c ∉ a → (a ++ c :: b).takeWhile (· ≠ c) = a
  | [], b, _ => by simp
  | x :: a, b, h => by
    have hx : x ≠ c := fun e => h (by simp [e])
    rw [List.cons_append, List.takeWhile_cons, if_pos (by simpa using hx), takeWhile_ne b (fun e => h (by simp [e]))]

theorem takeWhile_all {c : Char} : ∀ {a : Str}, c ∉ a → a.takeWhile (· ≠ c) = a
  | [], _ => rfl
  | x :: a, h => by
    have hx : x ≠ c := fun e => h (by simp [e])
    rw [List.takeWhile_cons, if_pos (by simpa using hx), takeWhile_all (fun e => h (by simp [e]))]

theorem dropWhile_ne {c : Char} : ∀ {a : Str} (b : Str), c ∉ a → (a ++ c :: b).dropWhile (· ≠ c) = c :: b
  | [], b, _ => by simp
  | x :: a, b, h => by
    have hx : x ≠ c := fun e => h (by simp [e])
    rw [List.cons_append, List.dropWhile_cons, if_pos (by simpa using hx), dropWhile_ne b (fun e => h (by simp [e]))]

theorem cstr_line {l : Str} (h : IsLine l) : cstr (l ++ ['\n']) = l ++ ['\n'] := by
  apply takeWhile_all
  intro e
  rcases List.mem_append.mp e with e | e
  · exact h.2 e
  · revert e; decide

theorem lineText_line {l : Str} (h : IsLine l) : lineText (l ++ ['\n']) = l := by
  rw [lineText, cstr_line h]; exact takeWhile_ne [] h.1

theorem strsep_at {c : Char} {a : Str} (b : Str) (h : c ∉ a) : strsep c (some (a ++ c :: b)) = (some a, some b) := by
  rw [strsep, if_pos (by simp), takeWhile_ne b h, dropWhile_ne b h]; rfl

theorem strsep_end {c : Char} {a : Str} (h : c ∉ a) : strsep c (some a) = (some a, none) := by
  rw [strsep, if_neg h]

theorem isDigitOf_ten {c : Char} (h : isDigit c = true) : isDigitOf 10 c = true := by
  have h' := h
  simp only [isDigit, decide_eq_true_eq] at h'
  have : digitVal c = c.toNat - 48 := by rw [digitVal, if_pos h]
  simp only [isDigitOf, this, decide_eq_true_eq]
  have h0 : '0'.toNat = 48 := by decide
  have h9 : '9'.toNat = 57 := by decide
  omega

theorem strtoInt_digits {ds : Str} (h : ∀ c ∈ ds, isDigit c) : (strtoInt 10 ds).2 = [] := by
  cases hd : ds with
  | nil => rfl
  | cons c r =>
    rw [← hd]
    have hall : ∀ c ∈ ds, isDigitOf 10 c := fun c hc => isDigitOf_ten (h c hc)
    have hs : ds.dropWhile isSpace = ds := by
      rw [hd, List.dropWhile_cons, if_neg]
      rw [(digit_not_space (b := 10) (by decide) (hall c (by simp [hd]))).1]; decide
    have ht : takeSign ds = (false, ds) := by
      have := digit_not_space (b := 10) (by decide) (hall c (by simp [hd]))
      rw [hd, takeSign, if_neg this.2.1, if_neg this.2.2]
    have hb : takeBase 10 ds = (10, ds) := by rw [takeBase, if_neg (by decide)]
    simp only [strtoInt, hs, ht, hb, beginsNumber_of (by rw [hd]; simp) hall, if_true, magnitude_all 10 ds 0 hall]

theorem mem_join {x : Char} : ∀ {hs : List Str}, x ∈ join hs → x = ',' ∨ ∃ h ∈ hs, x ∈ h
  | [], h => by simp [join] at h
  | [a], h => Or.inr ⟨a, by simp, h⟩
  | a :: b :: r, h => by
    rw [join] at h
    · rcases List.mem_append.mp h with h | h
      · exact Or.inr ⟨a, by simp, h⟩
      · rcases List.mem_cons.mp h with h | h
        · exact Or.inl h
        · rcases mem_join h with h | ⟨t, ht, h⟩
          · exact Or.inl h
          · exact Or.inr ⟨t, by simp [List.mem_cons.mp ht], h⟩
    · simp

theorem join_colon {hs : List Str} (h : ∀ x ∈ hs, IsHash x) : ':' ∉ join hs := fun e => by
  rcases mem_join e with e | ⟨t, ht, e⟩
  · exact absurd e (by decide)
  · exact (h t ht).2.2.1 e

theorem join_line {hs : List Str} (h : ∀ x ∈ hs, IsHash x) : IsLine (join hs) := by
  constructor <;> intro e <;> rcases mem_join e with e | ⟨t, ht, e⟩
  · exact absurd e (by decide)
  · exact (h t ht).2.2.2.1 e
  · exact absurd e (by decide)
  · exact (h t ht).2.2.2.2 e

theorem digits_name {ds : Str} (h : ∀ c ∈ ds, isDigit c) : IsName ds :=
  ⟨fun e => absurd (h _ e) (by decide), fun e => absurd (h _ e) (by decide), fun e => absurd (h _ e) (by decide)⟩

theorem isLine_append {a b : Str} (ha : IsLine a) (hb : IsLine b) : IsLine (a ++ b) :=
  ⟨fun e => (List.mem_append.mp e).elim ha.1 hb.1, fun e => (List.mem_append.mp e).elim ha.2 hb.2⟩

theorem isLine_cons {x : Char} {b : Str} (hx : x ≠ '\n') (h0 : x ≠ NUL) (hb : IsLine b) : IsLine (x :: b) :=
  ⟨fun e => (List.mem_cons.mp e).elim (fun e => hx e.symm) hb.1, fun e => (List.mem_cons.mp e).elim (fun e => h0 e.symm) hb.2⟩

theorem Spec.IsName.line {u : Str} (h : IsName u) : IsLine u := ⟨h.2.1, h.2.2⟩

theorem text_line {e : Entry} (h : e.Ok) : IsLine e.text := by
  unfold Entry.text
  simp only [List.append_assoc, List.cons_append]
  exact isLine_append h.user.line (isLine_cons (by decide) (by decide) (isLine_append h.uid.line
    (isLine_cons (by decide) (by decide) (isLine_append (digits_name h.count).line
      (isLine_cons (by decide) (by decide) (join_line h.hashes))))))

theorem parse_text {e : Entry} (h : e.Ok) : parseEntry e.text = some ⟨some e.user, some e.uid, some (join e.hashes)⟩ := by
  unfold Entry.text
  simp only [List.append_assoc, List.cons_append, parseEntry, strsep_at _ h.user.1, strsep_at _ h.uid.1,
    strsep_at _ (digits_name h.count).1, strsep_end (join_colon h.hashes)]
  rw [if_neg (by rw [strtoInt_digits h.count]; simp)]

theorem text_isFor {e : Entry} : (e.user ++ [':']) <+: e.text := by
  unfold Entry.text
  exact ⟨e.uid ++ ':' :: e.count ++ ':' :: join e.hashes, by simp⟩

theorem isFor_iff {u t : Str} : isFor u t = true ↔ (u ++ [':']) <+: t := by simp [isFor]

theorem foreign_isFor {u l : Str} (h : Foreign u l) : isFor u l = false := by
  cases hf : isFor u l with
  | false => rfl
  | true => exact absurd (isFor_iff.mp hf) h.2

theorem findEntry_foreign {u : Str} : ∀ {pre rest : List Str}, (∀ l ∈ pre, Foreign u l) →
    findEntry u (pre.map (· ++ ['\n']) ++ rest) = findEntry u rest
  | [], _, _ => rfl
  | l :: pre, rest, h => by
    have hl := h l (by simp)
    rw [List.map_cons, List.cons_append, findEntry, lineText_line hl.1, foreign_isFor hl]
    simp only [Bool.false_eq_true, if_false, ite_self]
    exact findEntry_foreign (fun x hx => h x (by simp [hx]))

theorem findEntry_holds {u : Str} {pre post : List Str} {e : Entry} (he : e.Ok) (hu : e.user = u) (hf : ∀ l ∈ pre ++ post, Foreign u l) :
    findEntry u (Config.physLines (cat (pre ++ [e.text] ++ post))) = some ⟨some e.user, some e.uid, some (join e.hashes)⟩ := by
  rw [physLines_cat]
  · rw [List.map_append, List.map_append, List.append_assoc, findEntry_foreign (fun l hl => hf l (by simp [hl]))]
    rw [List.map_cons, List.map_nil, List.singleton_append, findEntry, lineText_line (text_line he), if_neg]
    · rw [if_pos (isFor_iff.mpr (hu ▸ text_isFor)), parse_text he]
    · intro h; have := text_isFor (e := e); rw [h] at this; simp at this
  · intro l hl
    simp only [List.mem_append, List.mem_singleton] at hl
    rcases hl with (hl | hl) | hl
    · exact (hf l (by simp [hl])).1.1
    · rw [hl]; exact (text_line he).1
    · exact (hf l (by simp [hl])).1.1

theorem pieces_ne (c : Char) (s : Str) : pieces c s ≠ [] := by
  cases s with
  | nil => simp [pieces]
  | cons x s => rw [pieces]; split <;> (try split) <;> simp

theorem pieces_one {c : Char} : ∀ {a : Str}, c ∉ a → pieces c a = [a]
  | [], _ => rfl
  | x :: a, h => by
    rw [pieces, if_neg (fun e => h (by simp [e])), pieces_one (fun e => h (by simp [e]))]

theorem pieces_sep {c : Char} : ∀ {a : Str} (b : Str), c ∉ a → pieces c (a ++ c :: b) = a :: pieces c b
  | [], b, _ => by simp [pieces]
  | x :: a, b, h => by
    rw [List.cons_append, pieces, if_neg (fun e => h (by simp [e])), pieces_sep b (fun e => h (by simp [e]))]

theorem join_cons {h : Str} {hs : List Str} (hne : hs ≠ []) : join (h :: hs) = h ++ ',' :: join hs := by
  cases hs with
  | nil => exact absurd rfl hne
  | cons a r => rfl

theorem pieces_join : ∀ {hs : List Str}, hs ≠ [] → (∀ h ∈ hs, IsHash h) → pieces ',' (join hs) = hs
  | [], h, _ => absurd rfl h
  | [a], _, h => pieces_one (h a (by simp)).2.1
  | a :: b :: r, _, h => by
    rw [join_cons (by simp), pieces_sep _ (h a (by simp)).2.1, pieces_join (by simp) (fun x hx => h x (by simp [List.mem_cons.mp hx]))]

theorem join_append {a : Str} : ∀ {hs : List Str}, hs ≠ [] → join (hs ++ [a]) = join hs ++ ',' :: a
  | [], h => absurd rfl h
  | [x], _ => rfl
  | x :: y :: r, _ => by
    rw [List.cons_append, join_cons (by simp), join_append (by simp), join_cons (h := x) (hs := y :: r) (by simp)]
    simp

theorem join_ne_nil {hs : List Str} (hne : hs ≠ []) (h : ∀ x ∈ hs, IsHash x) : join hs ≠ [] := by
  cases hs with
  | nil => exact absurd rfl hne
  | cons a r =>
    cases r with
    | nil => exact (h a (by simp)).1
    | cons b r => simp [join]

theorem takeWhile_reverse_last {a : Str} {b : Str} (h : ',' ∉ a) : ((b ++ ',' :: a).reverse.takeWhile (· ≠ ',')).reverse = a := by
  rw [List.reverse_append, List.reverse_cons, List.append_assoc, List.singleton_append, takeWhile_ne _ (by simpa using h), List.reverse_reverse]

theorem count_join : ∀ {hs : List Str}, hs ≠ [] → (∀ h ∈ hs, IsHash h) → 1 + (join hs).count ',' = hs.length
  | [], h, _ => absurd rfl h
  | [a], _, h => by rw [join, List.count_eq_zero.mpr (h a (by simp)).2.1]; rfl
  | a :: b :: r, _, h => by
    rw [join_cons (by simp), List.count_append, List.count_cons_self, List.count_eq_zero.mpr (h a (by simp)).2.1]
    have := count_join (hs := b :: r) (by simp) (fun x hx => h x (by simp [List.mem_cons.mp hx]))
    simp only [List.length_cons] at this ⊢; omega

theorem lastAndCount_join {hs : List Str} {a : Str} (h : ∀ x ∈ hs ++ [a], IsHash x) :
    lastAndCount (join (hs ++ [a])) = (a, (hs ++ [a]).length) := by
  cases hs with
  | nil =>
    have := (h a (by simp)).2.1
    simp [lastAndCount, join, this]
  | cons x r =>
    have hc := count_join (hs := (x :: r) ++ [a]) (by simp) h
    rw [join_append (by simp)] at hc ⊢
    rw [lastAndCount, if_pos (by simp), takeWhile_reverse_last (h a (by simp)).2.1, hc]

theorem dropFirst_join {a : Str} {hs : List Str} (ha : ',' ∉ a) (hne : hs ≠ []) : dropFirst (join (a :: hs)) = join hs := by
  rw [join_cons hne, dropFirst, if_pos (by simp), dropWhile_ne _ ha]; rfl

theorem trim_stop {n : Int} {c : Nat} {o : Str} (h : (c : Int) ≤ n ∨ c ≤ 1) : trim n c o = (c, o) := by
  cases c with
  | zero => rfl
  | succ c => rw [trim, if_neg (by omega)]

theorem trim_join {n : Nat} (hn : 1 ≤ n) : ∀ {hs : List Str}, hs ≠ [] → (∀ h ∈ hs, IsHash h) →
    (trim n (hs.length + 1) (join hs)).1 = min (hs.length + 1) n ∧
    (2 ≤ n → (trim n (hs.length + 1) (join hs)).2 = join (keep (n - 1) hs))
  | [], h, _ => absurd rfl h
  | [a], _, h => by
    by_cases h1 : n = 1
    · subst h1
      rw [show [a].length + 1 = 1 + 1 from rfl, trim, if_pos (by omega), trim_stop (Or.inr (by omega))]
      exact ⟨rfl, fun h => absurd h (by decide)⟩
    · rw [trim_stop (Or.inl (by simp; omega))]
      refine ⟨by simp; omega, fun _ => ?_⟩
      simp [keep, show 1 - (n - 1) = 0 by omega]
  | a :: b :: r, _, h => by
    by_cases h1 : (a :: b :: r).length + 1 ≤ n
    · rw [trim_stop (Or.inl (by omega))]
      refine ⟨by simp only; omega, fun _ => ?_⟩
      simp only [keep]
      rw [show (a :: b :: r).length - (n - 1) = 0 by omega, List.drop_zero]
    · have ih := trim_join hn (hs := b :: r) (by simp) (fun x hx => h x (by simp [List.mem_cons.mp hx]))
      have e : trim n ((a :: b :: r).length + 1) (join (a :: b :: r)) = trim n ((b :: r).length + 1) (join (b :: r)) := by
        rw [trim, if_pos (by simp only [List.length_cons] at h1 ⊢; omega), dropFirst_join (h a (by simp)).2.1 (by simp)]
        rfl
      rw [e]
      simp only [List.length_cons] at h1 ih ⊢
      refine ⟨by rw [ih.1]; omega, fun h2 => ?_⟩
      rw [ih.2 h2]
      congr 1
      simp only [keep, List.length_cons]
      rw [show r.length + 1 + 1 - (n - 1) = (r.length + 1 - (n - 1)) + 1 by omega, List.drop_succ_cons]

/-- the entry after a password was added; `hs` had room for it or did not end with it -/
theorem update_text {e : Entry} (he : e.Ok) {n : Nat} (hn : 1 ≤ n) {h save : Str}
    (hc : ¬ (e.hashes.getLast? = some h ∧ e.hashes.length ≤ n)) :
    updateEntry n h ⟨some e.user, some e.uid, some (join e.hashes)⟩ save =
      ({ e with count := Nat.toDigits 10 (min (e.hashes.length + 1) n), hashes := keep (n - 1) e.hashes ++ [h] } : Entry).text ++ ['\n'] := by
  by_cases hne : e.hashes = []
  · rw [hne]
    simp only [updateEntry, join, newLine, if_true, pr, Entry.text, List.length_nil, keep, List.drop_nil, List.nil_append]
    rw [show min (0 + 1) n = 1 by omega]
  · obtain ⟨r, a, hra⟩ : ∃ r a, e.hashes = r ++ [a] := ⟨_, _, (List.dropLast_concat_getLast hne).symm⟩
    have hl := lastAndCount_join (hs := r) (a := a) (hra ▸ he.hashes)
    rw [← hra] at hl
    have ht := trim_join hn hne he.hashes
    obtain ⟨c, o, hco⟩ : ∃ c o, join e.hashes = c :: o := List.exists_cons_of_ne_nil (join_ne_nil hne he.hashes)
    simp only [updateEntry]
    rw [hco]
    simp only
    rw [← hco, hl]
    simp only
    rw [if_neg]
    · rw [newLine, ht.1]
      have hpos : 1 ≤ e.hashes.length := List.length_pos_iff.mpr hne
      by_cases h1 : n = 1
      · subst h1
        rw [if_pos (by omega), show min (e.hashes.length + 1) 1 = 1 by omega]
        simp [pr, Entry.text, keep, join]
      · rw [if_neg (by omega), ht.2 (by omega)]
        have : keep (n - 1) e.hashes ≠ [] := by
          intro e0
          have := congrArg List.length e0
          simp only [keep, List.length_drop, List.length_nil] at this
          omega
        simp only [pr, Entry.text, join_append this, List.append_assoc, List.cons_append]
    · intro hx
      apply hc
      refine ⟨by rw [hra, List.getLast?_append]; simp [hx.1], by omega⟩

theorem update_same {e : Entry} (he : e.Ok) {n : Nat} {h save : Str} 
    (hc : e.hashes.getLast? = some h ∧ e.hashes.length ≤ n) :
    updateEntry n h ⟨some e.user, some e.uid, some (join e.hashes)⟩ save = save := by
  have hne : e.hashes ≠ [] := by intro h0; rw [h0] at hc; exact absurd hc.1 (by simp)
  obtain ⟨r, a, hra⟩ : ∃ r a, e.hashes = r ++ [a] := ⟨_, _, (List.dropLast_concat_getLast hne).symm⟩
  have hl := lastAndCount_join (hs := r) (a := a) (hra ▸ he.hashes)
  rw [← hra] at hl
  obtain ⟨c, o, hco⟩ : ∃ c o, join e.hashes = c :: o := List.exists_cons_of_ne_nil (join_ne_nil hne he.hashes)
  simp only [updateEntry]
  rw [hco]
  simp only
  rw [← hco, hl]
  simp only
  rw [if_pos]
  refine ⟨?_, by omega⟩
  rw [hra, List.getLast?_append] at hc
  simpa using hc.1

end Pam.Pwh
