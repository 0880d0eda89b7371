import Verif.Env.Buffer
/-
C187: the memory of pam_env's expansion.
-/
namespace Pam.Env
open Pam Pam.Small

namespace Spec

/-- the buffer holds a text: it was not yet allocated, or the text with a NUL is at its beginning -/
def Holds (b : Buf) (t : Str) : Prop :=
  b.mem.length = b.size ∧ b.size < 2 ^ 64 ∧ b.len = t.length ∧ (b.size = 0 ∧ t = [] ∨ ∃ r, b.mem = t ++ NUL :: r)

/-- the values that can be put in: none has a NUL, and none is longer than `n` -/
def Values (e : PEnv) (w : Who) (n : Nat) : Prop :=
  ∀ name x, e.getenv (some name) = some (some x) ∨ itemByName w name = some x → NUL ∉ x ∧ x.length ≤ n

end Spec
open Spec

/-! ### helper lemmas -/

theorem reserve_ok {a : Alloc} {b b1 : Buf} {t : Str} {add : Nat} (h : Holds b t) (hadd : add < 2 ^ 64 - 1) (hr : reserve a b add = some b1) :
    b1.mem.length = b1.size ∧ b1.size < 2 ^ 64 ∧ b1.len = t.length ∧ t.length + add < b1.size ∧ ∃ r, b1.mem = t ++ r := by
  obtain ⟨h1, h2, h3, h4⟩ := h
  have hmem : ∃ r, b.mem = t ++ r := by
    rcases h4 with ⟨h4, rfl⟩ | ⟨r, h4⟩
    · exact ⟨b.mem, rfl⟩
    · exact ⟨_, h4⟩
  have hlen : b.size = 0 ∧ b.len = 0 ∨ b.len < b.size := by
    rcases h4 with ⟨h4, rfl⟩ | ⟨r, h4⟩
    · exact Or.inl ⟨h4, h3⟩
    · right
      have := congrArg List.length h4
      simp at this
      omega
  unfold reserve at hr
  split at hr
  · rename_i hx
    have e := Option.some.inj hr
    subst e
    refine ⟨h1, h2, h3, ?_, hmem⟩
    rcases hlen with ⟨x, y⟩ | x
    · rw [x, y] at hx; simp [minus64] at hx
    · unfold minus64 at hx
      rw [if_pos (by omega)] at hx
      omega
  · split at hr
    · cases hr
    · rename_i hx hy
      split at hr
      · have e := Option.some.inj hr
        rw [← e]
        have hsz : t.length + add < newSize b add ∧ newSize b add < 2 ^ 64 := by
          unfold newSize
          split
          · omega
          · split
            · omega
            · omega
        generalize newSize b add = s at *
        have hold : b.mem.length ≤ s := by
          rw [h1]
          rcases hlen with ⟨x, y⟩ | x
          · omega
          · unfold minus64 at hx
            rw [if_pos (by omega)] at hx
            omega
        refine ⟨?_, hsz.2, h3, hsz.1, ?_⟩
        · dsimp only
          rw [List.length_append, List.length_take, List.length_map, List.length_range]
          omega
        · obtain ⟨r, hr⟩ := hmem
          dsimp only
          rw [List.take_of_length_le hold, hr]
          exact ⟨_, List.append_assoc _ _ _⟩
      · cases hr

theorem reserve_works {a : Alloc} (ha : ∀ n s, a.gives n s = true) {b : Buf} {add : Nat} (h : b.len + add < 2 ^ 64 - 1) : ∃ b1, reserve a b add = some b1 := by
  unfold reserve
  split
  · exact ⟨_, rfl⟩
  · rw [if_neg (by omega)]
    rw [if_pos (ha _ _)]
    exact ⟨_, rfl⟩

theorem store_at {t r x : Str} (h : x.length ≤ r.length) : store (t ++ r) t.length x = some (t ++ x ++ r.drop x.length) := by
  unfold store
  rw [if_pos (by rw [List.length_append]; omega), List.take_left']
  · congr 2
    rw [List.drop_append, List.drop_of_length_le (by omega)]
    simp
  · rfl

/-- an addition to a buffer: no byte is written beyond its end, and it holds what it should -/
theorem append_spec (a : Alloc) {b : Buf} {t : Str} (h : Holds b t) {x : Str} (hx : x.length < 2 ^ 64 - 1) :
    append a b x = .nomem ∨ ∃ b1, append a b x = .ok b1 ∧ Holds b1 (t ++ x) ∧ 0 < b1.size := by
  unfold append
  cases hr : reserve a b x.length with
  | none => exact Or.inl rfl
  | some b1 =>
    obtain ⟨k1, k2, k3, k4, r, k5⟩ := reserve_ok h hx hr
    right
    dsimp only
    have hl : t.length + r.length = b1.size := by rw [← k1, k5, List.length_append]
    rw [k5, k3, store_at (by rw [List.length_append]; simp; omega)]
    refine ⟨_, rfl, ⟨?_, k2, ?_, Or.inr ⟨r.drop (x.length + 1), ?_⟩⟩, by dsimp only; omega⟩
    · dsimp only
      simp only [List.length_append, List.length_drop, List.length_cons, List.length_nil]
      omega
    · dsimp only
      unfold plus64
      rw [List.length_append, Nat.mod_eq_of_lt (by omega)]
    · dsimp only
      rw [List.length_append]
      simp

theorem append_works {a : Alloc} (ha : ∀ n s, a.gives n s = true) {b : Buf} {x : Str} (h : b.len + x.length < 2 ^ 64 - 1) : append a b x ≠ .nomem := by
  obtain ⟨b1, hr⟩ := reserve_works ha h
  unfold append
  rw [hr]
  dsimp only
  split <;> simp

/-- what the loop with the memory comes to, the text before being `t` -/
inductive Agrees (t : Str) (n : Nat) : Ended (Buf × Option Nat) → Expanded → Prop
  | done (b : Buf) (cut : Option Nat) (r : Str) : Holds b (t ++ r) → NUL ∉ r → (∀ i, cut = some i → i ≤ n) → Agrees t n (.done (b, cut)) (.done r)
  | abort : Agrees t n .abort .abort
  | nomem (x : Expanded) : Agrees t n .nomem x
  | bad : Agrees t n .bad .bad

theorem agrees_cons {t x : Str} {n : Nat} {m : Ended (Buf × Option Nat)} {r : Expanded} (h : Agrees (t ++ x) n m r) (hx : NUL ∉ x) : Agrees t n m (r.cons x) := by
  cases h with
  | done b cut r h1 h2 h3 =>
    refine .done b cut (x ++ r) (by rw [← List.append_assoc]; exact h1) ?_ h3
    intro e
    rcases List.mem_append.mp e with e | e
    · exact hx e
    · exact h2 e
  | abort => exact .abort
  | nomem => exact .nomem _
  | bad => exact .bad

theorem loop_agrees (a : Alloc) (e : PEnv) (w : Who) {m : Nat} (hm : m < 2 ^ 64 - 1) (hv : Values e w m) : ∀ (fuel pos : Nat) (cut : Option Nat) (b : Buf) (s t : Str) (n : Nat),
    NUL ∉ s → Holds b t → pos + s.length = n → (∀ i, cut = some i → i ≤ n) → Agrees t n (expandMemLoop a e w fuel pos cut b s) (expandLoop e w fuel s) := by
  intro fuel
  induction fuel with
  | zero =>
    intro pos cut b s t n hs hb hn hc
    have : expandMemLoop a e w 0 pos cut b s = .done (b, cut) ∧ expandLoop e w 0 s = .done [] := by cases s <;> exact ⟨rfl, rfl⟩
    rw [this.1, this.2]
    exact .done b cut [] (by simpa using hb) (by simp) hc
  | succ fuel ih =>
    intro pos cut b s t n hs hb hn hc
    cases s with
    | nil => exact .done b cut [] (by simpa using hb) (by simp) hc
    | cons c s =>
      have hs' : NUL ∉ s := fun x => hs (by simp [x])
      have hcn : c ≠ NUL := fun x => hs (by simp [x])
      simp only [List.length_cons] at hn
      have one : ∀ (d : Char) (s2 : Str) (p2 : Nat), d ≠ NUL → NUL ∉ s2 → p2 + s2.length = n →
          Agrees t n ((addChar a b d).andThen fun b => expandMemLoop a e w fuel p2 cut b s2) ((expandLoop e w fuel s2).cons [d]) := by
        intro d s2 p2 hd hs2 hp2
        unfold addChar
        rcases append_spec a hb (x := [d]) (show (1 : Nat) < 2 ^ 64 - 1 by omega) with k | ⟨b1, k, kh, -⟩
        · rw [k]; exact .nomem _
        · rw [k]
          exact agrees_cons (ih p2 cut b1 s2 (t ++ [d]) n hs2 kh hp2 hc) (by simpa using fun x : NUL = d => hd x.symm)
      unfold expandMemLoop expandLoop
      by_cases h1 : c = '\\'
      · rw [if_pos h1, if_pos h1]
        cases s with
        | nil => exact ih (pos + 1) cut b [] t n (by simp) hb (by simp at hn ⊢; omega) hc
        | cons d s' =>
          dsimp only
          simp only [List.length_cons] at hn
          have hiff : isSpecial d = true ↔ ¬ (d ≠ '$' ∧ d ≠ '@' ∧ d ≠ '\\') := by
            unfold isSpecial
            by_cases x1 : d = '$' <;> by_cases x2 : d = '@' <;> by_cases x3 : d = '\\' <;> simp [x1, x2, x3]
          by_cases h2 : d ≠ '$' ∧ d ≠ '@' ∧ d ≠ '\\'
          · rw [if_pos h2, if_neg (fun x => hiff.mp x h2)]
            exact ih (pos + 1) cut b (d :: s') t n hs' hb (by simp; omega) hc
          · rw [if_neg h2, if_pos (hiff.mpr h2)]
            exact one d s' (pos + 2) (fun x => hs' (by simp [x])) (fun x => hs' (by simp [x])) (by omega)
      · rw [if_neg h1, if_neg h1]
        by_cases h2 : c = '$' ∨ c = '@'
        · rw [if_pos h2, if_pos h2]
          by_cases h3 : s.head? = some '{'
          · rw [if_pos h3, if_pos h3]
            by_cases h4 : '}' ∉ s.tail
            · rw [if_pos h4, if_pos h4]; exact .abort
            · rw [if_neg h4, if_neg h4]
              dsimp only
              have hsplit : s.tail = s.tail.takeWhile (· ≠ '}') ++ s.tail.dropWhile (· ≠ '}') := (List.takeWhile_append_dropWhile).symm
              have hdne : s.tail.dropWhile (· ≠ '}') ≠ [] := by
                intro x
                have : '}' ∈ s.tail := Classical.not_not.mp h4
                rw [hsplit, x, List.append_nil] at this
                have hall := List.all_takeWhile (l := s.tail) (p := (· ≠ '}'))
                exact absurd (List.all_eq_true.mp hall _ this) (by simp)
              have hlen : s.length = 1 + (s.tail.takeWhile (· ≠ '}')).length + 1 + (s.tail.dropWhile (· ≠ '}')).tail.length := by
                have l1 := congrArg List.length hsplit
                rw [List.length_append] at l1
                have l2 : s ≠ [] := by intro x; rw [x] at h3; cases h3
                have l3 : s.tail.length = s.length - 1 := List.length_tail
                have l4 : (s.tail.dropWhile (· ≠ '}')).tail.length = (s.tail.dropWhile (· ≠ '}')).length - 1 := List.length_tail
                have l5 := List.length_pos_iff.mpr l2
                have l6 := List.length_pos_iff.mpr hdne
                omega
              have hrest : NUL ∉ (s.tail.dropWhile (· ≠ '}')).tail := by
                intro x
                have := List.mem_of_mem_tail x
                have := (List.dropWhile_sublist _).mem this
                exact hs' (List.mem_of_mem_tail this)
              generalize s.tail.takeWhile (· ≠ '}') = name at *
              generalize (s.tail.dropWhile (· ≠ '}')).tail = rest at *
              have hcut : ∀ i, (match cut with | none => some (pos + 2 + name.length) | some i => some i) = some i → i ≤ n := by
                intro i hi
                cases cut with
                | none => have := Option.some.inj hi; omega
                | some j => exact hc i hi
              generalize hval : (if c = '$' then e.getenv (some name) else some (itemByName w name)) = val
              cases val with
              | none => exact .bad
              | some val =>
                cases val with
                | none =>
                  exact agrees_cons (x := []) (by
                    rw [List.append_nil]
                    exact ih _ _ b rest t n hrest hb (by omega) hcut) (by simp)
                | some v =>
                  have hvn : NUL ∉ v ∧ v.length ≤ m := by
                    refine hv name v ?_
                    split at hval
                    · exact Or.inl hval
                    · exact Or.inr (Option.some.inj hval)
                  dsimp only [Option.getD_some]
                  unfold addString
                  rcases append_spec a hb (x := v) (by omega) with k | ⟨b1, k, kh, -⟩
                  · rw [k]; exact .nomem _
                  · rw [k]
                    exact agrees_cons (ih _ _ b1 rest (t ++ v) n hrest kh (by omega) hcut) hvn.1
          · rw [if_neg h3, if_neg h3]
            exact one c s (pos + 1) hcn hs' (by omega)
        · rw [if_neg h2, if_neg h2]
          exact one c s (pos + 1) hcn hs' (by omega)

theorem takeWhile_text {t r : Str} (h : NUL ∉ t) : (t ++ NUL :: r).takeWhile (· ≠ NUL) = t := by
  induction t with
  | nil => simp
  | cons c t ih =>
    rw [List.cons_append, List.takeWhile_cons, if_pos (by simpa using fun x => h (by simp [x])), ih (fun x => h (by simp [x]))]

/-! ### the theorems -/

/-- C187: additions to pam_env's buffer, any number of them and of any texts: whatever `realloc` does, nothing is written beyond the memory
that was allocated, and the buffer holds all that was added, in order, with a NUL behind it. -/
theorem C187_buffer (a : Alloc) (xs : List Str) (hx : ∀ x ∈ xs, x.length < 2 ^ 64 - 1) :
    ∀ b t, Holds b t → ∃ r : Step Buf, xs.foldl (fun s x => match s with | .ok b => append a b x | s => s) (.ok b) = r ∧
      (r = .nomem ∨ ∃ b1, r = .ok b1 ∧ Holds b1 (t ++ xs.flatten)) := by
  have stuck : ∀ xs : List Str, xs.foldl (fun s x => match s with | .ok b => append a b x | s => s) (Step.nomem : Step Buf) = .nomem := by
    intro xs
    induction xs with
    | nil => rfl
    | cons x xs ih => exact ih
  induction xs with
  | nil => intro b t h; exact ⟨_, rfl, Or.inr ⟨b, rfl, by simpa using h⟩⟩
  | cons x xs ih =>
    intro b t h
    refine ⟨_, rfl, ?_⟩
    show (xs.foldl (fun s x => match s with | .ok b => append a b x | s => s) (append a b x)) = .nomem ∨ _
    rcases append_spec a h (hx x (by simp)) with k | ⟨b1, k, kh, -⟩
    · left
      rw [k]
      exact stuck xs
    · obtain ⟨r, r1, r2⟩ := ih (fun y hy => hx y (by simp [hy])) b1 (t ++ x) kh
      show (xs.foldl _ (append a b x) = .nomem) ∨ ∃ b1, xs.foldl _ (append a b x) = .ok b1 ∧ _
      rw [k, r1]
      rcases r2 with r2 | ⟨b2, r2, r3⟩
      · exact Or.inl r2
      · exact Or.inr ⟨b2, r2, by rw [List.flatten_cons, ← List.append_assoc]; exact r3⟩

/-- C187: the expansion of a value with its memory: whatever the value and the variables, nothing is read or written beyond the memory that was
allocated; and what is put in the place of the value is the expanded text, unless there is no memory. -/
theorem C187_expand (a : Alloc) (e : PEnv) (w : Who) (v : Str) (hnul : NUL ∉ v) {m : Nat} (hm : m < 2 ^ 64 - 1) (hv : Values e w m) :
    expandMem a e w v = .nomem ∨
    (∃ t, expandMem a e w v = .done t ∧ expandArg e w v = .done t) ∨
    (expandMem a e w v = .abort ∧ expandArg e w v = .abort) ∨
    (expandMem a e w v = .bad ∧ expandArg e w v = .bad) := by
  unfold expandMem expandArg
  by_cases hsp : (!(v.any isSpecial)) = true
  · rw [if_pos hsp, if_pos hsp]
    exact Or.inr (Or.inl ⟨v, rfl, rfl⟩)
  rw [if_neg hsp, if_neg hsp]
  have h := loop_agrees a e w hm hv v.length 0 none Buf.init v [] v.length hnul ⟨rfl, by decide, rfl, Or.inl ⟨rfl, rfl⟩⟩ (by omega) (by simp)
  generalize expandMemLoop a e w v.length 0 none Buf.init v = r at h
  generalize expandLoop e w v.length v = x at h
  cases h with
  | abort => exact Or.inr (Or.inr (Or.inl ⟨rfl, rfl⟩))
  | nomem => exact Or.inl rfl
  | bad => exact Or.inr (Or.inr (Or.inr ⟨rfl, rfl⟩))
  | done b cut t h1 h2 h3 =>
    dsimp only
    obtain ⟨k1, k2, k3, k4⟩ := h1
    rw [List.nil_append] at k3 k4
    have htext : b.text = some t := by
      unfold Buf.text
      by_cases hz : b.size = 0
      · rw [if_pos hz]
        rcases k4 with ⟨-, k4⟩ | ⟨r, k4⟩
        · rw [k4]
        · rw [k4, hz] at k1
          simp at k1
      · rw [if_neg hz]
        rcases k4 with ⟨k4, -⟩ | ⟨r, k4⟩
        · exact absurd k4 hz
        · rw [k4, if_pos (by simp), takeWhile_text h2]
    have hcut : cut.getD v.length ≤ v.length := by
      cases cut with
      | none => exact Nat.le_refl _
      | some i => exact h3 i rfl
    unfold putBack
    rw [htext]
    dsimp only
    split
    · rename_i hgt
      have hz : b.size ≠ 0 := by
        intro hz
        rcases k4 with ⟨-, k4⟩ | ⟨r, k4⟩
        · rw [k3, k4] at hgt; simp at hgt
        · rw [k4, hz] at k1; simp at k1
      rw [if_neg hz]
      split
      · exact Or.inr (Or.inl ⟨t, rfl, rfl⟩)
      · exact Or.inl rfl
    · rename_i hle
      have hs : store (v ++ [NUL]) 0 (t ++ [NUL]) = some (t ++ NUL :: (v ++ [NUL]).drop (t.length + 1)) := by
        have := store_at (t := []) (r := v ++ [NUL]) (x := t ++ [NUL]) (by rw [List.length_append, List.length_append]; simp; omega)
        rw [List.nil_append] at this
        rw [show ([] : Str).length = 0 from rfl] at this
        rw [this]
        simp
      rw [hs]
      exact Or.inr (Or.inl ⟨t, congrArg Ended.done (takeWhile_text h2), rfl⟩)

/-- C187: while there is memory the expansion does not fail for lack of it: where the value and the variables are so short that no text made of
them could reach the largest size. -/
theorem C187_memory (a : Alloc) (ha : ∀ n s, a.gives n s = true) (hd : a.dups = true) (e : PEnv) (w : Who) (v : Str) (hnul : NUL ∉ v) {m : Nat}
    (hm : v.length * (m + 1) < 2 ^ 64 - 1) (hm2 : m < 2 ^ 64 - 1) (hv : Values e w m) : expandMem a e w v ≠ .nomem := by
  have loop : ∀ (fuel pos : Nat) (cut : Option Nat) (b : Buf) (s t : Str), NUL ∉ s → Holds b t → t.length + s.length * (m + 1) < 2 ^ 64 - 1 →
      expandMemLoop a e w fuel pos cut b s ≠ .nomem := by
    intro fuel
    induction fuel with
    | zero => intro pos cut b s t _ _ _; cases s <;> (unfold expandMemLoop; simp)
    | succ fuel ih =>
      intro pos cut b s t hs hb hl
      cases s with
      | nil => unfold expandMemLoop; simp
      | cons c s =>
        have hs' : NUL ∉ s := fun x => hs (by simp [x])
        rw [List.length_cons, Nat.succ_mul] at hl
        have add : ∀ (x s2 : Str) (p2 : Nat) (cut : Option Nat), x.length ≤ m + 1 → s2.length ≤ s.length → NUL ∉ s2 →
            ((append a b x).andThen fun b => expandMemLoop a e w fuel p2 cut b s2) ≠ .nomem := by
          intro x s2 p2 cut hx hs2 hn2
          have hmul := Nat.mul_le_mul_right (m + 1) hs2
          rcases append_spec a hb (x := x) (by omega) with k | ⟨b1, k, kh, -⟩
          · exact absurd k (append_works ha (by rw [hb.2.2.1]; omega))
          · rw [k]
            exact ih p2 cut b1 s2 (t ++ x) hn2 kh (by rw [List.length_append]; omega)
        unfold expandMemLoop
        by_cases h1 : c = '\\'
        · rw [if_pos h1]
          cases s with
          | nil => exact ih _ cut b [] t (by simp) hb (by simp at hl ⊢; omega)
          | cons d s' =>
            dsimp only
            split
            · exact ih _ cut b (d :: s') t hs' hb (by omega)
            · exact add [d] s' _ cut (by simp) (by simp) (fun x => hs' (by simp [x]))
        · rw [if_neg h1]
          by_cases h2 : c = '$' ∨ c = '@'
          · rw [if_pos h2]
            by_cases h3 : s.head? = some '{'
            · rw [if_pos h3]
              by_cases h4 : '}' ∉ s.tail
              · rw [if_pos h4]; simp
              · rw [if_neg h4]
                dsimp only
                have hlen : (s.tail.dropWhile (· ≠ '}')).tail.length ≤ s.length := by
                  have l1 := (List.dropWhile_sublist (· ≠ '}') (l := s.tail)).length_le
                  have l3 : s.tail.length = s.length - 1 := List.length_tail
                  have l4 : (s.tail.dropWhile (· ≠ '}')).tail.length = (s.tail.dropWhile (· ≠ '}')).length - 1 := List.length_tail
                  omega
                have hrest : NUL ∉ (s.tail.dropWhile (· ≠ '}')).tail := by
                  intro x
                  have := List.mem_of_mem_tail x
                  have := (List.dropWhile_sublist _).mem this
                  exact hs' (List.mem_of_mem_tail this)
                generalize s.tail.takeWhile (· ≠ '}') = name at *
                generalize (s.tail.dropWhile (· ≠ '}')).tail = rest at *
                generalize hval : (if c = '$' then e.getenv (some name) else some (itemByName w name)) = val
                cases val with
                | none => simp
                | some val =>
                  cases val with
                  | none =>
                    have hmul := Nat.mul_le_mul_right (m + 1) hlen
                    exact ih _ _ b rest t hrest hb (by omega)
                  | some v =>
                    have hvn : NUL ∉ v ∧ v.length ≤ m := by
                      refine hv name v ?_
                      split at hval
                      · exact Or.inl hval
                      · exact Or.inr (Option.some.inj hval)
                    exact add v rest _ _ (by omega) hlen hrest
            · rw [if_neg h3]
              exact add [c] s _ cut (by simp) (Nat.le_refl _) hs'
          · rw [if_neg h2]
            exact add [c] s _ cut (by simp) (Nat.le_refl _) hs'
  unfold expandMem
  split
  · simp
  · have hl := loop v.length 0 none Buf.init v [] hnul ⟨rfl, by decide, rfl, Or.inl ⟨rfl, rfl⟩⟩ (by simpa using hm)
    cases hr : expandMemLoop a e w v.length 0 none Buf.init v with
    | nomem => exact absurd hr hl
    | abort => simp
    | bad => simp
    | ub => simp
    | done x =>
      obtain ⟨b, cut⟩ := x
      dsimp only
      unfold putBack
      split
      · split
        · simp
        · split
          · simp
          · first | (rw [if_pos hd]; simp) | simp
      · split
        · simp
        · split <;> simp

/-- the values are as required where all the strings they come from are -/
theorem values_of {e : PEnv} {w : Who} {n : Nat} (he : ∀ x, some x ∈ e.slots → NUL ∉ x ∧ x.length ≤ n)
    (hw : ∀ x, w.user = some x ∨ w.userPrompt = some x ∨ w.tty = some x ∨ w.ruser = some x ∨ w.rhost = some x → NUL ∉ x ∧ x.length ≤ n)
    (hp : ∀ u d s, w.pw u = some (d, s) → (NUL ∉ d ∧ d.length ≤ n) ∧ NUL ∉ s ∧ s.length ≤ n) : Values e w n := by
  intro name x h
  rcases h with h | h
  · unfold Handle.PEnv.getenv at h
    dsimp only at h
    split at h
    · cases h
    · cases h
    · rename_i i _
      split at h
      · cases h
      · rename_i y hy
        have e1 := Option.some.inj (Option.some.inj h)
        subst e1
        have hmem : some y ∈ e.slots := by
          unfold Handle.PEnv.at? at hy
          cases hi : e.slots[i]? with
          | none => rw [hi] at hy; cases hy
          | some z =>
            rw [hi] at hy
            have hz : z = some y := hy
            rw [← hz]
            exact List.mem_of_getElem? hi
        obtain ⟨k1, k2⟩ := he y hmem
        exact ⟨fun q => k1 (List.mem_of_mem_drop q), by rw [List.length_drop]; omega⟩
  · unfold itemByName at h
    dsimp only at h
    generalize hv : (if name = "PAM_USER".toList ∨ name = "HOME".toList ∨ name = "SHELL".toList then w.user
      else if name = "PAM_USER_PROMPT".toList then w.userPrompt
      else if name = "PAM_TTY".toList then w.tty
      else if name = "PAM_RUSER".toList then w.ruser
      else if name = "PAM_RHOST".toList then w.rhost
      else none) = val at h
    have hval : ∀ y, val = some y → NUL ∉ y ∧ y.length ≤ n := by
      intro y hy
      apply hw
      rw [← hv] at hy
      split at hy
      · exact Or.inl hy
      · split at hy
        · exact Or.inr (Or.inl hy)
        · split at hy
          · exact Or.inr (Or.inr (Or.inl hy))
          · split at hy
            · exact Or.inr (Or.inr (Or.inr (Or.inl hy)))
            · split at hy
              · exact Or.inr (Or.inr (Or.inr (Or.inr hy)))
              · cases hy
    cases val with
    | none => cases h
    | some u =>
      dsimp only at h
      split at h
      · split at h
        · cases h
        · rename_i d sh hpw
          have hd := hp _ _ _ hpw
          have e1 := Option.some.inj h
          split at e1
          · subst e1; exact hd.2
          · subst e1; exact hd.1
      · have e1 := Option.some.inj h
        subst e1
        exact hval u rfl

/-! ### an example -/

def exBufAlloc : Alloc := ⟨fun _ _ => true, true, fun _ => '?'⟩
def exPerson : Who := ⟨some "ada".toList, none, none, none, none, fun _ => some ("/home/ada".toList, "/bin/sh".toList)⟩
def exBufVars : PEnv := ⟨[some "X=a value".toList, none, none], 2⟩

/-- witness for C187: a value that grows and one that gets shorter, with a variable, an item and an escaped character -/
example : expandMem exBufAlloc exBufVars exPerson "${X}:@{HOME}/\\$@{SHELL}".toList = .done "a value:/home/ada/$/bin/sh".toList := by decide +kernel

example : expandMem exBufAlloc exBufVars exPerson "-${UNKNOWN}-".toList = .done "--".toList := by decide +kernel

/-- and it meets the hypotheses of `C187_expand` and `C187_memory` -/
example : Values exBufVars exPerson 9 := by
  refine values_of ?_ ?_ ?_
  · intro x hx
    unfold exBufVars at hx
    simp only [List.mem_cons, List.not_mem_nil, or_false] at hx
    rcases hx with hx | hx | hx
    · rw [Option.some.inj hx]; decide +kernel
    · cases hx
    · cases hx
  · intro x hx
    unfold exPerson at hx
    rcases hx with hx | hx | hx | hx | hx
    · rw [← Option.some.inj hx]; decide +kernel
    all_goals cases hx
  · intro u d s hx
    have e1 := Option.some.inj hx
    have e2 : "/home/ada".toList = d := congrArg Prod.fst e1
    have e3 : "/bin/sh".toList = s := congrArg Prod.snd e1
    rw [← e2, ← e3]
    decide +kernel

end Pam.Env
