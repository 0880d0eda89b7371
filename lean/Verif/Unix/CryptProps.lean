import Verif.Unix.Crypt
/-
Property theorems C69 (which passwords a stored hash accepts) and C70 (a hash that is made accepts its password).
-/
namespace Pam.Unix
open Pam

/-! ### C69 -/

/-- the hash function that belongs to the stored text `s`, applied to `p`, gives `s` again -/
inductive Gives (c : Crypts) (p s : Str) : Prop where
  | md5 : "$1$".toList <+: s → (cryptMd5 c.good p s = s ∨ cryptMd5 c.broken p s = s) → Gives c p s
  | des (pp : Str) : s.head? ≠ some '$' → s.length = 13 → bigcrypt c.crypt p s = some pp → pp.take 13 = s → Gives c p s
  | big : s.head? ≠ some '$' → s.length > 13 → bigcrypt c.crypt p s = some s → Gives c p s
  | other : ¬ "$1$".toList <+: s → (s.head? = some '$' ∨ s.length < 13) → c.crypt p s = some s → Gives c p s

theorem recompute_gives {c : Crypts} {p s : Str} : recompute c p s = some s ↔ Gives c p s := by
  unfold recompute
  by_cases h1 : "$1$".toList.isPrefixOf s = true
  · rw [if_pos h1]
    have hp : "$1$".toList <+: s := List.isPrefixOf_iff_prefix.mp h1
    constructor
    · intro h
      refine .md5 hp ?_
      split at h
      · left; assumption
      · right; simpa using h
    · intro h
      have hd : s.head? = some '$' := by obtain ⟨t, rfl⟩ := hp; rfl
      cases h with
      | md5 _ h =>
        by_cases hg : cryptMd5 c.good p s = s
        · rw [if_pos hg, hg]
        · rw [if_neg hg]; rcases h with h | h
          · exact absurd h hg
          · rw [h]
      | des _ hs => exact absurd hd hs
      | big hs => exact absurd hd hs
      | other hn => exact absurd hp hn
  · rw [if_neg h1]
    have hp : ¬ "$1$".toList <+: s := fun h => h1 (List.isPrefixOf_iff_prefix.mpr h)
    by_cases h2 : s.head? ≠ some '$' ∧ s.length ≥ 13
    · rw [if_pos h2]
      cases hb : bigcrypt c.crypt p s with
      | none =>
        constructor
        · intro h; cases h
        · intro h
          cases h with
          | md5 h => exact absurd h hp
          | des pp _ _ h => rw [hb] at h; cases h
          | big _ _ h => rw [hb] at h; cases h
          | other _ h => rcases h with h | h
                         · exact absurd h h2.1
                         · omega
      | some pp =>
        simp only [Option.some.injEq]
        by_cases h3 : s.length = 13
        · constructor
          · intro h
            refine .des pp h2.1 h3 hb ?_
            split at h
            · rw [← h3]; exact h
            · rw [h, ← h3, List.take_length]
          · intro h
            have key : pp.take 13 = s := by
              cases h with
              | md5 h => exact absurd h hp
              | des q _ _ h h' => rw [hb] at h; cases h; exact h'
              | big _ h => omega
              | other _ h => rcases h with h | h
                             · exact absurd h h2.1
                             · omega
            split
            · rw [h3]; exact key
            · next hn =>
              have : pp.length ≤ 13 := by
                by_cases hl : pp.length > s.length
                · exact absurd ⟨h3, hl⟩ hn
                · omega
              rw [List.take_of_length_le this] at key; exact key
        · rw [if_neg (fun h => h3 h.1)]
          constructor
          · intro h; rw [h] at hb; exact .big h2.1 (by omega) hb
          · intro h
            cases h with
            | md5 h => exact absurd h hp
            | des q _ h => exact absurd h h3
            | big _ _ h => rw [hb] at h; cases h; rfl
            | other _ h => rcases h with h | h
                           · exact absurd h h2.1
                           · omega
    · rw [if_neg h2]
      have ho : s.head? = some '$' ∨ s.length < 13 := by
        by_cases hd : s.head? = some '$'
        · exact Or.inl hd
        · right
          by_cases hl : s.length < 13
          · exact hl
          · exact absurd ⟨hd, by omega⟩ h2
      constructor
      · intro h; exact .other hp ho h
      · intro h
        cases h with
        | md5 h => exact absurd h hp
        | des _ a b => exact absurd ⟨a, by omega⟩ h2
        | big a b => exact absurd ⟨a, by omega⟩ h2
        | other _ _ h => exact h

/-- what of a stored text counts: traditional hashes may be followed by a foreign letter and whatever comes then -/
inductive Counts : Str → Str → Prop where
  | whole (s : Str) : (s.head? = some '$' ∨ s.length ≤ 13 ∨ ∀ c ∈ s.drop 13, isB64 c = true) → Counts s s
  | cut (a b : Str) (x : Char) : a.head? ≠ some '$' → 13 ≤ a.length → (∀ c ∈ a.drop 13, isB64 c = true) → isB64 x = false →
      Counts (a ++ x :: b) a

theorem takeWhile_all {p : Char → Bool} : ∀ {l : Str}, (∀ c ∈ l, p c = true) → l.takeWhile p = l
  | [], _ => rfl
  | a :: r, h => by rw [List.takeWhile_cons, if_pos (h a (by simp)), takeWhile_all (fun c hc => h c (by simp [hc]))]

theorem counts_strip {s t : Str} : Counts s t ↔ stripAging s = t := by
  constructor
  · intro h
    cases h with
    | whole s h =>
      unfold stripAging
      split
      · next hc =>
        rcases h with h | h | h
        · exact absurd h hc.1
        · omega
        · rw [takeWhile_all h, List.take_append_drop]
      · rfl
    | cut a b x h1 h2 h3 h4 =>
      unfold stripAging
      have hd : (t ++ x :: b).head? = t.head? := by cases t with
        | nil => simp at h2
        | cons y r => rfl
      rw [if_pos ⟨by rw [hd]; exact h1, by simp only [List.length_append, List.length_cons]; omega⟩,
        List.take_append_of_le_length h2, List.drop_append_of_le_length h2, List.takeWhile_append_of_pos h3,
        List.takeWhile_cons, if_neg (by simp [h4]), List.append_nil, List.take_append_drop]
  · intro h
    unfold stripAging at h
    split at h
    · next hc =>
      have hsplit := List.takeWhile_append_dropWhile (p := isB64) (l := s.drop 13)
      cases hr : (s.drop 13).dropWhile isB64 with
      | nil =>
        rw [hr, List.append_nil] at hsplit
        rw [hsplit, List.take_append_drop] at h
        subst h
        refine .whole s (Or.inr (Or.inr ?_))
        intro c hc'
        rw [← hsplit] at hc'
        have : ∀ {l : Str}, c ∈ l.takeWhile isB64 → isB64 c = true := by
          intro l
          induction l with
          | nil => simp
          | cons y r ih =>
            rw [List.takeWhile_cons]
            split
            · intro hm
              rcases List.mem_cons.mp hm with rfl | hm
              · assumption
              · exact ih hm
            · simp
        exact this hc'
      | cons x b =>
        rw [hr] at hsplit
        have hs : s = t ++ x :: b := by rw [← h, List.append_assoc, hsplit, List.take_append_drop]
        have ht : t.take 13 = s.take 13 ∧ 13 ≤ t.length := by
          rw [← h]
          have hl : (s.take 13).length = 13 := by rw [List.length_take]; omega
          constructor
          · rw [List.take_append_of_le_length (by omega), List.take_take]; simp
          · rw [List.length_append]; omega
        have hx : isB64 x = false := by
          have := List.head_dropWhile_not isB64 (l := s.drop 13) (by rw [hr]; simp)
          simpa [hr] using this
        have hd : t.drop 13 = (s.drop 13).takeWhile isB64 := by
          rw [← h, List.drop_append_of_le_length (by rw [List.length_take]; omega)]
          rw [List.drop_of_length_le (by rw [List.length_take]; omega), List.nil_append]
        rw [hs]
        refine .cut t b x ?_ ht.2 ?_ hx
        · rw [hs] at hc
          have : (t ++ x :: b).head? = t.head? := by
            cases t with
            | nil => exact absurd ht.2 (by simp)
            | cons y r => rfl
          rw [this] at hc; exact hc.1
        · rw [hd]
          intro c hm
          have : ∀ {l : Str}, c ∈ l.takeWhile isB64 → isB64 c = true := by
            intro l
            induction l with
            | nil => simp
            | cons y r ih =>
              rw [List.takeWhile_cons]
              split
              · intro hm
                rcases List.mem_cons.mp hm with rfl | hm
                · assumption
                · exact ih hm
              · simp
          exact this hm
    · next hc =>
      subst h
      refine .whole s ?_
      by_cases hd : s.head? = some '$'
      · exact Or.inl hd
      · by_cases hl : s.length ≤ 13
        · exact Or.inr (Or.inl hl)
        · exact absurd ⟨hd, by omega⟩ hc

/-- C69: a password is accepted exactly if nothing is stored, the password is empty and that is allowed; or if what is stored is no
lock (`!` or `*`), the hash function that belongs to it gives it again, and the password is not empty unless that is allowed. -/
theorem C69_accepts (c : Crypts) (p stored s : Str) (nullok : Bool) (hs : Counts stored s) :
    verifyHash c (some p) stored nullok = PAM_SUCCESS ↔
      (s = [] ∧ p = [] ∧ nullok = true) ∨
      (s ≠ [] ∧ s.head? ≠ some '*' ∧ s.head? ≠ some '!' ∧ (p ≠ [] ∨ nullok = true) ∧ Gives c p s) := by
  have e := counts_strip.mp hs
  unfold verifyHash
  rw [e]
  simp only [Option.some.injEq]
  by_cases h1 : p = [] ∧ nullok = false
  · rw [if_pos ⟨h1.1, by simp [h1.2]⟩]
    constructor
    · intro h; exact absurd h (by decide)
    · rintro (⟨-, -, h⟩ | ⟨-, -, -, h, -⟩)
      · rw [h1.2] at h; cases h
      · rcases h with h | h
        · exact absurd h1.1 h
        · rw [h1.2] at h; cases h
  · rw [if_neg (fun h => h1 ⟨h.1, by simpa using h.2⟩)]
    by_cases h2 : s = []
    · rw [if_pos h2]
      constructor
      · intro h
        split at h
        · next hh => exact Or.inl ⟨h2, hh.1, hh.2⟩
        · exact absurd h (by decide)
      · rintro (⟨-, h, h'⟩ | ⟨h, -⟩)
        · rw [if_pos ⟨h, h'⟩]
        · exact absurd h2 h
    · rw [if_neg h2]
      by_cases h3 : s.head? = some '*' ∨ s.head? = some '!'
      · rw [if_pos h3]
        constructor
        · intro h; exact absurd h (by decide)
        · rintro (⟨h, -⟩ | ⟨-, a, b, -⟩)
          · exact absurd h h2
          · rcases h3 with h | h
            · exact absurd h a
            · exact absurd h b
      · rw [if_neg h3]
        have hp : p ≠ [] ∨ nullok = true := by
          by_cases hp : p = []
          · right
            cases nullok with
            | true => rfl
            | false => exact absurd ⟨hp, rfl⟩ h1
          · exact Or.inl hp
        constructor
        · intro h
          split at h
          · next hh => exact Or.inr ⟨h2, fun x => h3 (Or.inl x), fun x => h3 (Or.inr x), hp, recompute_gives.mp hh⟩
          · exact absurd h (by decide)
        · rintro (⟨h, -⟩ | ⟨-, -, -, -, h⟩)
          · exact absurd h h2
          · rw [if_pos (recompute_gives.mpr h)]

/-- C69: the answer is always success or PAM_AUTH_ERR, and no password at all is never accepted. -/
theorem C69_codes (c : Crypts) (p : Option Str) (stored : Str) (nullok : Bool) :
    (verifyHash c p stored nullok = PAM_SUCCESS ∨ verifyHash c p stored nullok = PAM_AUTH_ERR) ∧
    verifyHash c none stored nullok = PAM_AUTH_ERR := by
  constructor
  · unfold verifyHash
    simp only
    split
    · exact Or.inr rfl
    split
    · split
      · exact Or.inl rfl
      · exact Or.inr rfl
    cases p with
    | none => exact Or.inr rfl
    | some p =>
      simp only
      split
      · exact Or.inr rfl
      split
      · exact Or.inl rfl
      · exact Or.inr rfl
  · unfold verifyHash
    simp

/-- C69: a locked account accepts nothing, whatever the hash functions do. -/
theorem C69_locked (c : Crypts) (p rest : Str) (nullok : Bool) :
    verifyHash c (some p) ('!' :: rest) nullok = PAM_AUTH_ERR ∧ verifyHash c (some p) ('*' :: rest) nullok = PAM_AUTH_ERR := by
  have head : ∀ (x : Char), (stripAging (x :: rest)).head? = some x := by
    intro x; unfold stripAging; split <;> rfl
  have key : ∀ x : Char, (x = '*' ∨ x = '!') → verifyHash c (some p) (x :: rest) nullok = PAM_AUTH_ERR := by
    intro x hx
    rcases (C69_codes c (some p) (x :: rest) nullok).1 with h | h
    · rcases (C69_accepts c p (x :: rest) _ nullok (counts_strip.mpr rfl)).mp h with ⟨h, -⟩ | ⟨-, h1, h2, -⟩
      · have := head x; rw [h] at this; cases this
      · rw [head x] at h1 h2
        rcases hx with rfl | rfl
        · exact absurd rfl h1
        · exact absurd rfl h2
    · exact h
  exact ⟨key '!' (Or.inr rfl), key '*' (Or.inl rfl)⟩

/-- C69: a traditional hash of thirteen letters cannot tell passwords apart that agree in the first eight letters. -/
theorem C69_eight (c : Crypts) (p p' s : Str) (nullok : Bool) (hs : s.length = 13) (h1 : s.head? ≠ some '$') (hp : p ≠ []) (hp' : p' ≠ [])
    (h8 : p.take 8 = p'.take 8) : verifyHash c (some p) s nullok = verifyHash c (some p') s nullok := by
  have key : ∀ q q' : Str, q.take 8 = q'.take 8 → q' ≠ [] →
      verifyHash c (some q) s nullok = PAM_SUCCESS → verifyHash c (some q') s nullok = PAM_SUCCESS := by
    intro q q' h hq' hv
    rw [C69_accepts c _ s s nullok (.whole s (Or.inr (Or.inl (by omega))))] at hv ⊢
    have hb : bigcrypt c.crypt q s = bigcrypt c.crypt q' s := by
      have : (q.take 130).take 8 = (q'.take 130).take 8 := by
        rw [List.take_take, List.take_take]; exact h
      simp only [bigcrypt, if_pos hs, this]
    rcases hv with ⟨h, -⟩ | ⟨a, b, d, -, g⟩
    · rw [h] at hs; cases hs
    · refine Or.inr ⟨a, b, d, Or.inl hq', ?_⟩
      cases g with
      | md5 g => obtain ⟨t, rfl⟩ := g; exact absurd rfl h1
      | des pp _ _ g g' => exact .des pp h1 hs (hb ▸ g) g'
      | big _ g => omega
      | other _ g => rcases g with g | g
                     · exact absurd g h1
                     · omega
  rcases (C69_codes c (some p) s nullok).1 with h | h
  · rw [h, key p p' h8 hp' h]
  · rcases (C69_codes c (some p') s nullok).1 with h' | h'
    · rw [h', key p' p h8.symm hp h']
    · rw [h, h']

/-! ### C70 -/

/-- a setting of the traditional hash -/
def DesSetting (s : Str) : Prop := 2 ≤ s.length ∧ ∀ c ∈ s, isB64 c = true

/-- what is known of the functions of libcrypt -/
structure Laws (crypt : Str → Str → Option Str) : Prop where
  /-- a hash is a setting that gives the same hash -/
  again : ∀ p s h, crypt p s = some h → h.head? = some '$' → crypt p h = some h
  /-- traditional hashes begin with the salt and have thirteen letters or more -/
  form : ∀ p s h, DesSetting s → crypt p s = some h → 13 ≤ h.length ∧ (∀ c ∈ h, isB64 c = true) ∧ h.take 2 = s.take 2
  /-- the first thirteen depend on eight letters of the password and two of the setting -/
  same : ∀ p p' s s', DesSetting s → DesSetting s' → s.take 2 = s'.take 2 → p.take 8 = p'.take 8 →
    (crypt p s).map (·.take 13) = (crypt p' s').map (·.take 13)

theorem i64c_b64 {i : Nat} (h : i < 64) : isB64 (i64c i) = true := by
  have : ∀ i : Fin 64, isB64 (i64c i.val) = true := by decide
  exact this ⟨i, h⟩

theorem makeSalt_des (rnd : Nat → Nat) {n : Nat} (hn : 2 ≤ n) : DesSetting (makeSalt rnd n) := by
  constructor
  · simp only [makeSalt, List.length_map, List.length_range]; exact hn
  · intro c hc
    simp only [makeSalt, List.mem_map] at hc
    obtain ⟨i, -, rfl⟩ := hc
    exact i64c_b64 (Nat.mod_lt _ (by decide))

theorem b64_ne {c : Char} (h : isB64 c = true) : c ≠ NUL ∧ c ≠ '$' ∧ c ≠ '*' ∧ c ≠ '!' := by
  refine ⟨?_, ?_, ?_, ?_⟩ <;> (rintro rfl; revert h; decide)

theorem pad_long {n : Nat} {s : Str} (h : n ≤ s.length) : pad n s = s.take n := by
  rw [pad, show n - s.length = 0 by omega, List.replicate_zero, List.append_nil]

theorem cstr_b64 {s : Str} (h : ∀ c ∈ s, isB64 c = true) : cstr s = s :=
  takeWhile_all (fun c hc => by simpa using (b64_ne (h c hc)).1)

theorem bigLoop_b64 {crypt : Str → Str → Option Str} (hl : Laws crypt) : ∀ (k : Nat) (plain salt r : Str), DesSetting salt →
    bigLoop crypt k plain salt = some r → r.length = 11 * k ∧ ∀ c ∈ r, isB64 c = true
  | 0, _, _, r, _, h => by simp only [bigLoop, Option.some.injEq] at h; subst h; simp
  | k + 1, plain, salt, r, hs, h => by
    simp only [bigLoop] at h
    cases hc : crypt plain salt with
    | none => rw [hc] at h; cases h
    | some t =>
      rw [hc] at h
      simp only at h
      obtain ⟨h1, h2, -⟩ := hl.form _ _ _ hs hc
      have hb : pad 11 (t.drop 2) = (t.drop 2).take 11 := pad_long (by rw [List.length_drop]; omega)
      have hb64 : ∀ c ∈ (t.drop 2).take 11, isB64 c = true := fun c hc => h2 c (List.mem_of_mem_drop (List.mem_of_mem_take hc))
      have hlen : ((t.drop 2).take 11).length = 11 := by rw [List.length_take, List.length_drop]; omega
      rw [hb, cstr_b64 hb64] at h
      cases hr : bigLoop crypt k (plain.drop 8) ((t.drop 2).take 11) with
      | none => rw [hr] at h; cases h
      | some r' =>
        rw [hr] at h
        simp only [Option.some.injEq] at h
        subst h
        obtain ⟨h3, h4⟩ := bigLoop_b64 hl k _ _ _ ⟨by omega, hb64⟩ hr
        refine ⟨by rw [List.length_append, hlen, h3]; omega, ?_⟩
        intro c hc
        rcases List.mem_append.mp hc with hc | hc
        · exact hb64 c hc
        · exact h4 c hc

/-- the number of blocks -/
def blocks (len : Nat) : Nat :=
  let n := if len = 0 then 1 else 1 + (len - 1) / 8
  if n > 16 then 16 else n

/-- the key that counts -/
def cutKey (key salt : Str) : Str := if salt.length = 13 then (key.take 130).take 8 else key.take 130

/-- with a traditional setting -/
theorem bigcrypt_des {crypt : Str → Str → Option Str} (hl : Laws crypt) {key salt : Str} (hs : DesSetting salt) :
    bigcrypt crypt key salt = match crypt (cutKey key salt) salt with
      | none => none
      | some t => match bigLoop crypt (blocks (cutKey key salt).length - 1) ((cutKey key salt).drop 8) ((t.take 13).drop 2) with
        | none => none
        | some r => some (t.take 13 ++ r) := by
  simp only [bigcrypt]
  rw [show (if salt.length = 13 then List.take 8 (List.take 130 key) else List.take 130 key) = cutKey key salt from rfl]
  cases hc : crypt (cutKey key salt) salt with
  | none => rfl
  | some t =>
    obtain ⟨h1, h2, -⟩ := hl.form _ _ _ hs hc
    simp only
    have h64 : ∀ c ∈ t.take 13, isB64 c = true := fun c hc => h2 c (List.mem_of_mem_take hc)
    have h64' : ∀ c ∈ (t.take 13).drop 2, isB64 c = true := fun c hc => h64 c (List.mem_of_mem_drop hc)
    rw [pad_long h1, cstr_b64 h64']
    show (match bigLoop crypt (blocks (cutKey key salt).length - 1) _ _ with
      | none => none
      | some r => some (cstr (t.take 13 ++ r))) = _
    cases hr : bigLoop crypt (blocks (cutKey key salt).length - 1) ((cutKey key salt).drop 8) ((t.take 13).drop 2) with
    | none => rfl
    | some r =>
      obtain ⟨-, h3⟩ := bigLoop_b64 hl _ _ _ _ ⟨by rw [List.length_drop, List.length_take]; omega, h64'⟩ hr
      simp only
      rw [cstr_b64]
      intro c hc
      rcases List.mem_append.mp hc with hc | hc
      · exact h64 c hc
      · exact h3 c hc

/-- a traditional hash made with two letters of salt gives itself -/
theorem bigcrypt_again {crypt : Str → Str → Option Str} (hl : Laws crypt) {key salt h : Str} (hs : DesSetting salt) (hs2 : salt.length = 2)
    (hb : bigcrypt crypt key salt = some h) :
    13 ≤ h.length ∧ (∀ c ∈ h, isB64 c = true) ∧
    ∀ key', (h.length = 13 → key'.take 8 = key.take 8) → (h.length ≠ 13 → key' = key) → bigcrypt crypt key' h = some h := by
  have hk : cutKey key salt = key.take 130 := by rw [cutKey, if_neg (by omega)]
  rw [bigcrypt_des hl hs, hk] at hb
  cases hc : crypt (key.take 130) salt with
  | none => rw [hc] at hb; cases hb
  | some t =>
    rw [hc] at hb
    simp only at hb
    obtain ⟨h1, h2, h3⟩ := hl.form _ _ _ hs hc
    cases hr : bigLoop crypt (blocks (key.take 130).length - 1) ((key.take 130).drop 8) ((t.take 13).drop 2) with
    | none => rw [hr] at hb; cases hb
    | some r =>
      rw [hr] at hb
      simp only [Option.some.injEq] at hb
      have h64 : ∀ c ∈ t.take 13, isB64 c = true := fun c hc => h2 c (List.mem_of_mem_take hc)
      have ht13 : (t.take 13).length = 13 := by rw [List.length_take]; omega
      obtain ⟨h4, h5⟩ := bigLoop_b64 hl _ _ _ _
        ⟨by rw [List.length_drop]; omega, fun c hc => h64 c (List.mem_of_mem_drop hc)⟩ hr
      have hlen : h.length = 13 + 11 * (blocks (key.take 130).length - 1) := by rw [← hb, List.length_append, ht13, h4]
      have hh64 : ∀ c ∈ h, isB64 c = true := by
        intro c hc
        rw [← hb] at hc
        rcases List.mem_append.mp hc with hc | hc
        · exact h64 c hc
        · exact h5 c hc
      have hhs : DesSetting h := ⟨by omega, hh64⟩
      have htake : h.take 2 = salt.take 2 := by
        rw [← hb, List.take_append_of_le_length (by omega), List.take_take, ← h3]; simp
      refine ⟨by omega, hh64, ?_⟩
      intro key' k1 k2
      rw [bigcrypt_des hl hhs]
      by_cases h13 : h.length = 13
      · -- one block
        have hk' : cutKey key' h = key'.take 8 := by
          rw [cutKey, if_pos h13, List.take_take]; simp
        have hbl : blocks (cutKey key' h).length = 1 := by
          rw [hk', List.length_take]
          unfold blocks
          simp only
          split <;> split <;> omega
        have hb1 : blocks (key.take 130).length - 1 = 0 := by omega
        have hsame := hl.same (cutKey key' h) (key.take 130) h salt hhs hs htake (by
          rw [hk', List.take_take, List.take_take]
          simp only [Nat.min_self, show min 8 130 = 8 from rfl]
          exact k1 h13)
        rw [hc, Option.map_some] at hsame
        cases hc' : crypt (cutKey key' h) h with
        | none => rw [hc'] at hsame; cases hsame
        | some t' =>
          rw [hc', Option.map_some, Option.some.injEq] at hsame
          simp only
          rw [hbl]
          simp only [Nat.sub_self, bigLoop, List.append_nil]
          rw [hb1] at hr
          simp only [bigLoop, Option.some.injEq] at hr
          rw [hsame, ← hb, ← hr, List.append_nil]
      · have hkk := k2 h13
        subst hkk
        have hk' : cutKey key' h = key'.take 130 := by rw [cutKey, if_neg h13]
        rw [hk']
        have hsame := hl.same (key'.take 130) (key'.take 130) h salt hhs hs htake rfl
        rw [hc, Option.map_some] at hsame
        cases hc' : crypt (key'.take 130) h with
        | none => rw [hc'] at hsame; cases hsame
        | some t' =>
          rw [hc', Option.map_some, Option.some.injEq] at hsame
          simp only
          rw [hsame, hr]
          simp only [hb]

theorem md5Salt_again (digest : Str → Str → Str) (p s : Str) : md5Salt (cryptMd5 digest p s) = md5Salt s := by
  have hsalt : (md5Salt s).length ≤ 8 ∧ ∀ c ∈ md5Salt s, c ≠ '$' := by
    constructor
    · simp only [md5Salt]
      exact Nat.le_trans (List.takeWhile_sublist _).length_le (by rw [List.length_take]; omega)
    · intro c hc
      simp only [md5Salt] at hc
      have : ∀ {l : Str}, c ∈ l.takeWhile (fun x => decide (x ≠ '$')) → c ≠ '$' := by
        intro l
        induction l with
        | nil => simp
        | cons y r ih =>
          rw [List.takeWhile_cons]
          split
          · next hy =>
            intro hm
            rcases List.mem_cons.mp hm with rfl | hm
            · simpa using hy
            · exact ih hm
          · simp
      exact this hc
  rw [cryptMd5]
  generalize md5Salt s = sl at hsalt ⊢
  generalize digest p sl = d
  have hd : ("$1$".toList ++ sl ++ '$' :: d).drop 3 = sl ++ '$' :: d := rfl
  have hp : "$1$".toList.isPrefixOf ("$1$".toList ++ sl ++ '$' :: d) = true := by
    rw [List.isPrefixOf_iff_prefix, List.append_assoc]; exact List.prefix_append _ _
  simp only [md5Salt]
  rw [if_pos hp, hd]
  have hall : ∀ c ∈ sl, decide (c ≠ '$') = true := fun c hc => by simpa using hsalt.2 c hc
  by_cases h8 : sl.length = 8
  · rw [List.take_append_of_le_length (by omega), List.take_of_length_le (by omega)]
    exact takeWhile_all hall
  · rw [List.take_append, List.take_of_length_le (by omega), List.takeWhile_append_of_pos hall]
    have : 8 - sl.length = (7 - sl.length) + 1 := by have := hsalt.1; omega
    rw [this, List.take_succ_cons, List.takeWhile_cons, if_neg (by simp), List.append_nil]

theorem cryptMd5_again (digest : Str → Str → Str) (p s : Str) : cryptMd5 digest p (cryptMd5 digest p s) = cryptMd5 digest p s := by
  rw [cryptMd5, md5Salt_again]; rfl

/-- C70: whatever hash pam_unix makes of a password that is not empty, with whatever method, salt and rounds, a later check of the same
password against it succeeds, given that the functions of libcrypt behave as described. -/
theorem C70_round_trip (c : Crypts) (hl : Laws c.crypt) (rnd : Nat → Nat) (gensalt : Str → Int → Str) (a : Algo) (rounds : Int)
    (p h : Str) (nullok : Bool) (hp : p ≠ [] ∨ nullok = true) (hh : createHash c rnd gensalt a rounds p = some h) :
    verifyHash c (some p) h nullok = PAM_SUCCESS := by
  have dollar : ∀ (x : Str), h = '$' :: x → Gives c p h → verifyHash c (some p) h nullok = PAM_SUCCESS := by
    intro x hx hg
    rw [C69_accepts c p h h nullok (.whole h (Or.inl (by rw [hx]; rfl)))]
    exact Or.inr ⟨by rw [hx]; simp, by rw [hx]; simp, by rw [hx]; simp, hp, hg⟩
  have libc : ∀ (b : Algo) (y : Char) (z : Str), b.id = '$' :: y :: z → y ≠ '1' →
      (match c.crypt p (gensalt b.id rounds) with
        | none => none
        | some h => if b.id.isPrefixOf h then some h else none) = some h → verifyHash c (some p) h nullok = PAM_SUCCESS := by
    intro b y z hb hy hm
    cases hc : c.crypt p (gensalt b.id rounds) with
    | none => rw [hc] at hm; cases hm
    | some h' =>
      rw [hc] at hm
      simp only at hm
      split at hm
      · next hpre =>
        cases hm
        rw [List.isPrefixOf_iff_prefix, hb] at hpre
        obtain ⟨t, ht⟩ := hpre
        have hx : h = '$' :: (y :: z ++ t) := by rw [← ht]; rfl
        refine dollar _ hx (.other ?_ (Or.inl (by rw [hx]; rfl)) (hl.again _ _ _ hc (by rw [hx]; rfl)))
        rintro ⟨u, hu⟩
        rw [hx] at hu
        have : '1' = y := by injection hu with _ hu; injection hu
        exact hy this.symm
      · cases hm
  have trad : ∀ key, (key = p ∨ (key.length ≤ 8 ∧ key = p.take 8)) → bigcrypt c.crypt key (makeSalt rnd 2) = some h →
      verifyHash c (some p) h nullok = PAM_SUCCESS := by
    intro key hk hb
    obtain ⟨h1, h2, h3⟩ := bigcrypt_again hl (makeSalt_des rnd (Nat.le_refl 2)) (by simp [makeSalt]) hb
    have hb' : bigcrypt c.crypt p h = some h := by
      apply h3 p
      · intro _
        rcases hk with rfl | ⟨-, rfl⟩
        · rfl
        · rw [List.take_take]; simp
      · intro hn
        rcases hk with rfl | ⟨hlen, hk⟩
        · rfl
        · exfalso
          -- a key of at most eight letters makes one block
          have := bigcrypt_des hl (key := key) (makeSalt_des rnd (Nat.le_refl 2))
          rw [hb] at this
          have hck : cutKey key (makeSalt rnd 2) = key := by
            rw [cutKey, if_neg (by simp [makeSalt]), List.take_of_length_le (by omega)]
          have hbl : blocks (cutKey key (makeSalt rnd 2)).length - 1 = 0 := by
            rw [hck]; unfold blocks; simp only; split <;> split <;> omega
          rw [hbl] at this
          cases hc : c.crypt (cutKey key (makeSalt rnd 2)) (makeSalt rnd 2) with
          | none => rw [hc] at this; cases this
          | some t =>
            rw [hc] at this
            simp only [bigLoop, List.append_nil, Option.some.injEq] at this
            have hl' := (hl.form _ _ _ (makeSalt_des rnd (Nat.le_refl 2)) hc).1
            rw [this, List.length_take] at hn
            omega
    cases h with
    | nil => simp at h1
    | cons x r =>
      have hx := b64_ne (h2 x (by simp))
      have hh2 : x ≠ '$' := hx.2.1
      rw [C69_accepts c p (x :: r) (x :: r) nullok (.whole _ (Or.inr (Or.inr (fun c hc => h2 c (List.mem_of_mem_drop hc)))))]
      refine Or.inr ⟨by simp, by simpa using hx.2.2.1, by simpa using hx.2.2.2, hp, ?_⟩
      by_cases h13 : (x :: r).length = 13
      · exact .des _ (by simpa using hh2) h13 hb' (by rw [← h13, List.take_length])
      · exact .big (by simpa using hh2) (by omega) hb'
  cases a with
  | md5 =>
    simp only [createHash, Option.some.injEq] at hh
    have hx : h = '$' :: ("1$".toList ++ md5Salt ("$1$".toList ++ makeSalt rnd 8) ++ '$' ::
        c.good p (md5Salt ("$1$".toList ++ makeSalt rnd 8))) := by rw [← hh]; rfl
    refine dollar _ hx (.md5 ⟨md5Salt ("$1$".toList ++ makeSalt rnd 8) ++ '$' ::
      c.good p (md5Salt ("$1$".toList ++ makeSalt rnd 8)), ?_⟩ (Or.inl ?_))
    · rw [hx]; rfl
    · rw [← hh]; exact cryptMd5_again _ _ _
  | yescrypt => exact libc .yescrypt 'y' _ rfl (by decide) hh
  | gost => exact libc .gost 'g' _ rfl (by decide) hh
  | blowfish => exact libc .blowfish '2' _ rfl (by decide) hh
  | sha256 => exact libc .sha256 '5' _ rfl (by decide) hh
  | sha512 => exact libc .sha512 '6' _ rfl (by decide) hh
  | bigcrypt => exact trad p (Or.inl rfl) hh
  | des =>
    simp only [createHash] at hh
    refine trad _ ?_ hh
    by_cases h8 : p.length > 8
    · rw [if_pos h8]; exact Or.inr ⟨by rw [List.length_take]; omega, rfl⟩
    · rw [if_neg h8]; exact Or.inl rfl

/-- C70: a hash asked from libcrypt is only used if it has the prefix of its method: never a failure token, never a locked account. -/
theorem C70_prefix (c : Crypts) (rnd : Nat → Nat) (gensalt : Str → Int → Str) (a : Algo) (rounds : Int) (p h : Str)
    (hh : createHash c rnd gensalt a rounds p = some h) (ha : a ≠ .md5 ∧ a ≠ .bigcrypt ∧ a ≠ .des) : a.id <+: h := by
  obtain ⟨h1, h2, h3⟩ := ha
  have key : (match c.crypt p (gensalt a.id rounds) with
        | none => none
        | some h => if a.id.isPrefixOf h then some h else none) = some h := by
    cases a <;> first | exact hh | exact absurd rfl h1 | exact absurd rfl h2 | exact absurd rfl h3
  cases hc : c.crypt p (gensalt a.id rounds) with
  | none => rw [hc] at key; cases key
  | some h' =>
    rw [hc] at key
    simp only at key
    split at key
    · cases key; rw [← List.isPrefixOf_iff_prefix]; assumption
    · cases key

/-! ### the hypotheses hold of something -/

/-- letters as letters of hashes -/
def toy64 (c : Char) : Char := if isB64 c then c else '.'

/-- the traditional part of a small hash function -/
def toyDes (p s : Str) : Str := s.take 2 ++ ((p.take 8).map toy64 ++ List.replicate 11 '.').take 11

/-- a small hash function: `$y$` methods repeat the password -/
def toyCrypt (p s : Str) : Option Str :=
  if "$y$".toList.isPrefixOf s then some ("$y$".toList ++ p)
  else if 2 ≤ s.length ∧ s.all isB64 then some (toyDes p s) else none

theorem toy64_b64 (c : Char) : isB64 (toy64 c) = true := by
  unfold toy64; split
  · assumption
  · decide

theorem toyDes_form (p s : Str) (hs : DesSetting s) :
    (toyDes p s).length = 13 ∧ (∀ c ∈ toyDes p s, isB64 c = true) ∧ (toyDes p s).take 2 = s.take 2 := by
  have h2 : (s.take 2).length = 2 := by rw [List.length_take]; have := hs.1; omega
  have h11 : (((p.take 8).map toy64 ++ List.replicate 11 '.').take 11).length = 11 := by simp
  refine ⟨by rw [toyDes, List.length_append, h2, h11], ?_, ?_⟩
  · intro c hc
    rcases List.mem_append.mp hc with hc | hc
    · exact hs.2 c (List.mem_of_mem_take hc)
    · rcases List.mem_append.mp (List.mem_of_mem_take hc) with hc | hc
      · obtain ⟨x, -, rfl⟩ := List.mem_map.mp hc; exact toy64_b64 x
      · rw [(List.mem_replicate.mp hc).2]; decide
  · rw [toyDes, List.take_append_of_le_length (by omega), List.take_take]; rfl

theorem toyCrypt_des {p s : Str} (hs : DesSetting s) : toyCrypt p s = some (toyDes p s) := by
  have hn : ¬ "$y$".toList.isPrefixOf s = true := by
    intro h
    obtain ⟨t, rfl⟩ := List.isPrefixOf_iff_prefix.mp h
    exact (b64_ne (hs.2 '$' (by simp))).2.1 rfl
  rw [toyCrypt, if_neg hn, if_pos ⟨hs.1, by rw [List.all_eq_true]; exact hs.2⟩]

theorem toyLaws : Laws toyCrypt where
  again := by
    intro p s h hc hd
    unfold toyCrypt at hc
    split at hc
    · cases hc
      rw [toyCrypt, if_pos (List.isPrefixOf_iff_prefix.mpr (List.prefix_append _ _))]
    · split at hc
      · next hs =>
        cases hc
        have := (toyDes_form p s ⟨hs.1, by rw [← List.all_eq_true]; exact hs.2⟩)
        exact absurd rfl (b64_ne (this.2.1 '$' (List.mem_of_mem_head? hd))).2.1
      · cases hc
  form := by
    intro p s h hs hc
    rw [toyCrypt_des hs] at hc
    cases hc
    have := toyDes_form p s hs
    exact ⟨by omega, this.2.1, this.2.2⟩
  same := by
    intro p p' s s' hs hs' h2 h8
    rw [toyCrypt_des hs, toyCrypt_des hs', toyDes, toyDes, h2, h8]

/-- a long password, traditional method: one block; and two with bigcrypt -/
example : createHash ⟨toyCrypt, fun p s => p ++ s, fun _ _ => []⟩ (fun i => i + 12) (fun a _ => a) .des 0 "secret password".toList
    = some "ABsecret.p...".toList := by decide +kernel
example : createHash ⟨toyCrypt, fun p s => p ++ s, fun _ _ => []⟩ (fun i => i + 12) (fun a _ => a) .bigcrypt 0 "secret password".toList
    = some "ABsecret.p...assword....".toList := by decide +kernel
example : verifyHash ⟨toyCrypt, fun p s => p ++ s, fun _ _ => []⟩ (some "secret password".toList) "ABsecret.p...assword....".toList false
    = PAM_SUCCESS := C70_round_trip _ toyLaws (fun i => i + 12) (fun a _ => a) .bigcrypt 0 _ _ _ (Or.inl (by decide)) (by decide +kernel)
example : verifyHash ⟨toyCrypt, fun p s => p ++ s, fun _ _ => []⟩ (some "secret passwords".toList) "ABsecret.p...assword....".toList false
    = PAM_AUTH_ERR := by decide +kernel
example : verifyHash ⟨toyCrypt, fun p s => p ++ s, fun _ _ => []⟩ (some "secret pXXX".toList) "ABsecret.p...".toList false
    = PAM_SUCCESS := by
  rw [C69_eight _ "secret pXXX".toList "secret p".toList _ _ (by decide) (by decide) (by decide) (by decide) (by decide)]; decide +kernel
example : Counts "ABsecret.p...,M.r8".toList "ABsecret.p...".toList := .cut "ABsecret.p...".toList "M.r8".toList ',' (by decide) (by decide) (by decide) (by decide)
example : ∃ h, createHash ⟨toyCrypt, fun p s => p ++ s, fun _ _ => []⟩ (fun i => i) (fun a _ => a) .yescrypt 5 "pw".toList = some h ∧ "$y$".toList <+: h :=
  ⟨"$y$pw".toList, by decide +kernel, C70_prefix ⟨toyCrypt, fun p s => p ++ s, fun _ _ => []⟩ (fun i => i) (fun a _ => a) .yescrypt 5 "pw".toList _ (by decide +kernel) (by decide)⟩

end Pam.Unix
