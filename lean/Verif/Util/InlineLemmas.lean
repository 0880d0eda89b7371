import Verif.Util.Inline
import Verif.Util.InlineSpec
/-
Lemmas for C28 and C29.
-/
namespace Pam.Util
open Spec

theorem lower_nul (c : Char) : lower c = NUL ↔ c = NUL := by
  unfold lower
  split
  · rename_i h
    have h1 : c.toNat + 32 < 0xd800 := by
      have : 'Z'.toNat = 90 := rfl
      omega
    have h2 : (Char.ofNat (c.toNat + 32)).toNat = c.toNat + 32 := by
      rw [Char.ofNat, dif_pos (Or.inl h1)]; rfl
    have ha : 'A'.toNat = 65 := rfl
    constructor
    · intro h3
      rw [h3] at h2
      have : NUL.toNat = 0 := rfl
      omega
    · intro h3
      subst h3
      have : NUL.toNat = 0 := rfl
      omega
  · rfl

theorem xor_zero (a b : Char) : a.toNat ^^^ b.toNat = 0 ↔ a = b := by
  constructor
  · intro h
    have h1 : a.toNat = b.toNat := by
      rw [← Nat.xor_zero a.toNat, ← Nat.xor_self b.toNat, ← Nat.xor_assoc, h, Nat.zero_xor]
    exact Char.toNat_inj.1 h1
  · rintro rfl; exact Nat.xor_self _

theorem streqLoop_spec (f : Char → Char) (hf : ∀ c, f c = NUL ↔ c = NUL) (x y : List Char) :
    ∀ (u s : List Char) (ret n : Nat), NUL ∉ u → NUL ∉ s →
      streqLoop f (u ++ NUL :: x) (s ++ NUL :: y) ret n =
        some (decide (ret = 0 ∧ u.map f = s.map f), n + u.length + 1) := by
  have h0 : f NUL = NUL := (hf NUL).2 rfl
  intro u
  induction u with
  | nil =>
    intro s ret n _ hs
    cases s with
    | nil => simp [streqLoop, Nat.or_eq_zero_iff]; rw [Bool.eq_iff_iff]; simp
    | cons c s =>
      have hc : ¬ f c = NUL := fun h => hs (by rw [(hf c).1 h]; simp)
      simp only [List.nil_append, List.cons_append, streqLoop]
      rw [if_neg (by simp)]
      have : ¬ (f NUL).toNat ^^^ (f c).toNat = 0 := by
        rw [xor_zero, h0]; exact fun h => hc h.symm
      simp [Nat.or_eq_zero_iff, this]
  | cons cu u ih =>
    intro s ret n hu hs
    have hcu : cu ≠ NUL := fun h => hu (by rw [h]; simp)
    have hu' : NUL ∉ u := fun h => hu (by simp [h])
    cases s with
    | nil =>
      simp only [List.cons_append, List.nil_append, streqLoop]
      rw [if_pos hcu, if_neg (by simp)]
      have h2 := ih [] (ret ||| ((f cu).toNat ^^^ (f NUL).toNat)) (n + 1) hu' (by simp)
      simp only [List.nil_append] at h2
      rw [h2]
      have : ¬ (f cu).toNat ^^^ (f NUL).toNat = 0 := by
        rw [xor_zero, h0]; exact fun h => hcu ((hf cu).1 h)
      simp [Nat.or_eq_zero_iff, this]
      omega
    | cons c s =>
      have hc : c ≠ NUL := fun h => hs (by rw [h]; simp)
      have hs' : NUL ∉ s := fun h => hs (by simp [h])
      simp only [List.cons_append, streqLoop]
      rw [if_pos hcu, if_pos hc, ih s _ (n + 1) hu' hs']
      simp only [Nat.or_eq_zero_iff, xor_zero, List.map_cons, List.cons.injEq, and_assoc,
        List.length_cons]
      congr 2
      omega

/-! ### pam_read_passwords -/

/-- the bytes of complete strings -/
def enc (fs : List (List Char)) : List Char := fs.flatMap (fun f => f ++ [NUL])

theorem enc_append (fs : List (List Char)) (f : List Char) : enc (fs ++ [f]) = enc fs ++ f ++ [NUL] := by
  simp [enc]

theorem strings_cons (f x : List Char) (hf : NUL ∉ f) : strings (f ++ NUL :: x) = f :: strings x := by
  induction f with
  | nil => simp [strings]
  | cons c f ih =>
    have h1 : c ≠ NUL := fun h => hf (by rw [h]; simp)
    have h2 : NUL ∉ f := fun h => hf (by simp [h])
    simp [strings, h1, ih h2]

theorem strings_enc (fs : List (List Char)) (x : List Char) (h : ∀ f ∈ fs, NUL ∉ f) :
    strings (enc fs ++ x) = fs ++ strings x := by
  induction fs with
  | nil => simp [enc]
  | cons f fs ih =>
    have : enc (f :: fs) ++ x = f ++ NUL :: (enc fs ++ x) := by simp [enc]
    rw [this, strings_cons _ _ (h f (by simp)), ih (fun g hg => h g (by simp [hg]))]
    rfl

theorem strings_none (p : List Char) (h : NUL ∉ p) : strings p = [] := by
  induction p with
  | nil => rfl
  | cons c p ih =>
    have h1 : c ≠ NUL := fun h' => h (by rw [h']; simp)
    have h2 : NUL ∉ p := fun h' => h (by simp [h'])
    simp [strings, h1, ih h2]

theorem strings_head (p x : List Char) (h : NUL ∉ p) (f : List Char) (fs : List (List Char))
    (he : strings (p ++ x) = f :: fs) : p.length ≤ f.length := by
  induction p generalizing f with
  | nil => simp
  | cons c p ih =>
    have h1 : c ≠ NUL := fun h' => h (by rw [h']; simp)
    have h2 : NUL ∉ p := fun h' => h (by simp [h'])
    simp only [List.cons_append, strings, h1, if_false] at he
    split at he
    · cases he
    · rename_i f' fs' h3
      cases he
      have := ih h2 f' h3
      simp; omega

/-- complete and short enough -/
def Good (fs : List (List Char)) : Prop := ∀ f ∈ fs, NUL ∉ f ∧ f.length ≤ MAX_RESP

theorem takeWhile_self (fs : List (List Char)) (hg : Good fs) :
    fs.takeWhile (fun f => decide (f.length ≤ MAX_RESP)) = fs := by
  induction fs with
  | nil => rfl
  | cons f fs ih =>
    rw [List.takeWhile_cons, if_pos (by simpa using (hg f (by simp)).2),
      ih (fun g hm => hg g (by simp [hm]))]

theorem received_all (n : Nat) (fs : List (List Char)) (x : List Char) (hg : Good fs)
    (hn : fs.length = n) : received MAX_RESP n (enc fs ++ x) = fs := by
  unfold received
  rw [strings_enc _ _ (fun f hf => (hg f hf).1), List.take_left' hn]
  exact takeWhile_self fs hg

theorem received_some (n : Nat) (fs : List (List Char)) (p : List Char) (hg : Good fs)
    (hn : fs.length ≤ n) (hp : NUL ∉ p) : received MAX_RESP n (enc fs ++ p) = fs := by
  unfold received
  rw [strings_enc _ _ (fun f hf => (hg f hf).1), strings_none p hp, List.append_nil,
    List.take_of_length_le hn]
  exact takeWhile_self fs hg

theorem received_long (n : Nat) (fs : List (List Char)) (p x : List Char) (hg : Good fs)
    (hn : fs.length ≤ n) (hp : NUL ∉ p) (hl : MAX_RESP < p.length) :
    received MAX_RESP n (enc fs ++ (p ++ x)) = fs := by
  unfold received
  rw [strings_enc _ _ (fun f hf => (hg f hf).1), List.take_append, List.take_of_length_le hn,
    List.takeWhile_append_of_pos (by intro f hf; simpa using (hg f hf).2)]
  have : List.takeWhile (fun f => decide (f.length ≤ MAX_RESP))
      (List.take (n - fs.length) (strings (p ++ x))) = [] := by
    cases hs : strings (p ++ x) with
    | nil => simp
    | cons f fs' =>
      have h1 := strings_head p x hp f fs' hs
      cases n - fs.length with
      | zero => simp
      | succ m =>
        rw [List.take_succ_cons, List.takeWhile_cons, if_neg]
        simp; omega
  rw [this, List.append_nil]

/-- all buffers have the size the caller promised -/
def Sized (old : List (List Char)) : Prop := ∀ o ∈ old, o.length = MAX_RESP + 1

/-- the buffers while string number `fs.length` is being received and `q` of it has arrived -/
def Slots (old fs : List (List Char)) (q : List Char) (pws : List (List Char)) : Prop :=
  pws.length = old.length ∧ ∀ (j : Nat) (o : List Char), old[j]? = some o → ∃ b, pws[j]? = some b ∧
    (∀ f, fs[j]? = some f → Holds o f b) ∧
    (j = fs.length → ∃ t, b = q ++ t ∧ OnlyWiped (o.drop q.length) t) ∧
    (fs.length < j → b = o)

/-- the buffers when all strings wanted have been received -/
def Done (old fs : List (List Char)) (pws : List (List Char)) : Prop :=
  pws.length = old.length ∧ ∀ (j : Nat) (o : List Char), old[j]? = some o → ∃ b, pws[j]? = some b ∧
    (∀ f, fs[j]? = some f → Holds o f b) ∧ (fs.length ≤ j → OnlyWiped o b)

theorem onlyWiped_refl (o : List Char) : OnlyWiped o o := ⟨rfl, fun _ => Or.inl rfl⟩

/-- the end of a chunk, after a NUL, replaced by NULs -/
theorem onlyWiped_zeros (o t : List Char) (d1 n : Nat) (hl : d1 + n ≤ o.length)
    (h : OnlyWiped (o.drop (d1 + n)) t) : OnlyWiped (o.drop d1) (List.replicate n NUL ++ t) := by
  obtain ⟨h1, h2⟩ := h
  refine ⟨by simp at *; omega, fun k => ?_⟩
  by_cases hk : k < n
  · right; simp [List.getElem?_append, hk]
  · have := h2 (k - n)
    simp only [List.getElem?_append, List.length_replicate, hk, if_false, List.getElem?_drop] at this ⊢
    rw [show d1 + n + (k - n) = d1 + k by omega] at this
    exact this

theorem set_get (pws : List (List Char)) (i j : Nat) (b : List Char) (h : i < pws.length) :
    (pws.set i b)[j]? = if j = i then some b else pws[j]? := by
  rw [List.getElem?_set]
  by_cases hj : j = i
  · subst hj; simp [h]
  · rw [if_neg (fun h => hj h.symm), if_neg hj]

/-- moving the rest of a chunk: the effect of `carry` -/
theorem carry_spec {old fs : List (List Char)} {q d1 d2 : List Char} {pws : List (List Char)} (npass : Nat)
    (hz : Sized old) (hs : Slots old fs (q ++ d1 ++ NUL :: d2) pws)
    (hN : fs.length + (npass + 1) ≤ old.length) (hl : (q ++ d1 ++ NUL :: d2).length ≤ MAX_RESP + 1) :
    ∃ pws', carry pws fs.length (q.length + d1.length + 1) d2.length npass = some pws' ∧
      (0 < npass → Slots old (fs ++ [q ++ d1]) d2 pws') ∧ (npass = 0 → Done old (fs ++ [q ++ d1]) pws') := by
  obtain ⟨hlen, hs⟩ := hs
  have hi : fs.length < old.length := by omega
  obtain ⟨b, hb, _, hb2, _⟩ := hs fs.length old[fs.length] (List.getElem?_eq_getElem hi)
  obtain ⟨t, ht, how⟩ := hb2 rfl
  have hol : old[fs.length].length = MAX_RESP + 1 := hz _ (List.getElem_mem hi)
  generalize ho : old[fs.length] = o at *
  have hget : old[fs.length]? = some o := by rw [List.getElem?_eq_getElem hi, ho]
  have hbl : t.length = o.length - (q ++ d1 ++ NUL :: d2).length := by rw [how.1, List.length_drop]
  -- the slot just completed
  have hnew : Holds o (q ++ d1) (q ++ d1 ++ NUL :: (List.replicate d2.length NUL ++ t)) := by
    refine ⟨_, rfl, onlyWiped_zeros o t _ _ ?_ ?_⟩
    · simp at hl ⊢; omega
    · have : (q ++ d1).length + 1 + d2.length = (q ++ d1 ++ NUL :: d2).length := by simp; omega
      rw [this]; exact how
  have hdrop : b.drop (q.length + d1.length + 1) = d2 ++ t := by
    rw [ht, show q ++ d1 ++ NUL :: d2 ++ t = (q ++ d1 ++ [NUL]) ++ (d2 ++ t) by simp]
    exact List.drop_left' (by simp; omega)
  have hwipe : ∀ P : List (List Char), P[fs.length]? = some b →
      wipe P fs.length (q.length + d1.length + 1) d2.length =
        some (P.set fs.length (q ++ d1 ++ NUL :: (List.replicate d2.length NUL ++ t))) := by
    intro P hP
    unfold wipe
    rw [hP]
    simp only [storeAt, List.length_replicate]
    have hbl2 : b.length = q.length + d1.length + 1 + d2.length + t.length := by
      rw [ht]; simp; omega
    rw [if_pos (by omega)]
    have h1 : b.take (q.length + d1.length + 1) = q ++ d1 ++ [NUL] := by
      rw [ht, show q ++ d1 ++ NUL :: d2 ++ t = (q ++ d1 ++ [NUL]) ++ (d2 ++ t) by simp]
      exact List.take_left' (by simp; omega)
    have h2 : b.drop (q.length + d1.length + 1 + d2.length) = t := by
      rw [ht]
      exact List.drop_left' (by simp; omega)
    rw [h1, h2]
    simp
  unfold carry
  by_cases hd : 0 < d2.length
  · rw [if_pos hd, hb]
    simp only
    by_cases hn : 0 < npass
    · rw [if_pos hn]
      have hi2 : fs.length + 1 < old.length := by omega
      obtain ⟨b2, hb2, _, _, hb3⟩ := hs (fs.length + 1) old[fs.length + 1] (List.getElem?_eq_getElem hi2)
      have hb4 := hb3 (by omega)
      have hol2 : old[fs.length + 1].length = MAX_RESP + 1 := hz _ (List.getElem_mem hi2)
      rw [← hb4] at hol2
      have hfill : fill pws (fs.length + 1) 0 ((b.drop (q.length + d1.length + 1)).take d2.length) =
          some (pws.set (fs.length + 1) (d2 ++ b2.drop d2.length)) := by
        rw [hdrop, List.take_left' rfl]
        unfold fill
        rw [hb2]
        simp only [storeAt]
        rw [if_pos (by simp at hl; omega)]
        simp
      rw [hfill]
      simp only
      have hg : (pws.set (fs.length + 1) (d2 ++ b2.drop d2.length))[fs.length]? = some b := by
        rw [set_get _ _ _ _ (by omega), if_neg (by omega), hb]
      rw [hwipe _ hg]
      refine ⟨_, rfl, fun _ => ⟨by simp [hlen], ?_⟩, fun h => absurd h (by omega)⟩
      intro j o' ho'
      rw [set_get _ _ _ _ (by simp; omega), set_get _ _ _ _ (by omega)]
      by_cases h1 : j = fs.length
      · subst h1
        rw [hget] at ho'
        cases ho'
        refine ⟨_, by rw [if_pos rfl], ?_, by simp, by simp; omega⟩
        intro f hf
        simp at hf
        subst hf
        exact hnew
      · rw [if_neg h1]
        by_cases h2 : j = fs.length + 1
        · subst h2
          rw [List.getElem?_eq_getElem hi2] at ho'
          cases ho'
          refine ⟨_, by rw [if_pos rfl], ?_, ?_, by simp⟩
          · intro f hf
            simp at hf
          · intro _
            refine ⟨b2.drop d2.length, rfl, ?_⟩
            rw [hb4]
            exact onlyWiped_refl _
        · rw [if_neg h2]
          obtain ⟨b5, h5, h6, h7, h8⟩ := hs j o' ho'
          refine ⟨b5, h5, ?_, ?_, ?_⟩
          · intro f hf
            by_cases h9 : j < fs.length
            · exact h6 f (by rw [List.getElem?_append_left h9] at hf; exact hf)
            · rw [List.getElem?_eq_none (by simp; omega)] at hf
              cases hf
          · intro h9; simp at h9; omega
          · intro h9; simp at h9; exact h8 (by omega)
    · rw [if_neg hn, hwipe _ hb]
      refine ⟨_, rfl, fun h => absurd h hn, fun _ => ⟨by simp [hlen], ?_⟩⟩
      intro j o' ho'
      rw [set_get _ _ _ _ (by omega)]
      by_cases h1 : j = fs.length
      · subst h1
        rw [hget] at ho'
        cases ho'
        refine ⟨_, by rw [if_pos rfl], ?_, fun h => absurd h (by simp)⟩
        intro f hf
        simp at hf
        subst hf
        exact hnew
      · rw [if_neg h1]
        obtain ⟨b5, h5, h6, h7, h8⟩ := hs j o' ho'
        refine ⟨b5, h5, ?_, ?_⟩
        · intro f hf
          by_cases h9 : j < fs.length
          · exact h6 f (by rw [List.getElem?_append_left h9] at hf; exact hf)
          · rw [List.getElem?_eq_none (by simp; omega)] at hf
            cases hf
        · intro h9
          simp at h9
          rw [h8 (by omega)]
          exact onlyWiped_refl _
  · have hd2 : d2 = [] := List.eq_nil_of_length_eq_zero (by omega)
    subst hd2
    rw [if_neg hd]
    have hnew' : Holds o (q ++ d1) b := by
      rw [ht]
      simpa using hnew
    refine ⟨pws, rfl, fun hn => ⟨hlen, ?_⟩, fun _ => ⟨hlen, ?_⟩⟩
    · intro j o' ho'
      obtain ⟨b5, h5, h6, h7, h8⟩ := hs j o' ho'
      by_cases h1 : j = fs.length
      · subst h1
        rw [hget] at ho'
        cases ho'
        rw [hb] at h5
        cases h5
        refine ⟨b, hb, ?_, by simp, by simp; omega⟩
        intro f hf
        simp at hf
        subst hf
        exact hnew'
      · refine ⟨b5, h5, ?_, ?_, ?_⟩
        · intro f hf
          by_cases h9 : j < fs.length
          · exact h6 f (by rw [List.getElem?_append_left h9] at hf; exact hf)
          · rw [List.getElem?_eq_none (by simp; omega)] at hf
            cases hf
        · intro h9
          simp at h9
          refine ⟨b5, by simp, ?_⟩
          rw [h8 (by omega)]
          exact onlyWiped_refl _
        · intro h9
          simp at h9
          exact h8 (by omega)
    · intro j o' ho'
      obtain ⟨b5, h5, h6, h7, h8⟩ := hs j o' ho'
      by_cases h1 : j = fs.length
      · subst h1
        rw [hget] at ho'
        cases ho'
        rw [hb] at h5
        cases h5
        refine ⟨b, hb, ?_, fun h => absurd h (by simp)⟩
        intro f hf
        simp at hf
        subst hf
        exact hnew'
      · refine ⟨b5, h5, ?_, ?_⟩
        · intro f hf
          by_cases h9 : j < fs.length
          · exact h6 f (by rw [List.getElem?_append_left h9] at hf; exact hf)
          · rw [List.getElem?_eq_none (by simp; omega)] at hf
            cases hf
        · intro h9
          simp at h9
          rw [h8 (by omega)]
          exact onlyWiped_refl _

/-- the variables after a chunk has been worked through -/
def After (old : List (List Char)) (N : Nat) (all : List Char) (s : Pws) (rbytes : Nat) : Prop :=
  ∃ fs, s.i = fs.length ∧ fs.length + s.npass = N ∧ Good fs ∧
    (s.npass = 0 → Done old fs s.passwords ∧ ∃ x, all = enc fs ++ x) ∧
    (0 < s.npass → ∃ p, s.offset + rbytes = p.length ∧ NUL ∉ p ∧ p.length ≤ MAX_RESP + 1 ∧
      Slots old fs p s.passwords ∧ all = enc fs ++ p)

theorem slot_now {old fs : List (List Char)} {q d : List Char} {pws : List (List Char)}
    (hs : Slots old fs (q ++ d) pws) (hlt : fs.length < old.length) :
    ∃ b, pws[fs.length]? = some b ∧ (∃ t, b.length = q.length + d.length + t) ∧
      (b.drop q.length).take d.length = d := by
  obtain ⟨b, hb, _, hb2, _⟩ := hs.2 fs.length old[fs.length] (List.getElem?_eq_getElem hlt)
  obtain ⟨t, ht, _⟩ := hb2 rfl
  refine ⟨b, hb, ⟨t.length, by rw [ht]; simp; omega⟩, ?_⟩
  rw [ht, List.append_assoc, List.drop_left' rfl, List.take_left' rfl]

theorem cut_nul {d : List Char} (hd : NUL ∈ d) :
    ∃ d1 d2, d = d1 ++ NUL :: d2 ∧ d.idxOf? NUL = some d1.length ∧ NUL ∉ d1 := by
  induction d with
  | nil => cases hd
  | cons c d ih =>
    by_cases hc : c = NUL
    · subst hc
      exact ⟨[], d, rfl, by simp [List.idxOf?_cons], by simp⟩
    · have : NUL ∈ d := by
        rcases List.mem_cons.1 hd with h | h
        · exact absurd h.symm hc
        · exact h
      obtain ⟨d1, d2, h1, h2, h3⟩ := ih this
      refine ⟨c :: d1, d2, by rw [h1]; rfl, ?_, ?_⟩
      · rw [List.idxOf?_cons, if_neg (by simpa using hc), h2]; rfl
      · intro h
        rcases List.mem_cons.1 h with h | h
        · exact hc h.symm
        · exact h3 h

theorem good_snoc {fs : List (List Char)} (hg : Good fs) {q d1 d2 : List Char} (hq : NUL ∉ q)
    (h1 : NUL ∉ d1) (hl : (q ++ (d1 ++ NUL :: d2)).length ≤ MAX_RESP + 1) : Good (fs ++ [q ++ d1]) := by
  intro f hf
  rcases List.mem_append.1 hf with h | h
  · exact hg f h
  · rw [List.mem_singleton] at h
    subst h
    refine ⟨by simp [hq, h1], ?_⟩
    simp at hl ⊢; omega

theorem split_spec {old : List (List Char)} {N : Nat} (hz : Sized old) (hN : N ≤ old.length) :
    ∀ (npass : Nat) (fs : List (List Char)) (q d : List Char) (pws : List (List Char)),
      Slots old fs (q ++ d) pws → fs.length + (npass + 1) = N → NUL ∉ q → (q ++ d).length ≤ MAX_RESP + 1 →
      Good fs →
      ∃ s rb, splitLoop pws fs.length q.length d.length (npass + 1) = some (s, rb) ∧
        After old N (enc fs ++ (q ++ d)) s rb := by
  intro npass
  induction npass with
  | zero =>
    intro fs q d pws hs hn hq hl hg
    rw [splitLoop]
    obtain ⟨b, hb, ⟨tl, htl⟩, ht⟩ := slot_now hs (by omega)
    rw [hb]
    simp only
    rw [if_neg (by rw [htl]; omega), ht]
    by_cases hd : NUL ∈ d
    · obtain ⟨d1, d2, h1, h2, h3⟩ := cut_nul hd
      subst h1
      rw [h2]
      simp only
      have e1 : (d1 ++ NUL :: d2).length - (d1.length + 1) = d2.length := by simp; omega
      rw [e1]
      have hs' : Slots old fs (q ++ d1 ++ NUL :: d2) pws := by rw [List.append_assoc]; exact hs
      obtain ⟨pws', c1, c2, c3⟩ := carry_spec 0 hz hs' (by omega) (by rw [List.append_assoc]; exact hl)
      rw [c1]
      refine ⟨_, _, rfl, fs ++ [q ++ d1], by simp, by simp; omega, ?_, fun _ => ⟨c3 rfl, d2, ?_⟩,
        fun h => absurd h (by simp)⟩
      · exact good_snoc hg hq h3 hl
      · rw [enc_append]; simp
    · rw [List.idxOf?_eq_none_iff.2 hd]
      refine ⟨_, _, rfl, fs, rfl, hn, hg, fun h => absurd h (by simp), fun _ => ⟨q ++ d, ?_, ?_, hl, hs, rfl⟩⟩
      · simp
      · simp [hq, hd]
  | succ m ih =>
    intro fs q d pws hs hn hq hl hg
    rw [splitLoop]
    obtain ⟨b, hb, ⟨tl, htl⟩, ht⟩ := slot_now hs (by omega)
    rw [hb]
    simp only
    rw [if_neg (by rw [htl]; omega), ht]
    by_cases hd : NUL ∈ d
    · obtain ⟨d1, d2, h1, h2, h3⟩ := cut_nul hd
      subst h1
      rw [h2]
      simp only
      have e1 : (d1 ++ NUL :: d2).length - (d1.length + 1) = d2.length := by simp; omega
      rw [e1]
      have hs' : Slots old fs (q ++ d1 ++ NUL :: d2) pws := by rw [List.append_assoc]; exact hs
      obtain ⟨pws', c1, c2, c3⟩ := carry_spec (m + 1) hz hs' (by omega) (by rw [List.append_assoc]; exact hl)
      rw [c1]
      simp only
      obtain ⟨s, rb, r1, r2⟩ := ih (fs ++ [q ++ d1]) [] d2 pws' (c2 (by omega)) (by simp; omega) (by simp)
        (by simp at hl ⊢; omega) (good_snoc hg hq h3 hl)
      refine ⟨s, rb, ?_, ?_⟩
      · rw [← r1]; simp
      · rw [enc_append] at r2
        simpa using r2
    · rw [List.idxOf?_eq_none_iff.2 hd]
      refine ⟨_, _, rfl, fs, rfl, hn, hg, fun h => absurd h (by simp), fun _ => ⟨q ++ d, ?_, ?_, hl, hs, rfl⟩⟩
      · simp
      · simp [hq, hd]

/-- the loop's variables are good for the bytes received so far -/
def Inv (old : List (List Char)) (N : Nat) (all : List Char) (s : Pws) : Prop := After old N all s 0

theorem start_inv {old : List (List Char)} {N : Nat} (hz : Sized old) (hN : N ≤ old.length) :
    Inv old N [] ⟨old, 0, 0, N⟩ := by
  refine ⟨[], rfl, by simp, by intro f hf; simp at hf, fun _ => ⟨⟨rfl, fun j o h => ⟨o, h, by simp, fun _ => onlyWiped_refl o⟩⟩, [], rfl⟩,
    fun _ => ⟨[], rfl, by simp, by simp, ⟨rfl, fun j o h => ⟨o, h, by simp, fun _ => ⟨o, rfl, onlyWiped_refl o⟩, fun _ => rfl⟩⟩, rfl⟩⟩

theorem absorb_spec {old : List (List Char)} {N : Nat} (hz : Sized old) (hN : N ≤ old.length) {all : List Char}
    {s : Pws} (hi : Inv old N all s) (hp : 0 < s.npass) (bs : List Char)
    (hb : bs.length ≤ MAX_RESP + 1 - s.offset) :
    ∃ s', absorb s bs = some s' ∧ Inv old N (all ++ bs) s' := by
  obtain ⟨fs, h1, h2, h3, h4, h5⟩ := hi
  obtain ⟨p, p1, p2, p3, p4, p5⟩ := h5 hp
  clear h4 h5
  have hlt : fs.length < old.length := by omega
  obtain ⟨hlen, hs⟩ := p4
  obtain ⟨b, hb1, _, hb2, _⟩ := hs fs.length old[fs.length] (List.getElem?_eq_getElem hlt)
  obtain ⟨t, ht, how⟩ := hb2 rfl
  have hol : old[fs.length].length = MAX_RESP + 1 := hz _ (List.getElem_mem hlt)
  have htl : t.length = MAX_RESP + 1 - p.length := by rw [how.1, List.length_drop, hol]
  have hoff : s.offset = p.length := by omega
  have hfill : fill s.passwords s.i s.offset bs = some (s.passwords.set fs.length (p ++ bs ++ t.drop bs.length)) := by
    unfold fill
    rw [h1, hb1]
    simp only [storeAt]
    rw [if_pos (by rw [ht, hoff]; simp; omega), hoff, ht, List.take_left' rfl]
    simp
  have hslots : Slots old fs (p ++ bs) (s.passwords.set fs.length (p ++ bs ++ t.drop bs.length)) := by
    refine ⟨by simp [hlen], fun j o ho => ?_⟩
    rw [set_get _ _ _ _ (by omega)]
    by_cases hj : j = fs.length
    · subst hj
      refine ⟨_, by rw [if_pos rfl], by simp, fun _ => ⟨_, rfl, ?_⟩, by simp⟩
      rw [List.getElem?_eq_getElem hlt] at ho
      cases ho
      refine ⟨by simp [htl, hol]; omega, fun k => ?_⟩
      have := how.2 (bs.length + k)
      rw [List.getElem?_drop, List.getElem?_drop]
      rw [List.getElem?_drop] at this
      rw [show (p ++ bs).length + k = p.length + (bs.length + k) by simp; omega]
      exact this
    · rw [if_neg hj]
      obtain ⟨b', q1, q2, q3, q4⟩ := hs j o ho
      exact ⟨b', q1, q2, fun h => absurd h hj, q4⟩
  obtain ⟨n, hn⟩ : ∃ n, s.npass = n + 1 := ⟨s.npass - 1, by omega⟩
  obtain ⟨s', rb, r1, r2⟩ := split_spec hz hN n fs p bs _ hslots (by omega) p2 (by simp; omega) h3
  unfold absorb
  rw [hfill]
  simp only
  rw [h1, hoff, hn, r1]
  refine ⟨_, rfl, ?_⟩
  rw [p5, List.append_assoc]
  exact r2

theorem leave_spec {old : List (List Char)} {N : Nat} (hz : Sized old) (hN : N ≤ old.length) {all : List Char}
    {s : Pws} (hi : Inv old N all s) (rest : List Char) :
    ∃ fs pws, leavePws s rest = .ret ((fs.length, pws), rest) ∧ Done old fs pws ∧
      fs = received MAX_RESP N all ∧
      (s.npass = 0 ∨ MAX_RESP < s.offset → fs = received MAX_RESP N (all ++ rest)) := by
  obtain ⟨fs, h1, h2, h3, h4, h5⟩ := hi
  by_cases hp : s.npass = 0
  · obtain ⟨d, x, hx⟩ := h4 hp
    refine ⟨fs, s.passwords, ?_, d, ?_, fun _ => ?_⟩
    · rw [leavePws, finishPws, if_neg (by omega), h1]
    · rw [hx, received_all _ _ _ h3 (by omega)]
    · rw [hx, List.append_assoc, received_all _ _ _ h3 (by omega)]
  · obtain ⟨p, p1, p2, p3, ⟨hlen, hs⟩, p5⟩ := h5 (by clear h4 h5; omega)
    clear h4 h5
    have hlt : fs.length < old.length := by omega
    have hr : fs = received MAX_RESP N all := by rw [p5, received_some _ _ _ h3 (by omega) p2]
    have hr2 : s.npass = 0 ∨ MAX_RESP < s.offset → fs = received MAX_RESP N (all ++ rest) := by
      rintro (h | h)
      · exact absurd h hp
      · rw [p5, List.append_assoc, received_long _ _ _ _ h3 (by omega) p2 (by omega)]
    obtain ⟨b, hb1, _, hb2, _⟩ := hs fs.length old[fs.length] (List.getElem?_eq_getElem hlt)
    obtain ⟨t, ht, how⟩ := hb2 rfl
    have hol : old[fs.length].length = MAX_RESP + 1 := hz _ (List.getElem_mem hlt)
    by_cases ho : 0 < s.offset
    · have hw : wipe s.passwords s.i 0 s.offset =
          some (s.passwords.set fs.length (List.replicate p.length NUL ++ t)) := by
        unfold wipe
        rw [h1, hb1]
        simp only [storeAt]
        rw [if_pos (by rw [ht]; simp; omega), ht]
        simp [show s.offset = p.length by omega]
      refine ⟨fs, s.passwords.set fs.length (List.replicate p.length NUL ++ t), ?_, ⟨?_, ?_⟩, hr, hr2⟩
      · rw [leavePws, finishPws, if_pos ⟨ho, by omega⟩, hw, h1]
      · simp [hlen]
      · intro j o hj
        rw [set_get _ _ _ _ (by omega)]
        by_cases hjf : j = fs.length
        · subst hjf
          rw [List.getElem?_eq_getElem hlt] at hj
          cases hj
          refine ⟨_, by rw [if_pos rfl], by simp, fun _ => ?_⟩
          have := onlyWiped_zeros old[fs.length] t 0 p.length (by rw [hol]; omega) (by rw [Nat.zero_add]; exact how)
          simpa using this
        · rw [if_neg hjf]
          obtain ⟨b', q1, q2, q3, q4⟩ := hs j o hj
          refine ⟨b', q1, q2, fun h => ?_⟩
          rw [q4 (by omega)]
          exact onlyWiped_refl _
    · have hp0 : p = [] := List.eq_nil_of_length_eq_zero (by omega)
      subst hp0
      refine ⟨fs, s.passwords, ?_, ⟨hlen, ?_⟩, hr, hr2⟩
      · rw [leavePws, finishPws, if_neg (by omega), h1]
      · intro j o hj
        obtain ⟨b', q1, q2, q3, q4⟩ := hs j o hj
        refine ⟨b', q1, q2, fun h => ?_⟩
        by_cases hjf : j = fs.length
        · obtain ⟨t', r1, r2⟩ := q3 hjf
          rw [r1]
          simpa using r2
        · rw [q4 (by omega)]
          exact onlyWiped_refl _

/-- what a finished run has done, having received `got` and left `rest` -/
def Post (old : List (List Char)) (N : Nat) (got : List Char) (r : Nat × List (List Char)) : Prop :=
  r.1 = (received MAX_RESP N got).length ∧ Done old (received MAX_RESP N got) r.2

theorem readLoop_spec {old : List (List Char)} {N : Nat} (hz : Sized old) (hN : N ≤ old.length) :
    ∀ (sched : List Ev) (s : Pws) (all stream : List Char), Inv old N all s →
      (readLoop s stream sched = .wait ∧
        (sched.filter (fun e => decide (e ≠ .intr))).length ≤ stream.length) ∨
      ∃ got rest r, readLoop s stream sched = .ret (r, rest) ∧ stream = got ++ rest ∧
        Post old N (all ++ got) r ∧
        (Ev.err ∉ sched → received MAX_RESP N (all ++ got) = received MAX_RESP N (all ++ stream)) := by
  intro sched
  have fin : ∀ (s : Pws) (all rest : List Char), Inv old N all s →
      ∃ r, leavePws s rest = .ret (r, rest) ∧ Post old N all r ∧
        (s.npass = 0 ∨ MAX_RESP < s.offset → received MAX_RESP N all = received MAX_RESP N (all ++ rest)) := by
    intro s all rest hi
    obtain ⟨fs, pws, h1, h2, h3, h4⟩ := leave_spec hz hN hi rest
    refine ⟨_, h1, ⟨by rw [← h3], by rw [← h3]; exact h2⟩, fun h => ?_⟩
    rw [← h3]; exact h4 h
  induction sched with
  | nil =>
    intro s all stream hi
    by_cases hp : s.npass = 0
    · right
      obtain ⟨r, h1, h2, h3⟩ := fin s all stream hi
      refine ⟨[], stream, r, ?_, rfl, by simpa using h2, fun _ => by simpa using h3 (Or.inl hp)⟩
      rw [readLoop, if_pos hp, h1]
    · left
      rw [readLoop, if_neg hp]
      simp
  | cons e es ih =>
    intro s all stream hi
    by_cases hp : s.npass = 0
    · right
      obtain ⟨r, h1, h2, h3⟩ := fin s all stream hi
      refine ⟨[], stream, r, ?_, rfl, by simpa using h2, fun _ => by simpa using h3 (Or.inl hp)⟩
      rw [readLoop, if_pos hp, h1]
    · have hidx : (s.passwords[s.i]?).isNone = false := by
        obtain ⟨fs, h1, h2, _, h4, h5⟩ := hi
        obtain ⟨p, _, _, _, ⟨hlen, hs⟩, _⟩ := h5 (by clear h4 h5; omega)
        clear h4 h5
        obtain ⟨b, hb, _⟩ := hs fs.length _ (List.getElem?_eq_getElem (by omega))
        rw [h1, hb]; rfl
      rw [readLoop, if_neg hp, if_neg (by rw [hidx]; simp)]
      cases e with
      | intr =>
        simp only [sysRead]
        rcases ih s all stream hi with ⟨h1, h2⟩ | ⟨got, rest, r, h1, h2, h3, h4⟩
        · left; exact ⟨h1, by simpa using h2⟩
        · right; exact ⟨got, rest, r, h1, h2, h3, fun h => h4 (fun h' => h (by simp [h']))⟩
      | err =>
        right
        simp only [sysRead]
        obtain ⟨r, h1, h2, _⟩ := fin s all stream hi
        exact ⟨[], stream, r, h1, rfl, by simpa using h2, fun h => absurd (by simp) h⟩
      | upto n =>
        simp only [sysRead]
        generalize hc : min (MAX_RESP + 1 - s.offset) (n + 1) = c
        by_cases hb : stream.take c = []
        · right
          rw [if_pos hb]
          have hd : stream.drop c = stream := by
            rcases List.take_eq_nil_iff.1 hb with h | h
            · rw [h]; rfl
            · rw [h]; simp
          rw [hd]
          obtain ⟨r, h1, h2, h3⟩ := fin s all stream hi
          refine ⟨[], stream, r, h1, rfl, by simpa using h2, fun _ => ?_⟩
          rcases List.take_eq_nil_iff.1 hb with h | h
          · simpa using h3 (Or.inr (by omega))
          · rw [h]
        · rw [if_neg hb]
          have hlen : (stream.take c).length ≤ MAX_RESP + 1 - s.offset := by
            rw [List.length_take]; omega
          have hpos : 0 < c ∧ 0 < stream.length := by
            constructor
            · rcases Nat.eq_zero_or_pos c with h | h
              · exact absurd (by rw [h]; rfl) hb
              · exact h
            · rcases Nat.eq_zero_or_pos stream.length with h | h
              · exact absurd (by rw [List.eq_nil_of_length_eq_zero h]; simp) hb
              · exact h
          obtain ⟨s', a1, a2⟩ := absorb_spec hz hN hi (by omega) _ hlen
          rw [a1]
          simp only
          rcases ih s' _ (stream.drop c) a2 with ⟨h1, h2⟩ | ⟨got, rest, r, h1, h2, h3, h4⟩
          · left
            refine ⟨h1, ?_⟩
            rw [List.length_drop] at h2
            rw [List.filter_cons, if_pos (by simp), List.length_cons]
            omega
          · right
            have hs : stream = stream.take c ++ got ++ rest := by
              rw [List.append_assoc, ← h2, List.take_append_drop]
            refine ⟨stream.take c ++ got, rest, r, h1, hs, by simpa using h3, fun h => ?_⟩
            have := h4 (fun h' => h (by simp [h']))
            rw [List.append_assoc, List.append_assoc, List.take_append_drop] at this
            exact this

end Pam.Util
