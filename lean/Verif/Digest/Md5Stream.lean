import Verif.Digest.Md5Block
import Verif.Digest.Sha1Stream
/-
What the context holds after any sequence of `MD5Update`.
-/
namespace Pam.Digest.Md5
open Pam.Digest Spec

/-- the message seen so far, as far as the data go -/
structure Holds (ctx : Ctx) (m : List Byte) : Prop where
  state : toState ctx.buf = absorb Md5.compress Md5.initial m
  size : ctx.inp.length = 64
  pending : ctx.inp.take (m.length % 64) = tail m

/-- the message seen so far -/
structure Inv (ctx : Ctx) (m : List Byte) : Prop extends Holds ctx m where
  low : ctx.bits0 = BitVec.ofNat 32 (8 * m.length)
  high : ctx.bits1 = BitVec.ofNat 32 (8 * m.length / 2 ^ 32)

theorem init_inv {g : List Byte} (h : g.length = 64) : Inv (init g) [] where
  state := by rw [absorb_short _ _ (by decide)]; rfl
  size := h
  pending := rfl
  low := rfl
  high := rfl

theorem count_eq (n : Nat) : ((BitVec.ofNat 32 (8 * n) >>> 3) &&& (0x3f : Word)).toNat = n % 64 := by
  rw [BitVec.toNat_and, BitVec.toNat_ushiftRight, BitVec.toNat_ofNat, Nat.shiftRight_eq_div_pow, show (0x3f : Word).toNat = 2 ^ 6 - 1 from rfl, Nat.and_two_pow_sub_one_eq_mod]
  omega

theorem block_full {ctx : Ctx} {m x : List Byte} (h : Holds ctx m) (hx : m.length % 64 + x.length = 64) :
    store ctx.inp (m.length % 64) x = some (tail m ++ x) ∧ (tail m ++ x).length = 64 := by
  have hl : (tail m ++ x).length = 64 := by rw [List.length_append, tail_length]; exact hx
  refine ⟨?_, hl⟩
  rw [store_ok (by rw [h.size]; omega), h.pending, hx, List.drop_of_length_le (by rw [h.size]; exact Nat.le_refl _), List.append_nil]

/-- after a full block -/
theorem after_block {ctx : Ctx} {m x : List Byte} (h : Holds ctx m) (h2 : (tail m ++ x).length = 64) (a b : Word) :
    Holds { ctx with buf := transform ctx.buf (tail m ++ x), inp := tail m ++ x, bits0 := a, bits1 := b } (m ++ x) ∧ (m ++ x).length % 64 = 0 := by
  have h0 : (m ++ x).length % 64 = 0 := by
    rw [← tail_length, tail_of_full _ _ h2]; rfl
  refine ⟨⟨?_, h2, ?_⟩, h0⟩
  · show toState (transform ctx.buf _) = _
    rw [transform_eq, h.state, tail_append, Sha1.absorb_one _ _ h2]
  · rw [h0, tail_of_full _ _ h2]; rfl

/-- after less than a block -/
theorem after_rest {ctx : Ctx} {m x : List Byte} (h : Holds ctx m) (h2 : m.length % 64 + x.length < 64) :
    ∃ b, store ctx.inp (m.length % 64) x = some b ∧ Holds { ctx with inp := b } (m ++ x) := by
  have hlen : (tail m ++ x).length < 64 := by rw [List.length_append, tail_length]; exact h2
  have hl1 : (ctx.inp.take (m.length % 64)).length = m.length % 64 := by rw [List.length_take, h.size]; omega
  refine ⟨_, store_ok (by rw [h.size]; omega), ?_, ?_, ?_⟩
  · show toState ctx.buf = _
    rw [h.state, tail_append, absorb_short _ _ hlen]
  · show (_ ++ _ ++ _ : List Byte).length = 64
    rw [List.length_append, List.length_append, hl1, List.length_drop, h.size]; omega
  · show (_ ++ _ ++ _ : List Byte).take _ = _
    have he : (m ++ x).length % 64 = (ctx.inp.take (m.length % 64) ++ x).length := by
      rw [List.length_append (as := ctx.inp.take _), hl1, List.length_append]; omega
    rw [he, tail_of_append _ _ hlen, ← h.pending, List.take_append_of_le_length (Nat.le_refl _), List.take_length]

theorem blocks_spec : ∀ (fuel : Nat) (ctx : Ctx) (m data : List Byte), Holds ctx m → m.length % 64 = 0 → data.length < fuel →
    ∃ ctx', blocks fuel ctx data = some ctx' ∧ Holds ctx' (m ++ data) ∧ ctx'.bits0 = ctx.bits0 ∧ ctx'.bits1 = ctx.bits1
  | 0, _, _, _, _, _, h => absurd h (Nat.not_lt_zero _)
  | fuel + 1, ctx, m, data, h, h0, hf => by
    unfold blocks
    by_cases hl : data.length ≥ 64
    · rw [if_pos hl]
      obtain ⟨h1, h2⟩ := block_full h (x := data.take 64) (by rw [h0, List.length_take]; omega)
      rw [h0] at h1
      rw [h1]
      dsimp only
      obtain ⟨h3, h4⟩ := after_block h h2 ctx.bits0 ctx.bits1
      obtain ⟨ctx', e1, e2, e3, e4⟩ := blocks_spec fuel _ _ (data.drop 64) h3 h4 (by rw [List.length_drop]; omega)
      refine ⟨ctx', e1, ?_, e3, e4⟩
      rw [List.append_assoc, List.take_append_drop] at e2
      exact e2
    · rw [if_neg hl]
      obtain ⟨b, e1, e2⟩ := after_rest h (x := data) (by omega)
      rw [h0] at e1
      rw [e1]
      exact ⟨_, rfl, e2, rfl, rfl⟩

theorem bits_eq (n L : Nat) (hL : L < 2 ^ 32) :
    BitVec.ofNat 32 (8 * n) + (BitVec.ofNat 32 L) <<< 3 = BitVec.ofNat 32 (8 * (n + L)) ∧
    (if BitVec.ofNat 32 (8 * n) + (BitVec.ofNat 32 L) <<< 3 < BitVec.ofNat 32 (8 * n) then BitVec.ofNat 32 (8 * n / 2 ^ 32) + 1 else BitVec.ofNat 32 (8 * n / 2 ^ 32)) +
      (BitVec.ofNat 32 L) >>> 29 = BitVec.ofNat 32 (8 * (n + L) / 2 ^ 32) := by
  have hs : (BitVec.ofNat 32 L) <<< 3 = BitVec.ofNat 32 (8 * L) := by
    apply BitVec.eq_of_toNat_eq
    rw [BitVec.toNat_shiftLeft, BitVec.toNat_ofNat, BitVec.toNat_ofNat, Nat.shiftLeft_eq]; omega
  have hr : (BitVec.ofNat 32 L) >>> 29 = BitVec.ofNat 32 (8 * L / 2 ^ 32) := by
    apply BitVec.eq_of_toNat_eq
    rw [BitVec.toNat_ushiftRight, BitVec.toNat_ofNat, BitVec.toNat_ofNat, Nat.shiftRight_eq_div_pow]; omega
  rw [hs, hr, ← BitVec.ofNat_add, ← Nat.mul_add]
  refine ⟨rfl, ?_⟩
  have hlt : (BitVec.ofNat 32 (8 * (n + L)) < BitVec.ofNat 32 (8 * n)) ↔ 8 * (n + L) % 2 ^ 32 < 8 * n % 2 ^ 32 := by
    rw [BitVec.lt_def, BitVec.toNat_ofNat, BitVec.toNat_ofNat]
  by_cases hc : 8 * (n + L) % 2 ^ 32 < 8 * n % 2 ^ 32
  · rw [if_pos (hlt.mpr hc), show (1 : Word) = BitVec.ofNat 32 1 from rfl, ← BitVec.ofNat_add, ← BitVec.ofNat_add]
    congr 1
    omega
  · rw [if_neg (fun h => hc (hlt.mp h)), ← BitVec.ofNat_add]
    congr 1
    omega

theorem update_inv {ctx : Ctx} {m : List Byte} (h : Inv ctx m) (data : List Byte) (hd : data.length < 2 ^ 32) :
    ∃ ctx', update ctx data = some ctx' ∧ Inv ctx' (m ++ data) := by
  obtain ⟨b0, b1⟩ := bits_eq m.length data.length hd
  rw [← List.length_append] at b0 b1
  have hh : ∀ a b, Holds { ctx with bits0 := a, bits1 := b } m := fun a b => ⟨h.state, h.size, h.pending⟩
  unfold update
  dsimp only
  rw [h.low, h.high, count_eq, b1, b0]
  by_cases hn : m.length % 64 ≠ 0
  · rw [if_pos hn]
    by_cases hlt : data.length < 64 - m.length % 64
    · rw [if_pos hlt]
      obtain ⟨b, e1, e2⟩ := after_rest (hh (BitVec.ofNat 32 (8 * (m ++ data).length)) (BitVec.ofNat 32 (8 * (m ++ data).length / 2 ^ 32))) (x := data) (by omega)
      dsimp only at e1
      rw [e1]
      exact ⟨_, rfl, { e2 with low := rfl, high := rfl }⟩
    · rw [if_neg hlt]
      have hx : (data.take (64 - m.length % 64)).length = 64 - m.length % 64 := by rw [List.length_take]; omega
      obtain ⟨h1, h2⟩ := block_full h.toHolds (x := data.take (64 - m.length % 64)) (by omega)
      rw [h1]
      dsimp only
      obtain ⟨h3, h4⟩ := after_block h.toHolds h2 (BitVec.ofNat 32 (8 * (m ++ data).length)) (BitVec.ofNat 32 (8 * (m ++ data).length / 2 ^ 32))
      obtain ⟨ctx', e1, e2, e3, e4⟩ := blocks_spec (data.length + 1) _ _ (data.drop (64 - m.length % 64)) h3 h4 (by rw [List.length_drop]; omega)
      rw [List.append_assoc, List.take_append_drop] at e2
      exact ⟨ctx', e1, { e2 with low := e3, high := e4 }⟩
  · rw [if_neg hn]
    obtain ⟨ctx', e1, e2, e3, e4⟩ := blocks_spec (data.length + 1) _ _ data
      (hh (BitVec.ofNat 32 (8 * (m ++ data).length)) (BitVec.ofNat 32 (8 * (m ++ data).length / 2 ^ 32))) (by omega) (Nat.lt_succ_self _)
    exact ⟨ctx', e1, { e2 with low := e3, high := e4 }⟩

theorem updates_inv : ∀ (parts : List (List Byte)) {ctx : Ctx} {m : List Byte}, Inv ctx m → (∀ p ∈ parts, p.length < 2 ^ 32) →
    ∃ ctx', parts.foldlM update ctx = some ctx' ∧ Inv ctx' (m ++ parts.flatten)
  | [], ctx, m, h, _ => ⟨ctx, rfl, by rw [List.flatten_nil, List.append_nil]; exact h⟩
  | p :: ps, ctx, m, h, hp => by
    obtain ⟨c1, h1, i1⟩ := update_inv h p (hp p List.mem_cons_self)
    obtain ⟨c2, h2, i2⟩ := updates_inv ps i1 (fun q hq => hp q (List.mem_cons_of_mem _ hq))
    refine ⟨c2, ?_, ?_⟩
    · rw [List.foldlM_cons, h1]; exact h2
    · rw [List.flatten_cons, ← List.append_assoc]; exact i2

/-! ### the end of the message -/

theorem leBytes_eq (x : Word) : leBytes x = Md5.bytes x := by
  unfold leBytes Md5.bytes
  rw [Sha1.extract_eq, Sha1.extract_eq, Sha1.extract_eq, Sha1.extract_eq]
  rfl

theorem lengthBytes_eq (n : Nat) :
    leBytes (BitVec.ofNat 32 (8 * n)) ++ leBytes (BitVec.ofNat 32 (8 * n / 2 ^ 32)) = (List.range 8).map (fun i => BitVec.ofNat 8 (8 * n / 256 ^ i)) := by
  have key : ∀ a b : Nat, a % 256 = b % 256 → BitVec.ofNat 8 a = BitVec.ofNat 8 b := by
    intro a b h
    apply BitVec.eq_of_toNat_eq
    rw [BitVec.toNat_ofNat, BitVec.toNat_ofNat]; exact h
  unfold leBytes
  simp only [Sha1.extract_eq, BitVec.toNat_ofNat]
  show [_, _, _, _, _, _, _, _] = [_, _, _, _, _, _, _, _]
  congr 1
  · exact key _ _ (by simp only [Nat.reducePow]; omega)
  congr 1
  · exact key _ _ (by simp only [Nat.reducePow]; omega)
  congr 1
  · exact key _ _ (by simp only [Nat.reducePow]; omega)
  congr 1
  · exact key _ _ (by simp only [Nat.reducePow]; omega)
  congr 1
  · exact key _ _ (by simp only [Nat.reducePow]; omega)
  congr 1
  · exact key _ _ (by simp only [Nat.reducePow]; omega)
  congr 1
  · exact key _ _ (by simp only [Nat.reducePow]; omega)
  congr 1
  · exact key _ _ (by simp only [Nat.reducePow]; omega)

/-- writing `x` and then `y` behind it -/
theorem store_two {buf x y : List Byte} {off : Nat} (h : off + x.length + y.length ≤ buf.length) :
    ∃ b b', store buf off x = some b ∧ store b (off + x.length) y = some b' ∧ b'.take (off + x.length + y.length) = buf.take off ++ x ++ y ∧ b'.length = buf.length := by
  have hl : (buf.take off ++ x).length = off + x.length := by rw [List.length_append, List.length_take]; omega
  refine ⟨_, _, store_ok (by omega), store_ok ?_, ?_, ?_⟩
  · rw [List.length_append, hl, List.length_drop]; omega
  · rw [List.take_append_of_le_length (l₁ := buf.take off ++ x) (by omega), List.take_of_length_le (l := buf.take off ++ x) (by omega),
      List.take_append_of_le_length (by rw [List.length_append, hl]; exact Nat.le_refl _), List.take_of_length_le (by rw [List.length_append, hl]; exact Nat.le_refl _)]
  · rw [List.take_append_of_le_length (l₁ := buf.take off ++ x) (by omega), List.take_of_length_le (l := buf.take off ++ x) (by omega)]
    simp only [List.length_append, List.length_drop, List.length_take]
    omega

/-- the padding: the state after it, and the first 56 bytes of the last block -/
theorem padInput_spec {ctx : Ctx} {m : List Byte} (h : Inv ctx m) :
    ∃ ctx', padInput ctx = some ctx' ∧ ctx'.bits0 = ctx.bits0 ∧ ctx'.bits1 = ctx.bits1 ∧ ctx'.inp.length = 64 ∧
      ∀ e : List Byte, e.length = 8 → absorb Md5.compress Md5.initial (m ++ 0x80 :: List.replicate ((119 - m.length % 64) % 64) 0 ++ e) =
        Md5.compress (toState ctx'.buf) (ctx'.inp.take 56 ++ e) := by
  have hlt : m.length % 64 < 64 := Nat.mod_lt _ (by decide)
  unfold padInput
  rw [h.low, count_eq]
  dsimp only
  by_cases hb : 64 - 1 - m.length % 64 < 8
  · obtain ⟨b, b', e1, e2, e3, e4⟩ := store_two (buf := ctx.inp) (x := [0x80]) (y := List.replicate (64 - 1 - m.length % 64) 0) (off := m.length % 64)
      (by rw [h.size, List.length_replicate, List.length_singleton]; omega)
    rw [List.length_singleton] at e2 e3
    rw [e1]
    dsimp only
    rw [if_pos hb, e2]
    dsimp only
    have hb' : b' = tail m ++ [0x80] ++ List.replicate (64 - 1 - m.length % 64) 0 := by
      rw [h.pending, List.length_replicate, List.take_of_length_le (by rw [e4, h.size]; omega)] at e3
      exact e3
    have h2 : (tail m ++ [0x80] ++ List.replicate (64 - 1 - m.length % 64) 0 : List Byte).length = 64 := by
      rw [← hb', e4, h.size]
    rw [store_ok (by rw [List.length_replicate, e4, h.size]; decide)]
    refine ⟨_, rfl, h.low ▸ rfl, rfl, ?_, ?_⟩
    · show (_ ++ _ ++ _ : List Byte).length = 64
      rw [List.length_append, List.length_append, List.length_drop, e4, h.size]
      simp
    · intro e he
      show _ = Md5.compress (toState (transform ctx.buf b')) (List.take 56 (List.replicate 56 0 ++ _) ++ e)
      rw [List.take_append_of_le_length (by rw [List.length_replicate]; exact Nat.le_refl _), List.take_of_length_le (by rw [List.length_replicate]; exact Nat.le_refl _),
        transform_eq, h.state, hb']
      have e5 : (119 - m.length % 64) % 64 = (64 - 1 - m.length % 64) + 56 := by omega
      rw [e5, ← List.replicate_append_replicate]
      have e6 : m ++ 0x80 :: (List.replicate (64 - 1 - m.length % 64) 0 ++ List.replicate 56 0) ++ e =
          m ++ (([0x80] ++ List.replicate (64 - 1 - m.length % 64) 0) ++ (List.replicate 56 0 ++ e)) := by
        simp only [List.append_assoc, List.cons_append, List.nil_append]
      rw [e6, tail_append, ← List.append_assoc (tail m), ← List.append_assoc (tail m), absorb_block _ _ h2,
        Sha1.absorb_one _ _ (by rw [List.length_append, List.length_replicate, he])]
  · obtain ⟨b, b', e1, e2, e3, e4⟩ := store_two (buf := ctx.inp) (x := [0x80]) (y := List.replicate (64 - 1 - m.length % 64 - 8) 0) (off := m.length % 64)
      (by rw [h.size, List.length_replicate, List.length_singleton]; omega)
    rw [List.length_singleton] at e2 e3
    rw [e1]
    dsimp only
    rw [if_neg hb, e2]
    refine ⟨_, rfl, h.low ▸ rfl, rfl, by rw [e4, h.size], ?_⟩
    intro e he
    show _ = Md5.compress (toState ctx.buf) (b'.take 56 ++ e)
    rw [h.pending, List.length_replicate, show m.length % 64 + 1 + (64 - 1 - m.length % 64 - 8) = 56 by omega] at e3
    have h2 : (b'.take 56 ++ e).length = 64 := by rw [List.length_append, List.length_take, e4, h.size, he]; rfl
    have e5 : (119 - m.length % 64) % 64 = 64 - 1 - m.length % 64 - 8 := by omega
    have e6 : m ++ 0x80 :: List.replicate (64 - 1 - m.length % 64 - 8) 0 ++ e = m ++ (([0x80] ++ List.replicate (64 - 1 - m.length % 64 - 8) 0) ++ e) := by
      simp only [List.append_assoc, List.cons_append, List.nil_append]
    rw [e5, e6, tail_append, ← List.append_assoc (tail m), ← List.append_assoc (tail m), ← e3, Sha1.absorb_one _ _ h2, h.state]

theorem final_eq {ctx : Ctx} {m : List Byte} (h : Inv ctx m) : final ctx = some (md5 m) := by
  obtain ⟨c, e1, e2, e3, e4, e5⟩ := padInput_spec h
  have hl : (leBytes c.bits0 ++ leBytes c.bits1).length = 8 := rfl
  unfold final
  rw [e1]
  dsimp only
  rw [store_ok (by rw [e4, hl]; decide), hl, List.drop_of_length_le (by rw [e4]; decide), List.append_nil]
  dsimp only
  refine congrArg some ?_
  unfold md5 Md5.pad
  rw [← lengthBytes_eq, ← h.low, ← h.high, ← e2, ← e3, e5 _ hl, ← transform_eq]
  simp only [leBytes_eq]
  rfl

theorem digest_eq {g : List Byte} (hg : g.length = 64) (parts : List (List Byte)) (h : ∀ p ∈ parts, p.length < 2 ^ 32) :
    digest g parts = some (md5 parts.flatten) := by
  obtain ⟨ctx, h1, h2⟩ := updates_inv parts (init_inv hg) h
  unfold digest
  rw [h1]
  exact final_eq h2

end Pam.Digest.Md5
