import Verif.Digest.Sha1Block
/-
What the context holds after any sequence of `sha1_update`.
-/
namespace Pam.Digest.Sha1
open Pam.Digest Spec

theorem absorb_one {σ : Type} (c : σ → List Byte → σ) (s : σ) {b : List Byte} (h : b.length = 64) : absorb c s b = c s b := by
  have := absorb_block c s (m := []) h
  rw [List.append_nil] at this
  rw [this]
  exact absorb_short c _ (show ([] : List Byte).length < 64 by decide)

/-- the message seen so far, as far as the data go -/
structure Holds (ctx : Ctx) (m : List Byte) : Prop where
  sum : toHash ctx.sum = absorb Sha1.compress Sha1.initial m
  size : ctx.pending.length = 64
  count : ctx.pendingCount = m.length % 64
  pending : ctx.pending.take ctx.pendingCount = tail m

/-- the message seen so far -/
structure Inv (ctx : Ctx) (m : List Byte) : Prop extends Holds ctx m where
  low : ctx.counts0 = BitVec.ofNat 32 m.length
  high : ctx.counts1 = BitVec.ofNat 32 (m.length / 2 ^ 32)

theorem init_inv : Inv init [] where
  sum := by rw [absorb_short _ _ (by decide)]; rfl
  size := rfl
  count := rfl
  pending := rfl
  low := rfl
  high := rfl

theorem block_full {ctx : Ctx} {m x : List Byte} (h : Holds ctx m) (hx : ctx.pendingCount + x.length = 64) :
    store ctx.pending ctx.pendingCount x = some (tail m ++ x) ∧ (tail m ++ x).length = 64 := by
  have hl : (tail m ++ x).length = 64 := by rw [List.length_append, tail_length, ← h.count]; exact hx
  refine ⟨?_, hl⟩
  rw [store_ok (by rw [h.size]; omega), h.pending, hx, List.drop_of_length_le (by rw [h.size]; exact Nat.le_refl _), List.append_nil]

theorem updateLoop_spec : ∀ (fuel : Nat) (ctx : Ctx) (m data : List Byte), Holds ctx m → data.length < fuel →
    ∃ ctx' used rest, updateLoop fuel ctx data = some (ctx', rest) ∧ data = used ++ rest ∧ Holds ctx' (m ++ used) ∧ ctx'.pendingCount + rest.length < 64 ∧
      ctx'.counts0 = ctx.counts0 ∧ ctx'.counts1 = ctx.counts1
  | 0, _, _, _, _, h => absurd h (Nat.not_lt_zero _)
  | fuel + 1, ctx, m, data, h, hf => by
    have hc : ctx.pendingCount < 64 := by rw [h.count]; omega
    unfold updateLoop
    by_cases hl : data.length + ctx.pendingCount ≥ 64
    · rw [if_pos hl]
      dsimp only
      have ht : (data.take (64 - ctx.pendingCount)).length = 64 - ctx.pendingCount := by rw [List.length_take]; omega
      obtain ⟨h1, h2⟩ := block_full h (x := data.take (64 - ctx.pendingCount)) (by omega)
      rw [h1]
      dsimp only
      obtain ⟨ctx', used, rest, e1, e2, e3, e4, e5, e6⟩ := updateLoop_spec fuel
        { ctx with sum := process ctx.sum (tail m ++ data.take (64 - ctx.pendingCount)), pending := zeros, pendingCount := 0 }
        (m ++ data.take (64 - ctx.pendingCount)) (data.drop (64 - ctx.pendingCount)) (by
          refine ⟨?_, rfl, ?_, ?_⟩
          · show toHash (process ctx.sum _) = _
            rw [process_eq _ h2, h.sum, tail_append]
            rw [absorb_one _ _ h2]
          · show 0 = (m ++ data.take (64 - ctx.pendingCount)).length % 64
            rw [← tail_length, tail_of_full _ _ h2]; rfl
          · show zeros.take 0 = _
            rw [tail_of_full _ _ h2]; rfl) (by rw [List.length_drop]; omega)
      refine ⟨ctx', data.take (64 - ctx.pendingCount) ++ used, rest, e1, ?_, ?_, e4, e5, e6⟩
      · rw [List.append_assoc, ← e2, List.take_append_drop]
      · rw [← List.append_assoc]; exact e3
    · rw [if_neg hl]
      exact ⟨ctx, [], data, rfl, rfl, by rw [List.append_nil]; exact h, by omega, rfl, rfl⟩

theorem update_inv {ctx : Ctx} {m : List Byte} (h : Inv ctx m) (data : List Byte) (hd : data.length ≤ 2 ^ 32) :
    ∃ ctx', update ctx data = some ctx' ∧ Inv ctx' (m ++ data) := by
  obtain ⟨c1, used, rest, e1, rfl, e3, e4, e5, e6⟩ := updateLoop_spec ((data).length + 1) ctx m data h.toHolds (Nat.lt_succ_self _)
  have hs : store c1.pending c1.pendingCount rest = some (c1.pending.take c1.pendingCount ++ rest ++ c1.pending.drop (c1.pendingCount + rest.length)) :=
    store_ok (by rw [e3.size]; omega)
  have hlen : (tail (m ++ used) ++ rest).length < 64 := by rw [List.length_append, tail_length, ← e3.count]; exact e4
  have hh : ∀ a b, Holds { c1 with pending := c1.pending.take c1.pendingCount ++ rest ++ c1.pending.drop (c1.pendingCount + rest.length),
                                   pendingCount := c1.pendingCount + rest.length, counts0 := a, counts1 := b } (m ++ (used ++ rest)) := by
    intro a b
    rw [← List.append_assoc]
    have hl1 : (c1.pending.take c1.pendingCount).length = c1.pendingCount := by rw [List.length_take, e3.size]; omega
    refine ⟨?_, ?_, ?_, ?_⟩
    · show toHash c1.sum = _
      rw [e3.sum, tail_append _ _ (m ++ used) rest, absorb_short _ _ hlen]
    · show (_ ++ _ ++ _ : List Byte).length = 64
      rw [List.length_append, List.length_append, hl1, List.length_drop, e3.size]; omega
    · show c1.pendingCount + rest.length = _
      have : ((m ++ used) ++ rest).length % 64 = (tail ((m ++ used) ++ rest)).length := (tail_length _).symm
      rw [this, tail_of_append _ _ hlen, List.length_append, tail_length, ← e3.count]
    · show (_ ++ _ ++ _ : List Byte).take (c1.pendingCount + rest.length) = _
      rw [tail_of_append _ _ hlen, ← e3.pending, List.take_append_of_le_length (by rw [List.length_append, hl1]; exact Nat.le_refl _),
        List.take_of_length_le (by rw [List.length_append, hl1]; exact Nat.le_refl _)]
  unfold update
  rw [e1]
  dsimp only
  rw [hs]
  dsimp only
  by_cases h0 : (used ++ rest).length ≠ 0
  · rw [if_pos h0]
    refine ⟨_, rfl, { hh _ _ with low := ?_, high := ?_ }⟩
    · show c1.counts0 + BitVec.ofNat 32 (used ++ rest).length = _
      rw [e5, h.low, ← BitVec.ofNat_add, List.length_append (as := m)]
    · show (if c1.counts0 ≥ c1.counts0 + BitVec.ofNat 32 (used ++ rest).length then c1.counts1 + 1 else c1.counts1) = _
      rw [e5, e6, h.low, h.high, ← BitVec.ofNat_add, List.length_append (as := m)]
      generalize (used ++ rest).length = L at *
      generalize m.length = n
      have hge : (BitVec.ofNat 32 n ≥ BitVec.ofNat 32 (n + L)) ↔ n % 2 ^ 32 ≥ (n + L) % 2 ^ 32 := by
        rw [ge_iff_le, BitVec.le_def, BitVec.toNat_ofNat, BitVec.toNat_ofNat]
      by_cases hcarry : n % 2 ^ 32 ≥ (n + L) % 2 ^ 32
      · rw [if_pos (hge.mpr hcarry), show (1 : Word) = BitVec.ofNat 32 1 from rfl, ← BitVec.ofNat_add]
        congr 1
        omega
      · rw [if_neg (fun h => hcarry (hge.mp h))]
        congr 1
        omega
  · rw [if_neg h0]
    have h0 : (used ++ rest).length = 0 := by omega
    refine ⟨_, rfl, { hh _ _ with low := ?_, high := ?_ }⟩
    · show c1.counts0 = _
      rw [e5, h.low, List.length_append, h0]; rfl
    · show c1.counts1 = _
      rw [e6, h.high, List.length_append, h0]; rfl

theorem updates_inv : ∀ (parts : List (List Byte)) {ctx : Ctx} {m : List Byte}, Inv ctx m → (∀ p ∈ parts, p.length ≤ 2 ^ 32) →
    ∃ ctx', parts.foldlM update ctx = some ctx' ∧ Inv ctx' (m ++ parts.flatten)
  | [], ctx, m, h, _ => ⟨ctx, rfl, by rw [List.flatten_nil, List.append_nil]; exact h⟩
  | p :: ps, ctx, m, h, hp => by
    obtain ⟨c1, h1, i1⟩ := update_inv h p (hp p List.mem_cons_self)
    obtain ⟨c2, h2, i2⟩ := updates_inv ps i1 (fun q hq => hp q (List.mem_cons_of_mem _ hq))
    refine ⟨c2, ?_, ?_⟩
    · rw [List.foldlM_cons, h1]; exact h2
    · rw [List.flatten_cons, ← List.append_assoc]; exact i2

/-! ### the end of the message -/

theorem extract_eq (x : Word) (k : Nat) : x.extractLsb' k 8 = BitVec.ofNat 8 (x.toNat / 2 ^ k) := by
  apply BitVec.eq_of_toNat_eq
  rw [BitVec.extractLsb'_toNat, BitVec.toNat_ofNat, Nat.shiftRight_eq_div_pow]

theorem beBytes_eq (x : Word) : beBytes x = Sha1.bytes x := by
  unfold beBytes Sha1.bytes
  rw [extract_eq, extract_eq, extract_eq, extract_eq]
  rfl

theorem beBytes_length (x : Word) : (beBytes x).length = 4 := rfl

theorem counts_eq (n : Nat) :
    beBytes (BitVec.ofNat 32 (n / 2 ^ 32) <<< 3 ||| BitVec.ofNat 32 n >>> 29) ++ beBytes (BitVec.ofNat 32 n <<< 3) =
      (List.range 8).map (fun i => BitVec.ofNat 8 (8 * n / 256 ^ (7 - i))) := by
  have hlo : (BitVec.ofNat 32 n <<< 3).toNat = 8 * n % 2 ^ 32 := by
    rw [BitVec.toNat_shiftLeft, BitVec.toNat_ofNat, Nat.shiftLeft_eq]; omega
  have hhi : (BitVec.ofNat 32 (n / 2 ^ 32) <<< 3 ||| BitVec.ofNat 32 n >>> 29).toNat = 8 * n / 2 ^ 32 % 2 ^ 32 := by
    rw [BitVec.toNat_or, BitVec.toNat_shiftLeft, BitVec.toNat_ushiftRight, BitVec.toNat_ofNat, BitVec.toNat_ofNat]
    have e1 : ((n / 2 ^ 32 % 2 ^ 32) <<< 3) % 2 ^ 32 = (n / 2 ^ 32 % 2 ^ 29) <<< 3 := by
      rw [Nat.shiftLeft_eq, Nat.shiftLeft_eq]; omega
    have e2 : (n % 2 ^ 32) >>> 29 < 2 ^ 3 := by rw [Nat.shiftRight_eq_div_pow]; omega
    rw [e1, ← Nat.shiftLeft_add_eq_or_of_lt e2, Nat.shiftLeft_eq, Nat.shiftRight_eq_div_pow]
    omega
  have key : ∀ a b : Nat, a % 256 = b % 256 → BitVec.ofNat 8 a = BitVec.ofNat 8 b := by
    intro a b h
    apply BitVec.eq_of_toNat_eq
    rw [BitVec.toNat_ofNat, BitVec.toNat_ofNat]; exact h
  unfold beBytes
  simp only [extract_eq, hlo, hhi]
  show [_, _, _, _, _, _, _, _] = [_, _, _, _, _, _, _, _]
  congr 1
  · exact key _ _ (by simp only [Nat.reduceSub, Nat.reducePow]; omega)
  congr 1
  · exact key _ _ (by simp only [Nat.reduceSub, Nat.reducePow]; omega)
  congr 1
  · exact key _ _ (by simp only [Nat.reduceSub, Nat.reducePow]; omega)
  congr 1
  · exact key _ _ (by simp only [Nat.reduceSub, Nat.reducePow]; omega)
  congr 1
  · exact key _ _ (by simp only [Nat.reduceSub, Nat.reducePow]; omega)
  congr 1
  · exact key _ _ (by simp only [Nat.reduceSub, Nat.reducePow]; omega)
  congr 1
  · exact key _ _ (by simp only [Nat.reduceSub, Nat.reducePow]; omega)
  congr 1
  · exact key _ _ (by simp only [Nat.reduceSub, Nat.reducePow]; omega)

/-- filling in the length -/
theorem store_counts {a : List Byte} (ha : a.length = 64) (x y : List Byte) (hx : x.length = 4) (hy : y.length = 4) :
    ∃ p, store a 56 x = some p ∧ store p 60 y = some (a.take 56 ++ (x ++ y)) := by
  refine ⟨_, store_ok (by omega), ?_⟩
  have hl : (a.take 56).length = 56 := by rw [List.length_take]; omega
  have hl2 : (a.drop (56 + x.length)).length = 4 := by rw [List.length_drop]; omega
  rw [store_ok (by rw [List.length_append, List.length_append, hl, hl2]; omega)]
  congr 1
  rw [List.take_append_of_le_length (by rw [List.length_append]; omega), List.take_of_length_le (by rw [List.length_append]; omega),
    List.drop_of_length_le (by simp only [List.length_append]; omega), List.append_nil, List.append_assoc]

theorem output_eq {ctx : Ctx} {m : List Byte} (h : Inv ctx m) : output ctx = some (sha1 m) := by
  have hc : ctx.pendingCount < 64 := by rw [h.count]; omega
  have hpad : (padding.take (64 - ctx.pendingCount)).length = 64 - ctx.pendingCount := by
    rw [List.length_take, show padding.length = 64 from rfl]; omega
  have hpe : padding.take (64 - ctx.pendingCount) = 0x80 :: List.replicate (63 - ctx.pendingCount) 0 := by
    rw [show 64 - ctx.pendingCount = (63 - ctx.pendingCount) + 1 by omega]
    unfold padding
    rw [List.take_succ_cons, List.take_replicate, Nat.min_eq_left (by omega)]
  obtain ⟨h1, h2⟩ := block_full h.toHolds (x := padding.take (64 - ctx.pendingCount)) (by omega)
  have hor : (if ctx.counts0 >>> 29 ≠ 0 then ctx.counts1 <<< 3 ||| ctx.counts0 >>> 29 else ctx.counts1 <<< 3) = ctx.counts1 <<< 3 ||| ctx.counts0 >>> 29 := by
    split
    · rfl
    · next h =>
      have h : ctx.counts0 >>> 29 = 0 := Decidable.not_not.mp h
      rw [h]; exact BitVec.or_zero.symm
  have hbytes : beBytes (ctx.counts1 <<< 3 ||| ctx.counts0 >>> 29) ++ beBytes (ctx.counts0 <<< 3) = (List.range 8).map (fun i => BitVec.ofNat 8 (8 * m.length / 256 ^ (7 - i))) := by
    rw [h.low, h.high]; exact counts_eq _
  have hout : ∀ s : Sum, toHash s = absorb Sha1.compress Sha1.initial (pad m) → outBytes s = sha1 m := by
    intro s hs
    unfold sha1 outBytes
    rw [← hs]
    simp only [beBytes_eq]
    rfl
  unfold output
  dsimp only
  rw [h1]
  dsimp only
  rw [hor]
  by_cases hbig : ctx.pendingCount ≥ 56
  · rw [if_pos hbig]
    dsimp only
    rw [if_neg (by omega)]
    obtain ⟨p, e1, e2⟩ := store_counts (a := (0 : Byte) :: List.replicate 63 0) rfl (beBytes (ctx.counts1 <<< 3 ||| ctx.counts0 >>> 29)) (beBytes (ctx.counts0 <<< 3)) rfl rfl
    rw [e1]
    dsimp only
    rw [e2]
    dsimp only
    refine congrArg some (hout _ ?_)
    have hlast : (((0 : Byte) :: List.replicate 63 0).take 56 ++ (beBytes (ctx.counts1 <<< 3 ||| ctx.counts0 >>> 29) ++ beBytes (ctx.counts0 <<< 3))).length = 64 := rfl
    rw [process_eq _ hlast, process_eq _ h2, h.sum]
    have hp : pad m = m ++ (padding.take (64 - ctx.pendingCount) ++
        (((0 : Byte) :: List.replicate 63 0).take 56 ++ (beBytes (ctx.counts1 <<< 3 ||| ctx.counts0 >>> 29) ++ beBytes (ctx.counts0 <<< 3)))) := by
      rw [hbytes, hpe]
      unfold pad
      have e3 : (119 - m.length % 64) % 64 = (63 - ctx.pendingCount) + 56 := by rw [h.count]; have := h.count; omega
      rw [e3, ← List.replicate_append_replicate]
      show m ++ 0x80 :: (List.replicate (63 - ctx.pendingCount) 0 ++ List.replicate 56 0) ++ _ = m ++ (_ ++ (List.replicate 56 0 ++ _))
      simp only [List.append_assoc, List.cons_append]
    rw [hp, tail_append, ← List.append_assoc (tail m), absorb_block _ _ h2]
    rw [absorb_one _ _ hlast]
  · rw [if_neg hbig]
    dsimp only
    obtain ⟨p, e1, e2⟩ := store_counts h2 (beBytes (ctx.counts1 <<< 3 ||| ctx.counts0 >>> 29)) (beBytes (ctx.counts0 <<< 3)) rfl rfl
    rw [e1]
    dsimp only
    rw [e2]
    dsimp only
    refine congrArg some (hout _ ?_)
    have htk : (tail m ++ padding.take (64 - ctx.pendingCount)).take 56 = tail m ++ 0x80 :: List.replicate (55 - ctx.pendingCount) 0 := by
      rw [List.take_append, List.take_of_length_le (by rw [tail_length, ← h.count]; omega), tail_length, ← h.count, hpe,
        show 56 - ctx.pendingCount = (55 - ctx.pendingCount) + 1 by omega, List.take_succ_cons, List.take_replicate, Nat.min_eq_left (by omega)]
    have hlast : ((tail m ++ padding.take (64 - ctx.pendingCount)).take 56 ++ (beBytes (ctx.counts1 <<< 3 ||| ctx.counts0 >>> 29) ++ beBytes (ctx.counts0 <<< 3))).length = 64 := by
      rw [List.length_append, List.length_take, h2]; rfl
    rw [process_eq _ hlast, h.sum, htk]
    rw [htk] at hlast
    have hp : pad m = m ++ ((0x80 : Byte) :: List.replicate (55 - ctx.pendingCount) 0 ++ (beBytes (ctx.counts1 <<< 3 ||| ctx.counts0 >>> 29) ++ beBytes (ctx.counts0 <<< 3))) := by
      rw [hbytes]
      unfold pad
      have e3 : (119 - m.length % 64) % 64 = 55 - ctx.pendingCount := by rw [h.count]; have := h.count; omega
      rw [e3]
      simp only [List.append_assoc, List.cons_append]
    rw [hp, tail_append, ← List.append_assoc (tail m)]
    rw [absorb_one _ _ hlast]

theorem digest_eq (parts : List (List Byte)) (h : ∀ p ∈ parts, p.length ≤ 2 ^ 32) : digest parts = some (sha1 parts.flatten) := by
  obtain ⟨ctx, h1, h2⟩ := updates_inv parts init_inv h
  unfold digest
  rw [h1]
  exact output_eq h2

end Pam.Digest.Sha1
