import Verif.Digest.Sha1Stream
/-
`hmac_sha1_generate`, and what goes wrong with very long data.
-/
namespace Pam.Digest.Sha1
open Pam.Digest Spec

theorem sha1_length (m : List Byte) : (sha1 m).length = 20 := rfl

theorem store_zeros (k : List Byte) (h : k.length ≤ 64) : store zeros 0 k = some (k ++ List.replicate (64 - k.length) 0) := by
  rw [store_ok (by rw [show zeros.length = 64 from rfl]; omega)]
  unfold zeros
  rw [List.take_zero, List.nil_append, List.drop_replicate, Nat.zero_add]

theorem hmac_eq (key text : List Byte) (hk : 20 ≤ key.length) (hk2 : key.length ≤ 2 ^ 32) (ht : text.length ≤ 2 ^ 32) :
    hmac key text = some (some (hmacSha1 key text)) := by
  have hone : ∀ m : List Byte, m.length ≤ 2 ^ 32 → digest [m] = some (sha1 m) := by
    intro m hm
    rw [digest_eq [m] (by simpa using hm)]
    simp
  have htwo : ∀ a b : List Byte, a.length ≤ 2 ^ 32 → b.length ≤ 2 ^ 32 → digest [a, b] = some (sha1 (a ++ b)) := by
    intro a b ha hb
    rw [digest_eq [a, b] (by simpa using ⟨ha, hb⟩)]
    simp
  have hkey : (if key.length > 64 then (digest [key]).bind (store zeros 0) else store zeros 0 key) =
      some ((if key.length ≤ 64 then key else sha1 key) ++ List.replicate (64 - (if key.length ≤ 64 then key else sha1 key).length) 0) := by
    by_cases h : key.length > 64
    · rw [if_pos h, if_neg (by omega), hone key hk2]
      show store zeros 0 (sha1 key) = _
      exact store_zeros _ (by rw [sha1_length]; decide)
    · rw [if_neg h, if_pos (by omega)]
      exact store_zeros _ (by omega)
  have hlen : (if key.length ≤ 64 then key else sha1 key).length ≤ 64 := by
    split
    · assumption
    · rw [sha1_length]; decide
  unfold hmac hmacSha1
  rw [if_neg (by omega), hkey]
  dsimp only
  generalize (if key.length ≤ 64 then key else sha1 key) = k at *
  have hb : ∀ b : Byte, (xorBlock (k ++ List.replicate (64 - k.length) 0) b).length ≤ 2 ^ 32 := by
    intro b
    unfold xorBlock
    rw [List.length_map, List.length_append, List.length_replicate]
    omega
  rw [htwo _ _ (hb _) ht]
  dsimp only
  rw [htwo _ _ (hb _) (by rw [sha1_length]; decide)]
  rfl

/-- the count of the context after data of 2^32 + n bytes, for 0 < n < 2^32, is that of n bytes -/
theorem long_count (data : List Byte) (n : Nat) (h0 : 0 < n) (hn : n < 2 ^ 32) (hd : data.length = 2 ^ 32 + n) :
    ∃ ctx, update init data = some ctx ∧ ctx.counts0 = BitVec.ofNat 32 n ∧ ctx.counts1 = 0 := by
  obtain ⟨c1, used, rest, e1, e2, e3, e4, e5, e6⟩ := updateLoop_spec (data.length + 1) init [] data init_inv.toHolds (Nat.lt_succ_self _)
  have hs : store c1.pending c1.pendingCount rest = some (c1.pending.take c1.pendingCount ++ rest ++ c1.pending.drop (c1.pendingCount + rest.length)) :=
    store_ok (by rw [e3.size]; omega)
  have e5 : c1.counts0 = 0 := e5
  have e6 : c1.counts1 = 0 := e6
  have hb : BitVec.ofNat 32 data.length = BitVec.ofNat 32 n := by
    apply BitVec.eq_of_toNat_eq
    rw [BitVec.toNat_ofNat, BitVec.toNat_ofNat]; omega
  unfold update
  rw [e1]
  dsimp only
  rw [hs]
  dsimp only
  rw [if_pos (by omega)]
  refine ⟨_, rfl, ?_, ?_⟩
  · show c1.counts0 + BitVec.ofNat 32 data.length = _
    rw [e5, hb]; exact BitVec.zero_add _
  · show (if c1.counts0 ≥ c1.counts0 + BitVec.ofNat 32 data.length then c1.counts1 + 1 else c1.counts1) = 0
    rw [e5, e6, hb, show (0 : Word) + BitVec.ofNat 32 n = BitVec.ofNat 32 n from BitVec.zero_add _, if_neg]
    rw [ge_iff_le, BitVec.le_def, BitVec.toNat_ofNat]
    show ¬ n % 2 ^ 32 ≤ 0
    omega

end Pam.Digest.Sha1
