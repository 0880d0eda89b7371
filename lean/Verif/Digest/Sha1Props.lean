import Verif.Digest.HmacLemmas
/-
The digests that protect time stamps.  C92: SHA-1.  C93: HMAC.
-/
namespace Pam.Digest.Sha1
open Pam.Digest Spec

/-- C92: whatever the message and however it is cut into parts (of at most 2^32 bytes each, empty ones included), giving the parts to `sha1_update` one
after the other and calling `sha1_output` yields the SHA-1 digest of the message, and nothing is written outside the buffers on the way. -/
theorem C92_sha1 (parts : List (List Byte)) (h : ∀ p ∈ parts, p.length ≤ 2 ^ 32) : digest parts = some (sha1 parts.flatten) := digest_eq parts h

/-- C92: how the message is cut does not matter. -/
theorem C92_parts (p q : List (List Byte)) (hp : ∀ x ∈ p, x.length ≤ 2 ^ 32) (hq : ∀ x ∈ q, x.length ≤ 2 ^ 32) (h : p.flatten = q.flatten) : digest p = digest q := by
  rw [C92_sha1 p hp, C92_sha1 q hq, h]

/-- C92: `sha1_output` may be called at any time: it leaves the context as it is, and further parts may follow. -/
theorem C92_midway (p q : List (List Byte)) (hp : ∀ x ∈ p, x.length ≤ 2 ^ 32) (hq : ∀ x ∈ q, x.length ≤ 2 ^ 32) :
    ∃ ctx, p.foldlM update init = some ctx ∧ output ctx = some (sha1 p.flatten) ∧
      ∃ ctx', q.foldlM update ctx = some ctx' ∧ output ctx' = some (sha1 (p.flatten ++ q.flatten)) := by
  obtain ⟨ctx, h1, h2⟩ := updates_inv p init_inv hp
  obtain ⟨ctx', h3, h4⟩ := updates_inv q h2 hq
  exact ⟨ctx, h1, output_eq h2, ctx', h3, output_eq h4⟩

/-- C92: the bound on the parts is needed: after one part of 2^32 + 1 bytes, the length that will be put at the end of the message is that of one byte. -/
theorem C92_long_part_counterexample (data : List Byte) (h : data.length = 2 ^ 32 + 1) :
    ∃ ctx, update init data = some ctx ∧ ctx.counts0 = 1 ∧ ctx.counts1 = 0 := long_count data 1 (by decide) (by decide) h

/-- the message "abc" -/
def abc : List Byte := [0x61, 0x62, 0x63]

/-- the digest FIPS 180 gives for "abc" -/
def abcDigest : List Byte :=
  [0xa9, 0x99, 0x3e, 0x36, 0x47, 0x06, 0x81, 0x6a, 0xba, 0x3e, 0x25, 0x71, 0x78, 0x50, 0xc2, 0x6c, 0x9c, 0xd0, 0xd8, 0x9d]

example : digest [abc.take 1, [], abc.drop 1] = some abcDigest := by decide +kernel
example : ∀ p ∈ [abc.take 1, [], abc.drop 1], p.length ≤ 2 ^ 32 := by decide +kernel
example : sha1 abc = abcDigest := by
  have h := C92_sha1 [abc] (by decide +kernel)
  rw [show digest [abc] = some abcDigest by decide +kernel] at h
  exact (Option.some.inj h).symm

/-- C93: for every key of at least 20 bytes and every text, `hmac_sha1_generate` gives the HMAC of RFC 2104 with SHA-1 for that key and text. -/
theorem C93_hmac (key text : List Byte) (hk : 20 ≤ key.length) (hk2 : key.length ≤ 2 ^ 32) (ht : text.length ≤ 2 ^ 32) :
    hmac key text = some (some (hmacSha1 key text)) := hmac_eq key text hk hk2 ht

/-- C93: with a key shorter than 20 bytes no MAC is made. -/
theorem C93_short_key (key text : List Byte) (hk : key.length < 20) : hmac key text = some none := by
  unfold hmac; rw [if_pos hk]

/-- RFC 2202, test case 4: key 0x01 … 0x19, 50 bytes 0xcd -/
example : hmac ((List.range 25).map fun i => BitVec.ofNat 8 (i + 1)) (List.replicate 50 0xcd) = some (some
    [0x4c, 0x90, 0x07, 0xf4, 0x02, 0x62, 0x50, 0xc6, 0xbc, 0x84, 0x14, 0xf9, 0xbf, 0x50, 0xc8, 0x6c, 0x2d, 0x72, 0x35, 0xda]) := by decide +kernel
/-- RFC 2202, test case 6: a key longer than a block -/
example : hmac (List.replicate 80 0xaa) ("Test Using Larger Than Block-Size Key - Hash Key First".toList.map fun c => BitVec.ofNat 8 c.toNat) = some (some
    [0xaa, 0x4a, 0xe5, 0xe1, 0x52, 0x72, 0xd0, 0x0e, 0x95, 0x70, 0x56, 0x37, 0xce, 0x8a, 0x3b, 0x55, 0xed, 0x40, 0x21, 0x12]) := by decide +kernel

end Pam.Digest.Sha1
