import Verif.Digest.Md5CryptLemmas
/-
C94: MD5.  C95: the MD5 password hash.
-/
namespace Pam.Digest.Md5
open Pam.Digest Spec

/-- C94: whatever the message, however it is cut into parts, and whatever was in the input buffer of the context before `MD5Init`, giving the parts to
`MD5Update` one after the other and calling `MD5Final` yields the MD5 digest of the message, and nothing is written outside the buffers on the way.
(The length of a part is an `unsigned`.) -/
theorem C94_md5 (g : List Byte) (hg : g.length = 64) (parts : List (List Byte)) (h : ∀ p ∈ parts, p.length < 2 ^ 32) :
    digest g parts = some (md5 parts.flatten) := digest_eq hg parts h

/-- C94: how the message is cut, and what was in the buffer, does not matter. -/
theorem C94_parts (g g' : List Byte) (hg : g.length = 64) (hg' : g'.length = 64) (p q : List (List Byte)) (hp : ∀ x ∈ p, x.length < 2 ^ 32)
    (hq : ∀ x ∈ q, x.length < 2 ^ 32) (h : p.flatten = q.flatten) : digest g p = digest g' q := by
  rw [C94_md5 g hg p hp, C94_md5 g' hg' q hq, h]

/-- bytes of a string -/
def ascii (s : String) : List Byte := s.toList.map fun c => BitVec.ofNat 8 c.toNat

/-- RFC 1321, A.5: MD5 ("abc"), in two parts -/
example : digest (List.replicate 64 0xa5) [ascii "a", ascii "bc"] = some
    [0x90, 0x01, 0x50, 0x98, 0x3c, 0xd2, 0x4f, 0xb0, 0xd6, 0x96, 0x3f, 0x7d, 0x28, 0xe1, 0x7f, 0x72] := by decide +kernel
/-- RFC 1321, A.5: the message of 80 bytes -/
example : digest (List.replicate 64 0) [ascii "12345678901234567890123456789012345678901234567890123456789012345678901234567890"] = some
    [0x57, 0xed, 0xf4, 0xa2, 0x2b, 0xe3, 0xc9, 0x55, 0xac, 0x49, 0xda, 0x2e, 0x21, 0x07, 0xb6, 0x7a] := by decide +kernel

/-- C95: for every password and every setting, `crypt_md5` gives the "$1$" hash of the password with the salt in the setting. -/
theorem C95_crypt (g g1 : List Byte) (hg : g.length = 64) (hg1 : g1.length = 64) (pw setting : List Byte) (hp : pw.length < 2 ^ 31) :
    crypt g g1 pw setting = some (Md5Crypt.hash pw setting) := crypt_eq hg hg1 pw setting hp

/-- C95: a stored hash is its own setting: hashing the same password again with the stored hash as the setting gives the stored hash. -/
theorem C95_verify (g g1 : List Byte) (hg : g.length = 64) (hg1 : g1.length = 64) (pw setting stored : List Byte) (hp : pw.length < 2 ^ 31)
    (h : crypt g g1 pw setting = some stored) : crypt g g1 pw stored = some stored := by
  rw [C95_crypt g g1 hg hg1 pw setting hp, Option.some.injEq] at h
  subst h
  rw [C95_crypt g g1 hg hg1 pw _ hp]
  unfold Md5Crypt.hash
  have := saltOf_hash pw setting
  unfold Md5Crypt.hash at this
  rw [this]

/-- C95: another password verifies against a stored hash just when the thousand rounds give the same digest for it: nothing of the digest is lost in the
22 characters. -/
theorem C95_same_hash (g g1 : List Byte) (hg : g.length = 64) (hg1 : g1.length = 64) (pw pw' setting stored : List Byte) (hp : pw.length < 2 ^ 31)
    (hp' : pw'.length < 2 ^ 31) (h : crypt g g1 pw setting = some stored) :
    crypt g g1 pw' stored = some stored ↔
      Md5Crypt.rounds pw' (Md5Crypt.saltOf setting) 1000 = Md5Crypt.rounds pw (Md5Crypt.saltOf setting) 1000 := by
  rw [C95_crypt g g1 hg hg1 pw setting hp, Option.some.injEq] at h
  subst h
  rw [C95_crypt g g1 hg hg1 pw' _ hp', Option.some.injEq]
  have hs := saltOf_hash pw setting
  unfold Md5Crypt.hash at hs ⊢
  rw [hs]
  constructor
  · intro e
    exact text_inj (md5_length _) (md5_length _) (List.append_cancel_left e)
  · intro e; rw [e]

/-- C95: the shape of a stored hash: "$1$", at most eight bytes of salt without '$', '$', 22 characters of the alphabet (so no ':' that would end the
field of the shadow file, unless the salt has it). -/
theorem C95_shape (g g1 : List Byte) (hg : g.length = 64) (hg1 : g1.length = 64) (pw setting : List Byte) (hp : pw.length < 2 ^ 31) :
    ∃ salt chars, crypt g g1 pw setting = some (ascii "$1$" ++ salt ++ ascii "$" ++ chars) ∧ salt.length ≤ 8 ∧ (∀ c ∈ salt, c ≠ 0x24) ∧
      chars.length = 22 ∧ ∀ c ∈ chars, c ∈ ascii "./0123456789ABCDEFGHIJKLMNOPQRSTUVWXYZabcdefghijklmnopqrstuvwxyz" := by
  refine ⟨Md5Crypt.saltOf setting, Md5Crypt.text (Md5Crypt.rounds pw (Md5Crypt.saltOf setting) 1000), ?_, saltOf_length _, saltOf_no_dollar _, text_length _, text_alphabet _⟩
  rw [C95_crypt g g1 hg hg1 pw setting hp]
  rfl

example : Md5Crypt.saltOf (ascii "$1$saltsalt$qjXMvbEw8oaL.CzflDtaK/") = ascii "saltsalt" := by decide +kernel
example : Md5Crypt.saltOf (ascii "0123456789") = ascii "01234567" := by decide +kernel
/-- the hypotheses of the theorems on stored hashes are met -/
example : ∃ stored, crypt (List.replicate 64 1) (List.replicate 64 2) (ascii "password") (ascii "$1$saltsalt$") = some stored ∧
    stored.take 12 = ascii "$1$saltsalt$" := ⟨_, C95_crypt _ _ rfl rfl _ _ (by decide +kernel), rfl⟩

end Pam.Digest.Md5
