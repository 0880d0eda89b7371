import Verif.Digest.Basics
/-
SHA-1 as FIPS 180-4 describes it (sections 4.1.1, 4.2.1, 5.1.1, 5.3.1, 6.1.2), and HMAC as RFC 2104 does.
-/
namespace Pam.Digest.Spec
open Pam.Digest

/-- the message with its padding: a 1 bit, the fewest 0 bits that leave 64 bits of the last block, the length of the message in bits -/
def pad (m : List Byte) : List Byte :=
  m ++ 0x80 :: List.replicate ((119 - m.length % 64) % 64) 0 ++ (List.range 8).map (fun i => BitVec.ofNat 8 (8 * m.length / 256 ^ (7 - i)))

/-- whole blocks of 64 bytes are taken in, one after the other -/
def absorb {S : Type} (compress : S → List Byte → S) (s : S) (m : List Byte) : S :=
  if m.length < 64 then s else absorb compress (compress s (m.take 64)) (m.drop 64)
termination_by m.length
decreasing_by simp; omega

namespace Sha1

/-- word `t` of a block, big-endian -/
def word (block : List Byte) (t : Nat) : Word :=
  let b := fun i => block.getD (4 * t + i) 0
  BitVec.ofNat 32 ((b 0).toNat * 256 ^ 3 + (b 1).toNat * 256 ^ 2 + (b 2).toNat * 256 + (b 3).toNat)

/-- the message schedule -/
def W (block : List Byte) (t : Nat) : Word :=
  if t < 16 then word block t
  else (W block (t - 3) ^^^ W block (t - 8) ^^^ W block (t - 14) ^^^ W block (t - 16)).rotateLeft 1

/-- Ch, Parity, Maj, Parity -/
def f (t : Nat) (x y z : Word) : Word :=
  if t < 20 then (x &&& y) ^^^ (~~~x &&& z)
  else if t < 40 then x ^^^ y ^^^ z
  else if t < 60 then (x &&& y) ^^^ (x &&& z) ^^^ (y &&& z)
  else x ^^^ y ^^^ z

/-- the constants -/
def K (t : Nat) : Word := if t < 20 then 0x5a827999 else if t < 40 then 0x6ed9eba1 else if t < 60 then 0x8f1bbcdc else 0xca62c1d6

/-- the five words of the hash value -/
abbrev Hash := Word × Word × Word × Word × Word

/-- the working variables after `t` rounds -/
def rounds (block : List Byte) (h : Hash) : Nat → Hash
  | 0 => h
  | t + 1 =>
    let (a, b, c, d, e) := rounds block h t
    (a.rotateLeft 5 + f t b c d + e + K t + W block t, a, b.rotateLeft 30, c, d)

/-- a block -/
def compress (h : Hash) (block : List Byte) : Hash :=
  let (a, b, c, d, e) := rounds block h 80
  (h.1 + a, h.2.1 + b, h.2.2.1 + c, h.2.2.2.1 + d, h.2.2.2.2 + e)

/-- the initial hash value -/
def initial : Hash := (0x67452301, 0xefcdab89, 0x98badcfe, 0x10325476, 0xc3d2e1f0)

/-- the bytes of a word, big-endian -/
def bytes (w : Word) : List Byte := (List.range 4).map (fun i => BitVec.ofNat 8 (w.toNat / 256 ^ (3 - i)))

end Sha1

/-- SHA-1 of a message (shorter than 2^61 bytes) -/
def sha1 (m : List Byte) : List Byte :=
  let h := absorb Sha1.compress Sha1.initial (pad m)
  Sha1.bytes h.1 ++ Sha1.bytes h.2.1 ++ Sha1.bytes h.2.2.1 ++ Sha1.bytes h.2.2.2.1 ++ Sha1.bytes h.2.2.2.2

/-- HMAC with SHA-1: `H((K ⊕ opad) ‖ H((K ⊕ ipad) ‖ text))`, where K is the key, or its hash if it is longer than a block, followed by zeros -/
def hmacSha1 (key text : List Byte) : List Byte :=
  let k := if key.length ≤ 64 then key else sha1 key
  let k := k ++ List.replicate (64 - k.length) 0
  sha1 (k.map (· ^^^ 0x5c) ++ sha1 (k.map (· ^^^ 0x36) ++ text))

end Pam.Digest.Spec
