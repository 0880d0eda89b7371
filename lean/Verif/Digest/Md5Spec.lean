import Verif.Digest.Sha1Spec
/-
MD5 as RFC 1321 describes it (sections 3.1 to 3.5).
-/
namespace Pam.Digest.Spec
open Pam.Digest
namespace Md5

/-- the message with its padding: as for SHA-1, but the length is written with the least significant byte first -/
def pad (m : List Byte) : List Byte :=
  m ++ 0x80 :: List.replicate ((119 - m.length % 64) % 64) 0 ++ (List.range 8).map (fun i => BitVec.ofNat 8 (8 * m.length / 256 ^ i))

/-- word `k` of a block, little-endian -/
def X (block : List Byte) (k : Nat) : Word :=
  let b := fun i => block.getD (4 * k + i) 0
  BitVec.ofNat 32 ((b 0).toNat + (b 1).toNat * 256 + (b 2).toNat * 256 ^ 2 + (b 3).toNat * 256 ^ 3)

/-- F, G, H, I -/
def f (t : Nat) (x y z : Word) : Word :=
  if t < 16 then (x &&& y) ||| (~~~x &&& z)
  else if t < 32 then (x &&& z) ||| (y &&& ~~~z)
  else if t < 48 then x ^^^ y ^^^ z
  else y ^^^ (x ||| ~~~z)

/-- the table T: `T[i]` is the integer part of 4294967296 times abs(sin(i)), i in radians; the first entry is `T[1]` -/
def T : List Word := [
  0xd76aa478, 0xe8c7b756, 0x242070db, 0xc1bdceee, 0xf57c0faf, 0x4787c62a, 0xa8304613, 0xfd469501,
  0x698098d8, 0x8b44f7af, 0xffff5bb1, 0x895cd7be, 0x6b901122, 0xfd987193, 0xa679438e, 0x49b40821,
  0xf61e2562, 0xc040b340, 0x265e5a51, 0xe9b6c7aa, 0xd62f105d, 0x02441453, 0xd8a1e681, 0xe7d3fbc8,
  0x21e1cde6, 0xc33707d6, 0xf4d50d87, 0x455a14ed, 0xa9e3e905, 0xfcefa3f8, 0x676f02d9, 0x8d2a4c8a,
  0xfffa3942, 0x8771f681, 0x6d9d6122, 0xfde5380c, 0xa4beea44, 0x4bdecfa9, 0xf6bb4b60, 0xbebfbc70,
  0x289b7ec6, 0xeaa127fa, 0xd4ef3085, 0x04881d05, 0xd9d4d039, 0xe6db99e5, 0x1fa27cf8, 0xc4ac5665,
  0xf4292244, 0x432aff97, 0xab9423a7, 0xfc93a039, 0x655b59c3, 0x8f0ccc92, 0xffeff47d, 0x85845dd1,
  0x6fa87e4f, 0xfe2ce6e0, 0xa3014314, 0x4e0811a1, 0xf7537e82, 0xbd3af235, 0x2ad7d2bb, 0xeb86d391]

/-- the word used in operation `t` -/
def index (t : Nat) : Nat :=
  if t < 16 then t else if t < 32 then (5 * t + 1) % 16 else if t < 48 then (3 * t + 5) % 16 else 7 * t % 16

/-- how far operation `t` rotates -/
def shift (t : Nat) : Nat :=
  if t < 16 then [7, 12, 17, 22].getD (t % 4) 0
  else if t < 32 then [5, 9, 14, 20].getD (t % 4) 0
  else if t < 48 then [4, 11, 16, 23].getD (t % 4) 0
  else [6, 10, 15, 21].getD (t % 4) 0

/-- A, B, C, D -/
abbrev State := Word × Word × Word × Word

/-- the registers after `t` operations; the operation `a = b + ((a + f(b,c,d) + X[k] + T[i]) <<< s)`, after which the registers change places -/
def operations (block : List Byte) (s : State) : Nat → State
  | 0 => s
  | t + 1 =>
    let (a, b, c, d) := operations block s t
    (d, b + (a + f t b c d + X block (index t) + T.getD t 0).rotateLeft (shift t), b, c)

/-- a block -/
def compress (s : State) (block : List Byte) : State :=
  let (a, b, c, d) := operations block s 64
  (s.1 + a, s.2.1 + b, s.2.2.1 + c, s.2.2.2 + d)

/-- the initial state -/
def initial : State := (0x67452301, 0xefcdab89, 0x98badcfe, 0x10325476)

/-- the bytes of a word, little-endian -/
def bytes (w : Word) : List Byte := (List.range 4).map (fun i => BitVec.ofNat 8 (w.toNat / 256 ^ i))

end Md5

/-- MD5 of a message (only the low 64 bits of its length in bits count) -/
def md5 (m : List Byte) : List Byte :=
  let s := absorb Md5.compress Md5.initial (Md5.pad m)
  Md5.bytes s.1 ++ Md5.bytes s.2.1 ++ Md5.bytes s.2.2.1 ++ Md5.bytes s.2.2.2

end Pam.Digest.Spec
