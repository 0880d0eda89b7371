import Verif.Digest.Basics
/-
MD5 of pam_unix and pam_namespace, and the MD5 password hash of pam_unix.  modules/pam_unix/md5.c and modules/pam_namespace/md5.c have the same
statements; the lines cited are those of the former.  Words are read and written with the least significant byte first: on little-endian machines that
is how they lie in memory, on others `byteReverse` does it (not in the variant md5_broken.c, which is not modelled there).
-/
namespace Pam.Digest.Md5
open Pam.Digest

/-- `F1`: modules/pam_unix/md5.c:162 -/
def F1 (x y z : Word) : Word := z ^^^ (x &&& (y ^^^ z))
/-- `F2`: modules/pam_unix/md5.c:163 -/
def F2 (x y z : Word) : Word := F1 z x y
/-- `F3`: modules/pam_unix/md5.c:164 -/
def F3 (x y z : Word) : Word := x ^^^ y ^^^ z
/-- `F4`: modules/pam_unix/md5.c:165 -/
def F4 (x y z : Word) : Word := y ^^^ (x ||| ~~~z)

/-- `MD5STEP`, the new value of `w`: modules/pam_unix/md5.c:168-169 -/
def step (f : Word → Word → Word → Word) (w x y z data : Word) (s : Nat) : Word :=
  let w := w + (f x y z + data)
  let w := w <<< s ||| w >>> (32 - s)
  w + x

/-- four bytes as a number, the last one counting most -/
def le32 (a b c d : Byte) : Word := d ++ c ++ b ++ a

/-- `in[i]`: the union of bytes and words, modules/pam_unix/md5.h:15-18 -/
def word (block : List Byte) (i : Nat) : Word :=
  le32 (block.getD (4 * i) 0) (block.getD (4 * i + 1) 0) (block.getD (4 * i + 2) 0) (block.getD (4 * i + 3) 0)

/-- the bytes of a word in memory -/
def leBytes (x : Word) : List Byte := [x.extractLsb' 0 8, x.extractLsb' 8 8, x.extractLsb' 16 8, x.extractLsb' 24 8]

/-- `buf` -/
structure Buf where
  a : Word
  b : Word
  c : Word
  d : Word
deriving DecidableEq, Repr

/-- four steps in a row, which set `a`, `d`, `c` and `b`; for each the index of the word, the constant and the shift -/
def quad (f : Word → Word → Word → Word) (block : List Byte) (s : Buf) (p0 p1 p2 p3 : Nat × Word × Nat) : Buf :=
  let a := step f s.a s.b s.c s.d (word block p0.1 + p0.2.1) p0.2.2
  let d := step f s.d a s.b s.c (word block p1.1 + p1.2.1) p1.2.2
  let c := step f s.c d a s.b (word block p2.1 + p2.2.1) p2.2.2
  let b := step f s.b c d a (word block p3.1 + p3.2.1) p3.2.2
  { a, b, c, d }

/-- the 64 steps: modules/pam_unix/md5.c:180-251 -/
def steps (block : List Byte) (s : Buf) : Buf :=
  let s := quad F1 block s (0, 0xd76aa478, 7) (1, 0xe8c7b756, 12) (2, 0x242070db, 17) (3, 0xc1bdceee, 22)
  let s := quad F1 block s (4, 0xf57c0faf, 7) (5, 0x4787c62a, 12) (6, 0xa8304613, 17) (7, 0xfd469501, 22)
  let s := quad F1 block s (8, 0x698098d8, 7) (9, 0x8b44f7af, 12) (10, 0xffff5bb1, 17) (11, 0x895cd7be, 22)
  let s := quad F1 block s (12, 0x6b901122, 7) (13, 0xfd987193, 12) (14, 0xa679438e, 17) (15, 0x49b40821, 22)
  let s := quad F2 block s (1, 0xf61e2562, 5) (6, 0xc040b340, 9) (11, 0x265e5a51, 14) (0, 0xe9b6c7aa, 20)
  let s := quad F2 block s (5, 0xd62f105d, 5) (10, 0x02441453, 9) (15, 0xd8a1e681, 14) (4, 0xe7d3fbc8, 20)
  let s := quad F2 block s (9, 0x21e1cde6, 5) (14, 0xc33707d6, 9) (3, 0xf4d50d87, 14) (8, 0x455a14ed, 20)
  let s := quad F2 block s (13, 0xa9e3e905, 5) (2, 0xfcefa3f8, 9) (7, 0x676f02d9, 14) (12, 0x8d2a4c8a, 20)
  let s := quad F3 block s (5, 0xfffa3942, 4) (8, 0x8771f681, 11) (11, 0x6d9d6122, 16) (14, 0xfde5380c, 23)
  let s := quad F3 block s (1, 0xa4beea44, 4) (4, 0x4bdecfa9, 11) (7, 0xf6bb4b60, 16) (10, 0xbebfbc70, 23)
  let s := quad F3 block s (13, 0x289b7ec6, 4) (0, 0xeaa127fa, 11) (3, 0xd4ef3085, 16) (6, 0x04881d05, 23)
  let s := quad F3 block s (9, 0xd9d4d039, 4) (12, 0xe6db99e5, 11) (15, 0x1fa27cf8, 16) (2, 0xc4ac5665, 23)
  let s := quad F4 block s (0, 0xf4292244, 6) (7, 0x432aff97, 10) (14, 0xab9423a7, 15) (5, 0xfc93a039, 21)
  let s := quad F4 block s (12, 0x655b59c3, 6) (3, 0x8f0ccc92, 10) (10, 0xffeff47d, 15) (1, 0x85845dd1, 21)
  let s := quad F4 block s (8, 0x6fa87e4f, 6) (15, 0xfe2ce6e0, 10) (6, 0xa3014314, 15) (13, 0x4e0811a1, 21)
  let s := quad F4 block s (4, 0xf7537e82, 6) (11, 0xbd3af235, 10) (2, 0x2ad7d2bb, 15) (9, 0xeb86d391, 21)
  s

/-- `MD5Transform`: modules/pam_unix/md5.c:176-257 -/
def transform (buf : Buf) (block : List Byte) : Buf :=
  let s := steps block buf
  { a := buf.a + s.a, b := buf.b + s.b, c := buf.c + s.c, d := buf.d + s.d }

/-- `struct MD5Context`: modules/pam_unix/md5.h:9-19 -/
structure Ctx where
  buf : Buf
  bits0 : Word
  bits1 : Word
  inp : List Byte
deriving DecidableEq, Repr

/-- `MD5Init`: modules/pam_unix/md5.c:54-63.  The input buffer keeps whatever was in it. -/
def init (garbage : List Byte) : Ctx :=
  { buf := { a := 0x67452301, b := 0xefcdab89, c := 0x98badcfe, d := 0x10325476 }, bits0 := 0, bits1 := 0, inp := garbage }

/-- the loop over full blocks and the rest: modules/pam_unix/md5.c:99-110.  The fuel is more than the length of the data. -/
def blocks : (fuel : Nat) → Ctx → List Byte → Option Ctx
  | 0, _, _ => none
  | fuel + 1, ctx, data =>
    if data.length ≥ 64 then
      match store ctx.inp 0 (data.take 64) with
      | none => none
      | some b => blocks fuel { ctx with buf := transform ctx.buf b, inp := b } (data.drop 64)
    else
      match store ctx.inp 0 data with
      | none => none
      | some b => some { ctx with inp := b }

/-- `MD5Update`: modules/pam_unix/md5.c:69-111.  (`len` is an `unsigned`: the data are shorter than 2^32 bytes.) -/
def update (ctx : Ctx) (data : List Byte) : Option Ctx :=
  let len : Word := BitVec.ofNat 32 data.length
  let t := ctx.bits0
  let bits0 := t + (len <<< 3)
  let bits1 := if bits0 < t then ctx.bits1 + 1 else ctx.bits1
  let ctx := { ctx with bits0 := bits0, bits1 := bits1 + (len >>> 29) }
  let n := ((t >>> 3) &&& 0x3f).toNat
  if n ≠ 0 then
    if data.length < 64 - n then
      match store ctx.inp n data with
      | none => none
      | some b => some { ctx with inp := b }
    else
      match store ctx.inp n (data.take (64 - n)) with
      | none => none
      | some b => blocks (data.length + 1) { ctx with buf := transform ctx.buf b, inp := b } (data.drop (64 - n))
  else blocks (data.length + 1) ctx data

/-- the padding before the length: modules/pam_unix/md5.c:122-145 -/
def padInput (ctx : Ctx) : Option Ctx :=
  let count := ((ctx.bits0 >>> 3) &&& 0x3f).toNat
  match store ctx.inp count [0x80] with
  | none => none
  | some b =>
    let left := 64 - 1 - count
    if left < 8 then
      match store b (count + 1) (List.replicate left 0) with
      | none => none
      | some b =>
        match store b 0 (List.replicate 56 0) with
        | none => none
        | some b' => some { ctx with buf := transform ctx.buf b, inp := b' }
    else
      match store b (count + 1) (List.replicate (left - 8) 0) with
      | none => none
      | some b => some { ctx with inp := b }

/-- `MD5Final`, the digest: modules/pam_unix/md5.c:117-155 -/
def final (ctx : Ctx) : Option (List Byte) :=
  match padInput ctx with
  | none => none
  | some ctx =>
    match store ctx.inp 56 (leBytes ctx.bits0 ++ leBytes ctx.bits1) with
    | none => none
    | some b =>
      let s := transform ctx.buf b
      some (leBytes s.a ++ leBytes s.b ++ leBytes s.c ++ leBytes s.d)

/-- `MD5Init`, `MD5Update` for each part, `MD5Final` -/
def digest (garbage : List Byte) (parts : List (List Byte)) : Option (List Byte) :=
  match parts.foldlM update (init garbage) with
  | none => none
  | some ctx => final ctx

end Pam.Digest.Md5
