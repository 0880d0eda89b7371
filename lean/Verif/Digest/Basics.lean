/-
Bytes, words and memory for the message digests of pam_timestamp, pam_namespace and pam_unix.
-/
namespace Pam.Digest

/-- `unsigned char` -/
abbrev Byte := BitVec 8

/-- `uint32_t` -/
abbrev Word := BitVec 32

/-- `memcpy(buf + off, src, n)` for a buffer of fixed size; `none` if it would write outside of it -/
def store (buf : List Byte) (off : Nat) (src : List Byte) : Option (List Byte) :=
  if off + src.length ≤ buf.length then some (buf.take off ++ src ++ buf.drop (off + src.length)) else none

/-- four bytes as a number, the first one counting most -/
def be32 (a b c d : Byte) : Word := a ++ b ++ c ++ d

/-- `(x >> 24) & 0xff` and so on, the most significant byte first -/
def beBytes (x : Word) : List Byte := [x.extractLsb' 24 8, x.extractLsb' 16 8, x.extractLsb' 8 8, x.extractLsb' 0 8]

/-- the words of a buffer of bytes, read with the most significant byte first.  On a little-endian machine this is `htonl(buffer[i])`; on a big-endian
one `htonl` does nothing and `buffer[i]` is this. -/
def beWords : List Byte → List Word
  | a :: b :: c :: d :: r => be32 a b c d :: beWords r
  | _ => []

theorem store_ok {buf src : List Byte} {off : Nat} (h : off + src.length ≤ buf.length) :
    store buf off src = some (buf.take off ++ src ++ buf.drop (off + src.length)) := if_pos h

end Pam.Digest
