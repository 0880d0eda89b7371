import Verif.Digest.Md5
/-
The MD5 password hash of pam_unix: modules/pam_unix/md5_crypt.c.  Strings are lists of the bytes before the NUL.
-/
namespace Pam.Digest.Md5
open Pam.Digest

/-- `itoa64`: modules/pam_unix/md5_crypt.c:21-22 -/
def itoa64 : List Byte := "./0123456789ABCDEFGHIJKLMNOPQRSTUVWXYZabcdefghijklmnopqrstuvwxyz".toList.map fun c => BitVec.ofNat 8 c.toNat

/-- `to64`: modules/pam_unix/md5_crypt.c:24-30 -/
def to64 : (v n : Nat) → List Byte
  | _, 0 => []
  | v, n + 1 => itoa64.getD (v &&& 0x3f) 0 :: to64 (v >>> 6) n

/-- `magic`: modules/pam_unix/md5_crypt.c:40 -/
def magic : List Byte := [0x24, 0x31, 0x24]

/-- the loop that looks for the end of the salt: modules/pam_unix/md5_crypt.c:59-60; `room` is how many bytes it may still take -/
def saltLoop : (room : Nat) → List Byte → List Byte
  | 0, _ => []
  | _, [] => []
  | room + 1, c :: r => if c ≠ 0x24 then c :: saltLoop room r else []

/-- the true salt: modules/pam_unix/md5_crypt.c:51-63 -/
def trueSalt (salt : List Byte) : List Byte := saltLoop 8 (if magic.isPrefixOf salt then salt.drop 3 else salt)

/-- "just as many characters of the MD5(pw,salt,pw)": modules/pam_unix/md5_crypt.c:82-83.  `pl` is an `int`; the fuel is at least `pl`. -/
def sameLength (final : List Byte) : (fuel : Nat) → (pl : Int) → List (List Byte)
  | 0, _ => []
  | fuel + 1, pl => if pl > 0 then final.take (if pl > 16 then 16 else pl.toNat) :: sameLength final fuel (pl - 16) else []

/-- "something really weird": modules/pam_unix/md5_crypt.c:89-93, where `final` has been overwritten with zeros.  The fuel is at least `i`. -/
def weird (pw : List Byte) : (fuel i : Nat) → List (List Byte)
  | 0, _ => []
  | fuel + 1, i => if i ≠ 0 then (if i &&& 1 ≠ 0 then [0] else pw.take 1) :: weird pw fuel (i >>> 1) else []

/-- one turn of the loop that makes it slow: modules/pam_unix/md5_crypt.c:103-119.  (`MD5Final` has left zeros in the context.) -/
def turn (pw sp : List Byte) (i : Nat) (final : List Byte) : Option (List Byte) :=
  let p1 := if i &&& 1 ≠ 0 then [pw] else [final]
  let p2 := if i % 3 ≠ 0 then [sp] else []
  let p3 := if i % 7 ≠ 0 then [pw] else []
  let p4 := if i &&& 1 ≠ 0 then [final] else [pw]
  digest (List.replicate 64 0) (p1 ++ p2 ++ p3 ++ p4)

/-- the loop: modules/pam_unix/md5_crypt.c:102-120; `n` turns from `i` on -/
def turns (pw sp : List Byte) : (n i : Nat) → List Byte → Option (List Byte)
  | 0, _, final => some final
  | n + 1, i, final =>
    match turn pw sp i final with
    | none => none
    | some final => turns pw sp n (i + 1) final

/-- `final[i]` as an `int` -/
def at' (final : List Byte) (i : Nat) : Nat := (final.getD i 0).toNat

/-- the 22 characters: modules/pam_unix/md5_crypt.c:122-142 -/
def encode (final : List Byte) : List Byte :=
  let f := at' final
  to64 ((f 0 <<< 16) ||| (f 6 <<< 8) ||| f 12) 4 ++
  to64 ((f 1 <<< 16) ||| (f 7 <<< 8) ||| f 13) 4 ++
  to64 ((f 2 <<< 16) ||| (f 8 <<< 8) ||| f 14) 4 ++
  to64 ((f 3 <<< 16) ||| (f 9 <<< 8) ||| f 15) 4 ++
  to64 ((f 4 <<< 16) ||| (f 10 <<< 8) ||| f 5) 4 ++
  to64 (f 11) 2

/-- `crypt_md5`: modules/pam_unix/md5_crypt.c:38-151.  `g` and `g1` are what is in the input buffers of `ctx` and `ctx1` at the beginning. -/
def crypt (g g1 : List Byte) (pw salt : List Byte) : Option (List Byte) :=
  let sp := trueSalt salt
  match digest g1 [pw, sp, pw] with
  | none => none
  | some final =>
    match digest g ([pw, magic, sp] ++ sameLength final pw.length pw.length ++ weird pw pw.length pw.length) with
    | none => none
    | some final =>
      match turns pw sp 1000 0 final with
      | none => none
      | some final => some (magic ++ sp ++ [0x24] ++ encode final)

end Pam.Digest.Md5
