import Verif.Digest.Md5Spec
/-
The MD5-based password hash ("$1$"), in terms of MD5.
-/
namespace Pam.Digest.Spec.Md5Crypt
open Pam.Digest

/-- '$' -/
def dollar : Byte := 0x24

/-- "$1$" -/
def prefix1 : List Byte := [0x24, 0x31, 0x24]

/-- the salt in a setting: what is behind "$1$" if that is there, up to the next '$', at most eight bytes -/
def saltOf (setting : List Byte) : List Byte :=
  ((if setting.take 3 = prefix1 then setting.drop 3 else setting).takeWhile (· ≠ dollar)).take 8

/-- the first digest -/
def first (pw salt : List Byte) : List Byte :=
  let alt := md5 (pw ++ salt ++ pw)
  md5 (pw ++ prefix1 ++ salt
    -- as many bytes of `alt`, over and over, as the password has
    ++ (List.range pw.length).map (fun i => alt.getD (i % 16) 0)
    -- for each binary digit of the length of the password, the lowest first: a NUL for a 1, the first byte of the password for a 0
    ++ if pw.length = 0 then [] else (List.range (pw.length.log2 + 1)).map (fun k => if pw.length.testBit k then 0 else pw.getD 0 0))

/-- the digest after `i` of the thousand rounds -/
def rounds (pw salt : List Byte) : Nat → List Byte
  | 0 => first pw salt
  | i + 1 =>
    let r := rounds pw salt i
    md5 ((if i % 2 = 1 then pw else r) ++ (if i % 3 = 0 then [] else salt) ++ (if i % 7 = 0 then [] else pw) ++ (if i % 2 = 1 then r else pw))

/-- the 64 characters -/
def alphabet : List Byte := ("./0123456789ABCDEFGHIJKLMNOPQRSTUVWXYZabcdefghijklmnopqrstuvwxyz".toList).map fun c => BitVec.ofNat 8 c.toNat

/-- `n` digits of a number in base 64, the lowest first -/
def base64 (v n : Nat) : List Byte := (List.range n).map fun k => alphabet.getD (v / 64 ^ k % 64) 0

/-- the characters for a digest -/
def text (d : List Byte) : List Byte :=
  let b := fun i => (d.getD i 0).toNat
  (([(0, 6, 12), (1, 7, 13), (2, 8, 14), (3, 9, 15), (4, 10, 5)].map fun (x, y, z) => base64 (b x * 65536 + b y * 256 + b z) 4).flatten) ++ base64 (b 11) 2

/-- the hash of a password with a setting -/
def hash (pw setting : List Byte) : List Byte :=
  prefix1 ++ saltOf setting ++ [dollar] ++ text (rounds pw (saltOf setting) 1000)

end Pam.Digest.Spec.Md5Crypt
