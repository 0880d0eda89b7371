import Verif.Core.Codes
import Verif.Core.Text
/-
Model of how pam_unix checks and makes password hashes: modules/pam_unix/passverify.c, bigcrypt.c and md5_crypt.c.
Texts are C strings, so without NUL.  Memory is available.
-/
namespace Pam.Unix
open Pam

abbrev Str := List Char

/-- the letters of traditional hashes -/
def isB64 (c : Char) : Bool :=
  (65 ≤ c.toNat && c.toNat ≤ 90) || (97 ≤ c.toNat && c.toNat ≤ 122) || (48 ≤ c.toNat && c.toNat ≤ 57) || c == '.' || c == '/'

/-- `strip_hpux_aging`: modules/pam_unix/passverify.c:56-70 -/
def stripAging (hash : Str) : Str :=
  if hash.head? ≠ some '$' ∧ hash.length > 13 then hash.take 13 ++ (hash.drop 13).takeWhile isB64 else hash

/-- the salt of an MD5 hash: modules/pam_unix/md5_crypt.c:51-62 -/
def md5Salt (setting : Str) : Str :=
  let sp := if "$1$".toList.isPrefixOf setting then setting.drop 3 else setting
  (sp.take 8).takeWhile (· ≠ '$')

/-- `crypt_md5`: modules/pam_unix/md5_crypt.c:38-153.  `digest` is what lines 64-143 make of the password and the salt. -/
def cryptMd5 (digest : Str → Str → Str) (pw setting : Str) : Str :=
  "$1$".toList ++ md5Salt setting ++ '$' :: digest pw (md5Salt setting)

/-- `strncpy(.., s, n)` into a zeroed buffer -/
def pad (n : Nat) (s : Str) : Str := s.take n ++ List.replicate (n - s.length) NUL

/-- the string at the beginning of a buffer -/
def cstr (s : Str) : Str := s.takeWhile (· ≠ NUL)

/-- the further blocks: modules/pam_unix/bigcrypt.c:134-162.  The result of crypt has two characters or more. -/
def bigLoop (crypt : Str → Str → Option Str) : (left : Nat) → (plain salt : Str) → Option Str
  | 0, _, _ => some []
  | k + 1, plain, salt =>
    match crypt plain salt with
    | none => none
    | some t =>
      let b := pad 11 (t.drop 2)
      match bigLoop crypt k (plain.drop 8) (cstr b) with
      | none => none
      | some r => some (b ++ r)

/-- `bigcrypt`: modules/pam_unix/bigcrypt.c:51-173.  `crypt` is `crypt_r`. -/
def bigcrypt (crypt : Str → Str → Option Str) (key salt : Str) : Option Str :=
  let keybuf := key.take 130
  let keybuf := if salt.length = 13 then keybuf.take 8 else keybuf
  let n := if keybuf.length = 0 then 1 else 1 + (keybuf.length - 1) / 8
  let n := if n > 16 then 16 else n
  match crypt keybuf salt with
  | none => none
  | some t =>
    let b := pad 13 t
    match bigLoop crypt (n - 1) (keybuf.drop 8) (cstr (b.drop 2)) with
    | none => none
    | some r => some (cstr (b ++ r))

/-- the functions that make hashes -/
structure Crypts where
  /-- `crypt_r` -/
  crypt : Str → Str → Option Str
  /-- `Goodcrypt_md5` without salt and magic -/
  good : Str → Str → Str
  /-- `Brokencrypt_md5` without salt and magic -/
  broken : Str → Str → Str

/-- what is compared with the stored hash: modules/pam_unix/passverify.c:101-163 -/
def recompute (c : Crypts) (p hash : Str) : Option Str :=
  if "$1$".toList.isPrefixOf hash then
    if cryptMd5 c.good p hash = hash then some (cryptMd5 c.good p hash) else some (cryptMd5 c.broken p hash)
  else if hash.head? ≠ some '$' ∧ hash.length ≥ 13 then
    match bigcrypt c.crypt p hash with
    | none => none
    | some pp => some (if hash.length = 13 ∧ pp.length > hash.length then pp.take hash.length else pp)
  else c.crypt p hash

/-- `verify_pwd_hash`: modules/pam_unix/passverify.c:72-180.  The comparison is that of C28. -/
def verifyHash (c : Crypts) (p : Option Str) (hash : Str) (nullok : Bool) : Int :=
  let hash := stripAging hash
  if p = some [] ∧ ¬ nullok then PAM_AUTH_ERR
  else if hash = [] then
    if p = some [] ∧ nullok then PAM_SUCCESS else PAM_AUTH_ERR
  else
    match p with
    | none => PAM_AUTH_ERR
    | some p =>
      if hash.head? = some '*' ∨ hash.head? = some '!' then PAM_AUTH_ERR
      else if recompute c p hash = some hash then PAM_SUCCESS else PAM_AUTH_ERR

/-- `i64c`: modules/pam_unix/passverify.c:368-386 -/
def i64c (i : Nat) : Char :=
  if i > 63 then 'z'
  else if i = 0 then '.'
  else if i = 1 then '/'
  else if 2 ≤ i ∧ i ≤ 11 then Char.ofNat (48 - 2 + i)
  else if 12 ≤ i ∧ i ≤ 37 then Char.ofNat (65 - 12 + i)
  else Char.ofNat (97 - 38 + i)

/-- `crypt_make_salt`: modules/pam_unix/passverify.c:388-428, from random bytes -/
def makeSalt (rnd : Nat → Nat) (length : Nat) : Str := (List.range length).map (fun i => i64c (rnd i % 64))

/-- the ways to make a hash -/
inductive Algo where
  | md5 | yescrypt | gost | blowfish | sha256 | sha512 | bigcrypt | des
deriving DecidableEq, Repr

/-- the prefix of the hashes of libcrypt: modules/pam_unix/passverify.c:459-474 -/
def Algo.id : Algo → Str
  | .yescrypt => "$y$".toList
  | .gost => "$gy$".toList
  | .blowfish => "$2b$".toList
  | .sha256 => "$5$".toList
  | .sha512 => "$6$".toList
  | _ => []

/-- `create_password_hash`: modules/pam_unix/passverify.c:446-537.  `gensalt` is what `crypt_gensalt_rn`, or lines 497-501 if
there is no such function, leave in `salt`. -/
def createHash (c : Crypts) (rnd : Nat → Nat) (gensalt : Str → Int → Str) (a : Algo) (rounds : Int) (password : Str) : Option Str :=
  match a with
  | .md5 => some (cryptMd5 c.good password ("$1$".toList ++ makeSalt rnd 8))
  | .bigcrypt => bigcrypt c.crypt password (makeSalt rnd 2)
  | .des => bigcrypt c.crypt (if password.length > 8 then password.take 8 else password) (makeSalt rnd 2)
  | a =>
    match c.crypt password (gensalt a.id rounds) with
    | none => none
    | some h => if a.id.isPrefixOf h then some h else none

end Pam.Unix
