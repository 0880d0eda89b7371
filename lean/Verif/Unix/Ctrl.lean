import Verif.Unix.Crypt
import Verif.Core.Strtol
import Verif.Util.Files
/-
Model of the options of pam_unix: modules/pam_unix/support.h and `_set_ctrl` in support.c.
-/
namespace Pam.Unix
open Pam

abbrev Ctrl := BitVec 64

/-- `UNIX_Ctrls`: modules/pam_unix/support.h:23-28 -/
structure Ent where
  token : Option Str
  mask : Ctrl
  flag : Ctrl
  hash : Bool

/-- `_ALL_ON_`: modules/pam_unix/support.h:50 -/
abbrev ALL_ON : Ctrl := BitVec.allOnes 64
/-- the mask of the hash methods, 015660420000 -/
abbrev HASHES : Ctrl := 0o15660420000#64

/-- `unix_args`: modules/pam_unix/support.h:112-152 -/
def args : List Ent :=
  [⟨none, ALL_ON, 0o1#64, false⟩,
   ⟨none, ALL_ON, 0o2#64, false⟩,
   ⟨none, ALL_ON, 0o4#64, false⟩,
   ⟨some "audit".toList, ALL_ON, 0o10#64, false⟩,
   ⟨some "use_first_pass".toList, ALL_ON ^^^ 0o60#64, 0o20#64, false⟩,
   ⟨some "try_first_pass".toList, ALL_ON ^^^ 0o60#64, 0o40#64, false⟩,
   ⟨some "authtok_type=".toList, ALL_ON, 0o100#64, false⟩,
   ⟨none, ALL_ON ^^^ 0o600#64, 0o200#64, false⟩,
   ⟨none, ALL_ON ^^^ 0o600#64, 0o400#64, false⟩,
   ⟨none, ALL_ON, 0o1000#64, false⟩,
   ⟨none, ALL_ON, 0o2000#64, false⟩,
   ⟨some "use_authtok".toList, ALL_ON, 0o4000#64, false⟩,
   ⟨some "shadow".toList, ALL_ON, 0o10000#64, false⟩,
   ⟨some "md5".toList, ALL_ON ^^^ HASHES, 0o20000#64, true⟩,
   ⟨some "nullok".toList, ALL_ON ^^^ 0o1000#64, 0#64, false⟩,
   ⟨some "debug".toList, ALL_ON, 0o40000#64, false⟩,
   ⟨some "nodelay".toList, ALL_ON, 0o100000#64, false⟩,
   ⟨some "nis".toList, ALL_ON, 0o200000#64, false⟩,
   ⟨some "bigcrypt".toList, ALL_ON ^^^ HASHES, 0o400000#64, true⟩,
   ⟨some "likeauth".toList, ALL_ON, 0o1000000#64, false⟩,
   ⟨some "remember=".toList, ALL_ON, 0o2000000#64, false⟩,
   ⟨some "noreap".toList, ALL_ON, 0o4000000#64, false⟩,
   ⟨some "broken_shadow".toList, ALL_ON, 0o10000000#64, false⟩,
   ⟨some "sha256".toList, ALL_ON ^^^ HASHES, 0o20000000#64, true⟩,
   ⟨some "sha512".toList, ALL_ON ^^^ HASHES, 0o40000000#64, true⟩,
   ⟨some "rounds=".toList, ALL_ON, 0o100000000#64, false⟩,
   ⟨some "blowfish".toList, ALL_ON ^^^ HASHES, 0o200000000#64, true⟩,
   ⟨some "minlen=".toList, ALL_ON, 0o400000000#64, false⟩,
   ⟨some "quiet".toList, ALL_ON, 0o1000000000#64, false⟩,
   ⟨some "no_pass_expiry".toList, ALL_ON, 0o2000000000#64, false⟩,
   ⟨some "des".toList, ALL_ON ^^^ HASHES, 0#64, true⟩,
   ⟨some "gost_yescrypt".toList, ALL_ON ^^^ HASHES, 0o4000000000#64, true⟩,
   ⟨some "yescrypt".toList, ALL_ON ^^^ HASHES, 0o10000000000#64, true⟩,
   ⟨some "nullresetok".toList, ALL_ON, 0o20000000000#64, false⟩,
   ⟨none, ALL_ON, 0o40000000000#64, false⟩]

/-- the numbers of the options: modules/pam_unix/support.h:64-107 -/
abbrev UNIX__IAMROOT : Nat := 2
abbrev UNIX_AUDIT : Nat := 3
abbrev UNIX__PRELIM : Nat := 7
abbrev UNIX__UPDATE : Nat := 8
abbrev UNIX__NONULL : Nat := 9
abbrev UNIX__QUIET : Nat := 10
abbrev UNIX_USE_AUTHTOK : Nat := 11
abbrev UNIX_SHADOW : Nat := 12
abbrev UNIX_MD5_PASS : Nat := 13
abbrev UNIX__NULLOK : Nat := 14
abbrev UNIX_DEBUG : Nat := 15
abbrev UNIX_NODELAY : Nat := 16
abbrev UNIX_NIS : Nat := 17
abbrev UNIX_BIGCRYPT : Nat := 18
abbrev UNIX_LIKE_AUTH : Nat := 19
abbrev UNIX_REMEMBER_PASSWD : Nat := 20
abbrev UNIX_NOREAP : Nat := 21
abbrev UNIX_BROKEN_SHADOW : Nat := 22
abbrev UNIX_SHA256_PASS : Nat := 23
abbrev UNIX_SHA512_PASS : Nat := 24
abbrev UNIX_ALGO_ROUNDS : Nat := 25
abbrev UNIX_BLOWFISH_PASS : Nat := 26
abbrev UNIX_MIN_PASS_LEN : Nat := 27
abbrev UNIX_QUIET : Nat := 28
abbrev UNIX_NO_PASS_EXPIRY : Nat := 29
abbrev UNIX_GOST_YESCRYPT_PASS : Nat := 31
abbrev UNIX_YESCRYPT_PASS : Nat := 32
abbrev UNIX_NULLRESETOK : Nat := 33
abbrev UNIX_EXPIRED_ONLY : Nat := 34

def flagOf (x : Nat) : Ctrl := match args[x]? with
  | some e => e.flag
  | none => 0
def maskOf (x : Nat) : Ctrl := match args[x]? with
  | some e => e.mask
  | none => ALL_ON

/-- `on`: modules/pam_unix/support.h:34 -/
def on (x : Nat) (ctrl : Ctrl) : Bool := (flagOf x &&& ctrl) != 0
/-- `off`: modules/pam_unix/support.h:40 -/
def off (x : Nat) (ctrl : Ctrl) : Bool := !on x ctrl
/-- `set`: modules/pam_unix/support.h:46 -/
def set (x : Nat) (ctrl : Ctrl) : Ctrl := (ctrl &&& maskOf x) ||| flagOf x
/-- `unset`: modules/pam_unix/support.h:47 -/
def unset (x : Nat) (ctrl : Ctrl) : Ctrl := ctrl &&& ~~~ flagOf x

/-- `UNIX_DES_CRYPT`: modules/pam_unix/support.h:110 -/
def desCrypt (ctrl : Ctrl) : Bool :=
  off UNIX_MD5_PASS ctrl && off UNIX_BIGCRYPT ctrl && off UNIX_SHA256_PASS ctrl && off UNIX_SHA512_PASS ctrl &&
    off UNIX_BLOWFISH_PASS ctrl && off UNIX_GOST_YESCRYPT_PASS ctrl && off UNIX_YESCRYPT_PASS ctrl

/-- the method a hash is made with: modules/pam_unix/passverify.c:459-478 -/
def algoOf (ctrl : Ctrl) : Algo :=
  if on UNIX_MD5_PASS ctrl then .md5
  else if on UNIX_YESCRYPT_PASS ctrl then .yescrypt
  else if on UNIX_GOST_YESCRYPT_PASS ctrl then .gost
  else if on UNIX_BLOWFISH_PASS ctrl then .blowfish
  else if on UNIX_SHA256_PASS ctrl then .sha256
  else if on UNIX_SHA512_PASS ctrl then .sha512
  else if off UNIX_BIGCRYPT ctrl then .des else .bigcrypt

/-- the flags of the call that matter: modules/pam_unix/support.c:78-98 and 188 -/
structure Flags where
  changeExpired : Bool := false
  update : Bool := false
  prelim : Bool := false
  silent : Bool := false
  disallowNull : Bool := false

/-- the options; `none`: the caller passed no pointer -/
structure Opts where
  ctrl : Ctrl
  remember : Option Int
  rounds : Option Int
  minlen : Option Int
deriving DecidableEq, Repr

/-- `_unix_strtoi`: modules/pam_unix/support.c:49-59: what `*result` becomes, and whether all went well.  `strtol` gives the nearest
`long` if the number does not fit, which does not fit an `int` either. -/
def strtoi (str : Str) (minval : Int) : Int × Bool :=
  let (v, rest) := strtoInt 10 str
  if v < minval ∨ v > 2147483647 ∨ rest.length = str.length ∨ rest ≠ [] then (minval, false) else (v, true)

/-- the first option the argument begins with, and what follows: modules/pam_unix/support.c:125-132 -/
def findFrom (arg : Str) : (j : Nat) → List Ent → Option (Nat × Str)
  | _, [] => none
  | j, e :: es =>
    match e.token with
    | none => findFrom arg (j + 1) es
    | some t => if t.isPrefixOf arg then some (j, arg.drop t.length) else findFrom arg (j + 1) es

def findArg (arg : Str) : Option (Nat × Str) := findFrom arg 0 args

/-- one argument: modules/pam_unix/support.c:118-179 -/
def argStep (o : Opts) (arg : Str) : Opts :=
  match findArg arg with
  | none => o
  | some (j, str) =>
    if j = UNIX_REMEMBER_PASSWD then
      match o.remember with
      | none => o
      | some _ =>
        match strtoi str (-1) with
        | (v, false) => { o with remember := some v }
        | (v, true) => { o with remember := some (if v > 400 then 400 else v), ctrl := set j o.ctrl }
    else if j = UNIX_MIN_PASS_LEN then
      match o.minlen with
      | none => o
      | some _ =>
        match strtoi str 0 with
        | (v, false) => { o with minlen := some v }
        | (v, true) => { o with minlen := some v, ctrl := set j o.ctrl }
    else if j = UNIX_ALGO_ROUNDS then
      match o.rounds with
      | none => o
      | some _ =>
        match strtoi str 0 with
        | (v, false) => { o with rounds := some v }
        | (v, true) => { o with rounds := some v, ctrl := set j o.ctrl }
    else { o with ctrl := set j o.ctrl }

/-- the method named in /etc/login.defs: modules/pam_unix/support.c:101-109 -/
def findMethod (val : Str) : (j : Nat) → List Ent → Option Nat
  | _, [] => none
  | j, e :: es =>
    match e.token with
    | none => findMethod val (j + 1) es
    | some t => if e.hash && ieq (val.take t.length) t then some j else findMethod val (j + 1) es

/-- modules/pam_unix/support.c:76-116 -/
def startCtrl (root : Bool) (fl : Flags) (defs : Option Str) : Ctrl :=
  let ctrl := flagOf UNIX__NONULL
  let ctrl := if root && !fl.changeExpired then set UNIX__IAMROOT ctrl else ctrl
  let ctrl := if fl.changeExpired then set UNIX_EXPIRED_ONLY ctrl else ctrl
  let ctrl := if fl.update then set UNIX__UPDATE ctrl else ctrl
  let ctrl := if fl.prelim then set UNIX__PRELIM ctrl else ctrl
  let ctrl := if fl.silent then set UNIX__QUIET ctrl else ctrl
  match Util.searchKey defs "ENCRYPT_METHOD".toList with
  | none => ctrl
  | some val =>
    match findMethod val 0 args with
    | none => ctrl
    | some j => set j ctrl

/-- modules/pam_unix/support.c:181-186 -/
def capMinlen (o : Opts) : Opts :=
  match o.minlen with
  | some n => if desCrypt o.ctrl && decide (n > 8) then { o with minlen := some 8 } else o
  | none => o

/-- the key of /etc/login.defs with the number of rounds: modules/pam_unix/support.c:195-201 -/
def roundsKey (ctrl : Ctrl) : Option Str :=
  if on UNIX_YESCRYPT_PASS ctrl then some "YESCRYPT_COST_FACTOR".toList
  else if on UNIX_SHA256_PASS ctrl || on UNIX_SHA512_PASS ctrl then some "SHA_CRYPT_MAX_ROUNDS".toList
  else none

/-- modules/pam_unix/support.c:193-214 -/
def defsRounds (defs : Option Str) (o : Opts) : Opts :=
  if on UNIX_ALGO_ROUNDS o.ctrl || o.rounds.isNone then o
  else
    match roundsKey o.ctrl with
    | none => o
    | some key =>
      match Util.searchKey defs key with
      | none => o
      | some val =>
        match strtoi val 0 with
        | (v, false) => { o with rounds := some v }
        | (v, true) => { o with rounds := some v, ctrl := set UNIX_ALGO_ROUNDS o.ctrl }

/-- modules/pam_unix/support.c:216-224 -/
def defaultRounds (o : Opts) : Opts :=
  if on UNIX_ALGO_ROUNDS o.ctrl || o.rounds.isNone then o
  else if on UNIX_BLOWFISH_PASS o.ctrl || on UNIX_GOST_YESCRYPT_PASS o.ctrl || on UNIX_YESCRYPT_PASS o.ctrl then
    { o with rounds := some 5, ctrl := set UNIX_ALGO_ROUNDS o.ctrl }
  else o

/-- modules/pam_unix/support.c:226-248; `none`: `rounds` is read although it is no pointer -/
def saneRounds (o : Opts) : Option Opts :=
  if on UNIX_ALGO_ROUNDS o.ctrl then
    if on UNIX_GOST_YESCRYPT_PASS o.ctrl || on UNIX_YESCRYPT_PASS o.ctrl then
      match o.rounds with
      | none => none
      | some r => some { o with rounds := some (if r < 3 then 3 else if r > 11 then 11 else r) }
    else if on UNIX_BLOWFISH_PASS o.ctrl then
      match o.rounds with
      | none => none
      | some r => some { o with rounds := some (if r < 4 then 4 else if r > 31 then 31 else r) }
    else if on UNIX_SHA256_PASS o.ctrl || on UNIX_SHA512_PASS o.ctrl then
      match o.rounds with
      | none => none
      | some r =>
        if r < 1000 ∨ r = 2147483647 then some { o with rounds := some 0, ctrl := unset UNIX_ALGO_ROUNDS o.ctrl }
        else some { o with rounds := some (if r ≥ 10000000 then 9999999 else r) }
    else some o
  else some o

/-- modules/pam_unix/support.c:188-191 -/
def nullFlag (fl : Flags) (o : Opts) : Opts := if fl.disallowNull then { o with ctrl := set UNIX__NONULL o.ctrl } else o

/-- modules/pam_unix/support.c:250-254 -/
def auditDebug (o : Opts) : Opts := if on UNIX_AUDIT o.ctrl then { o with ctrl := set UNIX_DEBUG o.ctrl } else o

/-- `_set_ctrl`: modules/pam_unix/support.c:65-259.  `root`: the real user is root; `defs`: the contents of /etc/login.defs. -/
def setCtrl (root : Bool) (fl : Flags) (defs : Option Str) (remember rounds minlen : Option Int) (argv : List Str) : Option Opts :=
  let o := argv.foldl argStep ⟨startCtrl root fl defs, remember, rounds, minlen⟩
  (saneRounds (defaultRounds (defsRounds defs (nullFlag fl (capMinlen o))))).map auditDebug

end Pam.Unix
