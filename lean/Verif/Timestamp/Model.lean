import Verif.Core.Codes
import Verif.Core.Strtol
import Verif.Digest.Sha1
/-
pam_timestamp, built without OpenSSL and without logind.  Strings are lists of the bytes before the NUL.  What the system answers is given by
functions and by the records below.  Logging, and `debug` and `verbose` with it, is left out; memory does not run out.
-/
namespace Pam.Timestamp
open Pam Pam.Digest

/-- a C string -/
abbrev Str := List Byte

/-- the bytes of a literal -/
def lit (s : String) : Str := s.toList.map fun c => BitVec.ofNat 8 c.toNat

/-- '/' -/
abbrev slash : Byte := 0x2f
/-- ':' -/
abbrev colon : Byte := 0x3a

/-- the file types that matter -/
inductive Kind where
  | dir | link | regular | other
deriving DecidableEq, Repr

/-- `struct stat`; `lax` is `(st_mode & (S_IWGRP | S_IWOTH)) != 0` -/
structure Stat where
  kind : Kind
  uid : Nat
  gid : Nat
  lax : Bool
  mtime : Int
deriving DecidableEq, Repr

/-- what `lstat` does: it fills in the buffer, fails with ENOENT, or fails with another error -/
inductive LRes where
  | ok (st : Stat) | noent | error
deriving DecidableEq, Repr

/-- the outcome of a check; `bad` is undefined behaviour -/
inductive Check where
  | bad | fail | good
deriving DecidableEq, Repr

/-- the checks of what `lstat` said: modules/pam_timestamp/pam_timestamp.c:122-151; `none` is a buffer that nothing was ever written to -/
def checkStat : Option Stat → Check
  | none => .bad
  | some st =>
    if st.kind ≠ .dir then .fail
    else if st.kind = .link then .fail
    else if st.uid ≠ 0 then .fail
    else if st.gid ≠ 0 then .fail
    else if st.lax then .fail
    else .good

/-- the loop over the path: modules/pam_timestamp/pam_timestamp.c:111-153.  `done` is in `scratch`, `st` is what the last successful `lstat` left. -/
def dirLoop (lstat : Str → LRes) : (done : Str) → (st : Option Stat) → (rest : Str) → Check
  | _, _, [] => .good
  | done, st, c :: rest =>
    if done.length ≥ 4096 then .good
    else
      let scratch := done ++ [c]
      if c = slash ∨ rest = [] then
        -- `scratch` without a NUL
        if scratch.length = 4096 then .bad
        else
          match lstat scratch with
          | .error => .fail
          | .noent =>
            match checkStat st with
            | .bad => .bad
            | .fail => .fail
            | .good => dirLoop lstat scratch st rest
          | .ok st' =>
            match checkStat (some st') with
            | .bad => .bad
            | .fail => .fail
            | .good => dirLoop lstat scratch (some st') rest
      else dirLoop lstat scratch st rest

/-- `check_dir_perms`: modules/pam_timestamp/pam_timestamp.c:100-155 -/
def checkDirPerms (lstat : Str → LRes) (tdir : Str) : Check :=
  if tdir.length = 0 then .fail else dirLoop lstat [] none tdir

/-- what is behind the last '/': `strrchr(tty, '/') + 1` -/
def baseName (s : Str) : Str := (s.reverse.takeWhile (· ≠ slash)).reverse

/-- the last tests of `check_tty`: modules/pam_timestamp/pam_timestamp.c:176-179 -/
def checkBase (tty : Str) : Option Str :=
  if tty.length = 0 ∨ tty = lit "." ∨ tty = lit ".." then none else some tty

/-- `check_tty`: modules/pam_timestamp/pam_timestamp.c:159-180 -/
def checkTty (tty : Str) : Option Str :=
  if tty.length = 0 then none
  else if slash ∈ tty then
    if (lit "/dev/").isPrefixOf tty then checkBase (baseName tty) else none
  else checkBase tty

/-- `format_timestamp_name`, with a buffer of BUFLEN = 4096 bytes: modules/pam_timestamp/pam_timestamp.c:183-197; libpam/include/pam_inline.h:166-178 -/
def formatName (tdir tty ruser user : Str) : Option Str :=
  let path := if ruser = user then tdir ++ [slash] ++ ruser ++ [slash] ++ tty else tdir ++ [slash] ++ ruser ++ [slash] ++ tty ++ [colon] ++ user
  if path.length ≥ 4096 then none else some path

/-- the range of `time_t` -/
def inTime (v : Int) : Bool := decide (-(2 ^ 63) ≤ v ∧ v < 2 ^ 63)

/-- `timestamp_good`: modules/pam_timestamp/pam_timestamp.c:201-209; `none` if the arithmetic overflows -/
def timestampGood (thn now interval : Int) : Option Bool :=
  if now ≥ thn then
    if inTime (now - thn) then some (decide (now - thn < interval)) else none
  else
    if inTime (thn - now) ∧ inTime (2 * interval) then some (decide (thn - now < 2 * interval)) else none

/-- an entry of utmp: is it a USER_PROCESS, the name in `ut_user` (at most 32 bytes), `ut_tv.tv_sec` (32 bits, signed) -/
structure Ut where
  process : Bool
  user : Str
  sec : BitVec 32
deriving DecidableEq, Repr

/-- the loop over utmp: modules/pam_timestamp/pam_timestamp.c:233-253; `zero_extend_signed_to_ull` is libpam/include/pam_inline.h:53-58 -/
def oldestLogin (ruser : Str) : (oldest : BitVec 64) → List Ut → BitVec 64
  | oldest, [] => oldest
  | oldest, u :: us =>
    if ¬ u.process then oldestLogin ruser oldest us
    else if ruser.take 32 ≠ u.user.take 32 then oldestLogin ruser oldest us
    else if oldest = 0 ∨ oldest.toNat > u.sec.toNat then oldestLogin ruser (u.sec.signExtend 64) us
    else oldestLogin ruser oldest us

/-- `check_login_time`, from utmp: modules/pam_timestamp/pam_timestamp.c:211-259 -/
def checkLoginTime (ruser : Str) (us : List Ut) (timestamp : Int) : Bool :=
  let oldest := oldestLogin ruser 0 us
  if oldest = 0 ∨ timestamp < oldest.toInt then false else true

/-- what the module asks for: `pam_get_user`, PAM_RUSER, the name of the real user id, PAM_TTY, `ttyname` of the three descriptors -/
structure Items where
  user : Option Str
  ruser : Option Str
  login : Option Str
  tty : Option Str
  ttyname : List (Option Str)
deriving DecidableEq, Repr

/-- `get_ruser` with a buffer of 4096 bytes: modules/pam_timestamp/pam_timestamp.c:262-298 -/
def getRuser (it : Items) : Option Str :=
  let ruser : Option Str :=
    match it.ruser with
    | none => it.login
    | some r =>
      if r.length = 0 then (match it.login with | none => some r | some l => some l)
      else if r = lit "." ∨ r = lit ".." ∨ slash ∈ r then none
      else some r
  match ruser with
  | none => none
  | some r => if r.length ≥ 4096 then none else some r

/-- the first name that is not empty, or "unknown": modules/pam_timestamp/pam_timestamp.c:353-365 -/
def firstTty : List (Option Str) → Str
  | [] => lit "unknown"
  | none :: r => firstTty r
  | some t :: r => if t.length = 0 then firstTty r else t

/-- the name of the terminal: modules/pam_timestamp/pam_timestamp.c:348-365 -/
def ttyOf (it : Items) : Str := firstTty (it.tty :: it.ttyname)

/-- TIMESTAMPDIR: modules/pam_timestamp/pam_timestamp.c:83; paths.h has _PATH_VARRUN as "/var/run/" -/
def defaultDir : Str := lit "/var/run/pam_timestamp"

/-- `timestampdir=`: modules/pam_timestamp/pam_timestamp.c:317-328 -/
def timestampDir (argv : List Str) : Str :=
  argv.foldl (fun tdir a => if (lit "timestampdir=").isPrefixOf a then a.drop 13 else tdir) defaultDir

/-- the result of `get_timestamp_name` -/
inductive Name where
  | bad | fail | path (p : Str)
deriving DecidableEq, Repr

/-- `get_timestamp_name`: modules/pam_timestamp/pam_timestamp.c:301-383 -/
def getName (lstat : Str → LRes) (it : Items) (argv : List Str) : Name :=
  let tdir := timestampDir argv
  match checkDirPerms lstat tdir with
  | .bad => .bad
  | .fail => .fail
  | .good =>
    match it.user with
    | none => .fail
    | some user =>
      if user.length = 0 then .fail
      else
        match getRuser it with
        | none => .fail
        | some ruser =>
          if ruser.length = 0 then .fail
          else
            match checkTty (ttyOf it) with
            | none => .fail
            | some tty =>
              match formatName tdir tty ruser user with
              | none => .fail
              | some p => .path p

/-- the bytes of a string as characters, for `strtol` -/
def chars (s : Str) : List Char := s.map fun b => Char.ofNat b.toNat

/-- `timestamp_timeout=`: modules/pam_timestamp/pam_timestamp.c:411-424 -/
def interval (argv : List Str) : Int :=
  argv.foldl (fun iv a =>
    if (lit "timestamp_timeout=").isPrefixOf a then
      let r := strtoInt 0 (chars (a.drop 18))
      if r.2 = [] then max (-(2 ^ 63)) (min (2 ^ 63 - 1) r.1) else iv
    else iv) (5 * 60)

/-! ### the key -/

/-- the key file -/
inductive KeyFile where
  | absent | denied | bytes (b : Str)
deriving DecidableEq, Repr

/-- what happens in `hmac_key_create` and `hmac_key_read`: does `open` with O_EXCL succeed, does `fchown`, the bytes that are read from /dev/urandom
(`none` if it cannot be opened), how many bytes `write` gets into the file, does the second `open` succeed, `fstat`, and are all bytes read -/
structure KeyIO where
  create : Bool
  chown : Bool
  random : Option Str
  written : Nat
  reopen : Bool
  fstat : Bool
  readAll : Bool
deriving DecidableEq, Repr

/-- `hmac_key_create` with a key size of 64: modules/pam_timestamp/hmacsha1.c:58-129: the key file afterwards -/
def keyCreate (io : KeyIO) : KeyFile :=
  if ¬ io.create then .absent
  else if ¬ io.chown then .bytes []
  else
    match io.random with
    | none => .bytes []
    | some r => if r.length < 64 then .bytes [] else .bytes ((r.take 64).take io.written)

/-- reading the open key file: modules/pam_timestamp/hmacsha1.c:159-191 -/
def keyContents (io : KeyIO) (b : Str) : Option Str := if ¬ io.fstat then none else if ¬ io.readAll then none else some b

/-- `hmac_key_read`: modules/pam_timestamp/hmacsha1.c:131-192: the key, and the key file afterwards -/
def keyRead (io : KeyIO) : KeyFile → Option Str × KeyFile
  | .bytes b => (keyContents io b, .bytes b)
  | .denied => (none, .denied)
  | .absent =>
    match keyCreate io with
    | .bytes b => if io.reopen then (keyContents io b, .bytes b) else (none, .bytes b)
    | f => (none, f)

/-- `hmac_sha1_generate_file`: modules/pam_timestamp/hmacsha1.c:268-289; outside: undefined behaviour; inside: no MAC -/
def macFile (io : KeyIO) (f : KeyFile) (text : Str) : Option (Option Str) × KeyFile :=
  match keyRead io f with
  | (none, f) => (some none, f)
  | (some key, f) => (Sha1.hmac key text, f)

/-! ### authentication -/

/-- the time stamp file: its owner and type, its contents, whether reading it works -/
structure TFile where
  uid : Nat
  gid : Nat
  regular : Bool
  content : Str
  readOk : Bool
deriving DecidableEq, Repr

/-- the bytes of a `time_t`, least significant first -/
def timeBytes (t : BitVec 64) : Str := (List.range 8).map fun i => t.extractLsb' (8 * i) 8

/-- a `time_t` from its bytes -/
def timeOf (b : Str) : BitVec 64 := b.foldr (fun x acc => acc <<< 8 ||| x.zeroExtend 64) 0

/-- the world -/
structure World where
  lstat : Str → LRes
  items : Items
  /-- `open(path, O_RDONLY | O_NOFOLLOW)` and `fstat` -/
  file : Str → Option TFile
  key : KeyFile
  keyIO : KeyIO
  utmp : List Ut
  now : Int

/-- the part of `pam_sm_authenticate` behind `open`: modules/pam_timestamp/pam_timestamp.c:466-603; `none` is undefined behaviour -/
def checkFile (w : World) (argv : List Str) (path : Str) (f : TFile) : Option Int :=
  if f.uid ≠ 0 ∨ f.gid ≠ 0 then some PAM_AUTH_ERR
  else if ¬ f.regular then some PAM_AUTH_ERR
  else if f.content.length = 0 then some PAM_AUTH_ERR
  else if f.content.length ≠ path.length + 1 + 8 + 20 then some PAM_AUTH_ERR
  else if ¬ f.readOk then some PAM_AUTH_ERR
  else
    let message := f.content.take (path.length + 1 + 8)
    match (macFile w.keyIO w.key message).1 with
    | none => none
    | some none => some PAM_AUTH_ERR
    | some (some mac) =>
      if f.content.take path.length ≠ path then some PAM_AUTH_ERR
      else if mac ≠ f.content.drop (path.length + 1 + 8) then some PAM_AUTH_ERR
      else
        let thn := (timeOf ((f.content.drop (path.length + 1)).take 8)).toInt
        match getRuser w.items with
        | none => some PAM_AUTH_ERR
        | some ruser =>
          if ¬ checkLoginTime ruser w.utmp thn then some PAM_AUTH_ERR
          else
            match timestampGood thn w.now (interval argv) with
            | none => none
            | some true => some PAM_SUCCESS
            | some false => some PAM_AUTH_ERR

/-- `pam_sm_authenticate`: modules/pam_timestamp/pam_timestamp.c:393-608 -/
def authenticate (w : World) (argv : List Str) : Option Int :=
  match getName w.lstat w.items argv with
  | .bad => none
  | .fail => some PAM_AUTH_ERR
  | .path p =>
    match w.file p with
    | none => some PAM_AUTH_ERR
    | some f => checkFile w argv p f

/-! ### sessions -/

/-- what happens when a time stamp is written: does `mkdir` for a directory, followed by `lchown`, succeed or find the directory there, does `open` succeed,
`fchown`, and how many bytes `write` writes -/
structure WriteIO where
  mkdirs : Str → Bool
  openOk : Bool
  chown : Bool
  written : Nat

/-- the directories that `pam_sm_open_session` tries to make: modules/pam_timestamp/pam_timestamp.c:640-668 -/
def dirsOf : (done : Str) → (rest : Str) → List Str
  | _, [] => []
  | done, c :: rest => if c = slash ∧ done ≠ [] then done :: dirsOf (done ++ [c]) rest else dirsOf (done ++ [c]) rest

/-- `pam_sm_open_session`: modules/pam_timestamp/pam_timestamp.c:616-745: the result, the file written if any (path and contents), and the key file -/
def openSession (w : World) (io : WriteIO) (argv : List Str) : Option (Int × Option (Str × Str) × KeyFile) :=
  match getName w.lstat w.items argv with
  | .bad => none
  | .fail => some (PAM_SESSION_ERR, none, w.key)
  | .path p =>
    if ¬ (dirsOf [] p).all io.mkdirs then some (PAM_SESSION_ERR, none, w.key)
    else
      let text := p ++ [0] ++ timeBytes (BitVec.ofInt 64 w.now)
      match macFile w.keyIO w.key text with
      | (none, _) => none
      | (some none, k) => some (PAM_SESSION_ERR, none, k)
      | (some (some mac), k) =>
        if ¬ io.openOk then some (PAM_SESSION_ERR, none, k)
        else if ¬ io.chown then some (PAM_SESSION_ERR, some (p, []), k)
        else if io.written < (text ++ mac).length then some (PAM_SESSION_ERR, some (p, (text ++ mac).take io.written), k)
        else some (PAM_SUCCESS, some (p, text ++ mac), k)

/-! ### pam_timestamp_check -/

/-- the name of the file that pam_timestamp_check looks at, or the exit status: modules/pam_timestamp/pam_timestamp.c:809-858, for the name of the
invoking user, the terminals and the target user on the command line -/
def checkName (user : Option Str) (ttyname : List (Option Str)) (target : Option Str) : Int ⊕ Str :=
  match user with
  | none => .inl 4
  | some user =>
    let t := target.getD user
    if 0x2e ∈ t ∨ slash ∈ t ∨ 0x25 ∈ t then .inl 4
    else
      match checkTty (firstTty ttyname) with
      | none => .inl 6
      | some tty =>
        match formatName defaultDir tty user t with
        | none => .inl 4
        | some p => .inr p

/-- the exit status of pam_timestamp_check without options: modules/pam_timestamp/pam_timestamp.c:860-897 -/
def checkMain (lstat : Str → LRes) (user : Option Str) (ttyname : List (Option Str)) (target : Option Str) (utmp : List Ut) (now : Int) : Option Int :=
  match checkName user ttyname target with
  | .inl r => some r
  | .inr p =>
    match checkDirPerms lstat defaultDir with
    | .bad => none
    | .fail => some 5
    | .good =>
      match lstat p with
      | .ok st =>
        if ¬ checkLoginTime (user.getD []) utmp st.mtime then some 7
        else
          match timestampGood st.mtime now (5 * 60) with
          | none => none
          | some true => some 0
          | some false => some 7
      | _ => some 7

end Pam.Timestamp
