import Verif.Small.Gates
/-
modules/pam_lastlog.  A character is a byte.  A record of the file is as in glibc for x86-64: a signed time of 4 bytes, a line of 32 and a host of 256.

Left out: messages to the log, the option "debug", running out of memory, `lseek` failing, translations, and the lock for reading, which is not waited for in the end.
-/
namespace Pam.Lastlog
open Pam Pam.Small

/-- the options for sessions: modules/pam_lastlog/pam_lastlog.c:71-82 -/
structure Opts where
  date : Bool := true
  host : Bool := true
  line : Bool := true
  never : Bool := false
  quiet : Bool := false
  wtmp : Bool := true
  btmp : Bool := false
  update : Bool := true
  unlimited : Bool := false
deriving DecidableEq, Repr

/-- one argument: modules/pam_lastlog/pam_lastlog.c:131-155 -/
def arg (o : Opts) (a : Str) : Opts :=
  if a = "debug".toList then o
  else if a = "nodate".toList then { o with date := false }
  else if a = "noterm".toList then { o with line := false }
  else if a = "nohost".toList then { o with host := false }
  else if a = "silent".toList then { o with quiet := true }
  else if a = "never".toList then { o with never := true }
  else if a = "nowtmp".toList then { o with wtmp := false }
  else if a = "noupdate".toList then { o with wtmp := false, update := false }
  else if a = "showfailed".toList then { o with btmp := true }
  else if a = "unlimited".toList then { o with unlimited := true }
  else o

/-- `_pam_session_parse`: modules/pam_lastlog/pam_lastlog.c:123-166 -/
def parse (silent : Bool) (argv : List Str) : Opts :=
  let o := argv.foldl arg {}
  if silent then { o with quiet := true, btmp := false } else o

/-- the value of inactive=: modules/pam_lastlog/pam_lastlog.c:107-113 -/
def inactiveArg (n : Int) (a : Str) : Int :=
  if a = "debug".toList then n
  else if a = "silent".toList then n
  else
    match skipPrefix a "inactive=".toList with
    | some v =>
      let (l, ep) := strtoInt 10 v
      if ep ≠ v ∧ l > 0 ∧ l < 100000 then l else n
    | none => n

/-- `_pam_auth_parse`: modules/pam_lastlog/pam_lastlog.c:84-121 -/
def inactive (argv : List Str) : Int := argv.foldl inactiveArg 90

/-- an entry of /var/log/btmp: a time of 4 bytes, and the fields as they are in the file -/
structure Failed where
  sec : Nat
  name : Str
  line : Str
  host : Str
deriving DecidableEq, Repr

/-- what can be read of /var/log/btmp -/
inductive Btmp
  | missing
  | failed
  | entries (l : List Failed)
deriving DecidableEq, Repr

/-- the system -/
structure World where
  user : Option Str
  uid : Str → Option Nat
  /-- the value of LASTLOG_UID_MAX in /etc/login.defs -/
  uidMax : Option Str
  /-- /var/log/lastlog; `none` if it is missing -/
  file : Option Str
  /-- it can be opened, and created -/
  opens : Bool
  creates : Bool
  /-- the tries to lock for writing -/
  lock : Nat → Bool
  /-- `time` -/
  now : Int
  tty : Option Str
  rhost : Option Str
  /-- `getrlimit` of the file size: unlimited or not -/
  limit : Option Bool
  setLimit : Bool
  restore : Bool
  /-- the number of bytes that can be written -/
  written : Nat
  /-- a date as text -/
  date : Int → Option Str
  info : Int
  btmp : Btmp

/-- what the module does besides reading and writing the file -/
inductive Op
  | say (s : Str)
  | raise
  | restore
  | write
  | wtmp (line user host : Str)
deriving DecidableEq, Repr

/-- `get_tty`: modules/pam_lastlog/pam_lastlog.c:168-189 -/
def getTty (w : World) : Str :=
  let t := w.tty.getD []
  match skipPrefix t "/dev/".toList with
  | some s => s
  | none => t

/-- `get_lastlog_uid_max`: modules/pam_lastlog/pam_lastlog.c:193-220; the same as in pam_usertype -/
def uidMax (w : World) : Nat := getId w.uidMax 0xFFFFFFFF

/-- the size of a record -/
def recSize : Nat := 292

/-- a field of `n` bytes, filled by `strncat` with `n - 1` -/
def field (n : Nat) (s : Str) : Str := s.take (n - 1) ++ List.replicate (n - (s.take (n - 1)).length) NUL

/-- a number in 4 bytes, the lowest first -/
def bytes4 (t : Int) : Str :=
  let n := (t % 4294967296).toNat
  [Char.ofNat (n % 256), Char.ofNat (n / 256 % 256), Char.ofNat (n / 65536 % 256), Char.ofNat (n / 16777216 % 256)]

/-- a signed number of 4 bytes -/
def int4 (s : Str) : Int :=
  let n := (s.getD 0 NUL).toNat + 256 * (s.getD 1 NUL).toNat + 65536 * (s.getD 2 NUL).toNat + 16777216 * (s.getD 3 NUL).toNat
  if n < 2147483648 then n else (n : Int) - 4294967296

/-- the record of this login: modules/pam_lastlog/pam_lastlog.c:401-424 -/
def record (w : World) : Str := bytes4 w.now ++ (field 32 (getTty w) ++ field 256 (w.rhost.getD []))

/-- reading a record: modules/pam_lastlog/pam_lastlog.c:293-296; one that is not there, or not whole, is zeros -/
def readRec (f : Str) (uid : Nat) : Str :=
  let r := (f.drop (recSize * uid)).take recSize
  if r.length = recSize then r else List.replicate recSize NUL

/-- writing at a place, with zeros between -/
def overlay (f : Str) (off : Nat) (b : Str) : Str :=
  f.take off ++ List.replicate (off - f.length) NUL ++ b ++ f.drop (off + b.length)

/-- " from " and " on ": modules/pam_lastlog/pam_lastlog.c:328-350 and 598-620 -/
def part (wanted : Bool) (pre : String) (s : Str) : Option Str := if wanted ∧ s ≠ [] then some (pre.toList ++ s) else none

/-- "Last login:" and "Last failed login:": modules/pam_lastlog/pam_lastlog.c:314-357 and 584-628 -/
def lastLine (w : World) (o : Opts) (head : String) (t : Int) (host line : Str) : Option Str :=
  let d := if o.date then w.date t else none
  let h := part o.host " from " host
  let l := part o.line " on " line
  if d ≠ none ∨ h ≠ none ∨ l ≠ none then some (head.toList ++ d.getD [] ++ h.getD [] ++ l.getD []) else none

/-- what `last_login_read` tells: modules/pam_lastlog/pam_lastlog.c:302-362 -/
def readMsg (w : World) (o : Opts) (r : Str) : Option Str :=
  if o.quiet then none
  else if int4 r ≠ 0 then lastLine w o "Last login:" (int4 r) (cstr ((r.drop 36).take 256)) (cstr ((r.drop 4).take 32))
  else if o.never then some "Welcome to your new account!".toList
  else none

/-- the tries to lock: modules/pam_lastlog/pam_lastlog.c:435-446 -/
def lockLoop (f : Nat → Bool) : (retries i : Nat) → Bool
  | 0, _ => false
  | n + 1, i => if f i then true else lockLoop f n (i + 1)

/-- `last_login_write`: modules/pam_lastlog/pam_lastlog.c:376-505; the result, what is done, and the file -/
def writeLogin (w : World) (o : Opts) (f : Str) (uid : Nat) (user : Str) : Int × List Op × Str :=
  if lockLoop w.lock 3 0 = false then (PAM_SERVICE_ERR, [], f)
  else
    let tries := o.unlimited = true ∧ w.limit = some false
    let raised := o.unlimited = true ∧ w.limit = some false ∧ w.setLimit = true
    let f' := overlay f (recSize * uid) ((record w).take w.written)
    let r1 := if w.written < recSize then PAM_SERVICE_ERR else PAM_SUCCESS
    let r2 := if raised ∧ w.restore = false then PAM_SERVICE_ERR else r1
    (r2, (if tries then [.raise] else []) ++ [.write] ++ (if raised then [.restore] else []) ++
      (if o.wtmp then [.wtmp ((getTty w).take 31) user (w.rhost.getD [])] else []), f')

/-- `last_login_open`: modules/pam_lastlog/pam_lastlog.c:222-257; what the file holds -/
def openFile (w : World) (update : Bool) : Option Str :=
  if w.opens = false then none
  else
    match w.file with
    | some f => some f
    | none => if update ∧ w.creates then some [] else none

/-- `last_login_date`: modules/pam_lastlog/pam_lastlog.c:507-539; the result, what is done, the file and the time of the last login -/
def loginDate (w : World) (o : Opts) (uid : Nat) (user : Str) : Int × List Op × Option Str × Int :=
  if uid > uidMax w then (PAM_SUCCESS, [], w.file, 0)
  else
    match openFile w o.update with
    | none => (PAM_SERVICE_ERR, [], w.file, 0)
    | some f =>
      let r := readRec f uid
      match readMsg w o r with
      | some s =>
        if w.info ≠ PAM_SUCCESS then (w.info, [.say s], some f, int4 r)
        else if o.update then
          (match writeLogin w o f uid user with | (ret, ops, f') => (ret, .say s :: ops, some f', int4 r))
        else (PAM_SUCCESS, [.say s], some f, int4 r)
      | none =>
        if o.update then
          (match writeLogin w o f uid user with | (ret, ops, f') => (ret, ops, some f', int4 r))
        else (PAM_SUCCESS, [], some f, int4 r)

/-- a failed login of the user since a time: modules/pam_lastlog/pam_lastlog.c:572-573; both times are taken as unsigned -/
def counts (user : Str) (since : Int) (e : Failed) : Bool :=
  decide (since % 18446744073709551616 ≤ (e.sec : Int) ∧ (cstr e.name).take 32 = user.take 32)

/-- the loop over btmp: modules/pam_lastlog/pam_lastlog.c:570-577 -/
def failedLoop (user : Str) (since : Int) : (n : Nat) → (last : Option Failed) → List Failed → Nat × Option Failed
  | n, last, [] => (n, last)
  | n, last, e :: r => if counts user since e then failedLoop user since (n + 1) (some e) r else failedLoop user since n last r

/-- a time of 4 bytes as signed -/
def signed4 (n : Nat) : Int := if n < 2147483648 then n else (n : Int) - 4294967296

/-- `last_login_failed`: modules/pam_lastlog/pam_lastlog.c:541-661, with the plural made here -/
def loginFailed (w : World) (o : Opts) (user : Str) (since : Int) : Int × List Op :=
  match w.btmp with
  | .missing => (PAM_SUCCESS, [])
  | .failed => (PAM_SERVICE_ERR, [])
  | .entries l =>
    match failedLoop user since 0 none l with
    | (n, some e) =>
      (w.info, (match lastLine w o "Last failed login:" (signed4 e.sec) (cstr (e.host.take 256)) (cstr (e.line.take 32)) with
        | some s => [.say s]
        | none => []) ++
        [.say (if n = 1 then "There was ".toList ++ Nat.toDigits 10 n ++ " failed login attempt since the last successful login.".toList
          else "There were ".toList ++ Nat.toDigits 10 n ++ " failed login attempts since the last successful login.".toList)])
    | (_, none) => (PAM_SUCCESS, [])

/-- `pam_sm_open_session`: modules/pam_lastlog/pam_lastlog.c:755-803 -/
def openSession (w : World) (silent : Bool) (argv : List Str) : Int × List Op × Option Str :=
  let o := parse silent argv
  match w.user with
  | none => (PAM_USER_UNKNOWN, [], w.file)
  | some user =>
    if user = [] then (PAM_USER_UNKNOWN, [], w.file)
    else
      match w.uid user with
      | none => (PAM_USER_UNKNOWN, [], w.file)
      | some uid =>
        match loginDate w o uid user with
        | (ret, ops, f, since) =>
          if o.btmp = true ∧ ret = PAM_SUCCESS then
            (match loginFailed w o user since with | (ret, ops') => (ret, ops ++ ops', f))
          else (ret, ops, f)

/-- `pam_sm_close_session`: modules/pam_lastlog/pam_lastlog.c:805-820 -/
def closeSession (w : World) (silent : Bool) (argv : List Str) : Int × List Op :=
  if (parse silent argv).wtmp = false then (PAM_SUCCESS, [])
  else (PAM_SUCCESS, [.wtmp (getTty w) [] []])

/-- `pam_auth`: modules/pam_lastlog/pam_lastlog.c:664-730; `w.user` is what `pam_get_user` gives -/
def auth (w : World) (argv : List Str) : Int :=
  match w.user with
  | none => PAM_USER_UNKNOWN
  | some user =>
    match w.uid user with
    | none => PAM_USER_UNKNOWN
    | some uid =>
      if uid = 0 ∨ uid > uidMax w then PAM_SUCCESS
      else
        match openFile w false with
        | none => PAM_IGNORE
        | some f =>
          let t := int4 (readRec f uid)
          if t = 0 then PAM_SUCCESS
          else if (w.now - t).tdiv 86400 > inactive argv then PAM_AUTH_ERR
          else PAM_SUCCESS

end Pam.Lastlog
