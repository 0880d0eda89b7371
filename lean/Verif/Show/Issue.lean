import Verif.Show.Echo
/-
modules/pam_issue: see Echo.lean.
-/
namespace Pam.Show
open Pam
open Pam.Small (skipPrefix cstr)

/-- what the system says about itself -/
structure System where
  sysname : Str
  nodename : Str
  release : Str
  version : Str
  machine : Str
  /-- `getdomainname`; empty if it fails or is missing -/
  domain : Str
  wday : Fin 7
  month : Fin 12
  mday : Nat
  year : Nat
  hour : Nat
  min : Nat
  sec : Nat
  /-- `ttyname(1)` -/
  tty : Option Str
  /-- the number of users; `none` if logind fails -/
  users : Option Nat
deriving DecidableEq, Repr

/-- `%d` -/
def dec (n : Nat) : Str := Nat.toDigits 10 n

/-- `%02d` -/
def dec2 (n : Nat) : Str := if n < 10 then '0' :: dec n else dec n

/-- modules/pam_issue/pam_issue.c:131-133 -/
def weekday : List Str := ["Sun", "Mon", "Tue", "Wed", "Thu", "Fri", "Sat"].map String.toList

/-- modules/pam_issue/pam_issue.c:134-137 -/
def month : List Str := ["Jan", "Feb", "Mar", "Apr", "May", "Jun", "Jul", "Aug", "Sep", "Oct", "Nov", "Dec"].map String.toList

/-- what a backslash and a character stand for: modules/pam_issue/pam_issue.c:98-219; `none`: logind fails.  `localtime` succeeds. -/
def escape (w : System) (c : Char) : Option Str :=
  if c = 's' then some w.sysname
  else if c = 'n' then some w.nodename
  else if c = 'r' then some w.release
  else if c = 'v' then some w.version
  else if c = 'm' then some w.machine
  else if c = 'o' then some w.domain
  else if c = 'd' then some ((weekday.getD w.wday []) ++ ' ' :: (month.getD w.month []) ++ ' ' :: dec w.mday ++ ' ' :: ' ' :: dec w.year)
  else if c = 't' then some (dec2 w.hour ++ ':' :: dec2 w.min ++ ':' :: dec2 w.sec)
  else if c = 'l' then some (match w.tty with
    | none => []
    | some t => (skipPrefix t "/dev/".toList).getD t)
  else if c = 'u' then w.users.map dec
  else if c = 'U' then w.users.map (fun n => dec n ++ ' ' :: (if n = 1 then "user".toList else "users".toList))
  else some (if c = NUL then [] else [c])

/-- what reading gives: a write outside the buffer, an error, or the buffer: its size and what is in it -/
inductive Read
  | fault
  | error
  | ok (size : Nat) (buf : Str)
deriving DecidableEq, Repr

/-- append to the buffer, which grows if there is no room: modules/pam_issue/pam_issue.c:225-235 -/
def grow (size : Nat) (buf src : Str) : Option (Nat × Str) :=
  let size := if buf.length + src.length + 1 > size then size + (src.length + 1) else size
  if buf.length + src.length ≤ size then some (size, buf ++ src) else none

/-- the loop of `read_issue_quoted`: modules/pam_issue/pam_issue.c:93-238 -/
def quotedLoop (w : System) : (size : Nat) → (buf : Str) → Str → Read
  | size, buf, [] => .ok size buf
  | size, buf, [c] =>
    if c = '\\' then .ok size buf
    else match grow size buf (if c = NUL then [] else [c]) with
      | none => .fault
      | some (s, b) => .ok s b
  | size, buf, c :: d :: r =>
    if c = '\\' then
      match escape w d with
      | none => .error
      | some src =>
        match grow size buf src with
        | none => .fault
        | some (s, b) => quotedLoop w s b r
    else
      match grow size buf (if c = NUL then [] else [c]) with
      | none => .fault
      | some (s, b) => quotedLoop w s b (d :: r)

/-- a file that was opened: its text, and whether `fstat` and reading succeed -/
structure Opened where
  text : Str
  stat : Bool
  read : Bool
deriving DecidableEq, Repr

/-- `read_issue_quoted`: modules/pam_issue/pam_issue.c:75-250; if reading fails, it does so after `text` -/
def readQuoted (w : System) (f : Opened) : Read :=
  match quotedLoop w 1024 [] f.text with
  | .ok size buf => if buf.length < size then (if f.read then .ok size buf else .error) else .fault
  | r => r

/-- `read_issue_raw`: modules/pam_issue/pam_issue.c:46-73 -/
def readRaw (f : Opened) : Read :=
  if f.stat = false then .error
  else if f.read = false then .error
  else .ok (f.text.length + 1) f.text

/-- the options: modules/pam_issue/pam_issue.c:273-284 -/
def issueArg (o : Option Str × Bool) (a : Str) : Option Str × Bool :=
  match skipPrefix a "issue=".toList with
  | some v => (some v, o.2)
  | none => if a = "noesc".toList then (o.1, false) else o

/-- `pam_sm_authenticate` of pam_issue: modules/pam_issue/pam_issue.c:254-326.  `set` is `_user_prompt_set`, which all handles of the process share, `prompt` is PAM_USER_PROMPT.  The result and the new prompt;
`none` is a write outside the buffer. -/
def issue (w : System) (file : Str → Option Opened) (argv : List Str) (set : Bool) (prompt : Option Str) : Option (Bool × Int × Option Str) :=
  if set then some (set, PAM_IGNORE, prompt)
  else
    let o := argv.foldl issueArg (none, true)
    match file (o.1.getD "/etc/issue".toList) with
    | none => some (true, PAM_SERVICE_ERR, prompt)
    | some f =>
      match (if o.2 then readQuoted w f else readRaw f) with
      | .fault => none
      | .error => some (true, PAM_SERVICE_ERR, prompt)
      | .ok _ buf => some (true, PAM_IGNORE, some (cstr buf ++ prompt.getD []))

end Pam.Show
