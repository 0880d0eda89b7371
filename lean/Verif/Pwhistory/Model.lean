import Verif.Core.Codes
import Verif.Core.Strtol
import Verif.Config.Line
import Verif.Util.Files
import Verif.Faillock.Config
/-
Model of modules/pam_pwhistory (opasswd.c, pwhistory_config.c, pam_pwhistory.c), built without SELinux, so that no
helper program is run.  Memory is available.  `crypt` is a parameter.
-/
namespace Pam.Pwh
open Pam

abbrev Str := List Char

/-- the bytes of a file up to the first NUL: what the C functions for strings see of a line -/
def cstr (s : Str) : Str := s.takeWhile (· ≠ NUL)

/-- `strsep(&s, "c")` with one delimiter (libc): the token and what `s` points to afterwards -/
def strsep (c : Char) : Option Str → Option Str × Option Str
  | none => (none, none)
  | some s => if c ∈ s then (some (s.takeWhile (· ≠ c)), some ((s.dropWhile (· ≠ c)).drop 1)) else (some s, none)

/-- an entry of the file: modules/pam_pwhistory/opasswd.c:75-80.  The number of passwords is never used. -/
structure Opwd where
  user : Option Str
  uid : Option Str
  old : Option Str
deriving DecidableEq, Repr

/-- `parse_entry`: modules/pam_pwhistory/opasswd.c:96-116 -/
def parseEntry (line : Str) : Option Opwd :=
  let a := strsep ':' (some line)
  let b := strsep ':' a.2
  let c := strsep ':' b.2
  match c.1 with
  | none => none
  | some count => if (strtoInt 10 count).2 ≠ [] then none else some ⟨a.1, b.1, (strsep ':' c.2).1⟩

/-- the line without its newline: modules/pam_pwhistory/opasswd.c:180, 377 -/
def lineText (line : Str) : Str := (cstr line).takeWhile (· ≠ '\n')

/-- does the line begin with the user and a colon: modules/pam_pwhistory/opasswd.c:184-185, 381-382 -/
def isFor (user text : Str) : Bool := (user ++ [':']).isPrefixOf text

/-- the loop looking for the entry: modules/pam_pwhistory/opasswd.c:173-193 -/
def findEntry (user : Str) : List Str → Option Opwd
  | [] => none
  | l :: ls =>
    if lineText l = [] then findEntry user ls
    else if isFor user (lineText l) then
      match parseEntry (lineText l) with
      | some e => some e
      | none => findEntry user ls
    else findEntry user ls

/-- `compare_password`: modules/pam_pwhistory/opasswd.c:119-145.  `crypt` is `crypt_r`. -/
def comparePassword (crypt : Str → Str → Option Str) (newpass oldpass : Str) : Bool :=
  decide (crypt newpass oldpass = some oldpass)

/-- the tokens `strsep` gives one after the other with the delimiter `c` -/
def pieces (c : Char) : Str → List Str
  | [] => [[]]
  | x :: s =>
    if x = c then [] :: pieces c s
    else match pieces c s with
      | [] => [[x]]
      | p :: ps => (x :: p) :: ps

/-- `check_old_pass`: modules/pam_pwhistory/opasswd.c:148-229.  `file` is `none` if it cannot be opened. -/
def checkOld (crypt : Str → Str → Option Str) (file : Option Str) (user newpass : Str) : Int :=
  match file with
  | none => PAM_SUCCESS
  | some f =>
    match findEntry user (Config.physLines f) with
    | none => PAM_SUCCESS
    | some e =>
      match e.old with
      | none => PAM_SUCCESS
      | some o =>
        if (pieces ',' o).any (fun p => decide (p.length > 0) && comparePassword crypt newpass p) then PAM_AUTHTOK_ERR
        else PAM_SUCCESS

/-- `last` and the count after the loop over the commas: modules/pam_pwhistory/opasswd.c:396-404 -/
def lastAndCount (o : Str) : Str × Nat :=
  if ',' ∈ o then ((o.reverse.takeWhile (· ≠ ',')).reverse, 1 + o.count ',') else (o, 1)

/-- one step of the loop that drops old passwords: modules/pam_pwhistory/opasswd.c:419-421 -/
def dropFirst (o : Str) : Str := if ',' ∈ o then (o.dropWhile (· ≠ ',')).drop 1 else o

/-- "check that we don't remember too many passwords": modules/pam_pwhistory/opasswd.c:416-423 -/
def trim (howmany : Int) : (count : Nat) → Str → Nat × Str
  | 0, o => (0, o)
  | c + 1, o =>
    if ((c + 1 : Nat) : Int) > howmany ∧ c + 1 > 1 then trim howmany c (dropFirst o) else (c + 1, o)

/-- `%s` of a pointer that may be NULL (glibc); it never is here -/
def pr : Option Str → Str
  | none => "(null)".toList
  | some s => s

/-- the new line: modules/pam_pwhistory/opasswd.c:425-431 -/
def newLine (e : Opwd) (count : Nat) (old oldpass : Str) : Str :=
  if count = 1 then pr e.user ++ ':' :: pr e.uid ++ ':' :: Nat.toDigits 10 count ++ ':' :: oldpass ++ ['\n']
  else pr e.user ++ ':' :: pr e.uid ++ ':' :: Nat.toDigits 10 count ++ ':' :: old ++ ',' :: oldpass ++ ['\n']

/-- the entry of the user: modules/pam_pwhistory/opasswd.c:393-431.  `save` is the original line. -/
def updateEntry (howmany : Int) (oldpass : Str) (e : Opwd) (save : Str) : Str :=
  match e.old with
  | some (c :: o) =>
    let lc := lastAndCount (c :: o)
    if lc.1 = oldpass ∧ (lc.2 : Int) ≤ howmany then save
    else
      let t := trim howmany (lc.2 + 1) (c :: o)
      newLine e t.1 t.2 oldpass
  | _ => newLine e 1 [] oldpass

/-- what becomes of one line: whether it is the entry looked for, and what is written:
modules/pam_pwhistory/opasswd.c:368-463 -/
def saveLine (howmany : Int) (user oldpass line : Str) : Bool × Option Str :=
  if lineText line = [] then (false, some (cstr line))
  else if isFor user (lineText line) then
    match parseEntry (lineText line) with
    | none => (false, none)
    | some e => (true, some (updateEntry howmany oldpass e (cstr line)))
  else (false, some (cstr line))

/-- all that is written to the new file: modules/pam_pwhistory/opasswd.c:359-490.  `old` is `none` if there is no file. -/
def outputs (howmany : Int) (user oldpass : Str) (uid : Nat) (old : Option Str) : List Str :=
  let rs := match old with
    | none => []
    | some f => (Config.physLines f).map (saveLine howmany user oldpass)
  rs.filterMap (·.2) ++
    (if rs.any (·.1) then [] else [user ++ ':' :: Nat.toDigits 10 uid ++ ":1:".toList ++ oldpass ++ ['\n']])

/-- the three names involved: the history, the temporary file and the backup -/
structure Fs where
  main : Option Str
  tmp : Option Str
  backup : Option Str
deriving DecidableEq, Repr

/-- what is done to the file system -/
inductive Op where
  | create
  | write (s : Str)
  | dropBackup
  | link
  | replace
  | dropTmp
deriving DecidableEq, Repr

/-- the effect of one operation that works.  `link` does nothing if there is no file to link to. -/
def Op.apply (fs : Fs) : Op → Fs
  | .create => { fs with tmp := some [] }
  | .write s => { fs with tmp := fs.tmp.map (· ++ s) }
  | .dropBackup => { fs with backup := none }
  | .link => { fs with backup := fs.main }
  | .replace => { fs with main := fs.tmp, tmp := none }
  | .dropTmp => { fs with tmp := none }

/-- `struct passwd` -/
structure Passwd where
  name : Str
  passwd : Str
  uid : Nat
deriving DecidableEq, Repr

/-- what the module finds and what works -/
structure Sys where
  /-- getpwnam -/
  pw : Str → Option Passwd
  /-- getspnam; `some none`: an entry without a password -/
  sp : Str → Option (Option Str)
  /-- the file can be opened if it exists -/
  opens : Bool
  fstat : Bool
  mkstemp : Bool
  fdopen : Bool
  /-- the n-th fputs -/
  fputs : Nat → Bool
  closeOld : Bool
  sync : Bool
  closeNew : Bool
  linkOk : Bool
  rename : Bool
  /-- the file can be opened in the n-th check -/
  opensAgain : Nat → Bool

/-- write until a failure: modules/pam_pwhistory/opasswd.c:441, 456, 480 -/
def writeAll (ok : Nat → Bool) : Nat → List Str → Bool × List Op
  | _, [] => (true, [])
  | i, s :: ss =>
    if ok i then
      let r := writeAll ok (i + 1) ss
      (r.1, .write s :: r.2)
    else (false, [])

/-- the current password: modules/pam_pwhistory/opasswd.c:274-291.  `error`: no entry in the shadow file. -/
def currentPass (sys : Sys) (user : Str) (pw : Passwd) : Option (Option Str) :=
  if pw.passwd = ['x'] ∨ (pw.passwd.take 2 = ['#', '#'] ∧ pw.name = pw.passwd.drop 2) then sys.sp user
  else some (some pw.passwd)

/-- `save_old_pass`: modules/pam_pwhistory/opasswd.c:231-541.  `main` is the history when it is read.  The result is the code
and what was done to the file system.  The failure of `rename` goes unnoticed. -/
def saveOld (sys : Sys) (howmany : Int) (user : Str) (main : Option Str) : Int × List Op :=
  match sys.pw user with
  | none => (PAM_USER_UNKNOWN, [])
  | some pw =>
    if howmany ≤ 0 then (PAM_SUCCESS, [])
    else
      match currentPass sys user pw with
      | none => (PAM_USER_UNKNOWN, [])
      | some none => (PAM_SUCCESS, [])
      | some (some []) => (PAM_SUCCESS, [])
      | some (some oldpass) =>
        if main.isSome ∧ ¬ sys.opens then (PAM_AUTHTOK_ERR, [])
        else if main.isSome ∧ ¬ sys.fstat then (PAM_AUTHTOK_ERR, [])
        else if ¬ sys.mkstemp then (PAM_AUTHTOK_ERR, [])
        else if ¬ sys.fdopen then (PAM_AUTHTOK_ERR, [.create, .dropTmp])
        else
          let w := writeAll sys.fputs 0 (outputs howmany user oldpass pw.uid main)
          if ¬ w.1 then (PAM_AUTHTOK_ERR, .create :: w.2 ++ [.dropTmp])
          else if main.isSome ∧ ¬ sys.closeOld then (PAM_AUTHTOK_ERR, .create :: w.2 ++ [.dropTmp])
          else if ¬ sys.sync then (PAM_AUTHTOK_ERR, .create :: w.2 ++ [.dropTmp])
          else if ¬ sys.closeNew then (PAM_AUTHTOK_ERR, .create :: w.2 ++ [.dropTmp])
          else (PAM_SUCCESS, .create :: w.2 ++ [.dropBackup] ++ (if sys.linkOk ∧ main.isSome then [.link] else []) ++
            (if sys.rename then [.replace] else []) ++ [.dropTmp])

/-- the options: modules/pam_pwhistory/pwhistory_config.h:41-47 -/
structure Options where
  debug : Bool
  enforceForRoot : Bool
  remember : Int
  tries : Int
  filename : Option Str
deriving DecidableEq, Repr

/-- the conversion of a long or an unsigned to an int -/
def toInt (v : Int) : Int := (v + 2 ^ 31) % 2 ^ 32 - 2 ^ 31

/-- strtol, with the value forced into the range of a long -/
def strtol (s : Str) : Int := max (-(2 ^ 63)) (min (2 ^ 63 - 1) (strtoInt 10 s).1)

/-- `pam_str_skip_icase_prefix`: libpam/include/pam_inline.h:91-97 -/
def skipIcase (s pre : Str) : Option Str := if ieq (s.take pre.length) pre then some (s.drop pre.length) else none

/-- `parse_option`: modules/pam_pwhistory/pam_pwhistory.c:69-112 -/
def parseOption (o : Options) (arg : Str) : Options :=
  if ieq arg "try_first_pass".toList then o
  else if ieq arg "use_first_pass".toList then o
  else if ieq arg "use_authtok".toList then o
  else if ieq arg "debug".toList then { o with debug := true }
  else match skipIcase arg "remember=".toList with
  | some s =>
    let r := toInt (strtol s)
    let r := if r < 0 then 0 else r
    { o with remember := if r > 400 then 400 else r }
  | none =>
  match skipIcase arg "retry=".toList with
  | some s =>
    let r := toInt (strtol s)
    { o with tries := if r < 0 then 1 else r }
  | none =>
  if ieq arg "enforce_for_root".toList then { o with enforceForRoot := true }
  else match skipIcase arg "authtok_type=".toList with
  | some _ => o
  | none =>
  match skipIcase arg "file=".toList with
  | some s => if s.head? ≠ some '/' then o else { o with filename := some s }
  | none => o

/-- the value of the last `conf=`: modules/pam_pwhistory/pwhistory_config.c:63-69 -/
def confArg (argv : List Str) : Option Str :=
  argv.foldl (fun r a => if "conf=".toList.isPrefixOf a then some (a.drop 5) else r) none

/-- a number in the configuration file: modules/pam_pwhistory/pwhistory_config.c:98-106, 110-118 -/
def confNumber (v : Option Str) (dflt : Int) : Int :=
  match v with
  | none => dflt
  | some s =>
    match Faillock.scanUnsigned 32 s with
    | none => dflt
    | some n => toInt n

/-- `parse_config_file`: modules/pam_pwhistory/pwhistory_config.c:54-132.  `file`: the contents of the configuration file,
`none` if it cannot be opened.  Built without a vendor directory. -/
def parseConfig (file : Option Str) (o : Options) : Options :=
  { debug := o.debug || (Util.searchKey file "debug".toList).isSome
    enforceForRoot := o.enforceForRoot || (Util.searchKey file "enforce_for_root".toList).isSome
    remember := confNumber (Util.searchKey file "remember".toList) o.remember
    tries := confNumber (Util.searchKey file "retry".toList) o.tries
    filename := match Util.searchKey file "file".toList with
      | some v => if v.head? ≠ some '/' then o.filename else some v
      | none => o.filename }

/-- the defaults: modules/pam_pwhistory/pam_pwhistory.c:303-307 -/
def defaults : Options := ⟨false, false, 10, 1, none⟩

/-- all options: modules/pam_pwhistory/pam_pwhistory.c:303-313.  `files` is what the configuration file (`none`: the default
one) holds. -/
def readOptions (files : Option Str → Option Str) (argv : List Str) : Options :=
  argv.foldl parseOption (parseConfig (files (confArg argv)) defaults)

/-- what `pam_get_authtok` gives: PAM_SUCCESS and a new password, or a code, which leaves `newpass` alone -/
inductive Ans where
  | got (p : Str)
  | code (k : Int)
deriving DecidableEq, Repr

/-- one call of `pam_sm_chauthtok` -/
structure Call where
  /-- pam_get_user: the code, or the name -/
  user : Except Int Str
  prelim : Bool
  /-- PAM_CHANGE_EXPIRED_AUTHTOK -/
  expired : Bool
  /-- getuid() -/
  ruid : Nat
  /-- pam_get_authtok, for each time it is called -/
  answers : Nat → Ans

/-- the loop that asks for a password: modules/pam_pwhistory/pam_pwhistory.c:346-392.  The result is the code, the new
password (PAM_AUTHTOK), and how often it asked. -/
def askLoop (c : Call) (enforce : Bool) (check : Nat → Str → Int) : (left : Nat) → (i : Nat) → Int × Option Str × Nat
  | 0, i => (PAM_MAXTRIES, none, i)
  | left + 1, i =>
    match c.answers i with
    | .code k =>
      if k ≠ PAM_SUCCESS ∧ k ≠ PAM_TRY_AGAIN then (if k = PAM_CONV_AGAIN then PAM_INCOMPLETE else k, none, i + 1)
      else askLoop c enforce check left (i + 1)
    | .got p =>
      if check i p ≠ PAM_SUCCESS then
        if c.ruid ≠ 0 ∨ enforce ∨ c.expired then askLoop c enforce check left (i + 1)
        else (PAM_SUCCESS, some p, i + 1)
      else (PAM_SUCCESS, some p, i + 1)

/-- the outcome of a call -/
structure Result where
  code : Int
  newpass : Option Str
  asked : Nat
  ops : List Op
deriving DecidableEq, Repr

/-- `pam_sm_chauthtok`: modules/pam_pwhistory/pam_pwhistory.c:294-402, for the options `o`; `fs` holds the history file.
Nobody else changes the file during the call. -/
def chauthtok (crypt : Str → Str → Option Str) (sys : Sys) (o : Options) (c : Call) (fs : Fs) : Result :=
  if o.remember = 0 then ⟨PAM_IGNORE, none, 0, []⟩
  else
    match c.user with
    | .error k => ⟨k, none, 0, []⟩
    | .ok user =>
      if c.prelim then ⟨PAM_SUCCESS, none, 0, []⟩
      else
        let s := saveOld sys o.remember user fs.main
        if s.1 ≠ PAM_SUCCESS then ⟨s.1, none, 0, s.2⟩
        else
          let main := (s.2.foldl Op.apply fs).main
          let check := fun i p => checkOld crypt (if sys.opensAgain i then main else none) user p
          let r := askLoop c o.enforceForRoot check o.tries.toNat 0
          ⟨r.1, r.2.1, r.2.2, s.2⟩

end Pam.Pwh
