import Verif.Unix.Auth
import Verif.Pwhistory.Model
import Verif.Access.Model
/-
Model of how pam_unix and unix_update change /etc/passwd, /etc/shadow and the file of old passwords: modules/pam_unix/passverify.c:558-1048,
built without SELinux.  Memory is available.  Nobody else changes the files meanwhile (who honours the lock does not).
-/
namespace Pam.Unix
open Pam Util

/-- owner, group and mode of a file -/
structure Attr where
  uid : Nat
  gid : Nat
  mode : Nat
deriving DecidableEq, Repr

/-- A file made of records, and the temporary file that is to replace it.  `synced`: what the temporary file holds has reached the disk.
`torn`: the file is one that had not when it took its place, so that a crash may leave anything in it. -/
structure Rep (α : Type) where
  main : Option (List α)
  attr : Attr
  tmp : Option (List α) := none
  tattr : Attr := ⟨0, 0, 0⟩
  synced : Bool := false
  torn : Bool := false

/-- what is done to such a file -/
inductive Op (α : Type) where
  | create (a : Attr)
  | chown (uid gid : Nat)
  | chmod (mode : Nat)
  | write (x : α)
  | sync
  | replace
  | unlink

/-- the effect of one operation that works -/
def Rep.apply {α : Type} (f : Rep α) : Op α → Rep α
  | .create a => { f with tmp := some [], tattr := a, synced := false }
  | .chown u g => { f with tattr := ⟨u, g, f.tattr.mode⟩ }
  | .chmod m => { f with tattr := ⟨f.tattr.uid, f.tattr.gid, m⟩ }
  | .write x => { f with tmp := f.tmp.map (· ++ [x]), synced := false }
  | .sync => { f with synced := true }
  | .replace => { f with main := f.tmp, attr := f.tattr, tmp := none, torn := !f.synced }
  | .unlink => { f with tmp := none }

/-- what works while a file is replaced; `put`: the n-th attempt to write a record works; `flush`: fflush and fsync -/
structure FLuck where
  mkstemp : Bool := true
  fdopen : Bool := true
  opens : Bool := true
  fstat : Bool := true
  fchown : Bool := true
  fchmod : Bool := true
  put : Nat → Bool := fun _ => true
  flush : Bool := true
  close : Bool := true
  rename : Bool := true

/-- a file made by `mkstemp` -/
def freshAttr (me : Nat × Nat) : Attr := ⟨me.1, me.2, 0o600⟩

/-- what `save_old_password`, `unix_update_passwd` and `unix_update_shadow` have in common: modules/pam_unix/passverify.c:661-692 and 760-777,
821-852 and 876-896, 941-972 and 1016-1036.  `me`: owner and group of a new file; `body`: the loop, from the records of the file to the
value of `err` and what is written.  The result says whether it worked. -/
def rewrite {α : Type} (l : FLuck) (me : Nat × Nat) (f : Rep α) (body : List α → Bool × List α) : Bool × List (Op α) :=
  if !l.mkstemp then (false, [])
  else if !l.fdopen then (false, [.create (freshAttr me)])
  else match f.main with
  | none => (false, [.create (freshAttr me), .unlink])
  | some old =>
    if !l.opens then (false, [.create (freshAttr me), .unlink])
    else if !l.fstat then (false, [.create (freshAttr me), .unlink])
    else if !l.fchown then (false, [.create (freshAttr me), .unlink])
    else if !l.fchmod then (false, [.create (freshAttr me), .chown f.attr.uid f.attr.gid, .unlink])
    else
      let w := body old
      let ops := [.create (freshAttr me), .chown f.attr.uid f.attr.gid, .chmod f.attr.mode] ++ w.2.map Op.write ++ (if l.flush then [Op.sync] else [])
      if w.1 || !l.flush || !l.close then (false, ops ++ [.unlink])
      else if !l.rename then (false, ops ++ [.unlink])
      else (true, ops ++ [.replace])

/-- an entry of /etc/passwd; `rest`: group, comment, home directory and shell -/
structure PwEnt where
  pw : Pw
  rest : Str
deriving DecidableEq, Repr

/-- an entry of /etc/shadow -/
structure SpEnt where
  name : Str
  hash : Str
  aging : Aging
  flag : Int
deriving DecidableEq, Repr

/-- The loop of `unix_update_passwd`: modules/pam_unix/passverify.c:854-873, called with `err` 1.  `none` is a line `fgetpwent` skips: an
empty or malformed one or a comment.  What `putpwent` writes reads as the same entry. -/
def passwdLoop (put : Nat → Bool) (forwho towhat : Str) : (i : Nat) → (err : Bool) → List (Option PwEnt) → Bool × List (Option PwEnt)
  | _, err, [] => (err, [])
  | i, err, none :: es => passwdLoop put forwho towhat i err es
  | i, err, some e :: es =>
    let hit := e.pw.name = forwho
    let e' := if hit then { e with pw := { e.pw with passwd := towhat } } else e
    let err' := if hit then false else err
    if put i then
      let r := passwdLoop put forwho towhat (i + 1) err' es
      (r.1, some e' :: r.2)
    else (true, [])

/-- the day of the change: modules/pam_unix/passverify.c:979-982, 1003-1006 -/
def changeDay (today : Int) : Int := if today = 0 then -1 else today

/-- The loop of `unix_update_shadow`: modules/pam_unix/passverify.c:974-994: `err`, `wroteentry` and what is written. -/
def shadowLoop (put : Nat → Bool) (today : Int) (forwho towhat : Str) :
    (i : Nat) → (wrote : Bool) → List (Option SpEnt) → Bool × Bool × List (Option SpEnt)
  | _, wrote, [] => (false, wrote, [])
  | i, wrote, none :: es => shadowLoop put today forwho towhat i wrote es
  | i, wrote, some e :: es =>
    let hit := e.name = forwho
    let e' := if hit then { e with hash := towhat, aging := { e.aging with lstchg := changeDay today } } else e
    let wrote' := if hit then true else wrote
    if put i then
      let r := shadowLoop put today forwho towhat (i + 1) wrote' es
      (r.1, r.2.1, some e' :: r.2.2)
    else (true, wrote', [])

/-- the loop and what follows it: modules/pam_unix/passverify.c:974-1014 -/
def shadowBody (put : Nat → Bool) (today : Int) (forwho towhat : Str) (es : List (Option SpEnt)) : Bool × List (Option SpEnt) :=
  let r := shadowLoop put today forwho towhat 0 false es
  if !r.2.1 && !r.1 then
    if put r.2.2.length then (false, r.2.2 ++ [some ⟨forwho, towhat, ⟨changeDay today, -1, -1, -1, -1, -1⟩, -1⟩])
    else (true, r.2.2)
  else (r.1, r.2.2)

/-- is the line about the user: modules/pam_unix/passverify.c:695.  `strchr` finds the end of the string, too. -/
def isOwn (forwho line : Str) : Bool :=
  forwho.isPrefixOf (cstr line) &&
    (match (cstr line).drop forwho.length with
      | [] => true
      | c :: _ => c = ':' || c = '\n')

/-- name, uid, number and passwords of such a line: modules/pam_unix/passverify.c:701-717.  (A user with an empty name and a line that
begins with NUL would make line 701 write before the buffer.) -/
def opwFields (line : Str) : Option (Str × Str × Str × Option Str) := do
  let (u, r) ← Access.strtok [':'] (cstr line).dropLast
  let (uid, r) ← Access.strtok [':'] r
  let (n, r) ← Access.strtok [':'] r
  some (u, uid, n, if r = [] then none else some r)

/-- how many passwords there will be: modules/pam_unix/passverify.c:718-722 -/
def opwCount (n : Str) : Nat :=
  let v := Pwh.strtol n
  let rest := (strtoInt 10 n).2
  if v < 0 ∨ v ≥ 2147483647 ∨ rest = n ∨ rest ≠ [] then 0 else v.toNat + 1

/-- the oldest ones are dropped: modules/pam_unix/passverify.c:723-728 -/
def dropOld (howmany : Int) : (npas : Nat) → (pas : Option Str) → Nat × Option Str
  | 0, pas => (0, pas)
  | n + 1, pas =>
    if ((n + 1 : Nat) : Int) > howmany then
      match pas with
      | none => (n + 1, none)
      | some t => dropOld howmany n (if ',' ∈ t then some ((t.dropWhile (· ≠ ',')).drop 1) else none)
    else (n + 1, pas)

/-- a line: modules/pam_unix/passverify.c:730-735, 754-755 -/
def opwLine (u uid : Str) (npas : Nat) (pas : Option Str) (pass : Str) : Str :=
  match pas with
  | none => u ++ ':' :: uid ++ ':' :: Nat.toDigits 10 npas ++ ':' :: pass ++ ['\n']
  | some t => u ++ ':' :: uid ++ ':' :: Nat.toDigits 10 npas ++ ':' :: t ++ ',' :: pass ++ ['\n']

/-- The loop of `save_old_password`: modules/pam_unix/passverify.c:694-743: `err`, `found` and what is written.  `fresh`: the hash of the old
password, with a new salt for each line. -/
def saveLoop (put : Nat → Bool) (forwho : Str) (fresh : Nat → Str) (howmany : Int) :
    (i : Nat) → (found : Bool) → List Str → Bool × Bool × List Str
  | _, found, [] => (false, found, [])
  | i, found, line :: ls =>
    if isOwn forwho line then
      if howmany = 0 then saveLoop put forwho fresh howmany i true ls
      else match opwFields line with
        | none => saveLoop put forwho fresh howmany i false ls
        | some (u, uid, n, pas) =>
          let d := dropOld howmany (opwCount n) pas
          if put i then
            let r := saveLoop put forwho fresh howmany (i + 1) true ls
            (r.1, r.2.1, opwLine u uid d.1 d.2 (fresh i) :: r.2.2)
          else (true, true, [])
    else if put i then
      let r := saveLoop put forwho fresh howmany (i + 1) found ls
      (r.1, r.2.1, cstr line :: r.2.2)
    else (true, found, [])

/-- the loop and what follows it: modules/pam_unix/passverify.c:694-758.  `uid`: that of the user, if there is such a user.  The value of `err`
from the loop is lost if the user has not been found. -/
def saveBody (put : Nat → Bool) (forwho : Str) (fresh : Nat → Str) (howmany : Int) (uid : Option Nat) (file : List Str) : Bool × List Str :=
  let r := saveLoop put forwho fresh howmany 0 false (Config.physLines file.flatten)
  if r.2.1 then (r.1, r.2.2)
  else match uid with
    | none => (true, r.2.2)
    | some uid =>
      let i := if r.1 then r.2.2.length + 1 else r.2.2.length
      if put i then (false, r.2.2 ++ [opwLine forwho (Nat.toDigits 10 uid) 1 none (fresh i)])
      else (true, r.2.2)

/-- `check_old_password`: modules/pam_unix/pam_unix_passwd.c:326-365.  `file`: `none` if it cannot be opened. -/
def checkOldPassword (c : Crypts) (file : Option (List Str)) (forwho newpass : Str) : Int :=
  match file with
  | none => PAM_ABORT
  | some f =>
    match (Config.physLines f.flatten).find? (fun line => (forwho ++ [':']).isPrefixOf (cstr line)) with
    | none => PAM_SUCCESS
    | some line =>
      match opwFields line with
      | some (_, _, _, some pas) =>
        if ((Pwh.pieces ',' pas).filter (· ≠ [])).any (fun h => cryptMd5 c.good newpass h = h) then PAM_AUTHTOK_ERR else PAM_SUCCESS
      | _ => PAM_SUCCESS

/-- the three files and the lock -/
structure Etc where
  pw : Rep (Option PwEnt)
  sp : Rep (Option SpEnt)
  op : Rep Str
  held : Bool := false

/-- what is done to them -/
inductive Act where
  | lock
  | unlock
  | pw (o : Op (Option PwEnt))
  | sp (o : Op (Option SpEnt))
  | op (o : Op Str)

/-- the effect of what is done -/
def Etc.apply (e : Etc) : Act → Etc
  | .lock => { e with held := true }
  | .unlock => { e with held := false }
  | .pw o => { e with pw := e.pw.apply o }
  | .sp o => { e with sp := e.sp.apply o }
  | .op o => { e with op := e.op.apply o }

/-- accounts the files do not tell about, the date and the hash functions; the files are asked first -/
structure World where
  otherPw : Str → Option Pw
  otherUid : Nat → Option Pw
  otherSp : Str → Option Sp
  today : Int
  crypts : Crypts

/-- `getpwnam` as far as /etc/passwd is concerned, and `_unix_getpwnam` with `files`: modules/pam_unix/support.c:351-495 (a malformed line
is not distinguished from none: neither is an entry) -/
def Etc.findPw (e : Etc) (name : Str) : Option PwEnt :=
  (e.pw.main.getD []).findSome? (fun x => x.filter (fun x => decide (x.pw.name = name)))

/-- `getspnam` as far as /etc/shadow is concerned -/
def Etc.findSp (e : Etc) (name : Str) : Option SpEnt :=
  (e.sp.main.getD []).findSome? (fun x => x.filter (fun x => decide (x.name = name)))

/-- the system with these files -/
def Etc.sys (w : World) (e : Etc) : Sys where
  pwnam n := match e.findPw n with
    | some x => some x.pw
    | none => w.otherPw n
  pwuid u := match (e.pw.main.getD []).findSome? (fun x => x.filter (fun x => decide (x.pw.uid = u))) with
    | some x => some x.pw
    | none => w.otherUid u
  spnam p n := if p.euid = 0 then
      match e.findSp n with
      | some x => some ⟨x.hash, x.aging⟩
      | none => w.otherSp n
    else none
  today := w.today
  crypts := w.crypts

/-- what works while the three files are changed, and the random numbers for the salts of the old password -/
structure SLuck where
  op : FLuck := {}
  sp : FLuck := {}
  pw : FLuck := {}
  rnd : Nat → Nat → Nat

/-- `crypt_md5_wrapper`: modules/pam_unix/passverify.c:430-444 -/
def md5Wrapper (c : Crypts) (rnd : Nat → Nat) (pass : Str) : Str := cryptMd5 c.good pass ("$1$".toList ++ makeSalt rnd 8)

/-- `save_old_password`: modules/pam_unix/passverify.c:611-789 -/
def saveOldPassword (w : World) (e : Etc) (p : Proc) (l : SLuck) (forwho : Str) (oldpass : Option Str) (howmany : Int) : Bool × List (Op Str) :=
  if howmany < 0 then (true, [])
  else match oldpass with
    | none => (true, [])
    | some old => rewrite l.op (p.euid, p.egid) e.op
        (saveBody l.op.put forwho (fun i => md5Wrapper w.crypts (l.rnd i) old) howmany (((e.sys w).pwnam forwho).map Pw.uid))

/-- `unix_update_passwd`: modules/pam_unix/passverify.c:791-908 -/
def updatePasswd (e : Etc) (p : Proc) (l : FLuck) (forwho towhat : Str) : Bool × List (Op (Option PwEnt)) :=
  rewrite l (p.euid, p.egid) e.pw (passwdLoop l.put forwho towhat 0 true)

/-- `unix_update_shadow`: modules/pam_unix/passverify.c:910-1048 -/
def updateShadow (w : World) (e : Etc) (p : Proc) (l : FLuck) (forwho towhat : Str) : Bool × List (Op (Option SpEnt)) :=
  rewrite l (p.euid, p.egid) e.sp (shadowBody l.put w.today forwho towhat)

/-- the files are changed: modules/pam_unix/pam_unix_passwd.c:472-484 and unix_update.c:107-120.  `pw` is what `getpwnam` gave. -/
def setFiles (w : World) (e : Etc) (p : Proc) (l : SLuck) (pw : Pw) (forwho : Str) (old : Option Str) (towhat : Str) (shadow : Bool)
    (remember : Int) : Int × List Act :=
  let s := saveOldPassword w e p l forwho old remember
  if !s.1 then (PAM_AUTHTOK_ERR, s.2.map .op)
  else if shadow || isShadowed pw then
    let t := updateShadow w e p l.sp forwho towhat
    if !t.1 then (PAM_AUTHTOK_ERR, s.2.map .op ++ t.2.map .sp)
    else if !isShadowed pw then
      let v := updatePasswd e p l.pw forwho "x".toList
      (if v.1 then PAM_SUCCESS else PAM_AUTHTOK_ERR, s.2.map .op ++ t.2.map .sp ++ v.2.map .pw)
    else (PAM_SUCCESS, s.2.map .op ++ t.2.map .sp)
  else
    let v := updatePasswd e p l.pw forwho towhat
    (if v.1 then PAM_SUCCESS else PAM_AUTHTOK_ERR, s.2.map .op ++ v.2.map .pw)

end Pam.Unix
