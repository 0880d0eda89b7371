import Verif.Namespace.Session
/-
modules/pam_namespace/pam_namespace.c: the set-up of one directory (`ns_setup`), the script that is run for it (`inst_init`, with `check_safe_path`), the creation of
the directory itself (`create_polydir`) and the removal of temporary instances (`cleanup_tmpdirs`).

What the system calls do is given by functions and flags.  Left out: messages to the log; the mounts that protect the path of a directory (`secure_opendir`, which has a
model of its own in `Opendir`, is a call that works or not); the labels of instances; `pam_sprintf` of a descriptor's number, which always fits.
-/
namespace Pam.Namespace
open Pam

/-! ### safe paths -/

/-- what kind of file it is -/
inductive Kind | dir | link | other
deriving DecidableEq, Repr

/-- what `lstat` and `stat` tell -/
structure Stat where
  kind : Kind
  uid : Nat
  mode : Nat
deriving DecidableEq, Repr

/-- the path cut at its last slash: modules/pam_namespace/pam_namespace.c:1498-1499 and 1501, 1535; a path without a slash becomes empty here -/
def cutSlash (s : Str) : Str := (s.reverse.dropWhile (· ≠ '/')).tail.reverse

/-- a directory of the administrator: modules/pam_namespace/pam_namespace.c:1520-1533 -/
def rootDir (a : Stat) : Bool := a.kind = .dir && !(a.uid ≠ 0 || (a.mode &&& 0o22 ≠ 0 && a.mode &&& 0o1000 = 0))

/-- one directory of the path: modules/pam_namespace/pam_namespace.c:1503-1533 -/
def segOk (lstat stat : Str → Option Stat) (d : Str) : Bool :=
  match lstat d with
  | none => false
  | some a =>
    if a.kind = .link then
      if a.uid ≠ 0 then false
      else match stat d with
        | none => false
        | some b => rootDir b
    else rootDir a

/-- the loop: modules/pam_namespace/pam_namespace.c:1501-1536; the number bounds the rounds -/
def safeLoop (lstat stat : Str → Option Stat) : Nat → Str → Bool
  | 0, _ => false
  | n + 1, d => if '/' ∈ d then segOk lstat stat d && safeLoop lstat stat n (cutSlash d) else true

/-- `check_safe_path`: modules/pam_namespace/pam_namespace.c:1481-1544.  Lack of memory (which makes a path unsafe) is left out. -/
def checkSafePath (lstat stat : Str → Option Stat) (path : Str) : Bool :=
  if path.head? ≠ some '/' then false
  else safeLoop lstat stat (path.length + 1) (cutSlash (stripSlashes path))

/-! ### the script -/

/-- `NAMESPACE_INIT_SCRIPT`: modules/pam_namespace/pam_namespace.h:90 -/
def adminScript : Str := "/etc/security/namespace.init".toList

/-- how a process ended -/
inductive End | exited (code : Nat) | killed
deriving DecidableEq, Repr

/-- the system as `inst_init` meets it: what `access` says of files, whether the administrator's script is missing (`stat` with ENOENT), the script of the vendor if the
module was built with one, which calls work, and what `waitpid` says of a script that was run; `none` is an error other than EINTR -/
structure ScriptSys where
  there : Str → Bool
  executable : Str → Bool
  missing : Bool
  vendor : Option Str
  sigaction : Bool
  fork : Bool
  context : Bool
  sanitize : Bool
  exec : Bool
  ended : Option End

/-- a program that was run: arguments, environment and what it does with SIGCHLD (0: the default) -/
structure Run where
  argv : List Str
  envp : List Str
  sigchld : Nat
deriving DecidableEq, Repr

/-- which script: modules/pam_namespace/pam_namespace.c:1557-1569 -/
def whichScript (y : ScriptSys) (p : Poly) : Str :=
  let s := match y.vendor with
    | none => adminScript
    | some v => if y.missing then v else adminScript
  if p.flags.iscript then p.initScript.getD s else s

/-- `newdir ? "1" : "0"` and the like -/
def digit (b : Bool) : Str := if b then "1".toList else "0".toList

/-- the child: modules/pam_namespace/pam_namespace.c:1591-1612.  What is run, if anything; without that the child ends with status 1. -/
def scriptChild (y : ScriptSys) (lstat stat : Str → Option Stat) (script : Str) (p : Poly) (ipath user : Str) (newdir : Bool) : Option Run :=
  if ¬ y.context then none
  else if ¬ y.sanitize then none
  else if ¬ y.exec then none
  else some ⟨[script, p.dir, ipath, digit newdir, user, digit (checkSafePath lstat stat p.dir), digit (checkSafePath lstat stat ipath)], [], 0⟩

/-- `inst_init`: modules/pam_namespace/pam_namespace.c:1552-1637.  The result is the code, the script that was run, and what the process does with SIGCHLD afterwards;
`h` is what it did before. -/
def instInit (y : ScriptSys) (lstat stat : Str → Option Stat) (p : Poly) (ipath user : Str) (newdir : Bool) (h : Nat) : Int × Option Run × Nat :=
  let s := whichScript y p
  if ¬ y.there s then (PAM_SUCCESS, none, h)
  else if ¬ y.executable s then (PAM_SESSION_ERR, none, h)
  else if ¬ y.sigaction then (PAM_SESSION_ERR, none, h)
  else if ¬ y.fork then (PAM_SESSION_ERR, none, h)
  else
    let r := scriptChild y lstat stat s p ipath user newdir
    let e := if r.isSome then y.ended else if y.ended = none then none else some (.exited 1)
    match e with
    | none => (PAM_SESSION_ERR, r, h)
    | some .killed => (PAM_SESSION_ERR, r, h)
    | some (.exited _) => (PAM_SUCCESS, r, h)

/-! ### the directory itself -/

/-- the calls of `create_polydir`: the one that makes and opens the directory, the changes of mode and owner; `label` is the context the policy has for the directory, if
SELinux is in use and the context can be found and set; `gid0` is the group a new directory gets -/
structure MakeSys where
  selinux : Bool
  label : Option Str
  make : Bool
  umask : Nat
  gid0 : Nat
  chmod : Bool
  chown : Bool

/-- `create_polydir`: modules/pam_namespace/pam_namespace.c:1639-1746.  `con` is the context for new files before; the result is the directory (`none`: failed), the context
for new files afterwards, and whether the directory was made and taken away again (`secure_umount` and `secure_try_rmdir`).  Setting the old context back is taken to work. -/
def createPolydir (y : MakeSys) (p : Poly) (uid gid : Nat) (con : Option Str) : Option Attr × Option Str × Bool :=
  let mode := if p.mode ≠ unset then p.mode else 0o777
  let con' := if y.selinux then (match y.label with | some l => some l | none => con) else con
  if ¬ y.make then (none, con', false)
  else
    let a : Attr := ⟨0, y.gid0, mode &&& (0o7777 ^^^ (y.umask &&& 0o7777))⟩
    let con'' := if y.selinux then con else con'
    if p.mode ≠ unset ∧ ¬ y.chmod then (none, con'', true)
    else
      let a := if p.mode ≠ unset then { a with mode := mode % 0o10000 } else a
      let u := if p.owner ≠ unset then p.owner else uid
      let g := if p.group ≠ unset then p.group else gid
      if ¬ y.chown then (none, con'', true)
      else (some { a with uid := u, gid := g }, con'', false)

/-! ### the set-up -/

/-- the session: the hash, gen_hash, the security context of instances, the user, ignore_instance_parent_mode and the user's ids -/
structure Sess where
  md5 : Str → Str
  gen : Bool
  ctx : Option Str
  user : Str
  ignore : Bool
  uid : Nat
  gid : Nat

/-- the calls of `ns_setup`: opening the directory (the error says whether it was ENOENT), making it, reading its status, opening the directory with the instances (or making
it), its status, the instance if there is one, the calls of `create_instance`, the name `mkdtemp` makes, opening the instance, mounting, and the script -/
structure SetupSys where
  openDir : Except Bool Attr
  make : MakeSys
  fstat : Bool
  openParent : Bool
  parent : Option Attr
  instance_ : Option Attr
  call : Call → Bool
  gid0 : Nat
  mkdtemp : Option Str
  openInst : Bool
  mount : Bool
  script : ScriptSys
  lstat : Str → Option Stat
  stat : Str → Option Stat

/-- what is done in the session's namespace -/
inductive Act
  | tmpfs (flags : MntFlags) (opts : Option Str)
  | bind (parent name : Str)
  | run (r : Run)
deriving DecidableEq, Repr

/-- the descriptors of `ns_setup` -/
inductive Fd | dir | parent | inst
deriving DecidableEq, Repr

/-- `create_instance` for the method tmpdir, after `mkdtemp`: modules/pam_namespace/pam_namespace.c:1801-1861; the code and the directory afterwards -/
def fillTmp (ok : Call → Bool) (gid0 : Nat) (want : Attr) : Int × Option Attr :=
  if ¬ ok .open_ ∨ ¬ ok .stat then (PAM_SESSION_ERR, none)
  else if ((0 : Nat) ≠ want.uid ∨ gid0 ≠ want.gid) ∧ ¬ ok .chown then (PAM_SESSION_ERR, none)
  else if ¬ ok .chmod then (PAM_SESSION_ERR, none)
  else (PAM_SUCCESS, some ⟨want.uid, want.gid, want.mode % 0o10000⟩)

/-- what the entry of the directory holds afterwards: whether its method is still tmpdir, and where its instance is -/
structure Place where
  tmp : Bool
  at_ : Option (Str × Str)
deriving DecidableEq, Repr

/-- the instance that is to be mounted: modules/pam_namespace/pam_namespace.c:1774-1799 with `createInstance` and `fillTmp`.  The code, the entry, the name, and the instance. -/
def makeInstance (y : SetupSys) (p : Poly) (want : Attr) (par name : Str) : Int × Place × Str × Option Attr :=
  if p.method = .tmpdir then
    match y.mkdtemp with
    | none => (PAM_SESSION_ERR, ⟨false, some (par, name)⟩, name, none)
    | some n =>
      let r := fillTmp y.call y.gid0 want
      (r.1, ⟨true, some (par, n)⟩, n, r.2)
  else
    let r := createInstance y.call y.gid0 want y.instance_
    (r.1, ⟨false, some (par, name)⟩, name, (r.2.head?).join)

/-- what comes out of the set-up -/
structure Out where
  code : Int
  acts : List Act
  place : Place
  inst : Option Attr
  fds : List Fd
  sigchld : Nat
deriving DecidableEq, Repr

/-- what is closed at the end: modules/pam_namespace/pam_namespace.c:2051-2057 -/
def closing (o : Out) : Out := { o with fds := o.fds.filter fun f => !(f = .parent || f = .inst || f = .dir) }

/-- the script, unless it is not wanted: modules/pam_namespace/pam_namespace.c:1921-1926, 2039-2040 -/
def initStep (y : SetupSys) (e : Sess) (p : Poly) (ipath : Str) (newdir : Bool) (h : Nat) (o : Out) : Out :=
  if p.flags.noinit then { o with code := PAM_SUCCESS }
  else
    let r := instInit y.script y.lstat y.stat p ipath (e.user.take 255) newdir h
    { o with code := r.1, acts := o.acts ++ r.2.1.toList.map .run, sigchld := r.2.2 }

/-- `ns_setup` once the directory is open: modules/pam_namespace/pam_namespace.c:1904-2049 -/
def setupOpen (y : SetupSys) (e : Sess) (p : Poly) (h : Nat) (a : Attr) : Out :=
  let fail (pl : Place) (i : Option Attr) (fds : List Fd) : Out := ⟨PAM_SESSION_ERR, [], pl, i, fds, h⟩
  let tmp := decide (p.method = .tmpdir)
  if p.method = .tmpfs then
    if ¬ y.mount then fail ⟨tmp, none⟩ none [.dir]
    else initStep y e p "tmpfs".toList true h ⟨PAM_SUCCESS, [.tmpfs p.mountFlags p.mountOpts], ⟨tmp, none⟩, none, [.dir], h⟩
  else if ¬ y.fstat then fail ⟨tmp, none⟩ none [.dir]
  else match polyName e.md5 e.gen e.ctx e.user p with
    | .error c => if c ≠ PAM_IGNORE then fail ⟨tmp, none⟩ none [.dir] else ⟨c, [], ⟨tmp, none⟩, none, [.dir], h⟩
    | .ok (par, name) =>
      if ¬ y.openParent then fail ⟨tmp, some (par, name)⟩ none [.dir]
      else if checkParent e.ignore y.parent ≠ 0 then fail ⟨tmp, some (par, name)⟩ none [.dir, .parent]
      else
        let m := makeInstance y p a par name
        let newdir := decide (m.1 ≠ PAM_IGNORE)
        if m.1 ≠ PAM_IGNORE ∧ m.1 ≠ PAM_SUCCESS then fail m.2.1 m.2.2.2 [.dir, .parent]
        else if ¬ y.openInst then fail m.2.1 m.2.2.2 [.dir, .parent]
        else if ¬ y.mount then fail m.2.1 m.2.2.2 [.dir, .parent, .inst]
        else initStep y e p (par ++ m.2.2.1) newdir h ⟨PAM_SUCCESS, [.bind par m.2.2.1], m.2.1, m.2.2.2, [.dir, .parent, .inst], h⟩

/-- `ns_setup`: modules/pam_namespace/pam_namespace.c:1872-2063.  An error of `poly_name` after `set_polydir_paths` leaves the place; here no place is given then.  A directory
that is made has the same owner for the instance as for itself.  The second part of the result is the context for new files, the third says whether the directory was made. -/
def nsSetup (y : SetupSys) (e : Sess) (p : Poly) (h : Nat) (con : Option Str) : Out × Option Str × Bool :=
  let err : Out := ⟨PAM_SESSION_ERR, [], ⟨decide (p.method = .tmpdir), none⟩, none, [], h⟩
  match y.openDir with
  | .ok a => (closing (setupOpen y e p h a), con, false)
  | .error noent =>
    if ¬ noent ∨ ¬ p.flags.create then (err, con, false)
    else match createPolydir y.make p e.uid e.gid con with
      | (none, c, _) => (err, c, false)
      | (some a, c, _) => (closing (setupOpen y e p h a), c, true)

/-! ### temporary instances -/

/-- the system as `cleanup_tmpdirs` meets it: whether the directory with the instances can be opened, whether there is something of that name in it, and for the processes in
turn: whether `fork` works, whether the child gets to run the program, and what `waitpid` says -/
structure RmSys where
  open_ : Str → Bool
  there : Str → Str → Bool
  fork : Nat → Bool
  runs : Nat → Bool
  wait : Nat → Option End

/-- the loop of `cleanup_tmpdirs`: modules/pam_namespace/pam_namespace.c:2107-2165, the list says what `/bin/rm -rf` was run on; `n` counts the processes -/
def cleanupLoop (w : RmSys) : Nat → List Place → Int × List (Str × Str)
  | _, [] => (PAM_SUCCESS, [])
  | n, p :: ps =>
    match p.tmp, p.at_ with
    | true, some (par, name) =>
      if ¬ w.open_ par then cleanupLoop w n ps
      else if ¬ w.there par name then cleanupLoop w n ps
      else if ¬ w.fork n then (PAM_SESSION_ERR, [])
      else
        let did := if w.runs n then [(par, name)] else []
        match w.wait n with
        | none => (PAM_SESSION_ERR, did)
        | some _ =>
          let r := cleanupLoop w (n + 1) ps
          (r.1, did ++ r.2)
    | _, _ => cleanupLoop w n ps

/-- `cleanup_tmpdirs`: modules/pam_namespace/pam_namespace.c:2092-2171; the third part is what is done with SIGCHLD afterwards, `h` what was done before -/
def cleanupTmp (w : RmSys) (sigaction : Bool) (h : Nat) (ps : List Place) : Int × List (Str × Str) × Nat :=
  if ¬ sigaction then (PAM_SESSION_ERR, [], h)
  else
    let r := cleanupLoop w 0 ps
    (r.1, r.2, h)

end Pam.Namespace
