import Verif.Namespace.Opendir
/-
modules/pam_namespace/pam_namespace.c: the descriptors that `secure_opendir`, `secure_umount` and `secure_try_rmdir` open and close, and the mounts that protect the
directories on the way.

Any system call and any allocation can fail.  A descriptor is a number that was not used before.  What a directory is, is not in this file (Namespace/Opendir.lean has
it); here it only matters what `fstat` says about it, which can change from call to call.
-/
namespace Pam.Namespace

/-- the process: open descriptors, the list `protect_dirs` with the newest first, the protecting mounts with the newest first, and whether a descriptor was closed that
was not open -/
structure Res where
  fds : List Nat
  next : Nat
  prot : List (List Name)
  mounts : List (List Name)
  wild : Bool := false
  /-- how many calls were made -/
  t : Nat := 0
deriving DecidableEq, Repr

/-- the system: whether a call succeeds, and whether `fstat` says that users may change the directory -/
structure Sys where
  ok : Nat → Bool
  unsafeAt : Nat → Bool

/-- a call that opens a descriptor -/
def Res.opens (y : Sys) (s : Res) : Option Nat × Res :=
  if y.ok s.t then (some s.next, { s with fds := s.next :: s.fds, next := s.next + 1, t := s.t + 1 }) else (none, { s with t := s.t + 1 })

/-- `close` -/
def Res.closes (s : Res) (fd : Nat) : Res := { s with fds := s.fds.filter (· ≠ fd), wild := s.wild || !(s.fds.contains fd) }

/-- any other call -/
def Res.call (y : Sys) (s : Res) : Bool × Res := (y.ok s.t, { s with t := s.t + 1 })

/-- `protect_mount`: modules/pam_namespace/pam_namespace.c:77-124; the descriptor stands for `path` -/
def protectMount (y : Sys) (path : List Name) (s : Res) : Bool × Res :=
  if path ∈ s.prot then (true, s)
  else
    match s.call y with       -- calloc
    | (false, s) => (false, s)
    | (true, s) =>
      match s.call y with     -- strdup
      | (false, s) => (false, s)
      | (true, s) =>
        match s.call y with   -- mount
        | (false, s) => (false, s)
        | (true, s) => (true, { s with prot := path :: s.prot, mounts := path :: s.mounts })

/-- the last component is opened, or made: modules/pam_namespace/pam_namespace.c:234-242 -/
def openOrMake (y : Sys) (mkdir : Bool) (s : Res) : Option Nat × Res :=
  match s.opens y with
  | (some rv, s) => (some rv, s)
  | (none, s) =>
    if mkdir then
      match s.call y with   -- mkdirat
      | (false, s) => (none, s)
      | (true, s) => s.opens y
    else (none, s)

/-- the end of `secure_opendir`: modules/pam_namespace/pam_namespace.c:234-270; `pre`: the path so far, `c`: the last component -/
def openLast (y : Sys) (protect mkdir nofollow : Bool) (dfd : Nat) (pre : List Name) (c : Name) (s : Res) : Option Nat × Res :=
  match openOrMake y mkdir s with
  | (none, s) => (none, s.closes dfd)
  | (some rv, s) =>
    if nofollow && protect then
      match protectMount y (pre ++ [c]) s with
      | (false, s) => (none, (s.closes rv).closes dfd)
      | (true, s) =>
        match (s.closes rv).opens y with
        | (rv, s) => (rv, s.closes dfd)
    else (some rv, s.closes dfd)

/-- the loop of `secure_opendir`: modules/pam_namespace/pam_namespace.c:189-232 -/
def openParts (y : Sys) (protect mkdir : Bool) : (nofollow : Bool) → (dfd : Nat) → (pre : List Name) → List Name → Res → Option Nat × Res
  | _, dfd, _, [], s => (some dfd, s)
  | nofollow, dfd, pre, [c], s => openLast y protect mkdir nofollow dfd pre c s
  | nofollow, dfd, pre, c :: d :: r, s =>
    match s.opens y with
    | (none, s) => (none, s.closes dfd)
    | (some nx, s) =>
      let isUnsafe := y.unsafeAt s.t
      match s.call y with     -- fstat
      | (false, s) => (none, (s.closes nx).closes dfd)
      | (true, s) =>
        if nofollow && protect then
          match protectMount y (pre ++ [c]) s with
          | (false, s) => (none, (s.closes nx).closes dfd)
          | (true, s) =>
            match (s.closes nx).opens y with
            | (none, s) => (none, s.closes dfd)
            | (some nx, s) => openParts y protect mkdir nofollow nx (pre ++ [c]) (d :: r) (s.closes dfd)
        else openParts y protect mkdir (nofollow || isUnsafe) nx (pre ++ [c]) (d :: r) (s.closes dfd)

/-- `secure_opendir` for an absolute path: modules/pam_namespace/pam_namespace.c:143-270 -/
def openSecure (y : Sys) (protect mkdir : Bool) (path : List Name) (s : Res) : Option Nat × Res :=
  match s.call y with         -- strdup
  | (false, s) => (none, s)
  | (true, s) =>
    match s.opens y with      -- open("/")
    | (none, s) => (none, s)
    | (some dfd, s) => openParts y protect mkdir false dfd [] path s

/-- `secure_umount`: modules/pam_namespace/pam_namespace.c:287-312; the newest mount at the path goes -/
def umountSecure (y : Sys) (path : List Name) (s : Res) : Bool × Res :=
  match openSecure y false false path s with
  | (none, s) => (false, s)
  | (some dfd, s) =>
    match s.call y with       -- umount2
    | (false, s) => (false, s.closes dfd)
    | (true, s) => (true, { s with mounts := s.mounts.erase path }.closes dfd)

/-- `secure_try_rmdir`: modules/pam_namespace/pam_namespace.c:321-340; `parent` is what `dirname` gives -/
def rmdirSecure (y : Sys) (parent : List Name) (s : Res) : Res :=
  match s.call y with         -- strdup
  | (false, s) => s
  | (true, s) =>
    match openSecure y false false parent s with
    | (none, s) => s
    | (some dfd, s) => (s.call y).2.closes dfd

/-- `unprotect_dirs`: modules/pam_namespace/pam_namespace.c:462-473, the list given as it is in `protect_dirs` -/
def unprotectDirs (y : Sys) : List (List Name) → Res → Res
  | [], s => s
  | d :: r, s => unprotectDirs y r (umountSecure y d s).2

end Pam.Namespace
