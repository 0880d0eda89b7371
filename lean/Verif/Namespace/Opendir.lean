import Verif.Core.Codes
/-
modules/pam_namespace/pam_namespace.c: `secure_opendir`, while other processes change the file system.

A file system maps numbers to directories, symbolic links and other files; number 0 is the root.  It can be another one at each system call.  Left out: mount points
(`protect_mount` succeeds and does nothing here; it is in Namespace/Resources.lean), permissions, SECURE_OPENDIR_MKDIR.
-/
namespace Pam.Namespace

/-- a component of a path -/
abbrev Name := List Char

/-- what there is: `writable` says that the group or others may write -/
inductive Node
  | dir (uid : Nat) (writable : Bool) (parent : Nat) (entries : Name → Option Nat)
  | link (absolute : Bool) (target : List Name)
  | other

/-- a file system -/
abbrev FS := Nat → Node

/-- is it a directory -/
def isDir (fs : FS) (n : Nat) : Bool := match fs n with | .dir .. => true | _ => false

/-- `st.st_uid != 0 || (st.st_mode & (S_IWGRP|S_IWOTH))`: modules/pam_namespace/pam_namespace.c:221-222 -/
def unsafeDir (fs : FS) (n : Nat) : Bool := match fs n with | .dir uid w _ _ => uid ≠ 0 || w | _ => true

/-- what a name in a directory stands for -/
def child (fs : FS) (d : Nat) (c : Name) : Option Nat :=
  match fs d with
  | .dir _ _ up entries => if c = ".".toList then some d else if c = "..".toList then some up else entries c
  | _ => none

/-- how the kernel follows a path; at most `fuel` links -/
def walk (fs : FS) (fuel : Nat) (d : Nat) (path : List Name) : Option Nat :=
  match path with
  | [] => some d
  | c :: r =>
    match child fs d c with
    | none => none
    | some n =>
      match fs n with
      | .dir .. => walk fs fuel n r
      | .other => none
      | .link abs target =>
        match fuel with
        | 0 => none
        | k + 1 => walk fs k (if abs then 0 else d) (target ++ r)
termination_by (fuel, path.length)

/-- `openat` with O_DIRECTORY, and O_NOFOLLOW if `nofollow`: modules/pam_namespace/pam_namespace.c:192, 218, 234, 259 -/
def openat (fs : FS) (nofollow : Bool) (d : Nat) (c : Name) : Option Nat :=
  if nofollow then
    match child fs d c with
    | none => none
    | some n => if isDir fs n then some n else none
  else walk fs 40 d [c]

/-- the loop of `secure_opendir`: modules/pam_namespace/pam_namespace.c:189-260.  `fs t` is the file system at the system call number `t`. -/
def openLoop (fs : Nat → FS) (protect : Bool) : (t : Nat) → (d : Nat) → (nofollow : Bool) → List Name → Option Nat
  | _, d, _, [] => some d
  | t, d, nofollow, [c] =>
    match openat (fs t) nofollow d c with
    | none => none
    | some n => if nofollow && protect then openat (fs (t + 1)) nofollow d c else some n
  | t, d, nofollow, c :: r =>
    match openat (fs t) nofollow d c with
    | none => none
    | some n =>
      if nofollow && protect then
        match openat (fs (t + 2)) nofollow d c with
        | none => none
        | some n => openLoop fs protect (t + 3) n nofollow r
      else openLoop fs protect (t + 2) n (nofollow || unsafeDir (fs (t + 1)) n) r

/-- `secure_opendir` for an absolute path: modules/pam_namespace/pam_namespace.c:143-270 -/
def secureOpendir (fs : Nat → FS) (protect : Bool) (path : List Name) : Option Nat := openLoop fs protect 0 0 false path

end Pam.Namespace
