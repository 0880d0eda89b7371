import Verif.Namespace.Config
/-
modules/pam_namespace/pam_namespace.c: which directories are set up for whom, names of instances, the creation of an instance, the end of the session.

What the system calls do is given by functions.  Left out: security contexts, except as text that is given; messages to the log; changes of the current
directory (Namespace/Open.lean has them); the scripts.
-/
namespace Pam.Namespace
open Pam

/-- `ns_override`: modules/pam_namespace/pam_namespace.c:1106-1124 -/
def nsOverride (p : Poly) (uid : Nat) : Bool := if uid ∈ p.uids then !p.flags.exclusive else p.flags.exclusive

/-- `enum unmnt_op`: modules/pam_namespace/pam_namespace.h:156-160 -/
inductive Unmnt | no | remnt | only
deriving DecidableEq, Repr

/-- the options of `pam_sm_open_session`: modules/pam_namespace/pam_namespace.c:2541-2573; the last of unmnt_remnt and unmnt_only counts -/
def unmntOf (argv : List Str) : Unmnt :=
  argv.foldl (fun u a => if a = "unmnt_only".toList then .only else if a = "unmnt_remnt".toList then .remnt else u) .no

/-- is anything to be done: modules/pam_namespace/pam_namespace.c:2190-2218 -/
def needPoly (u : Unmnt) (uid ruid : Nat) (ps : List Poly) : Bool :=
  ps.any fun p => if nsOverride p uid then !(u = .no || nsOverride p ruid) else true

/-- what is done to the system -/
inductive Op
  | unshare
  | slave
  | umount (dir : Str)
  | setup (p : Poly)
  | cleanup
deriving DecidableEq, Repr

/-- EINVAL: the directory is not a mount point -/
abbrev EINVAL : Int := 22

/-- one directory: modules/pam_namespace/pam_namespace.c:2254-2331.  `res` gives the result of an operation after others: for umount 0 or an error number, for
setup the value of `ns_setup`.  The result is the code and all operations so far. -/
def setupDir (res : List Op → Op → Int) (u : Unmnt) (uid ruid : Nat) (tr : List Op) (p : Poly) : Int × List Op :=
  let du := if nsOverride p ruid then .no else u
  if nsOverride p uid ∧ du = .no then (PAM_SUCCESS, tr)
  else
    let du := if nsOverride p uid then .only else du
    let r := if du = .no then 0 else res tr (.umount p.rdir)
    let tr := if du = .no then tr else tr ++ [.umount p.rdir]
    if r ≠ 0 ∧ r ≠ EINVAL then (PAM_SESSION_ERR, tr)
    else if du = .only then (PAM_SUCCESS, tr)
    else if res tr (.setup p) = PAM_IGNORE then (PAM_SUCCESS, tr ++ [.setup p])
    else (res tr (.setup p), tr ++ [.setup p])

/-- one directory after another: modules/pam_namespace/pam_namespace.c:2253-2332 -/
def setupLoop (res : List Op → Op → Int) (u : Unmnt) (uid ruid : Nat) : (tr : List Op) → List Poly → Int × List Op
  | tr, [] => (PAM_SUCCESS, tr)
  | tr, p :: ps =>
    if (setupDir res u uid ruid tr p).1 ≠ PAM_SUCCESS then ((setupDir res u uid ruid tr p).1, (setupDir res u uid ruid tr p).2 ++ [.cleanup])
    else setupLoop res u uid ruid (setupDir res u uid ruid tr p).2 ps

/-- `setup_namespace`: modules/pam_namespace/pam_namespace.c:2179-2352; the data are stored without failure -/
def setupNamespace (res : List Op → Op → Int) (private_ : Bool) (u : Unmnt) (uid ruid : Nat) (ps : List Poly) : Int × List Op :=
  if ¬ needPoly u uid ruid ps then (PAM_SUCCESS, [])
  else if res [] .unshare ≠ 0 then (PAM_SESSION_ERR, [.unshare])
  else if private_ then
    if res [.unshare] .slave ≠ 0 then (PAM_SESSION_ERR, [.unshare, .slave])
    else setupLoop res u uid ruid [.unshare, .slave] ps
  else setupLoop res u uid ruid [.unshare] ps

/-! ### names of instances -/

/-- `NAMESPACE_MAX_DIR_LEN`: modules/pam_namespace/pam_namespace.h:121 -/
abbrev maxDirLen : Nat := 80

/-- the text that tells the instances of a directory apart: modules/pam_namespace/pam_namespace.c:1338-1397.  `ctx` is the raw security context if instances are based
on it (`PAMNS_CTXT_BASED_INST`).  `none`: PAM_IGNORE.  The flag in the result says whether a hash may be used. -/
def instDiff (ctx : Option Str) (user : Str) (p : Poly) : Option (Str × Bool) :=
  match p.method with
  | .user => some (user, true)
  | .tmpdir => some ("XXXXXX".toList, false)
  | .tmpfs => some ([], false)
  | .level | .context =>
    match ctx with
    | none => if p.flags.shared then none else some (user, true)
    | some c => some (if p.flags.shared then c else c ++ '_' :: user, true)

/-- the text with a hash in it: modules/pam_namespace/pam_namespace.c:1402-1421 -/
def hashed (md5 : Str → Str) (gen : Bool) (s : Str) : Str :=
  if gen then md5 s
  else if s.length > maxDirLen then s.take (maxDirLen - 1 - (md5 s).length) ++ '_' :: md5 s
  else s

/-- the part of a path up to its last slash, and what follows -/
def cutLast (s : Str) : Str × Str := ((s.reverse.dropWhile (· ≠ '/')).reverse, (s.reverse.takeWhile (· ≠ '/')).reverse)

/-- `poly_name` and `set_polydir_paths`: modules/pam_namespace/pam_namespace.c:1288-1443; the parent directory and the name in it.  The name of the user is cut to
LOGIN_NAME_MAX - 1 bytes (2484).  Without a slash in the path (which cannot be) the result is an error too. -/
def polyName (md5 : Str → Str) (gen : Bool) (ctx : Option Str) (user : Str) (p : Poly) : Except Int (Str × Str) :=
  match instDiff ctx (user.take 255) p with
  | none => .error PAM_IGNORE
  | some (d, h) =>
    let abs := p.pre ++ if h then hashed md5 gen d else d
    if abs.length ≥ pathMax ∨ '/' ∉ abs then .error PAM_SESSION_ERR else .ok (cutLast abs)

/-! ### the instance directory -/

/-- owner, group and mode of a directory -/
structure Attr where
  uid : Nat
  gid : Nat
  mode : Nat
deriving DecidableEq, Repr

/-- the system calls of `create_instance` -/
inductive Call | mkdir | open_ | stat | chown | chmod
deriving DecidableEq, Repr

/-- `create_instance` for the methods other than tmpdir: modules/pam_namespace/pam_namespace.c:1755-1862.  `dir` is the instance directory, if it exists; `want` comes
from the polyinstantiated directory; `gid0` is the group that new directories get.  The result is the code and the directory after each of the system calls that
succeed, so that the head is the final state and the others are the states in which a crash leaves it. -/
def createInstance (ok : Call → Bool) (gid0 : Nat) (want : Attr) (dir : Option Attr) : Int × List (Option Attr) :=
  match dir with
  | some a => (PAM_IGNORE, [some a])
  | none =>
    if ¬ ok .mkdir then (PAM_SESSION_ERR, [none])
    else
      let a : Attr := ⟨0, gid0, 0o400⟩
      let tr := [some a, none]
      if ¬ ok .open_ ∨ ¬ ok .stat then (PAM_SESSION_ERR, none :: tr)
      else if a.uid ≠ want.uid ∨ a.gid ≠ want.gid then
        if ¬ ok .chown then (PAM_SESSION_ERR, none :: tr)
        else
          let b : Attr := { a with uid := want.uid, gid := want.gid }
          if ¬ ok .chmod then (PAM_SESSION_ERR, none :: some b :: tr)
          else (PAM_SUCCESS, some { b with mode := want.mode % 0o10000 } :: some b :: tr)
      else if ¬ ok .chmod then (PAM_SESSION_ERR, none :: tr)
      else (PAM_SUCCESS, some { a with mode := want.mode % 0o10000 } :: tr)

/-- `check_inst_parent`: modules/pam_namespace/pam_namespace.c:1445-1471; `a` is `none` if it cannot be read -/
def checkParent (ignore : Bool) (a : Option Attr) : Int :=
  if ignore then PAM_SUCCESS
  else match a with
    | none => PAM_SESSION_ERR
    | some a => if a.mode % 0o1000 ≠ 0 ∨ a.uid ≠ 0 then PAM_SESSION_ERR else PAM_SUCCESS

/-! ### the end of the session -/

/-- what is done at the end -/
inductive Fin
  | umount (dir : Str)
  | removeTmp (p : Poly)
deriving DecidableEq, Repr

/-- `orig_namespace`: modules/pam_namespace/pam_namespace.c:2359-2394, with `cleanup_tmpdirs` (2137-2206), which removes the instances of the method tmpdir.  `um` says whether
a directory is unmounted. -/
def origNamespace (um : Str → Bool) (uid : Nat) (all : List Poly) : (tr : List Fin) → List Poly → List Fin
  | tr, [] => tr ++ (all.filter (·.method = .tmpdir)).map .removeTmp
  | tr, p :: ps =>
    if nsOverride p uid then origNamespace um uid all tr ps
    else if um p.dir then origNamespace um uid all (tr ++ [.umount p.dir]) ps
    else tr

/-- `pam_sm_close_session`: modules/pam_namespace/pam_namespace.c:2618-2698.  `user` is the code of `get_user_data` or the id; `data` is what was stored. -/
def closeSession (um : Str → Bool) (argv : List Str) (user : Except Int Nat) (data : Option (List Poly)) : Int × List Fin :=
  if "unmount_on_close".toList ∉ argv then (PAM_SUCCESS, [])
  else match user with
    | .error e => (e, [])
    | .ok uid => match data with
      | none => (PAM_SUCCESS, [])
      | some ps => (PAM_SUCCESS, origNamespace um uid ps [] ps)

end Pam.Namespace
