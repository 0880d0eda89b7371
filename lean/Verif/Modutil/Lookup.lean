import Verif.Handle.Model
import Verif.Core.Strtol
/-
Lookups of accounts by modules: libpam/pam_modutil_getpwnam.c, pam_modutil_getpwuid.c, pam_modutil_getgrnam.c, pam_modutil_getgrgid.c, pam_modutil_getspnam.c (the same
text but for the C library's function and the name of the data), and pam_modutil_getlogin.c.  On top of `pam_get_data` and `pam_set_data` of Handle/Model.  The handle
is not NULL.  Memory is given by oracles.
-/
namespace Pam.Modutil
open Pam Pam.Handle

/-- what is looked for -/
inductive Kind
  | pwnam (user : Str)
  | pwuid (uid : Nat)
  | grnam (group : Str)
  | grgid (gid : Nat)
  | spnam (user : Str)
deriving DecidableEq, Repr

/-- the name under which a result is kept: line 54 of each file -/
def dataName : Kind → Nat → Str
  | .pwnam u, i => "_pammodutil_getpwnam_".toList ++ u ++ '_' :: Nat.toDigits 10 i
  | .pwuid n, i => "_pammodutil_getpwuid_".toList ++ Nat.toDigits 10 n ++ '_' :: Nat.toDigits 10 i
  | .grnam g, i => "_pammodutil_getgrnam_".toList ++ g ++ '_' :: Nat.toDigits 10 i
  | .grgid n, i => "_pammodutil_getgrgid_".toList ++ Nat.toDigits 10 n ++ '_' :: Nat.toDigits 10 i
  | .spnam u, i => "_pammodutil_getspnam_".toList ++ u ++ '_' :: Nat.toDigits 10 i

/-- a call of the C library: an entry; `retry`: errno is ERANGE (the buffer is too small) or EINTR; `stop`: no entry, or another error -/
inductive Outcome (E : Type)
  | found (e : E)
  | retry
  | stop
deriving DecidableEq

/-- the outer loop: libpam/pam_modutil_getpwnam.c:27-94.  `mem i` is the success of the i-th `realloc`, `svc i len` the i-th call with a buffer of `len` bytes. -/
def search {E : Type} (mem : Nat → Bool) (svc : Nat → Nat → Outcome E) : (fuel : Nat) → (i len : Nat) → Option E
  | 0, _, _ => none
  | f + 1, i, len =>
    if mem i = false then none
    else
      match svc i len with
      | .found e => some e
      | .stop => none
      | .retry => if len * 16 < 262145 then search mem svc f (i + 1) (len * 16) else none

/-- the inner loop: libpam/pam_modutil_getpwnam.c:53-71; the handle after the registration, `none` if it failed; and how often it was tried.
`asp i`, `ok i`: memory for the name, and for the data -/
def register (name : Nat → Str) (ptr : Nat) (asp ok : Nat → Bool) : (fuel : Nat) → (i : Nat) → Inner → Option Inner × Nat
  | 0, i, _ => (none, i)
  | f + 1, i, h =>
    if asp i = false then (none, i)
    else if (getData h (some (name i))).1 ≠ PAM_SUCCESS then
      let r := setData h (some (name i)) ptr true (ok i)
      if r.1 = PAM_SUCCESS then (some r.2, i + 1) else register name ptr asp ok f (i + 1) r.2
    else register name ptr asp ok f (i + 1) h

/-- memory and the C library, as one lookup finds them; `ptr` is the buffer -/
structure Env (E : Type) where
  mem : Nat → Bool
  svc : Nat → Nat → Outcome E
  asp : Nat → Bool
  ok : Nat → Bool
  ptr : Nat

/-- `pam_modutil_getpwnam` and the others: libpam/pam_modutil_getpwnam.c:19-100; the result, NULL if `none`, and the handle after -/
def lookup {E : Type} (e : Env E) (k : Kind) (h : Inner) : Option (E × Nat) × Inner :=
  match search e.mem e.svc 4 0 1024 with
  | none => (none, h)
  | some x =>
    match (register (dataName k) e.ptr e.asp e.ok 2147483647 0 h).1 with
    | none => (none, h)
    | some h' => (some (x, e.ptr), h')

/-- the key of `pam_modutil_getlogin`: libpam/pam_modutil_getlogin.c:14 -/
def loginKey : Str := "_pammodutil_getlogin".toList

/-- `pam_modutil_getlogin`: libpam/pam_modutil_getlogin.c:16-46; `login` is the copy of what `getlogin` gives (`none`: it fails, or memory runs out) -/
def getlogin (login : Option Nat) (ok : Bool) (h : Inner) : Option Nat × Inner :=
  let d := getData h (some loginKey)
  if d.1 = PAM_SUCCESS then (d.2, h)
  else
    match login with
    | none => (none, h)
    | some p =>
      let r := setData h (some loginKey) p true ok
      if r.1 ≠ PAM_SUCCESS then (none, r.2) else (some p, r.2)

/-- what modules do to the data of a handle -/
inductive Ev (E : Type)
  | look (e : Env E) (k : Kind)
  | login (p : Option Nat) (ok : Bool)
  | set (name : Str) (data : Nat) (cleanup ok : Bool)

def step {E : Type} (h : Inner) : Ev E → Inner
  | .look e k => (lookup e k h).2
  | .login p ok => (getlogin p ok h).2
  | .set n d c ok => (setData h (some n) d c ok).2

def run {E : Type} (h : Inner) (l : List (Ev E)) : Inner := l.foldl step h

end Pam.Modutil
