import Verif.Core.Codes
import Verif.Core.Text
/-
Model of libpam/pam_env.c: the PAM environment of a handle.
`pamh->env` and `pamh->env->list` are never NULL between pam_start and pam_end, so the checks for
that are left out.  Overwriting memory before freeing it is not modelled.
-/
namespace Pam.Handle

/-- a C string -/
abbrev Str := List Char

/-- `struct pam_environ`: libpam/pam_private.h:109-115.  `slots` is the allocated array
(`entries` is its length), a `none` in it is a NULL pointer. -/
structure PEnv where
  slots : List (Option Str)
  requested : Nat

/-- `PAM_ENV_CHUNK`: libpam/pam_private.h:106 -/
abbrev ENV_CHUNK : Nat := 10

/-- `_pam_make_env`: libpam/pam_env.c:55-93 -/
def PEnv.make : PEnv := { slots := List.replicate ENV_CHUNK none, requested := 1 }

/-- Dereferencing `list[i]`: `none` if the index is outside the array or the pointer is NULL. -/
def PEnv.at? (e : PEnv) (i : Nat) : Option Str := (e.slots[i]?).bind id

/-- `strncmp(name_value, s, length) == 0 && s[length] == '='`, with `name` the first `length`
characters of `name_value`: libpam/pam_env.c:134-135.  (`name` has no NUL, so equality of the
first `length` characters implies that `s[length]` is inside `s`.) -/
def isVar (name s : Str) : Bool := (name ++ ['=']).isPrefixOf s

/-- `_pam_search_env` from index `n - 1` downwards: libpam/pam_env.c:128-143.  Outer `none` = bad
memory access. -/
def PEnv.searchBelow (e : PEnv) (name : Str) : Nat → Option (Option Nat)
  | 0 => some none
  | i + 1 =>
    match e.at? i with
    | none => none
    | some s => if isVar name s then some (some i) else e.searchBelow name i

/-- `_pam_search_env`: libpam/pam_env.c:128-143 -/
def PEnv.search (e : PEnv) (name : Str) : Option (Option Nat) := e.searchBelow name (e.requested - 1)

/-- bounds-checked `list[i] = v` -/
def PEnv.store (e : PEnv) (i : Nat) (v : Option Str) : Option PEnv :=
  if i < e.slots.length then some { e with slots := e.slots.set i v } else none

/-- "enough space?": libpam/pam_env.c:200-228.  `ok` is the success of calloc; the result is
`none` for PAM_BUF_ERR. -/
def PEnv.grow (e : PEnv) (ok : Bool) : Option PEnv :=
  if e.slots.length ≤ e.requested then
    if ok then some { e with slots := e.slots.take e.requested ++ List.replicate (e.slots.length + ENV_CHUNK - e.requested) none }
    else none
  else some e

/-- Removing an item: libpam/pam_env.c:267-278.  Outer `none` = access outside the array
(`memmove` of `requested - item` pointers from `item + 1`). -/
def PEnv.remove (e : PEnv) (item : Nat) : Option PEnv :=
  if item + 1 + (e.requested - 1 - item) ≤ e.slots.length ∧ item < e.slots.length then
    some { slots := e.slots.take item ++ ((e.slots.drop (item + 1)).take (e.requested - 1 - item)) ++
              e.slots.drop (item + (e.requested - 1 - item)),
           requested := e.requested - 1 }
  else none

/-- `pam_putenv`: libpam/pam_env.c:159-287.  `ok1` and `ok2` are the success of `calloc` and of
`_pam_strdup`.  Outer `none` = bad memory access. -/
def PEnv.putenv (e : PEnv) (nameValue : Option Str) (ok1 ok2 : Bool) : Option (Int × PEnv) :=
  match nameValue with
  | none => some (PAM_PERM_DENIED, e)
  | some nv =>
    let name := nv.takeWhile (· ≠ '=')
    if name = [] then some (PAM_BAD_ITEM, e)
    else
      match e.search name with
      | none => none
      | some item =>
        if nv.length ≠ name.length then
          -- (re)setting
          match item with
          | none =>
            match e.grow ok1 with
            | none => some (PAM_BUF_ERR, e)
            | some e1 =>
              match e1.store e1.requested none with
              | none => none
              | some e2 => insert { e2 with requested := e2.requested + 1 } (e1.requested - 1) nv
          | some i => insert e i nv
        else
          match item with
          | none => some (PAM_BAD_ITEM, e)
          | some i => (e.remove i).map (fun e' => (PAM_SUCCESS, e'))
where
  /-- insert at `item`, deleting the item again if there is no memory: libpam/pam_env.c:242-286 -/
  insert (e : PEnv) (item : Nat) (nv : Str) : Option (Int × PEnv) :=
    match e.store item (if ok2 then some nv else none) with
    | none => none
    | some e' =>
      if ok2 then some (PAM_SUCCESS, e')
      else (e'.remove item).map (fun e'' => (PAM_BUF_ERR, e''))

/-- `pam_getenv`: libpam/pam_env.c:293-325.  Outer `none` = bad memory access. -/
def PEnv.getenv (e : PEnv) (name : Option Str) : Option (Option Str) :=
  match name with
  | none => some none
  | some n =>
    match e.search n with
    | none => none
    | some none => some none
    | some (some i) =>
      match e.at? i with
      | none => none
      | some s => some (some (s.drop (1 + n.length)))

/-- `_copy_env`: libpam/pam_env.c:327-364.  `ok 0` is the success of `calloc`, `ok (i + 1)` of the
copy of variable `i`.  The returned array without its terminating NULL; `none` is NULL, outer
`none` a bad memory access. -/
def PEnv.copy (e : PEnv) (ok : Nat → Bool) : Option (Option (List Str)) :=
  if e.requested = 0 then none       -- dump[-1] = NULL
  else if ok 0 then
    if (List.range (e.requested - 1)).all (fun i => (e.at? i).isSome) then
      if (List.range (e.requested - 1)).all (fun i => ok (i + 1)) then
        some (some ((List.range (e.requested - 1)).filterMap e.at?))
      else some none
    else none
  else some none

/-- `pam_getenvlist`: libpam/pam_env.c:366-400. -/
def PEnv.getenvlist (e : PEnv) (ok : Nat → Bool) : Option (Option (List Str)) :=
  if e.slots.length < e.requested then some none
  else if (List.range (e.requested - 1)).all (fun i => (e.slots[i]?).isSome) then
    if (List.range (e.requested - 1)).any (fun i => (e.at? i).isNone) then some none
    else e.copy ok
  else none

end Pam.Handle
