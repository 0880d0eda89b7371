import Verif.Userdb.Model
/-
modules/pam_userdb/pam_userdb.c: `user_lookup` again, with the memory it asks for, which may not be there, and what it does with the copies of passwords.

The configuration is that with gdbm and crypt_r.  Left out: the dump of the database and other messages to the log.
-/
namespace Pam.Userdb.Memory
open Pam Pam.Userdb

/-- the copies that the function makes: the key, the hash, the work area of crypt_r, a stored password -/
inductive Slot
  | key
  | hash
  | area
  | stored
  deriving DecidableEq

/-- what happens, in order.  `lib` is memory that the library gives to the caller (gdbm_fetch, gdbm_firstkey, gdbm_nextkey), with what is in it. -/
inductive Ev
  | opened
  | closed
  | copy (s : Slot) (text : Str)
  | wipe (s : Slot)
  | free (s : Slot)
  | lib (text : Str)
  deriving DecidableEq

/-- is there memory for the copies; the copies of stored passwords are numbered -/
structure Mem where
  key : Bool
  hash : Bool
  area : Bool
  stored : Nat → Bool

/-- wipe a copy and free it -/
def drop (s : Slot) : List Ev := [.wipe s, .free s]

/-- the search for the user among the keys: modules/pam_userdb/pam_userdb.c:372-413; `n` counts the copies -/
def scan (m : Mem) (icase : Bool) (user pass : Str) : (n : Nat) → (saw : Bool) → List (Str × Str) → Option (Int × List Ev)
  | _, saw, [] => some (if saw then -1 else 1, [.closed])
  | n, saw, (k, _) :: r =>
    if k.length > user.length ∧ k[user.length]? = some '-' ∧ k.take user.length = user then
      if m.stored n then
        match same icase pass (cstr (k.drop (user.length + 1))) with
        | none => none
        | some true => some (0, [.lib k, .copy .stored (cstr (k.drop (user.length + 1)))] ++ drop .stored ++ [.closed])
        | some false => (scan m icase user pass (n + 1) true r).map (fun x => (x.1, [.lib k, .copy .stored (cstr (k.drop (user.length + 1)))] ++ drop .stored ++ x.2))
      else some (-2, [.lib k, .closed])
    else (scan m icase user pass n saw r).map (fun x => (x.1, .lib k :: x.2))

/-- a hashed password: modules/pam_userdb/pam_userdb.c:273-322; the number is `compare`, where 1 stands for every difference; the work area holds what crypt_r derives from the password -/
def hashed (m : Mem) (crypt : Str → Str → Option Str) (icase : Bool) (data pass : Str) : Int × List Ev :=
  if data.length < 13 then (-2, [])
  else if icase then (-2, [])
  else if m.hash then
    if m.area then
      match crypt pass (cstr data) with
      | some h => (if h.length = data.length then (if h = data then 0 else 1) else -2, [.copy .hash (cstr data), .copy .area pass] ++ drop .area ++ drop .hash)
      | none => (-2, [.copy .hash (cstr data), .copy .area pass] ++ drop .area ++ drop .hash)
    else (-2, .copy .hash (cstr data) :: drop .hash)
  else (-2, [])

/-- a plain password: modules/pam_userdb/pam_userdb.c:330-343 -/
def plain (m : Mem) (icase : Bool) (data pass : Str) : Option (Int × List Ev) :=
  if m.stored 0 then
    match same icase pass (cstr data) with
    | none => none
    | some b => some (if b then 0 else 1, .copy .stored (cstr data) :: drop .stored)
  else some (-2, [])

/-- the key and what is found under it: modules/pam_userdb/pam_userdb.c:242-256 -/
def fetchKey (m : Mem) (db : List (Str × Str)) (keyOnly : Bool) (user pass : Str) : Option Str × List Ev :=
  if m.key then
    let key := if keyOnly then user ++ '-' :: pass else user
    match fetch db key with
    | some data => (some data, [.copy .key key, .lib data] ++ drop .key)
    | none => (none, .copy .key key :: drop .key)
  else (none, [])

/-- `user_lookup`: modules/pam_userdb/pam_userdb.c:210-418 -/
def lookup (m : Mem) (crypt : Str → Str → Option Str) (db : Option (List (Str × Str))) (c : Ctrl) (user pass : Str) : Option (Int × List Ev) :=
  match db with
  | none => some (-2, [])
  | some db =>
    match fetchKey m db c.keyOnly user pass with
    | (some data, ev) =>
      if c.keyOnly then some (0, .opened :: (ev ++ [.closed]))
      else if isCrypt c then
        let (compare, ev2) := hashed m crypt c.icase data pass
        some (if compare = 0 then 0 else -1, .opened :: (ev ++ (ev2 ++ [.closed])))
      else (plain m c.icase data pass).map (fun x => (if x.1 = 0 then 0 else -1, .opened :: (ev ++ (x.2 ++ [.closed]))))
    | (none, ev) =>
      if ¬ c.keyOnly then some (1, .opened :: (ev ++ [.closed]))
      else (scan m c.icase user pass 0 false db).map (fun x => (x.1, .opened :: (ev ++ x.2)))

end Pam.Userdb.Memory
