/-
Model of libpam/pam_modutil_priv.c.
-/
namespace Pam.Util

/-- the credentials of the process that matter here -/
structure Cred where
  euid : Nat
  fsuid : Nat
  fsgid : Nat
  groups : List Nat
deriving DecidableEq, Repr

/-- a system call of this file (initgroups counts as one) -/
inductive Call where
  | getgroups
  | initgroups
  | setgroups (gs : List Nat)
  | setfsuid (u : Nat)
  | setfsgid (g : Nat)
deriving DecidableEq, Repr

/-- The process as the kernel sees it.  `ans` are the kernel's decisions to come (`false` refuses the
call, for whatever reason; when the list is used up calls succeed), `trace` the calls made so far
with the decisions. -/
structure Kern where
  cred : Cred
  ans : List Bool
  trace : List (Call × Bool)
deriving DecidableEq, Repr

/-- make a call: its decision, and the state with the call recorded -/
def Kern.ask (k : Kern) (c : Call) : Bool × Kern :=
  (k.ans.headD true, { k with ans := k.ans.drop 1, trace := k.trace ++ [(c, k.ans.headD true)] })

/-- `setfsuid(2)`: returns the previous fsuid whether or not it succeeds -/
def Kern.setfsuid (k : Kern) (u : Nat) : Nat × Kern :=
  let r := k.ask (.setfsuid u)
  (k.cred.fsuid, if r.1 then { r.2 with cred := { r.2.cred with fsuid := u } } else r.2)

/-- `setfsgid(2)` -/
def Kern.setfsgid (k : Kern) (g : Nat) : Nat × Kern :=
  let r := k.ask (.setfsgid g)
  (k.cred.fsgid, if r.1 then { r.2 with cred := { r.2.cred with fsgid := g } } else r.2)

/-- `setgroups(2)`: true if it failed -/
def Kern.setgroups (k : Kern) (gs : List Nat) : Bool × Kern :=
  let r := k.ask (.setgroups gs)
  (!r.1, if r.1 then { r.2 with cred := { r.2.cred with groups := gs } } else r.2)

/-- `initgroups(3)` for a user with the groups `gs`: true if it failed -/
def Kern.initgroups (k : Kern) (gs : List Nat) : Bool × Kern :=
  let r := k.ask .initgroups
  (!r.1, if r.1 then { r.2 with cred := { r.2.cred with groups := gs } } else r.2)

/-- `getgroups(2)` with room for `n` groups: `none` is an error -/
def Kern.getgroups (k : Kern) (n : Nat) : Option (List Nat) × Kern :=
  let r := k.ask .getgroups
  (if r.1 ∧ k.cred.groups.length ≤ n then some k.cred.groups else none, r.2)

/-- `change_uid`: libpam/pam_modutil_priv.c:23-29.  The result: 0 or -1, and the saved uid. -/
def changeUid (k : Kern) (uid : Nat) : Int × Nat × Kern :=
  let r1 := k.setfsuid uid
  let r2 := r1.2.setfsuid uid
  (if r2.1 = uid then 0 else -1, r1.1, r2.2)

/-- `change_gid`: libpam/pam_modutil_priv.c:30-36 -/
def changeGid (k : Kern) (gid : Nat) : Int × Nat × Kern :=
  let r1 := k.setfsgid gid
  let r2 := r1.2.setfsgid gid
  (if r2.1 = gid then 0 else -1, r1.1, r2.2)

/-- the values of `is_dropped`: libpam/pam_modutil_priv.c:49-50 -/
inductive Mark where
  | no
  | magic
  | doNothing
deriving DecidableEq, Repr

/-- `struct pam_modutil_privs`: libpam/include/security/pam_modutil.h:114-121.  `grplist` holds the
groups stored in the list (`none` is NULL), `number` is `number_of_groups`: the room for groups
before, the number saved after a drop. -/
structure Privs where
  grplist : Option (List Nat)
  number : Nat
  allocated : Bool
  oldGid : Nat
  oldUid : Nat
  isDropped : Mark
deriving DecidableEq, Repr

/-- `cleanup`: libpam/pam_modutil_priv.c:38-47 -/
def Privs.cleanup (p : Privs) : Privs := { p with allocated := false, grplist := none, number := 0 }

/-- the fields of `struct passwd` used, and the groups initgroups finds for the user -/
structure PwEnt where
  uid : Nat
  gid : Nat
  groups : List Nat
deriving DecidableEq, Repr

/-- "we try to add the supplementary groups": libpam/pam_modutil_priv.c:115-124.  True if that
failed. -/
def dropGroups (k : Kern) (pw : PwEnt) : Bool × Kern :=
  let r := k.initgroups pw.groups
  if r.1 then r.2.setgroups [] else (false, r.2)

/-- From the change of the gid on: libpam/pam_modutil_priv.c:125-140 -/
def dropIds (k : Kern) (p : Privs) (pw : PwEnt) : Int × Privs × Kern :=
  let rg := changeGid k pw.gid
  let p1 := { p with oldGid := rg.2.1 }
  if rg.1 ≠ 0 then (-1, p1.cleanup, (rg.2.2.setgroups (p.grplist.getD [])).2)
  else
    let ru := changeUid rg.2.2 pw.uid
    let p2 := { p1 with oldUid := ru.2.1 }
    if ru.1 ≠ 0 then
      (-1, p2.cleanup, ((changeGid ru.2.2 p2.oldGid).2.2.setgroups (p.grplist.getD [])).2)
    else (0, { p2 with isDropped := .magic }, ru.2.2)

/-- The room for the saved groups: libpam/pam_modutil_priv.c:88-97.  `mem` is the success of calloc. -/
def makeRoom (p : Privs) (n : Nat) (mem : Bool) : Option Privs :=
  if p.number < n then
    if mem then some { p with allocated := true, grplist := some [], number := n } else none
  else some { p with allocated := false }

/-- `pam_modutil_drop_priv`: libpam/pam_modutil_priv.c:52-140 -/
def dropPriv (k : Kern) (p : Privs) (pw : PwEnt) (mem : Bool) : Int × Privs × Kern :=
  if p.isDropped ≠ .no then (-1, p, k)
  else if k.cred.euid ≠ 0 ∨ pw.uid = 0 then (0, { p with isDropped := .doNothing }, k)
  else if p.grplist = none ∨ p.number = 0 then (-1, p, k)
  else
    -- getgroups(0, NULL) asks for the number only
    let g0 := k.getgroups k.cred.groups.length
    match g0.1 with
    | none => (-1, p, g0.2)
    | some gs0 =>
      match makeRoom p gs0.length mem with
      | none => (-1, { p with allocated := false }.cleanup, g0.2)
      | some p1 =>
        let g1 := g0.2.getgroups p1.number
        match g1.1 with
        | none => (-1, p1.cleanup, g1.2)
        | some gs =>
          let p2 := { p1 with grplist := some gs, number := gs.length }
          let r := dropGroups g1.2 pw
          if r.1 then (-1, p2.cleanup, r.2) else dropIds r.2 p2 pw

/-- The restoring calls: libpam/pam_modutil_priv.c:160-178 -/
def regainIds (k : Kern) (p : Privs) : Int × Privs × Kern :=
  let ru := changeUid k p.oldUid
  if ru.1 ≠ 0 then (-1, p.cleanup, ru.2.2)
  else
    let rg := changeGid ru.2.2 p.oldGid
    if rg.1 ≠ 0 then (-1, p.cleanup, rg.2.2)
    else
      -- number_of_groups groups of the list; NULL with number 0 after a cleanup
      let rs := rg.2.2.setgroups ((p.grplist.getD []).take p.number)
      if rs.1 then (-1, p.cleanup, rs.2) else (0, { p with isDropped := .no }.cleanup, rs.2)

/-- `pam_modutil_regain_priv`: libpam/pam_modutil_priv.c:142-179 -/
def regainPriv (k : Kern) (p : Privs) : Int × Privs × Kern :=
  match p.isDropped with
  | .doNothing => (0, { p with isDropped := .no }, k)
  | .no => (-1, p, k)
  | .magic => regainIds k p

end Pam.Util
