import Verif.Session.Loginuid
/-
modules/pam_keyinit: session keyrings, their owner, and when they are revoked.

Left out: messages to the log and the option "debug". One call of the module is one step: the only thing threads share is the counter of sessions.
-/
namespace Pam.Session
open Pam

/-- the user and group ids of a thread: the module changes them with system calls that concern the calling thread only,
modules/pam_keyinit/pam_keyinit.c:68-93 -/
structure Cred where
  ruid : Nat
  euid : Nat
  rgid : Nat
  egid : Nat
deriving DecidableEq, Repr

/-- what the module keeps for a thread: modules/pam_keyinit/pam_keyinit.c:35-39; a keyring of 0 is none -/
structure Thread where
  keyring : Nat
  doRevoke : Bool
  asUid : Nat
  asGid : Nat
  cred : Cred
deriving DecidableEq, Repr

/-- what the system answers in one call -/
structure Sys where
  /-- `pam_get_user` -/
  getUser : Int
  /-- the user and group id of the account -/
  pw : Option (Nat × Nat)
  /-- changing the group id, and the user id, succeeds -/
  setGid : Bool
  setUid : Bool
  /-- changing them back succeeds -/
  backUid : Bool
  backGid : Bool
  /-- the session keyring, and the one of the user; `none` is an error -/
  session : Option Nat
  usession : Option Nat
  /-- the error is `ENOSYS` -/
  nosys : Bool
  /-- the keyring made and joined; `none` is an error -/
  join : Option Nat
  link : Bool
  revoke : Bool
deriving DecidableEq, Repr

/-- what is asked of the kernel: joining a new keyring, which belongs to the real ids, linking it to the keyring of the user, and revoking one with the effective
ids -/
inductive KOp
  | join (id uid gid : Nat)
  | link
  | revoke (id uid gid : Nat)
deriving DecidableEq, Repr

/-- `init_keyrings`: modules/pam_keyinit/pam_keyinit.c:98-149 -/
def initKeyrings (s : Sys) (force : Bool) (err : Int) (t : Thread) : Int × Thread × List KOp :=
  let make : Int × Thread × List KOp :=
    match s.join with
    | none => (err, t, [])
    | some id => (if s.link then PAM_SUCCESS else err, { t with keyring := id }, [.join id t.cred.ruid t.cred.rgid, .link])
  if force then make
  else
    match s.session with
    | none => (if s.nosys then PAM_SUCCESS else err, t, [])
    | some a =>
      match s.usession with
      | none => (err, t, [])
      | some b => if a ≠ b then (PAM_SUCCESS, t, []) else make

/-- the second half of `kill_keyrings`, with the group id changed: modules/pam_keyinit/pam_keyinit.c:176-198 -/
def killAs (s : Sys) (err : Int) (old : Cred) (t : Thread) : Int × Thread × List KOp :=
  if t.asUid ≠ old.euid ∧ s.setUid = false then
    (err, if t.cred.egid ≠ old.egid ∧ s.backGid then { t with cred := { t.cred with egid := old.egid } } else t, [])
  else
    let c1 : Cred := if t.asUid ≠ old.euid then { t.cred with euid := t.asUid } else t.cred
    let r1 := if s.revoke then PAM_SUCCESS else err
    let c2 : Cred := if t.asUid ≠ old.euid ∧ s.backUid then { c1 with euid := old.euid } else c1
    let r2 := if t.asUid ≠ old.euid ∧ s.backUid = false then err else r1
    let c3 : Cred := if t.asGid ≠ old.egid ∧ s.backGid then { c2 with egid := old.egid } else c2
    let r3 := if t.asGid ≠ old.egid ∧ s.backGid = false then err else r2
    (r3, { t with keyring := 0, cred := c3 }, [.revoke t.keyring c1.euid c1.egid])

/-- `kill_keyrings`: modules/pam_keyinit/pam_keyinit.c:154-201 -/
def killKeyrings (s : Sys) (err : Int) (t : Thread) : Int × Thread × List KOp :=
  if t.keyring = 0 then (PAM_SUCCESS, t, [])
  else if t.asGid ≠ t.cred.egid ∧ s.setGid = false then (err, t, [])
  else killAs s err t.cred (if t.asGid ≠ t.cred.egid then { t with cred := { t.cred with egid := t.asGid } } else t)

/-- the second half of `do_keyinit`, with the account known and the group id changed: modules/pam_keyinit/pam_keyinit.c:251-271 -/
def initAs (s : Sys) (force : Bool) (err : Int) (old : Cred) (uid gid : Nat) (t : Thread) : Int × Thread × List KOp :=
  if uid ≠ old.ruid ∧ s.setUid = false then
    (err, if s.backGid then { t with cred := { t.cred with rgid := old.rgid } } else t, [])
  else
    match initKeyrings s force err (if uid ≠ old.ruid then { t with cred := { t.cred with ruid := uid } } else t) with
    | (r, t1, ops) =>
      let c2 : Cred := if uid ≠ old.ruid ∧ s.backUid then { t1.cred with ruid := old.ruid } else t1.cred
      let r2 := if uid ≠ old.ruid ∧ s.backUid = false then err else r
      let c3 : Cred := if gid ≠ old.rgid ∧ s.backGid then { c2 with rgid := old.rgid } else c2
      let r3 := if gid ≠ old.rgid ∧ s.backGid = false then err else r2
      (r3, { t1 with cred := c3 }, ops)

/-- `do_keyinit`: modules/pam_keyinit/pam_keyinit.c:203-272 -/
def doKeyinit (s : Sys) (argv : List Str) (err : Int) (t : Thread) : Int × Thread × List KOp :=
  let force := decide ("force".toList ∈ argv)
  let t : Thread := if "revoke".toList ∈ argv then { t with doRevoke := true } else t
  if t.keyring > 0 then (PAM_SUCCESS, t, [])
  else if s.getUser ≠ PAM_SUCCESS then (s.getUser, t, [])
  else
    match s.pw with
    | none => (PAM_USER_UNKNOWN, t, [])
    | some (uid, gid) =>
      let t : Thread := { t with asUid := uid, asGid := gid }
      if gid ≠ t.cred.rgid ∧ s.setGid = false then (err, t, [])
      else initAs s force err t.cred uid gid (if gid ≠ t.cred.rgid then { t with cred := { t.cred with rgid := gid } } else t)

/-- the calls an application makes; `pam_setcred` with other flags than PAM_ESTABLISH_CRED and PAM_DELETE_CRED is `refresh` -/
inductive KCall
  | establish (argv : List Str)
  | delete
  | refresh
  | opening (argv : List Str)
  | closing
deriving DecidableEq, Repr

/-- the process: modules/pam_keyinit/pam_keyinit.c:35-39 -/
structure Process where
  counter : Int
  threads : Nat → Thread

/-- `pam_sm_setcred`, `pam_sm_open_session` and `pam_sm_close_session`: modules/pam_keyinit/pam_keyinit.c:287-326; the result, the counter and the thread -/
def kcall (s : Sys) (counter : Int) (t : Thread) : KCall → Int × Int × Thread × List KOp
  | .establish argv => (match doKeyinit s argv PAM_CRED_ERR t with | (r, t, ops) => (r, counter, t, ops))
  | .delete =>
    if t.keyring > 0 ∧ t.doRevoke then (match killKeyrings s PAM_CRED_ERR t with | (r, t, ops) => (r, counter, t, ops))
    else (PAM_IGNORE, counter, t, [])
  | .refresh => (PAM_IGNORE, counter, t, [])
  | .opening argv => (match doKeyinit s argv PAM_SESSION_ERR t with | (r, t, ops) => (r, counter + 1, t, ops))
  | .closing =>
    if counter - 1 ≤ 0 ∧ t.keyring > 0 ∧ t.doRevoke then
      (match killKeyrings s PAM_SESSION_ERR t with | (_, t, ops) => (PAM_SUCCESS, counter - 1, t, ops))
    else (PAM_SUCCESS, counter - 1, t, [])

/-- a call in the history of a process: the thread, the call, what the system answered, what was returned, and what was asked of the kernel -/
structure Event where
  tid : Nat
  call : KCall
  sys : Sys
  ret : Int
  ops : List KOp
  /-- the ids of the thread before and after -/
  before : Cred
  after : Cred

/-- the calls of a process, in order: modules/pam_keyinit/pam_keyinit.c:35-39; the thread's variables are its own, the counter is shared -/
def history : Process → List (Nat × KCall × Sys) → List Event
  | _, [] => []
  | p, (tid, c, s) :: r =>
    match kcall s p.counter (p.threads tid) c with
    | (ret, n, t, ops) =>
      { tid, call := c, sys := s, ret, ops, before := (p.threads tid).cred, after := t.cred } ::
        history { counter := n, threads := fun k => if k = tid then t else p.threads k } r

/-- a process as it starts -/
def start (cred : Nat → Cred) : Process where
  counter := 0
  threads := fun k => { keyring := 0, doRevoke := false, asUid := 0, asGid := 0, cred := cred k }

end Pam.Session
