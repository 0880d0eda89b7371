import Verif.Simple.Login
import Verif.Small.Gates
/-
modules/pam_tty_audit.  The netlink protocol (nl_send, nl_recv, nl_recv_ack) is given by what comes of it: the status of the kernel, and failures (the messages are in Audit/Netlink.lean).

Left out: messages to the log, and running out of memory.  `fnmatch` is a parameter.  log_passwd is supported by the headers.
-/
namespace Pam.Audit
open Pam Pam.Small

/-- all tokens that `strtok_r` gives; each round shortens what is left -/
def toks (sep : Char) : (n : Nat) → Str → List Str
  | 0, _ => []
  | n + 1, s =>
    match Simple.strtok sep s with
    | none => []
    | some (t, r) => t :: toks sep n r

def tokens (sep : Char) (s : Str) : List Str := toks sep s.length s

/-- `enum uid_range`: modules/pam_tty_audit/pam_tty_audit.c:205-206 -/
inductive Range
  | none
  | mm (lo hi : Nat)
  | min (lo : Nat)
  | one (id : Nat)
  | err
deriving DecidableEq, Repr

/-- a number that `strtoul` reads to its end without an error, as a `uid_t` -/
def num (s : Str) : Option Nat :=
  let (v, e) := strtoInt 10 s
  if s = [] ∨ e ≠ [] ∨ 18446744073709551615 < v.natAbs then .none else some ((v % 18446744073709551616).toNat % 4294967296)

/-- `parse_uid_range`: modules/pam_tty_audit/pam_tty_audit.c:208-251.  The first number is read up to the first colon, which no number holds. -/
def parseRange (s : Str) : Range :=
  if ':' ∉ s then .none
  else
    let lo := s.takeWhile (· ≠ ':')
    let hi := (s.dropWhile (· ≠ ':')).drop 1
    if lo = [] then
      if hi = [] then .err
      else
        match num hi with
        | some b => .one b
        | .none => .err
    else
      match num lo with
      | .none => .err
      | some a =>
        if hi = [] then .min a
        else
          match num hi with
          | some b => .mm a b
          | .none => .err

/-- does a pattern match the user: modules/pam_tty_audit/pam_tty_audit.c:306-327 -/
def hits (fnmatch : Str → Str → Bool) (user : Str) (uid : Nat) (tok : Str) : Bool :=
  match parseRange tok with
  | .none => fnmatch tok user
  | .mm lo hi => decide (uid ≥ lo ∧ uid ≤ hi)
  | .min lo => decide (uid ≥ lo)
  | .one n => decide (uid = n)
  | .err => false

/-- the loop over the patterns: modules/pam_tty_audit/pam_tty_audit.c:302-328; the command so far is `none` for CMD_NONE -/
def tokLoop (fnmatch : Str → Str → Bool) (user : Str) (uid : Nat) (this : Bool) : (command : Option Bool) → List Str → Option Bool
  | command, [] => command
  | command, t :: r =>
    if command = some this then command
    else if hits fnmatch user uid t then tokLoop fnmatch user uid this (some this) r
    else tokLoop fnmatch user uid this command r

/-- what the arguments ask for -/
structure Asked where
  command : Option Bool := none
  openOnly : Bool := false
  logPasswd : Bool := false
deriving DecidableEq, Repr

/-- one argument: modules/pam_tty_audit/pam_tty_audit.c:290-344 -/
def arg (fnmatch : Str → Str → Bool) (user : Str) (uid : Nat) (s : Asked) (a : Str) : Asked :=
  match skipPrefix a "enable=".toList with
  | some list => { s with command := tokLoop fnmatch user uid true s.command (tokens ',' list) }
  | none =>
    match skipPrefix a "disable=".toList with
    | some list => { s with command := tokLoop fnmatch user uid false s.command (tokens ',' list) }
    | none =>
      if a = "open_only".toList then { s with openOnly := true }
      else if a = "log_passwd".toList then { s with logPasswd := true }
      else s

/-- `struct audit_tty_status` -/
structure Status where
  enabled : Nat
  logPasswd : Nat
deriving DecidableEq, Repr

/-- `nl_open` -/
inductive Socket
  | ok
  | unsupported
  | failed
deriving DecidableEq, Repr

/-- setting the status: it is done and acknowledged, it is refused, or it is done and the acknowledgement is lost -/
inductive Setting
  | ok
  | refused
  | lost
deriving DecidableEq, Repr

/-- the system at a call -/
structure World where
  /-- the user and the user id, if known -/
  user : Option (Str × Nat)
  fnmatch : Str → Str → Bool
  socket : Socket := .ok
  /-- the status can be read -/
  get : Bool := true
  /-- `pam_set_data` succeeds -/
  save : Bool := true
  set : Setting := .ok

/-- the status in the kernel, and what the handle keeps -/
structure State where
  kernel : Status
  saved : Option Status := none
deriving DecidableEq, Repr

/-- setting the status -/
def setStatus (w : World) (new : Status) (st : State) : Int × State :=
  match w.set with
  | .ok => (PAM_SUCCESS, { st with kernel := new })
  | .refused => (PAM_SESSION_ERR, st)
  | .lost => (PAM_SESSION_ERR, { st with kernel := new })

/-- `pam_sm_open_session`: modules/pam_tty_audit/pam_tty_audit.c:253-417 -/
def openSession (w : World) (argv : List Str) (st : State) : Int × State :=
  match w.user with
  | none => (PAM_SESSION_ERR, st)
  | some (user, uid) =>
    let s := argv.foldl (arg w.fnmatch user uid) {}
    match s.command with
    | none => (PAM_SUCCESS, st)
    | some c =>
      match w.socket with
      | .unsupported => (PAM_IGNORE, st)
      | .failed => (PAM_SESSION_ERR, st)
      | .ok =>
        if w.get = false then (PAM_SESSION_ERR, st)
        else
          let new : Status := ⟨if c then 1 else 0, if s.logPasswd then 1 else 0⟩
          if st.kernel = new then (PAM_SUCCESS, st)
          else if s.openOnly = false ∧ w.save = false then (PAM_SESSION_ERR, st)
          else setStatus w new (if s.openOnly then st else { st with saved := some st.kernel })

/-- `pam_sm_close_session`: modules/pam_tty_audit/pam_tty_audit.c:419-450 -/
def closeSession (w : World) (st : State) : Int × State :=
  match st.saved with
  | none => (PAM_SUCCESS, st)
  | some old => if w.socket ≠ .ok then (PAM_SESSION_ERR, st) else setStatus w old st

end Pam.Audit
