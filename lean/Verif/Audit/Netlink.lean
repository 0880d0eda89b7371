import Verif.Audit.Tty
/-
The messages pam_tty_audit exchanges with the kernel, modules/pam_tty_audit/pam_tty_audit.c:60-195, byte for byte, and the module on top of them.

Bytes are numbers; numbers are stored with their lowest byte first.  A datagram that is longer than the memory for it is cut, as `recvmsg` does.
Left out: the address, which is not looked at, and `errno`.
-/
namespace Pam.Audit.Netlink
open Pam Pam.Small Pam.Audit

abbrev Bytes := List Nat

/-- a number of 32 bits in memory -/
def le32 (n : Nat) : Bytes := [n % 256, n / 256 % 256, n / 65536 % 256, n / 16777216 % 256]

/-- a number of 16 bits in memory -/
def le16 (n : Nat) : Bytes := [n % 256, n / 256 % 256]

/-- the number of 32 bits at an index -/
def get32 (b : Bytes) (i : Nat) : Nat := b.getD i 0 + 256 * b.getD (i + 1) 0 + 65536 * b.getD (i + 2) 0 + 16777216 * b.getD (i + 3) 0

/-- the number of 16 bits at an index -/
def get16 (b : Bytes) (i : Nat) : Nat := b.getD i 0 + 256 * b.getD (i + 1) 0

/-- NLMSG_ERROR, AUDIT_TTY_GET, AUDIT_TTY_SET, NLM_F_REQUEST, NLM_F_ACK: linux/netlink.h, linux/audit.h -/
def NLMSG_ERROR : Nat := 2
def AUDIT_TTY_GET : Nat := 1016
def AUDIT_TTY_SET : Nat := 1017
def NLM_F_REQUEST : Nat := 1
def NLM_F_ACK : Nat := 4

/-- the bytes `nl_send` hands to `sendmsg`: modules/pam_tty_audit/pam_tty_audit.c:76-98 -/
def request (type flags : Nat) (data : Bytes) : Bytes :=
  le32 (16 + data.length) ++ le16 type ++ le16 (NLM_F_REQUEST ||| flags) ++ le32 0 ++ le32 0 ++ data

/-- `nl_send`: modules/pam_tty_audit/pam_tty_audit.c:67-106; `sent` is what `sendmsg` returns, `none` for -1 -/
def nlSend (sent : Option Nat) (data : Bytes) : Bool :=
  match sent with
  | none => false
  | some n => n == 16 + data.length

/-- what `recvmsg` meets: a failure; or a datagram, and whether it can be read again after it was looked at with MSG_PEEK -/
inductive Recv where
  | fail
  | msg (b : Bytes) (again : Bool)
deriving DecidableEq, Repr

/-- memory that is written from its beginning on, as far as it goes -/
def over (mem b : Bytes) : Bytes := b.take mem.length ++ mem.drop b.length

/-- what becomes of `nl_recv`: it returns 0 with bytes in the buffer, or -1; it waits for ever; or it writes outside the buffer -/
inductive Out (α : Type) where
  | ok (x : α)
  | err
  | blocks
  | ub
deriving DecidableEq, Repr

/-- `nlmsg_type` of the header -/
def typeOf (nlm : Bytes) : Nat := get16 nlm 4

/-- the last part of `nl_recv`, the message being read into the header and the buffer: modules/pam_tty_audit/pam_tty_audit.c:159-179 -/
def finish (type size : Nat) (b nlm buf : Bytes) : Out Bytes :=
  let nlm := over nlm (b.take 16)
  let buf := over buf ((b.drop 16).take size)
  let resdiff : Int := (16 + size : Nat) - (min b.length (16 + size) : Nat)
  if resdiff < 0 ∨ typeOf nlm ≠ type then .err
  else if resdiff > 0 then
    if resdiff > size then .ub else .ok (buf.take (size - resdiff.toNat) ++ List.replicate resdiff.toNat 0)
  else .ok buf

/-- `nl_recv`: modules/pam_tty_audit/pam_tty_audit.c:109-180; `nlm` and `buf` are the header and the buffer as they are at the beginning -/
def nlRecv (type size : Nat) : List Recv → (nlm buf : Bytes) → Out Bytes
  | [], _, _ => .blocks
  | .fail :: _, _, _ => .err
  | .msg b again :: q, nlm, buf =>
    if type ≠ NLMSG_ERROR then
      let nlm := over nlm (b.take 16)
      if min b.length 16 ≠ 16 then .err
      else if typeOf nlm = NLMSG_ERROR then
        if again = false then .err
        else
          let nlm := over nlm (b.take 16)
          if min b.length 36 ≠ 36 ∨ typeOf nlm ≠ NLMSG_ERROR then .err
          else if get32 b 16 = 0 then nlRecv type size q nlm buf
          else .err
      else if again = false then .err
      else finish type size b nlm buf
    else finish type size b nlm buf

/-- `nl_recv_ack`: modules/pam_tty_audit/pam_tty_audit.c:182-195 -/
def nlRecvAck (q : List Recv) (nlm err : Bytes) : Out Unit :=
  match nlRecv NLMSG_ERROR 20 q nlm err with
  | .ok buf => if get32 buf 0 ≠ 0 then .err else .ok ()
  | .err => .err
  | .blocks => .blocks
  | .ub => .ub

/-- `struct audit_tty_status` in memory -/
def encode (s : Status) : Bytes := le32 s.enabled ++ le32 s.logPasswd

def decode (b : Bytes) : Status := ⟨get32 b 0, get32 b 4⟩

/-- the system: `kernel`: what the status is after a request of these bytes, and what can be received then -/
structure Wire where
  user : Option (Str × Nat)
  fnmatch : Str → Str → Bool
  socket : Socket := .ok
  save : Bool := true
  /-- what `sendmsg` returns for the two requests -/
  sentGet : Option Nat
  sentSet : Option Nat
  kernel : Bytes → Status → Status × List Recv
  /-- what memory holds at the beginning -/
  nlm : Bytes
  buf : Bytes
  err : Bytes

/-- AUDIT_TTY_SET: modules/pam_tty_audit/pam_tty_audit.c:399-408 and 437-445 -/
def setWire (w : Wire) (new : Status) (st : State) : Out (Int × State) :=
  let r := if w.sentSet.isSome then w.kernel (request AUDIT_TTY_SET NLM_F_ACK (encode new)) st.kernel else (st.kernel, [])
  let st' := { st with kernel := r.1 }
  if nlSend w.sentSet (encode new) = false then .ok (PAM_SESSION_ERR, st')
  else
    match nlRecvAck r.2 w.nlm w.err with
    | .ok _ => .ok (PAM_SUCCESS, st')
    | .err => .ok (PAM_SESSION_ERR, st')
    | .blocks => .blocks
    | .ub => .ub

/-- `pam_sm_open_session`: modules/pam_tty_audit/pam_tty_audit.c:253-417 -/
def openWire (w : Wire) (argv : List Str) (st : State) : Out (Int × State) :=
  match w.user with
  | none => .ok (PAM_SESSION_ERR, st)
  | some (user, uid) =>
    let s := argv.foldl (arg w.fnmatch user uid) {}
    match s.command with
    | none => .ok (PAM_SUCCESS, st)
    | some c =>
      match w.socket with
      | .unsupported => .ok (PAM_IGNORE, st)
      | .failed => .ok (PAM_SESSION_ERR, st)
      | .ok =>
        let r := if w.sentGet.isSome then w.kernel (request AUDIT_TTY_GET 0 []) st.kernel else (st.kernel, [])
        let st := { st with kernel := r.1 }
        if nlSend w.sentGet [] = false then .ok (PAM_SESSION_ERR, st)
        else
          match nlRecv AUDIT_TTY_GET 8 r.2 w.nlm w.buf with
          | .blocks => .blocks
          | .ub => .ub
          | .err => .ok (PAM_SESSION_ERR, st)
          | .ok buf =>
            let old := decode buf
            let new : Status := ⟨if c then 1 else 0, if s.logPasswd then 1 else 0⟩
            if old.enabled = new.enabled ∧ old.logPasswd = new.logPasswd then .ok (PAM_SUCCESS, st)
            else if s.openOnly = false ∧ w.save = false then .ok (PAM_SESSION_ERR, st)
            else setWire w new (if s.openOnly then st else { st with saved := some old })

/-- `pam_sm_close_session`: modules/pam_tty_audit/pam_tty_audit.c:419-450 -/
def closeWire (w : Wire) (st : State) : Out (Int × State) :=
  match st.saved with
  | none => .ok (PAM_SUCCESS, st)
  | some old => if w.socket ≠ .ok then .ok (PAM_SESSION_ERR, st) else setWire w old st

end Pam.Audit.Netlink
