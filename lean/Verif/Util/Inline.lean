import Verif.Util.IO
/-
Model of libpam/include/pam_inline.h: pam_consttime_streq, pam_consttime_strcaseeq and
pam_read_passwords.
-/
namespace Pam.Util

/-- The loop of `pam_consttime_streq` (`f` the identity) and `pam_consttime_strcaseeq` (`f` is
`tolower`): libpam/include/pam_inline.h:235-265.  A pointer is the memory from it to the end of
its object, so reading past the end gives `none`.  The result is the return value and the number
of iterations made.  `char` is taken as unsigned; only whether the XOR is 0 matters. -/
def streqLoop (f : Char → Char) : (u s : List Char) → (ret n : Nat) → Option (Bool × Nat)
  | [], _, _, _ => none
  | _ :: _, [], _, _ => none
  | cu :: u, cs :: s, ret, n =>
    if cu ≠ NUL then
      streqLoop f u (if cs ≠ NUL then s else cs :: s) (ret ||| ((f cu).toNat ^^^ (f cs).toNat)) (n + 1)
    else some ((ret ||| ((f cu).toNat ^^^ (f cs).toNat)) == 0, n + 1)

/-- `pam_consttime_streq`: libpam/include/pam_inline.h:234-246 -/
def consttimeStreq (userinput secret : List Char) : Option (Bool × Nat) :=
  streqLoop id userinput secret 0 0

/-- `pam_consttime_strcaseeq`: libpam/include/pam_inline.h:253-265 -/
def consttimeStrcaseeq (userinput secret : List Char) : Option (Bool × Nat) :=
  streqLoop lower userinput secret 0 0

/-- `PAM_MAX_RESP_SIZE`: libpam/include/security/_pam_types.h:248 -/
abbrev MAX_RESP : Nat := 512

/-- the local variables of `pam_read_passwords` and the caller's buffers -/
structure Pws where
  passwords : List (List Char)
  i : Nat
  offset : Nat
  npass : Nat
deriving DecidableEq, Repr

/-- Zero `n` bytes at `off` of slot `i` (`pam_overwrite_n`); `none` outside the buffer:
libpam/include/pam_inline.h:102-123 -/
def wipe (pws : List (List Char)) (i off n : Nat) : Option (List (List Char)) :=
  match pws[i]? with
  | none => none
  | some b => (storeAt b off (List.replicate n NUL)).map (fun b' => pws.set i b')

/-- `memcpy(passwords[i], bs, |bs|)` -/
def fill (pws : List (List Char)) (i off : Nat) (bs : List Char) : Option (List (List Char)) :=
  match pws[i]? with
  | none => none
  | some b => (storeAt b off bs).map (fun b' => pws.set i b')

/-- The tail of a chunk after a NUL moves to the next buffer (if another password is wanted) and is
wiped from this one: libpam/include/pam_inline.h:217-222.  `at` is the offset of `pptr` in
`passwords[i]`, `npass` is already decremented. -/
def carry (pws : List (List Char)) (i pptr rbytes npass : Nat) : Option (List (List Char)) :=
  if 0 < rbytes then
    match pws[i]? with
    | none => none
    | some b =>
      if 0 < npass then
        match fill pws (i + 1) 0 ((b.drop pptr).take rbytes) with
        | none => none
        | some pws' => wipe pws' i pptr rbytes
      else wipe pws i pptr rbytes
  else some pws

/-- The inner loop: libpam/include/pam_inline.h:210-224.  Recursion on `npass`, which every
iteration decrements.  `none` = access outside a buffer; otherwise the final variables and
`rbytes`. -/
def splitLoop (pws : List (List Char)) (i offset rbytes : Nat) : (npass : Nat) → Option (Pws × Nat)
  | 0 => some (⟨pws, i, offset, 0⟩, rbytes)
  | npass + 1 =>
    match pws[i]? with
    | none => none
    | some b =>
      if b.length < offset + rbytes then none
      else match ((b.drop offset).take rbytes).idxOf? NUL with
        | none => some (⟨pws, i, offset, npass + 1⟩, rbytes)
        | some k =>
          match carry pws i (offset + k + 1) (rbytes - (k + 1)) npass with
          | none => none
          | some pws' => splitLoop pws' (i + 1) 0 (rbytes - (k + 1)) npass

/-- After the loops: libpam/include/pam_inline.h:228-231 -/
def finishPws (s : Pws) : Out (Nat × List (List Char)) :=
  if 0 < s.offset ∧ 0 < s.npass then
    match wipe s.passwords s.i 0 s.offset with
    | none => .ub
    | some pws => .ret (s.i, pws)
  else .ret (s.i, s.passwords)

/-- One `read` and the inner loop: libpam/include/pam_inline.h:197-225, when it delivers the bytes
`bs` -/
def absorb (s : Pws) (bs : List Char) : Option Pws :=
  match fill s.passwords s.i s.offset bs with
  | none => none
  | some pws =>
    match splitLoop pws s.i s.offset bs.length s.npass with
    | none => none
    | some (s', rbytes) => some { s' with offset := s'.offset + rbytes }

/-- after the loop, with the unread bytes -/
def leavePws (s : Pws) (rest : List Char) : Out ((Nat × List (List Char)) × List Char) :=
  match finishPws s with
  | .ret r => .ret (r, rest)
  | .wait => .wait
  | .ub => .ub

/-- The outer loop of `pam_read_passwords`: libpam/include/pam_inline.h:196-226.  The result
also gives what stays unread. -/
def readLoop (s : Pws) (stream : List Char) : List Ev → Out ((Nat × List (List Char)) × List Char)
  | [] => if s.npass = 0 then leavePws s stream else .wait
  | e :: es =>
    if s.npass = 0 then leavePws s stream
    else if (s.passwords[s.i]?).isNone then .ub
    else
      let r := sysRead e stream (MAX_RESP + 1 - s.offset)
      match r.1 with
      | .intr => readLoop s r.2 es
      | .err => leavePws s r.2
      | .got bs =>
        if bs = [] then leavePws s r.2
        else match absorb s bs with
          | none => .ub
          | some s' => readLoop s' r.2 es

/-- `pam_read_passwords`: libpam/include/pam_inline.h:184-232 -/
def readPasswords (passwords : List (List Char)) (npass : Nat) (stream : List Char)
    (sched : List Ev) : Out ((Nat × List (List Char)) × List Char) :=
  readLoop ⟨passwords, 0, 0, npass⟩ stream sched

end Pam.Util
