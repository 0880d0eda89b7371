import Verif.Util.IO
/-
Model of libpam/pam_modutil_ioloop.c: pam_modutil_read and pam_modutil_write.  `count` is an `int`;
negative values are refused, the others are natural numbers.
-/
namespace Pam.Util

/-- The loop of `pam_modutil_read`: libpam/pam_modutil_ioloop.c:23-34.  The result is the value
returned, the buffer and what stays unread. -/
def readFully (buf : List Char) (offset : Nat) (stream : List Char) :
    (count : Nat) → List Ev → Out (Int × List Char × List Char)
  | count, [] => if count = 0 then .ret (offset, buf, stream) else .wait
  | count, e :: es =>
    if count = 0 then .ret (offset, buf, stream)
    else
      let r := sysRead e stream count
      match r.1 with
      | .intr => readFully buf offset r.2 count es
      | .err => .ret (-1, buf, r.2)
      | .got bs =>
        match storeAt buf offset bs with
        | none => .ub
        | some buf' =>
          if bs.length = 0 then .ret (offset, buf', r.2)
          else readFully buf' (offset + bs.length) r.2 (count - bs.length) es

/-- `pam_modutil_read`: libpam/pam_modutil_ioloop.c:13-37 -/
def modRead (buf : List Char) (count : Int) (stream : List Char) (sched : List Ev) :
    Out (Int × List Char × List Char) :=
  if count < 0 then .ret (-1, buf, stream) else readFully buf 0 stream count.toNat sched

/-- The loop of `pam_modutil_write`: libpam/pam_modutil_ioloop.c:49-60.  The result is the value
returned and the bytes written.  `write` of at least one byte does not return 0 (the check at
line 56 is modelled all the same). -/
def writeFully (buf : List Char) (offset : Nat) (out : List Char) :
    (count : Nat) → List Ev → Out (Int × List Char)
  | count, [] => if count = 0 then .ret (offset, out) else .wait
  | count, e :: es =>
    if count = 0 then .ret (offset, out)
    else if buf.length < offset + count then .ub
    else
      match sysWrite e ((buf.drop offset).take count) with
      | .intr => writeFully buf offset out count es
      | .err => .ret (-1, out)
      | .got bs =>
        if bs.length = 0 then .ret (offset, out)
        else writeFully buf (offset + bs.length) (out ++ bs) (count - bs.length) es

/-- `pam_modutil_write`: libpam/pam_modutil_ioloop.c:39-63 -/
def modWrite (buf : List Char) (count : Int) (sched : List Ev) : Out (Int × List Char) :=
  if count < 0 then .ret (-1, []) else writeFully buf 0 [] count.toNat sched

end Pam.Util
