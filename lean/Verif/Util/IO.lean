import Verif.Core.Text
/-
The environment of code that reads and writes file descriptors: `read`/`write` of the kernel, as
far as a pipe, socket or regular file shows it to one process.
-/
namespace Pam.Util

/-- what a run of a C function comes to: undefined behaviour (an access outside an object), still
inside a system call when the given schedule ends, or a return value -/
inductive Out (α : Type) where
  | ub
  | wait
  | ret (a : α)
deriving DecidableEq, Repr

/-- The kernel's choice for one `read` or `write`: EINTR, another error, or a transfer of at most
`n + 1` bytes (so at least one, unless nothing is asked for or the stream has ended). -/
inductive Ev where
  | intr
  | err
  | upto (n : Nat)
deriving DecidableEq, Repr

/-- result of `read`/`write` -/
inductive Res (α : Type) where
  | intr
  | err
  | got (bs : List α)
deriving DecidableEq, Repr

/-- `read(fd, buf, count)` on a descriptor whose unread bytes are `stream`, followed by end of file:
the bytes delivered, and what stays unread -/
def sysRead {α : Type} (e : Ev) (stream : List α) (count : Nat) : Res α × List α :=
  match e with
  | .intr => (.intr, stream)
  | .err => (.err, stream)
  | .upto n => (.got (stream.take (min count (n + 1))), stream.drop (min count (n + 1)))

/-- `write(fd, bs, |bs|)`: the bytes accepted -/
def sysWrite {α : Type} (e : Ev) (bs : List α) : Res α :=
  match e with
  | .intr => .intr
  | .err => .err
  | .upto n => .got (bs.take (n + 1))

/-- storing `bs` at offset `off` of an object; `none` if it does not fit -/
def storeAt {α : Type} (buf : List α) (off : Nat) (bs : List α) : Option (List α) :=
  if off + bs.length ≤ buf.length then some (buf.take off ++ bs ++ buf.drop (off + bs.length))
  else none

end Pam.Util
