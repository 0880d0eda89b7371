/-
The filter that comes with pam_filter: modules/pam_filter/upperLOWER/upperLOWER.c.  Bytes are numbers; the locale is "C", as the program sets none.
-/
namespace Pam.Filter.Swap

abbrev Bytes := List Nat

/-- one character of `do_transpose`: modules/pam_filter/upperLOWER/upperLOWER.c:27-31 -/
def swap (b : Nat) : Nat :=
  if 97 ≤ b ∧ b ≤ 122 then b - 32 else if 65 ≤ b ∧ b ≤ 90 then b + 32 else b

/-- `do_transpose`: modules/pam_filter/upperLOWER/upperLOWER.c:23-33; the loop from index `i` -/
def transpose (len : Nat) : (i : Nat) → Bytes → Bytes
  | _, [] => []
  | i, b :: bs => (if i < len then swap b else b) :: transpose len (i + 1) bs

/-- what `select` and `read` give for a descriptor: not ready, an error, or bytes; no bytes is the end -/
inductive Rd
  | idle
  | error
  | got (b : Bytes)
deriving DecidableEq, Repr

/-- one turn of the loop.  The last three are what the writes achieve: `none` for all, or a number of bytes after which it failed. -/
structure Turn where
  select : Bool
  err : Rd
  out : Rd
  inp : Rd
  werr : Option Nat := none
  wout : Option Nat := none
  winp : Option Nat := none

/-- the buffer, what was read from the application's errors and output and from the user, and what was written to the user's errors and output and to the application -/
structure St where
  buf : Bytes := []
  readErr : Bytes := []
  readOut : Bytes := []
  readInp : Bytes := []
  toErr : Bytes := []
  toOut : Bytes := []
  toApp : Bytes := []
deriving DecidableEq, Repr

/-- `read` into the buffer: the new bytes in front, the old ones behind -/
def fill (buf b : Bytes) : Bytes := b ++ buf.drop b.length

/-- `pam_modutil_write`: what gets written of the first `got` bytes, and whether that is all -/
def send (buf : Bytes) (got : Nat) (w : Option Nat) : Bytes × Bool :=
  match w with
  | none => (buf.take got, true)
  | some n => ((buf.take got).take n, decide (got ≤ n))

/-- output of the application: modules/pam_filter/upperLOWER/upperLOWER.c:91-117; `false`: the loop is left -/
def fromApp (t : Turn) (s : St) : St × Bool :=
  match t.err with
  | .error => (s, false)
  | .got b =>
    if b.length = 0 then (s, false)
    else
      let buf := transpose b.length 0 (fill s.buf b)
      let r := send buf b.length t.werr
      ({ s with buf := buf, readErr := s.readErr ++ b, toErr := s.toErr ++ r.1 }, r.2)
  | .idle =>
    match t.out with
    | .error => (s, false)
    | .got b =>
      if b.length = 0 then (s, false)
      else
        let buf := transpose b.length 0 (fill s.buf b)
        let r := send buf b.length t.wout
        ({ s with buf := buf, readOut := s.readOut ++ b, toOut := s.toOut ++ r.1 }, r.2)
    | .idle => (s, true)

/-- input of the user: modules/pam_filter/upperLOWER/upperLOWER.c:119-137 -/
def fromUser (t : Turn) (s : St) : St × Bool :=
  match t.inp with
  | .error => (s, false)
  | .got b =>
    if b.length = 0 then (s, false)
    else
      let buf := transpose b.length 0 (fill s.buf b)
      let r := send buf b.length t.winp
      ({ s with buf := buf, readInp := s.readInp ++ b, toApp := s.toApp ++ r.1 }, r.2)
  | .idle => (s, true)

/-- the loop: modules/pam_filter/upperLOWER/upperLOWER.c:74-138; `true` at the end: still running -/
def loop : List Turn → St → St × Bool
  | [], s => (s, true)
  | t :: ts, s =>
    if ¬ t.select then (s, false)
    else
      match fromApp t s with
      | (s, false) => (s, false)
      | (s, true) =>
        match fromUser t s with
        | (s, false) => (s, false)
        | (s, true) => loop ts s

end Pam.Filter.Swap
