import Verif.Env.Model
/-
The memory of `_expand_arg`, modules/pam_env/pam_env.c: the growing buffer, and the value that is cut and written over in place.

Sizes are numbers of 64 bits.  `realloc` may fail at any time; memory that was not written holds anything.
-/
namespace Pam.Env
open Pam Pam.Small

/-- `struct string_buffer`: modules/pam_env/pam_env.c:67-71; `mem` is the allocated memory -/
structure Buf where
  mem : Str
  len : Nat
  size : Nat
deriving DecidableEq, Repr

/-- `_strbuf_init`: modules/pam_env/pam_env.c:511-517 -/
def Buf.init : Buf := ⟨[], 0, 0⟩

/-- the memory manager: whether a size can be had for a buffer with so many bytes in use, whether `strdup` works, and what new memory holds -/
structure Alloc where
  gives : Nat → Nat → Bool
  dups : Bool
  junk : Nat → Char

/-- a sum of 64 bits -/
def plus64 (n k : Nat) : Nat := (n + k) % 2 ^ 64

/-- a difference of 64 bits -/
def minus64 (n k : Nat) : Nat := if k ≤ n then n - k else 2 ^ 64 - (k - n)

/-- the size that is asked for: modules/pam_env/pam_env.c:550-559 -/
def newSize (b : Buf) (add : Nat) : Nat :=
  if b.size = 0 ∧ add < 64 then 64
  else if b.size ≥ (2 ^ 64 - 1) / 2 ∨ b.size * 2 % 2 ^ 64 < (b.len + add + 1) % 2 ^ 64 then (b.len + add + 1) % 2 ^ 64
  else b.size * 2 % 2 ^ 64

/-- `_strbuf_reserve`: modules/pam_env/pam_env.c:534-569; `none`: it returns 1 -/
def reserve (a : Alloc) (b : Buf) (add : Nat) : Option Buf :=
  if add < minus64 b.size b.len then some b
  else if b.len ≥ 2 ^ 64 - 1 - add then none
  else if a.gives b.len (newSize b add) then
    some { b with
      mem := b.mem.take (newSize b add) ++ (List.range (newSize b add - b.mem.length)).map a.junk
      size := newSize b add }
  else none

/-- bytes written into memory from an index on; `none`: beyond its end -/
def store (mem : Str) (i : Nat) (x : Str) : Option Str :=
  if i + x.length ≤ mem.length then some (mem.take i ++ x ++ mem.drop (i + x.length)) else none

/-- what becomes of a step: it is done, there is no memory, or memory is accessed beyond its end -/
inductive Step (α : Type) where
  | ok (x : α)
  | nomem
  | ub
deriving DecidableEq, Repr

/-- bytes appended with their NUL: the common part of `_strbuf_add_char` and `_strbuf_add_string` -/
def append (a : Alloc) (b : Buf) (x : Str) : Step Buf :=
  match reserve a b x.length with
  | none => .nomem
  | some b =>
    match store b.mem b.len (x ++ [NUL]) with
    | none => .ub
    | some m => .ok { b with mem := m, len := plus64 b.len x.length }

/-- `_strbuf_add_char`: modules/pam_env/pam_env.c:571-584 -/
def addChar (a : Alloc) (b : Buf) (c : Char) : Step Buf := append a b [c]

/-- `_strbuf_add_string`: modules/pam_env/pam_env.c:586-601 -/
def addString (a : Alloc) (b : Buf) (x : Str) : Step Buf := append a b x

/-- the end of `_expand_arg` or its loop -/
inductive Ended (α : Type) where
  | done (x : α)
  | abort
  | nomem
  /-- a bad memory access in `pam_getenv` -/
  | bad
  /-- a bad memory access in `_expand_arg` -/
  | ub
deriving DecidableEq, Repr

def Step.andThen {α β : Type} (s : Step α) (k : α → Ended β) : Ended β :=
  match s with
  | .ok x => k x
  | .nomem => .nomem
  | .ub => .ub

/-- The loop of `_expand_arg`: modules/pam_env/pam_env.c:626-717.  `pos`: the index of the text that is left; `cut`: the index of the first `}` that
was made a NUL. -/
def expandMemLoop (a : Alloc) (e : PEnv) (w : Who) : (fuel pos : Nat) → (cut : Option Nat) → Buf → Str → Ended (Buf × Option Nat)
  | _, _, cut, b, [] => .done (b, cut)
  | 0, _, cut, b, _ :: _ => .done (b, cut)
  | fuel + 1, pos, cut, b, c :: s =>
    if c = '\\' then
      match s with
      | d :: s' =>
        if d ≠ '$' ∧ d ≠ '@' ∧ d ≠ '\\' then expandMemLoop a e w fuel (pos + 1) cut b (d :: s')
        else (addChar a b d).andThen fun b => expandMemLoop a e w fuel (pos + 2) cut b s'
      | [] => expandMemLoop a e w fuel (pos + 1) cut b []
    else if c = '$' ∨ c = '@' then
      if s.head? = some '{' then
        if '}' ∉ s.tail then .abort
        else
          let name := s.tail.takeWhile (· ≠ '}')
          let rest := (s.tail.dropWhile (· ≠ '}')).tail
          let ptr := pos + 2 + name.length
          let cut := match cut with | none => some ptr | some i => some i
          match (if c = '$' then e.getenv (some name) else some (itemByName w name)) with
          | none => .bad
          | some none => expandMemLoop a e w fuel (ptr + 1) cut b rest
          | some (some v) => (addString a b v).andThen fun b => expandMemLoop a e w fuel (ptr + 1) cut b rest
      else (addChar a b c).andThen fun b => expandMemLoop a e w fuel (pos + 1) cut b s
    else (addChar a b c).andThen fun b => expandMemLoop a e w fuel (pos + 1) cut b s

/-- the text in the buffer: modules/pam_env/pam_env.c:721 and 725-726; `none`: there is no end in the memory -/
def Buf.text (b : Buf) : Option Str :=
  if b.size = 0 then some [] else if NUL ∈ b.mem then some (b.mem.takeWhile (· ≠ NUL)) else none

/-- the result put in the place of the value, whose memory is one byte longer than it was: modules/pam_env/pam_env.c:719-727 -/
def putBack (a : Alloc) (v : Str) (b : Buf) (cut : Option Nat) : Ended Str :=
  if b.len > cut.getD v.length then
    match b.text with
    | none => .ub
    | some t => if b.size = 0 then .ub else if a.dups then .done t else .nomem
  else
    match b.text with
    | none => .ub
    | some t =>
      match store (v ++ [NUL]) 0 (t ++ [NUL]) with
      | none => .ub
      | some m => .done (m.takeWhile (· ≠ NUL))

/-- `_expand_arg`: modules/pam_env/pam_env.c:603-738 -/
def expandMem (a : Alloc) (e : PEnv) (w : Who) (v : Str) : Ended Str :=
  if !(v.any isSpecial) then .done v
  else
    match expandMemLoop a e w v.length 0 none Buf.init v with
    | .done (b, cut) => putBack a v b cut
    | .abort => .abort
    | .nomem => .nomem
    | .bad => .bad
    | .ub => .ub

end Pam.Env
