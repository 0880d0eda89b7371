import Verif.Digest.Basics
/-
Model of modules/pam_timestamp/sha1.c and of the computation in modules/pam_timestamp/hmacsha1.c.  Writes outside a buffer are an outcome of their own
(`none`).  Overwriting memory that is no longer needed is left out, except that `sha1_process` clears the block.
-/
namespace Pam.Digest.Sha1
open Pam.Digest

/-- `F`: modules/pam_timestamp/sha1.c:60-64 -/
def F (b c d : Word) : Word := (b &&& c) ||| (~~~b &&& d)

/-- `G`: modules/pam_timestamp/sha1.c:66-70 -/
def G (b c d : Word) : Word := b ^^^ c ^^^ d

/-- `H`: modules/pam_timestamp/sha1.c:72-76 -/
def H (b c d : Word) : Word := (b &&& c) ||| (b &&& d) ||| (c &&& d)

/-- `RL`: modules/pam_timestamp/sha1.c:78-82 -/
def RL (n : Word) (s : Nat) : Word := (n <<< s) ||| (n >>> (32 - s))

/-- the chaining values -/
structure Sum where
  a : Word
  b : Word
  c : Word
  d : Word
  e : Word
deriving DecidableEq, Repr

/-- one round: modules/pam_timestamp/sha1.c:84-90, 128-129 -/
def round (f : Word → Word → Word → Word) (n : Word) (s : Sum) (i : Word) : Sum :=
  { a := RL s.a 5 + f s.b s.c s.d + s.e + i + n, b := s.a, c := RL s.b 30, d := s.c, e := s.d }

/-- `data[i]` -/
def get (data : List Word) (i : Nat) : Word := data.getD i 0

/-- the 80 words of a block: modules/pam_timestamp/sha1.c:110-115 -/
def schedule (block : List Byte) : List Word :=
  (List.range' 16 64).foldl (fun data i => data ++ [RL (get data (i - 3) ^^^ get data (i - 8) ^^^ get data (i - 14) ^^^ get data (i - 16)) 1]) (beWords block)

/-- a loop over `data[i]` for `lo <= i < lo + 20` -/
def twenty (f : Word → Word → Word → Word) (n : Word) (data : List Word) (lo : Nat) (s : Sum) : Sum :=
  (List.range' lo 20).foldl (fun s i => round f n s (get data i)) s

/-- `sha1_process` up to the clearing of the block: modules/pam_timestamp/sha1.c:103-145 -/
def process (s : Sum) (block : List Byte) : Sum :=
  let data := schedule block
  let t := twenty F 0x5a827999 data 0 s
  let t := twenty G 0x6ed9eba1 data 20 t
  let t := twenty H 0x8f1bbcdc data 40 t
  let t := twenty G 0xca62c1d6 data 60 t
  { a := s.a + t.a, b := s.b + t.b, c := s.c + t.c, d := s.d + t.d, e := s.e + t.e }

/-- `struct sha1_context`: modules/pam_timestamp/sha1.h:47-56, without `count`, which nothing uses -/
structure Ctx where
  pending : List Byte
  counts0 : Word
  counts1 : Word
  pendingCount : Nat
  sum : Sum
deriving DecidableEq, Repr

/-- a cleared block -/
def zeros : List Byte := List.replicate 64 0

/-- `sha1_init`: modules/pam_timestamp/sha1.c:92-101 -/
def init : Ctx :=
  { pending := zeros, counts0 := 0, counts1 := 0, pendingCount := 0,
    sum := { a := 0x67452301, b := 0xefcdab89, c := 0x98badcfe, d := 0x10325476, e := 0xc3d2e1f0 } }

/-- the loop over full blocks: modules/pam_timestamp/sha1.c:156-165; what is left of the data.  The fuel is more than the length of the data. -/
def updateLoop : (fuel : Nat) → Ctx → List Byte → Option (Ctx × List Byte)
  | 0, _, _ => none
  | fuel + 1, ctx, data =>
    if data.length + ctx.pendingCount ≥ 64 then
      let t := 64 - ctx.pendingCount
      match store ctx.pending ctx.pendingCount (data.take t) with
      | none => none
      | some block => updateLoop fuel { ctx with sum := process ctx.sum block, pending := zeros, pendingCount := 0 } (data.drop t)
    else some (ctx, data)

/-- `sha1_update`: modules/pam_timestamp/sha1.c:150-183 -/
def update (ctx : Ctx) (data : List Byte) : Option Ctx :=
  match updateLoop (data.length + 1) ctx data with
  | none => none
  | some (ctx, rest) =>
    match store ctx.pending ctx.pendingCount rest with
    | none => none
    | some p =>
      let ctx := { ctx with pending := p, pendingCount := ctx.pendingCount + rest.length }
      if data.length ≠ 0 then
        let count := ctx.counts0
        let c0 := ctx.counts0 + BitVec.ofNat 32 data.length
        some { ctx with counts0 := c0, counts1 := if count ≥ c0 then ctx.counts1 + 1 else ctx.counts1 }
      else some ctx

/-- `padding`: modules/pam_timestamp/sha1.c:52-58 -/
def padding : List Byte := 0x80 :: List.replicate 63 0

/-- the bytes of the sum: modules/pam_timestamp/sha1.c:226-250 -/
def outBytes (s : Sum) : List Byte := beBytes s.a ++ beBytes s.b ++ beBytes s.c ++ beBytes s.d ++ beBytes s.e

/-- `sha1_output` with `out` not NULL: modules/pam_timestamp/sha1.c:185-254.  It works on a copy of the context. -/
def output (ctx : Ctx) : Option (List Byte) :=
  let c := ctx.pendingCount
  match store ctx.pending c (padding.take (64 - c)) with
  | none => none
  | some p =>
    let (sum, p) := if c ≥ 56 then (process ctx.sum p, (if c = 64 then 0x80 else 0) :: List.replicate 63 0) else (ctx.sum, p)
    let counts1 := ctx.counts1 <<< 3
    let counts1 := if ctx.counts0 >>> 29 ≠ 0 then counts1 ||| (ctx.counts0 >>> 29) else counts1
    let counts0 := ctx.counts0 <<< 3
    match store p 56 (beBytes counts1) with
    | none => none
    | some p =>
      match store p 60 (beBytes counts0) with
      | none => none
      | some p => some (outBytes (process sum p))

/-- `sha1_init`, `sha1_update` for each part, `sha1_output` -/
def digest (parts : List (List Byte)) : Option (List Byte) :=
  match parts.foldlM update init with
  | none => none
  | some ctx => output ctx

/-- `xor_block`: modules/pam_timestamp/hmacsha1.c:194-201 -/
def xorBlock (p : List Byte) (byte : Byte) : List Byte := p.map (· ^^^ byte)

/-- `hmac_sha1_generate`, with memory: modules/pam_timestamp/hmacsha1.c:203-266.  `some none`: no MAC, the key is too short.  (`key` is filled with
zeros; `memmove` and `sha1_output` write to its beginning.) -/
def hmac (rawKey text : List Byte) : Option (Option (List Byte)) :=
  if rawKey.length < 20 then some none
  else
    match (if rawKey.length > 64 then (digest [rawKey]).bind (store zeros 0) else store zeros 0 rawKey) with
    | none => none
    | some key =>
      match digest [xorBlock key 0x36, text] with
      | none => none
      | some inner =>
        match digest [xorBlock key 0x5c, inner] with
        | none => none
        | some outer => some (some outer)

end Pam.Digest.Sha1
