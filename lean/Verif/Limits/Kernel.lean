import Verif.Limits.Model
/-
Model of how modules/pam_limits/pam_limits.c reads /proc/1/limits (the argument set_all) and /proc/sys/fs/nr_open.  A line is
the text up to its first NUL, with its end of line if it has one.
-/
namespace Pam.Limits.Kernel
open Pam Pam.Access Pam.Limits

/-- `lnames`: modules/pam_limits/pam_limits.c:409-440 -/
def lname : Res → Str
  | .cpu => "Max cpu time".toList
  | .fsize => "Max file size".toList
  | .data => "Max data size".toList
  | .stack => "Max stack size".toList
  | .core => "Max core file size".toList
  | .rss => "Max resident set".toList
  | .nproc => "Max processes".toList
  | .nofile => "Max open files".toList
  | .memlock => "Max locked memory".toList
  | .as => "Max address space".toList
  | .locks => "Max file locks".toList
  | .sigpending => "Max pending signals".toList
  | .msgqueue => "Max msgqueue size".toList
  | .nice => "Max nice priority".toList
  | .rtprio => "Max realtime priority".toList
  | .rttime => "Max realtime timeout".toList

/-- `str2rlimit`: modules/pam_limits/pam_limits.c:442-450.  `none` is -1. -/
def str2rlimit (name : Str) : Option Res :=
  if name = [] then none else Res.all.find? (fun r => decide (name = lname r))

/-- `str2rlim_t`: modules/pam_limits/pam_limits.c:452-461; the value is never NULL -/
def str2rlim (value : Str) : Nat :=
  if value = "unlimited".toList then INF else ulong (strtoInt 10 value).1

/-- how the work on a line ends early: the next line is taken, or `pos` wraps around and memory outside the line is read -/
inductive Stop where
  | again
  | wild
deriving DecidableEq, Repr

/-- `while (pos && …) pos--;` in LIMITS_SKIP_WHITESPACE and LIMITS_MARK_ITEM: modules/pam_limits/pam_limits.c:466, 473.  The list holds the
characters from `line[pos]` down to `line[0]`.  The value: what was passed, and what is left. -/
def back (go : Char → Bool) : Str → Str × Str
  | [] => ([], [])
  | [c] => ([], [c])
  | c :: d :: r =>
    if go c then let b := back go (d :: r); (c :: b.1, b.2) else ([], c :: d :: r)

/-- LIMITS_SKIP_WHITESPACE: modules/pam_limits/pam_limits.c:463-469.  What comes behind `line[pos]` is cut off. -/
def skipWhitespace : Str → Except Stop Str
  | [] => .error .wild
  | [_] => .error .wild
  | _ :: r =>
    let rest := (back (fun c => c == ' ') r).2
    if rest.length ≤ 1 then .error .again else .ok rest

/-- LIMITS_MARK_ITEM: modules/pam_limits/pam_limits.c:470-476: the item, and the characters from `line[pos]` down.  The item ends where
LIMITS_SKIP_WHITESPACE has cut the line just before. -/
def markItem : Str → Except Stop (Str × Str)
  | [] => .error .wild
  | [_] => .error .wild
  | c :: r =>
    let b := back (fun c => c != ' ') r
    if b.2.length ≤ 1 then .error .again else .ok ((c :: b.1).reverse, b.2)

/-- the name, the soft and the hard limit of a line: modules/pam_limits/pam_limits.c:508-524.  `units`: `pos == maxlen`. -/
def fields (units : Bool) (line : Str) : Except Stop (Str × Str × Str) := do
  let r0 := NUL :: line.reverse
  let r1 ← if units then do
      let r ← skipWhitespace r0
      let i ← markItem r
      pure i.2
    else pure r0
  let r2 ← skipWhitespace r1
  let hard ← markItem r2
  let r3 ← skipWhitespace hard.2
  let soft ← markItem r3
  let name ← skipWhitespace soft.2
  pure (name.reverse, soft.1, hard.1)

/-- the variable `maxlen`, and what the limits have been set to -/
structure St where
  maxlen : Nat
  table : Res → Option (Nat × Nat)

/-- one turn of the loop: modules/pam_limits/pam_limits.c:493-535.  `none`: memory outside the line is read. -/
def step (s : St) (raw : Str) : Option St :=
  if raw.length < 2 then some s
  else
    let line := if raw.getLast? = some '\n' then raw.dropLast else raw
    if s.maxlen = 0 ∧ "Limit".toList.isPrefixOf line = true then some { s with maxlen := line.length }
    else
      match fields (decide (line.length = s.maxlen)) line with
      | .error .wild => none
      | .error .again => some s
      | .ok f =>
        match str2rlimit f.1 with
        | none => some s
        | some r => some { s with table := fun x => if x = r then some (str2rlim f.2.1, str2rlim f.2.2) else s.table x }

/-- the loop -/
def loop : St → List Str → Option St
  | s, [] => some s
  | s, l :: ls =>
    match step s l with
    | none => none
    | some s => loop s ls

/-- `parse_kernel_limits`: modules/pam_limits/pam_limits.c:478-539.  `file`: the lines of /proc/1/limits, if it can be read.  `none`: memory
outside a line is read. -/
def parseKernel (file : Option (List Str)) : Option (Res → Option (Nat × Nat)) :=
  match file with
  | none => some (fun _ => none)
  | some lines => (loop ⟨0, fun _ => none⟩ lines).map (·.table)

/-- `value_from_file`: modules/pam_limits/pam_limits.c:593-624.  `line`: the first line of the file, if there is one. -/
def valueFromFile (line : Option Str) : Option Nat :=
  match line with
  | none => none
  | some buf =>
    let r := strtoInt 10 buf
    if r.2 = buf then none
    else if ulong r.1 = 2 ^ 64 - 1 ∧ overflows r.1 = true then none
    else some (ulong r.1)

end Pam.Limits.Kernel
