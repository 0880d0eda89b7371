import Verif.Env.Model
/-
modules/pam_env/pam_env.c: who owns the memory of a variable while a configuration file is read, and what happens if there is none.

Every request for memory may fail.  Blocks are numbered by the requests.  The buffer of `_expand_arg` and the text for `pam_putenv` are local variables of
the program; here they share one place, `tmp`.  The memory that `pam_putenv` and `pam_getenv` use themselves is there (C17, C18), and so is that for the lines of the file.
-/
namespace Pam.Env.Owner
open Pam Pam.Small Pam.Env

/-- the pointers: the members of `VAR` (modules/pam_env/pam_env.c:38-43) that own memory, and a local variable -/
inductive Slot
  | name
  | defval
  | override
  | tmp
  deriving DecidableEq

/-- a pointer: NULL, the address of the static `quote` (modules/pam_env/pam_env.c:73-74), or a block -/
inductive Ptr
  | null
  | quote
  | blk (n : Nat)
  deriving DecidableEq

/-- the pointers, the blocks with their texts, and the number of requests so far -/
structure M where
  ptr : Slot → Ptr
  live : Nat → Option Str
  count : Nat

/-- a function with one value changed -/
def upd {α β : Type} [DecidableEq α] (f : α → β) (a : α) (b : β) : α → β := fun x => if x = a then b else f x

/-- set a pointer -/
def M.point (m : M) (i : Slot) (p : Ptr) : M := { m with ptr := upd m.ptr i p }

/-- ask for memory for a text, with the result stored in a pointer; `ok` says which requests work -/
def M.alloc (ok : Nat → Bool) (m : M) (i : Slot) (t : Str) : Bool × M :=
  if ok m.count then (true, ⟨upd m.ptr i (.blk m.count), upd m.live m.count (some t), m.count + 1⟩)
  else (false, { m.point i .null with count := m.count + 1 })

/-- `free`, after which the pointer is not used before it is set again: NULL stands for that.  `none`: it is not a block, or was freed. -/
def M.free (m : M) (i : Slot) : Option M :=
  match m.ptr i with
  | .null => some m
  | .quote => none
  | .blk n => if (m.live n).isSome then some { m.point i .null with live := upd m.live n none } else none

/-- read a text; `none`: there is none -/
def M.text (m : M) (i : Slot) : Option Str :=
  match m.ptr i with
  | .null => none
  | .quote => some []
  | .blk n => m.live n

/-- write over a text -/
def M.write (m : M) (i : Slot) (t : Str) : Option M :=
  match m.ptr i with
  | .blk n => if (m.live n).isSome then some { m with live := upd m.live n (some t) } else none
  | _ => none

/-- what a step comes to: a result, a wrong use of memory, or a bad access in `pam_putenv` or `pam_getenv` -/
inductive Res (α : Type)
  | ok (x : α)
  | misuse
  | env

/-- the pointer for a setting: modules/pam_env/pam_env.c:409, 413 -/
def slotOf (override : Bool) : Slot := if override then .override else .defval

/-- the loop over the settings of a line: modules/pam_env/pam_env.c:403-451; GOOD_LINE is 0 -/
def parseLoop (ok : Nat → Bool) : (fuel : Nat) → (ptr : Str) → (quoteflg : Nat) → M → Option (Int × M)
  | 0, _, _, m => some (0, m)
  | fuel + 1, ptr, quoteflg, m =>
    if !(ptr.head?.any Config.isLead) then some (0, m)
    else match keyword (ptr.dropWhile Config.isLead) with
    | none => some (BAD_LINE, m)
    | some (override, p) =>
      match takeValue p with
      | none => some (BAD_LINE, m)
      | some (quoted, t, rest) =>
        let quoteflg := if quoted then quoteflg + 1 else quoteflg
        if t ≠ [] then
          match (if m.ptr (slotOf override) ≠ .quote then m.free (slotOf override) else some m) with
          | none => none
          | some m =>
            match m.alloc ok (slotOf override) t with
            | (false, m) => some (PAM_BUF_ERR, m)
            | (true, m) => parseLoop ok fuel rest quoteflg m
        else if quoteflg ≠ 0 then parseLoop ok fuel rest (quoteflg - 1) (m.point (slotOf override) .quote)
        else parseLoop ok fuel rest quoteflg m

/-- `_parse_line`: modules/pam_env/pam_env.c:367-460 -/
def parseLine (ok : Nat → Bool) (l : Str) (m : M) : Option (Int × M) :=
  let r := l.dropWhile (fun c => !isWordEnd c)
  match m.alloc ok .name (l.takeWhile (fun c => !isWordEnd c)) with
  | (false, m) => some (PAM_BUF_ERR, m)
  | (true, m) => parseLoop ok (r.length + 1) r 0 m

/-- the end of `_expand_arg`, the new text being in `tmp`: modules/pam_env/pam_env.c:719-732.  Whether the text is put into new memory is any choice, `moves`; the rule is in C187. -/
def putBack (ok moves : Nat → Bool) (i : Slot) (s : Str) (m : M) : Option (Int × M) :=
  if moves m.count then
    match m.free i with
    | none => none
    | some m =>
      match m.alloc ok i s with
      | (false, m) => (m.free .tmp).map (fun m => (PAM_BUF_ERR, m))
      | (true, m) => (m.free .tmp).map (fun m => (PAM_SUCCESS, m))
  else
    match m.write i s with
    | none => none
    | some m => (m.free .tmp).map (fun m => (PAM_SUCCESS, m))

/-- `_expand_arg`: modules/pam_env/pam_env.c:603-738.  The buffer is one request; a buffer that cannot grow is one that was not to be had. -/
def expandArg (ok moves : Nat → Bool) (e : PEnv) (w : Who) (i : Slot) (m : M) : Res (Int × M) :=
  match m.text i with
  | none => .misuse
  | some t =>
    if !(t.any isSpecial) then .ok (PAM_SUCCESS, m)
    else
      match Env.expandArg e w t with
      | .bad => .env
      | .abort =>
        match m.alloc ok .tmp [] with
        | (false, m) => .ok (PAM_BUF_ERR, m)
        | (true, m) => match m.free .tmp with | none => .misuse | some m => .ok (PAM_ABORT, m)
      | .done s =>
        match m.alloc ok .tmp s with
        | (false, m) => .ok (PAM_BUF_ERR, m)
        | (true, m) => match putBack ok moves i s m with | none => .misuse | some x => .ok x

/-- `_expand_arg` unless the value is NULL or `quote`: modules/pam_env/pam_env.c:770-771, 774-775 -/
def expandVal (ok moves : Nat → Bool) (e : PEnv) (w : Who) (i : Slot) (m : M) : Res (Int × M) :=
  if m.ptr i ≠ .null ∧ m.ptr i ≠ .quote then expandArg ok moves e w i m else .ok (PAM_SUCCESS, m)

/-- `_define_var`: modules/pam_env/pam_env.c:830-851; `i` is where `var->value` points -/
def define (ok : Nat → Bool) (e : PEnv) (i : Slot) (m : M) : Res (Int × PEnv × M) :=
  match m.text .name, m.text i with
  | some n, some x =>
    match m.alloc ok .tmp (n ++ '=' :: x) with
    | (false, m) => .ok (PAM_BUF_ERR, e, m)
    | (true, m) =>
      match m.text .tmp with
      | none => .misuse
      | some nv =>
        match put e nv with
        | none => .env
        | some (r, e) => match m.free .tmp with | none => .misuse | some m => .ok (r, e, m)
  | _, _ => .misuse

/-- `_undefine_var`: modules/pam_env/pam_env.c:853-863 -/
def undefine (e : PEnv) (m : M) : Res (Int × PEnv × M) :=
  match m.text .name with
  | none => .misuse
  | some n => match put e n with | none => .env | some (r, e) => .ok (r, e, m)

/-- what `_check_var` decides (modules/pam_env/pam_env.c:781-803), and the call that follows: modules/pam_env/pam_env.c:903-908 -/
def decide' (ok : Nat → Bool) (e : PEnv) (m : M) : Res (Int × PEnv × M) :=
  if m.ptr .override ≠ .null ∧ m.text .override = none then .misuse
  else if m.ptr .override ≠ .null ∧ m.text .override ≠ some [] then define ok e .override m
  else if m.ptr .defval ≠ .null then define ok e .defval m
  else undefine e m

/-- one line: modules/pam_env/pam_env.c:900-909, with `_check_var`, modules/pam_env/pam_env.c:740-807 -/
def confLine (ok moves : Nat → Bool) (w : Who) (e : PEnv) (l : Str) (m : M) : Res (Int × PEnv × M) :=
  match parseLine ok l m with
  | none => .misuse
  | some (r, m) =>
    if r ≠ 0 then .ok (r, e, m)
    else
      match expandVal ok moves e w .defval m with
      | .misuse => .misuse
      | .env => .env
      | .ok (r, m) =>
        if r ≠ PAM_SUCCESS then .ok (r, e, m)
        else
          match expandVal ok moves e w .override m with
          | .misuse => .misuse
          | .env => .env
          | .ok (r, m) => if r ≠ PAM_SUCCESS then .ok (r, e, m) else decide' ok e m

/-- free a value unless it is `quote`: modules/pam_env/pam_env.c:816-823; the pointer is NULL afterwards -/
def cleanVal (i : Slot) (m : M) : Option M :=
  if m.ptr i ≠ .quote then m.free i else some (m.point i .null)

/-- `_clean_var`: modules/pam_env/pam_env.c:809-828 -/
def cleanVar (m : M) : Option M :=
  match m.free .name with
  | none => none
  | some m => match cleanVal .defval m with | none => none | some m => cleanVal .override m

/-- the loop over the lines: modules/pam_env/pam_env.c:899-915 -/
def confLines (ok moves : Nat → Bool) (w : Who) : (retval : Int) → PEnv → List Str → M → Res (Int × PEnv × M)
  | retval, e, [], m => .ok (retval, e, m)
  | _, e, l :: ls, m =>
    match confLine ok moves w e l m with
    | .misuse => .misuse
    | .env => .env
    | .ok (r, e, m) =>
      if r ≠ PAM_SUCCESS ∧ r ≠ BAD_LINE ∧ r ≠ PAM_BAD_ITEM then .ok (r, e, m)
      else match cleanVar m with
      | none => .misuse
      | some m => confLines ok moves w r e ls m

/-- nothing yet: modules/pam_env/pam_env.c:872 -/
def M.start : M := ⟨fun _ => .null, fun _ => none, 0⟩

/-- `_parse_config_file` once the lines are read: modules/pam_env/pam_env.c:872, 899-922 -/
def configLines (ok moves : Nat → Bool) (w : Who) (e : PEnv) (ls : List Str) : Res (Int × PEnv × M) :=
  match confLines ok moves w PAM_SUCCESS e ls M.start with
  | .misuse => .misuse
  | .env => .env
  | .ok (r, e, m) => match cleanVar m with | none => .misuse | some m => .ok (if r ≠ 0 then PAM_ABORT else PAM_SUCCESS, e, m)

end Pam.Env.Owner
