import Verif.Core.Codes
import Verif.Small.Basics
/-
pam_filter: modules/pam_filter/pam_filter.c, and the filter modules/pam_filter/upperLOWER/upperLOWER.c.

Left out: log messages and the releases of memory.
-/
namespace Pam.Filter
open Pam Pam.Small

/-! ### Arguments and the environment of the filter -/

/-- the bits of `ctrl`: modules/pam_filter/pam_filter.c:35-39 -/
structure Ctrl where
  debug : Bool := false
  newTerm : Bool := false
  nonTerm : Bool := false
  run1 : Bool := false
  run2 : Bool := false
deriving DecidableEq, Repr

/-- the loop over the arguments: modules/pam_filter/pam_filter.c:67-90.  The second part is what follows `run1` or `run2`; `none` if `argc < 0` at the end. -/
def scan : Ctrl → List Str → Ctrl × Option (List Str)
  | c, [] => (c, none)
  | c, a :: rest =>
    if a = "debug".toList then scan { c with debug := true } rest
    else if a = "new_term".toList then scan { c with newTerm := true } rest
    else if a = "non_term".toList then scan { c with nonTerm := true } rest
    else if a = "run1".toList then
      if rest = [] then scan { c with run1 := true } rest else ({ c with run1 := true }, some rest)
    else if a = "run2".toList then
      if rest = [] then scan { c with run2 := true } rest else ({ c with run2 := true }, some rest)
    else scan c rest

/-- the size of the buffer: modules/pam_filter/pam_filter.c:120-124; `i` is the index of the word -/
def argsSize : (i : Nat) → List Str → Nat → Nat
  | _, [], size => size
  | i, w :: ws, size => argsSize (i + 1) ws (size + w.length + (if i ≠ 0 then 1 else 0))

/-- `stpcpy` at the end of what is in a buffer of that size; `none`: written beyond its end -/
def stpcpy (size : Nat) (buf s : Str) : Option Str :=
  if buf.length + s.length + 1 ≤ size then some (buf ++ s) else none

/-- the copying: modules/pam_filter/pam_filter.c:134-138 -/
def argsFill (size : Nat) : (i : Nat) → List Str → Str → Option Str
  | _, [], buf => some buf
  | i, w :: ws, buf =>
    match (if i ≠ 0 then stpcpy size buf [' '] else some buf) with
    | none => none
    | some b =>
      match stpcpy size b w with
      | none => none
      | some b2 => argsFill size (i + 1) ws b2

/-- what the module finds: allocations, in their order in `process_args`, and the items -/
structure World where
  mem : Nat → Bool
  service : Option Str
  user : Option Str

inductive Parsed
  | failed
  /-- a write beyond the end of a buffer -/
  | overflow
  | noFilter (c : Ctrl)
  | filter (c : Ctrl) (name : Str) (env : List Str)
deriving DecidableEq, Repr

/-- `process_args`: modules/pam_filter/pam_filter.c:61-198 -/
def processArgs (w : World) (args : List Str) (type : Str) : Parsed :=
  match scan {} args with
  | (c, none) => .noFilter c
  | (c, some words) =>
    if ¬ w.mem 0 then .failed
    else if ¬ w.mem 1 then .failed
    else
      let size := argsSize 0 words 6
      match stpcpy size [] "ARGS=".toList with
      | none => .overflow
      | some b =>
        match argsFill size 0 words b with
        | none => .overflow
        | some a =>
          match w.service with
          | none => .failed
          | some s =>
            if ¬ w.mem 2 then .failed
            else if ¬ w.mem 3 then .failed
            else if ¬ w.mem 4 then .failed
            else
              .filter c (words.headD []) [a, "SERVICE=".toList ++ s, "USER=".toList ++ w.user.getD "<unknown>".toList, "TYPE=".toList ++ type]

/-! ### The three processes -/

/-- how `wait` says a process changed -/
inductive End
  | exited (n : Nat)
  | killed
  | stopped
deriving DecidableEq, Repr

/-- what `wait` reports: about the application, about the filter, or an error or another process -/
inductive Ev
  | app (e : End)
  | filter (e : End)
  | other
deriving DecidableEq, Repr

/-- the first loop: modules/pam_filter/pam_filter.c:463-495; `none`: still waiting when the events are used up -/
def wait1 : List Ev → (child child2 : Bool) → Int → Option (Bool × Bool × Int × List Ev)
  | [], c, c2, st => if c && c2 then none else some (c, c2, st, [])
  | e :: es, c, c2, st =>
    if c && c2 then
      match e with
      | .app (.exited n) => wait1 es false c2 n
      | .app .killed => wait1 es false c2 (-1)
      | .app .stopped => wait1 es c c2 st
      | .filter (.exited _) => wait1 es c false st
      | .filter .killed => wait1 es c false st
      | .filter .stopped => wait1 es c c2 st
      | .other => wait1 es false false (-1)
    else some (c, c2, st, e :: es)

/-- the second loop: modules/pam_filter/pam_filter.c:502-533 -/
def wait2 : List Ev → (child child2 : Bool) → Int → Option Int
  | [], c, c2, st => if c || c2 then none else some st
  | e :: es, c, c2, st =>
    if c || c2 then
      match e with
      | .app e =>
        if c then
          match e with
          | .exited n => wait2 es false c2 n
          | .killed => wait2 es false c2 (-1)
          | .stopped => wait2 es c c2 st
        else wait2 es false false (-1)
      | .filter e =>
        if c2 then
          match e with
          | .exited _ => wait2 es c false st
          | .killed => wait2 es c false st
          | .stopped => wait2 es c c2 st
        else wait2 es false false (-1)
      | .other => wait2 es false false (-1)
    else some st

/-- what the parent's exit status is, from what `wait` reports; `filter`: whether there is a filter process -/
def waits (filter : Bool) (evs : List Ev) : Option Int :=
  if filter then
    match wait1 evs true true (-1) with
    | none => none
    | some (c, c2, st, rest) => wait2 rest c c2 st
  else wait2 evs true false (-1)

/-- what the process has: the terminal is in raw mode, the authentication tokens in the handle, descriptors opened by the module, and whether 0, 1 and 2 lead to the filter -/
structure St where
  raw : Bool := false
  tok : Option Str := none
  oldtok : Option Str := none
  fds : Nat := 0
  filtered : Bool := false
deriving DecidableEq, Repr

/-- what a system call of `fork` gives: an error, or which of the two processes this is -/
inductive Fork
  | failed
  | child
  | parent
deriving DecidableEq, Repr

/-- the results of the system calls in `set_filter` -/
structure Sys where
  tty : Bool
  master : Bool
  getattr : Bool
  setraw : Bool
  pair : Bool
  fork1 : Fork
  setsid : Bool
  grant : Bool
  unlock : Bool
  ptsname : Bool
  slave : Bool
  setslave : Bool
  dup : Bool
  keep : Bool
  fork2 : Fork
  dup2 : Bool
  keep2 : Bool
  exec : Bool
  events : List Ev

inductive Out
  /-- the module returns to the application -/
  | returned (code : Int) (s : St)
  /-- the process that waits exits -/
  | exited (status : Int) (s : St)
  /-- the filter's program is started in place of the process -/
  | started (path : Str) (env : List Str) (s : St)
  /-- the process of the filter ends before that -/
  | gone
  | waiting (s : St)
deriving DecidableEq, Repr

/-- the process of the application after the first fork, for a terminal: modules/pam_filter/pam_filter.c:313-371.  `some`: the error and what is open. -/
def childTty (y : Sys) (s : St) : Option St :=
  if ¬ y.setsid then some { s with fds := s.fds - 1 }
  else if ¬ y.grant then some { s with fds := s.fds - 1 }
  else if ¬ y.unlock then some { s with fds := s.fds - 1 }
  else if ¬ y.ptsname then some { s with fds := s.fds - 1 }
  else if ¬ y.slave then some { s with fds := s.fds - 1 }
  else if ¬ y.setslave then some { s with fds := s.fds - 1 + 1 - 1 }
  else none

/-- the process of the application: modules/pam_filter/pam_filter.c:311-408.  One descriptor, the end for the application, is left in both cases (lines 354-355, 375). -/
def childSide (y : Sys) (s : St) : Out :=
  match (if y.tty then childTty y s else none) with
  | some s => .returned PAM_ABORT s
  | none =>
    let s := { s with fds := if y.tty then s.fds - 1 + 1 else s.fds - 1 }
    if ¬ y.dup then .returned PAM_ABORT { s with fds := s.fds - 1 }
    else
      let s := { s with fds := s.fds - 1, filtered := true }
      if ¬ y.keep then .returned PAM_ABORT s else .returned PAM_SUCCESS s

/-- the process that waits: modules/pam_filter/pam_filter.c:498-546 -/
def parentEnd (y : Sys) (s : St) (filter : Bool) : Out :=
  match waits filter y.events with
  | none => .waiting s
  | some st => .exited st { s with fds := s.fds - 1, raw := if y.tty then false else s.raw }

/-- the process that does not become the application: modules/pam_filter/pam_filter.c:410-546 -/
def parentSide (y : Sys) (name : Str) (env : List Str) (s : St) : Out :=
  let s := { s with fds := if ¬ y.tty then s.fds - 1 else s.fds, tok := none, oldtok := none }
  match y.fork2 with
  | .failed => parentEnd y s false
  | .child => if ¬ y.dup2 then .gone else if ¬ y.keep2 then .gone else if y.exec then .started name env s else .gone
  | .parent => parentEnd y s true

/-- `set_filter`: modules/pam_filter/pam_filter.c:211-548.  `name` is `none` for NULL. -/
def setFilter (y : Sys) (name : Option Str) (env : List Str) (s : St) : Out :=
  match name with
  | none => .returned PAM_ABORT s
  | some name =>
    if name.head? ≠ some '/' then .returned PAM_ABORT s
    else if y.tty ∧ ¬ y.master then .returned PAM_AUTH_ERR s
    else if y.tty ∧ ¬ y.getattr then .returned PAM_ABORT s
    else if y.tty ∧ ¬ y.setraw then .returned PAM_ABORT s
    else if ¬ y.tty ∧ ¬ y.pair then .returned PAM_ABORT s
    else
      let s := if y.tty then { s with raw := true, fds := s.fds + 1 } else { s with fds := s.fds + 2 }
      match y.fork1 with
      | .failed => .returned PAM_AUTH_ERR (if y.tty then { s with raw := false, fds := s.fds - 1 } else { s with fds := s.fds - 1 - 1 })
      | .child => childSide y s
      | .parent => parentSide y name env s

/-! ### The operations -/

/-- PAM_TTY and the terminal of the process -/
structure Tty where
  item : Option Str
  name : Option Str
  setOk : Bool

/-- `set_the_terminal`: modules/pam_filter/pam_filter.c:550-567 -/
def setTheTerminal (t : Tty) : Int × Tty :=
  match t.item with
  | some _ => (PAM_SUCCESS, t)
  | none =>
    match t.name with
    | none => (PAM_ABORT, t)
    | some n => if ¬ t.setOk then (PAM_ABORT, t) else (PAM_SUCCESS, { t with item := some n })

/-- the result of an operation: what the process does, and PAM_TTY -/
structure Done where
  out : Out
  tty : Tty

/-- `need_a_filter`: modules/pam_filter/pam_filter.c:569-615.  `which` picks the bit of `which_run`; `pts` is what `ttyname` gives behind the filter. -/
def needAFilter (w : World) (y : Sys) (t : Tty) (pts : Option Str) (s : St) (args : List Str) (type : Str) (which : Ctrl → Bool) : Option Done :=
  let go (c : Ctrl) (name : Option Str) (env : List Str) : Done :=
    let r := if c.nonTerm = false ∧ c.newTerm = false then setTheTerminal t else (PAM_SUCCESS, t)
    if r.1 ≠ PAM_SUCCESS then ⟨.returned r.1 s, r.2⟩
    else
      let o := if which c then setFilter y name env s else .returned PAM_SUCCESS s
      match o with
      | .returned code s2 =>
        if code = PAM_SUCCESS ∧ c.nonTerm = false ∧ c.newTerm = true then
          let t2 := if which c then { r.2 with name := pts } else r.2
          let r2 := setTheTerminal t2
          ⟨.returned r2.1 s2, r2.2⟩
        else ⟨.returned code s2, r.2⟩
      | o => ⟨o, r.2⟩
  match processArgs w args type with
  | .failed => some ⟨.returned PAM_AUTHINFO_UNAVAIL s, t⟩
  | .overflow => none
  | .noFilter c => some (go c none [])
  | .filter c name env => some (go c (some name) env)

/-- the operations: modules/pam_filter/pam_filter.c:625-681 -/
inductive Op
  | authenticate
  | setcred
  | acctMgmt
  | openSession
  | closeSession
  | chauthtok (prelim update : Bool)
deriving DecidableEq, Repr

/-- the entry points: modules/pam_filter/pam_filter.c:625-681 -/
def operation (w : World) (y : Sys) (t : Tty) (pts : Option Str) (s : St) (args : List Str) : Op → Option Done
  | .authenticate => needAFilter w y t pts s args "authenticate".toList (fun c => c.run1)
  | .setcred => needAFilter w y t pts s args "setcred".toList (fun c => c.run2)
  | .acctMgmt => needAFilter w y t pts s args "setcred".toList (fun c => c.run1 || c.run2)
  | .openSession => needAFilter w y t pts s args "open_session".toList (fun c => c.run1)
  | .closeSession => needAFilter w y t pts s args "close_session".toList (fun c => c.run2)
  | .chauthtok prelim update =>
    if prelim then needAFilter w y t pts s args "chauthtok".toList (fun c => c.run1)
    else if update then needAFilter w y t pts s args "chauthtok".toList (fun c => c.run2)
    else some ⟨.returned PAM_TRY_AGAIN s, t⟩

end Pam.Filter
