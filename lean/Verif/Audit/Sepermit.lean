import Verif.Audit.Tty
/-
modules/pam_sepermit.

Left out: messages to the log, the option "debug", running out of memory, and here how the processes are found in /proc (see `Audit/Running.lean`): the processes with the real
user id of the user, or that /proc cannot be read, are given.  A lock is one of `fcntl`: it belongs to a process, and closing any descriptor of the file gives it up.
-/
namespace Pam.Audit.Sepermit
open Pam Pam.Small Pam.Audit

/-- what the module asks the system -/
structure World where
  /-- `pam_get_user` -/
  user : Option Str
  /-- the files of the configuration as their lines, as `getline` gives them; `none` if it cannot be opened -/
  file : Str → Option (List Str)
  /-- is there the file of the administrator -/
  admin : Bool
  /-- SELinux is enabled and enforcing -/
  enforcing : Bool
  /-- `getseuserbyname` -/
  seuser : Str → Option Str
  inGroup : Str → Str → Bool
  euid : Nat
  /-- what /proc/self/loginuid holds, if it can be read and holds a number -/
  loginuid : Option Nat
  /-- what `sepermit_lock` comes to -/
  lock : Bool

/-- /etc/security/sepermit.conf, and that of the vendor -/
def confFile : Str := "/etc/security/sepermit.conf".toList
def vendorFile : Str := "/usr/etc/security/sepermit.conf".toList

/-- what a line says: a crash, nothing for this user, or a match with its options -/
inductive Line
  | crash
  | pass
  | hit (exclusive ignore : Bool)
deriving DecidableEq, Repr

/-- the options of a line: modules/pam_sepermit/pam_sepermit.c:346-355 -/
def optStep (s : Bool × Bool) (o : Str) : Bool × Bool :=
  if o = "exclusive".toList then (true, s.2)
  else if o = "ignore".toList then (s.1, true)
  else s

/-- blanks at both ends removed: modules/pam_sepermit/pam_sepermit.c:307-317 -/
def strip (s : Str) : Str := ((s.dropWhile isSpace).reverse.dropWhile isSpace).reverse

/-- is the user meant: modules/pam_sepermit/pam_sepermit.c:318-345 -/
def meant (w : World) (user : Str) (start : Str) : Bool :=
  match start with
  | [] => decide (user = [])
  | c :: rest =>
    if c = '@' then w.inGroup user rest
    else if c = '%' then decide (w.seuser user = some rest)
    else decide (user = c :: rest)

/-- one line: modules/pam_sepermit/pam_sepermit.c:299-355.  `strtok_r` gives NULL if there are only colons, and its first character is looked at. -/
def line (w : World) (user : Str) (l : Str) : Line :=
  let l := cstr l
  if l.head? = some '#' then .pass
  else
    let s := strip l
    if s = [] then .pass
    else
      match tokens ':' s with
      | [] => .crash
      | start :: opts =>
        if meant w user start then
          let o := opts.foldl optStep (false, false)
          .hit o.1 o.2
        else .pass

/-- the loop over the lines, up to the first match: modules/pam_sepermit/pam_sepermit.c:299-356 -/
def scan (w : World) (user : Str) : List Str → Line
  | [] => .pass
  | l :: r =>
    match line w user l with
    | .pass => scan w user r
    | x => x

/-- `get_loginuid`: modules/pam_sepermit/pam_sepermit.c:176-204 -/
def loginuid (w : World) : Nat :=
  match w.loginuid with
  | some n => n % 4294967296
  | none => 4294967295

/-- `sepermit_match` after the loop: modules/pam_sepermit/pam_sepermit.c:358-372; the result, and whether the lock was asked for -/
def matched (w : World) (exclusive ignore : Bool) : Int × Bool :=
  if w.enforcing = false then (PAM_AUTH_ERR, false)
  else
    let sense := if ignore then PAM_IGNORE else PAM_SUCCESS
    if w.euid = 0 ∧ exclusive = true ∧ loginuid w = 4294967295 then (if w.lock then (sense, true) else (PAM_AUTH_ERR, true))
    else (sense, false)

/-- conf=: modules/pam_sepermit/pam_sepermit.c:387-397 -/
def confArg (f : Option Str) (a : Str) : Option Str :=
  if a = "debug".toList then f
  else
    match skipPrefix a "conf=".toList with
    | some v => some v
    | none => f

/-- the file that is read: modules/pam_sepermit/pam_sepermit.c:387-409 -/
def confOf (w : World) (argv : List Str) : Str :=
  match argv.foldl confArg none with
  | some f => f
  | none => if w.admin then confFile else vendorFile

/-- `pam_sepermit`: modules/pam_sepermit/pam_sepermit.c:374-452; `none` is a crash -/
def sepermit (w : World) (argv : List Str) : Option (Int × Bool) :=
  let cfg := confOf w argv
  match w.user with
  | none => some (PAM_USER_UNKNOWN, false)
  | some user =>
    if user = [] then some (PAM_USER_UNKNOWN, false)
    else
      match w.file cfg with
      | none => some (PAM_SERVICE_ERR, false)
      | some lines =>
        match scan w user lines with
        | .crash => none
        | .pass => some (PAM_IGNORE, false)
        | .hit e i => some (matched w e i)

/-! ### exclusive logins -/

/-- who holds the lock of a user id, and what each login keeps in its handle; a login is a process -/
structure Locks where
  owner : Nat → Option Nat
  data : Nat → Option Nat

/-- what happens: a login asks for the lock of a user, or a handle ends -/
inductive Ev
  /-- the process, the user, how many of the processes of the user run besides this one (`none` if /proc cannot be read), and whether the file can be opened -/
  | ask (p u : Nat) (running : Option Nat) (opens : Bool)
  | finish (p : Nat)

/-- `sepermit_unlock` by a process: modules/pam_sepermit/pam_sepermit.c:206-228; the processes of the user are killed before -/
def unlock (s : Locks) (p u : Nat) : Locks :=
  { s with owner := fun x => if x = u ∧ s.owner u = some p then none else s.owner x }

/-- `sepermit_lock`: modules/pam_sepermit/pam_sepermit.c:230-277; `pam_set_data` cleans up what was kept under the same name, after the new lock is taken -/
def ask (s : Locks) (p u : Nat) (running : Option Nat) (opens : Bool) : Bool × Locks :=
  match running with
  | some (_ + 1) => (false, s)
  | _ =>
    if opens = false then (false, s)
    else
      match s.owner u with
      | some q =>
        if q ≠ p then (false, s)
        else (true, { (match s.data p with | some v => unlock s p v | none => s) with data := fun x => if x = p then some u else s.data x })
      | none =>
        let s1 : Locks := { s with owner := fun x => if x = u then some p else s.owner x }
        (true, { (match s.data p with | some v => unlock s1 p v | none => s1) with data := fun x => if x = p then some u else s.data x })

/-- one event: for `ask` whether it was granted -/
def step (s : Locks) : Ev → Bool × Locks
  | .ask p u r o => ask s p u r o
  | .finish p =>
    match s.data p with
    | some u => (true, { unlock s p u with data := fun x => if x = p then none else s.data x })
    | none => (true, s)

/-- a history -/
def run (s : Locks) : List Ev → Locks
  | [] => s
  | e :: r => run (step s e).2 r

def start : Locks := ⟨fun _ => none, fun _ => none⟩

/-- killing the processes of a user, at the end of an exclusive login: modules/pam_sepermit/pam_sepermit.c:219-223.  `found i` is what the i-th look at /proc finds, `none` if it
cannot be read; the number of looks, `none` if there is no end within `n` -/
def killLoop (found : Nat → Option Nat) : (n i : Nat) → Option Nat
  | 0, _ => none
  | n + 1, i =>
    match found i with
    | some (_ + 1) => killLoop found n (i + 1)
    | _ => some (i + 1)

/-- how often the processes of the user are looked for, and killed; never for root -/
def killAll (found : Nat → Option Nat) (uid n : Nat) : Option Nat := if uid = 0 then some 0 else killLoop found n 0

end Pam.Audit.Sepermit
