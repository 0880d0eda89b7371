import Verif.Core.Codes
import Verif.Core.Text
import Verif.Config.Line
/-
modules/pam_exec/pam_exec.c: a command is run.

What the system and the application do is given by a structure; memory is available.  Left out: messages to the log, overwriting the password in memory, and how the
descriptors of the child are moved to 0, 1 and 2 (a child in which that fails ends with a status other than 0, like a program that fails).
-/
namespace Pam.Exec
open Pam

/-- a C string, without its NUL -/
abbrev Str := List Char

/-- `pam_str_skip_icase_prefix`: libpam/include/pam_inline.h:91-97 -/
def skipIcase (s pre : Str) : Option Str := if ieq (s.take pre.length) pre then some (s.drop pre.length) else none

/-- the options: modules/pam_exec/pam_exec.c:93-99 -/
structure Opts where
  stdout : Bool
  log : Option Str
  seteuid : Bool
  quiet : Bool
  expose : Bool
deriving DecidableEq, Repr

/-- the result of the loop over the options: PAM_IGNORE, or the options and the arguments that are left -/
inductive Parsed
  | ignore
  | done (o : Opts) (rest : List Str)
deriving DecidableEq, Repr

/-- the loop over the options: modules/pam_exec/pam_exec.c:116-144 -/
def options (type : Str) : Opts → List Str → Parsed
  | o, [] => .done o []
  | o, a :: r =>
    if a.head? = some '/' then .done o (a :: r)
    else if ieq a "debug".toList then options type o r
    else if ieq a "stdout".toList then options type { o with stdout := true } r
    else match skipIcase a "log=".toList with
      | some f => options type { o with log := some f } r
      | none => match skipIcase a "type=".toList with
        | some t => if type ≠ t then .ignore else options type o r
        | none =>
          if ieq a "seteuid".toList then options type { o with seteuid := true } r
          else if ieq a "quiet".toList then options type { o with quiet := true } r
          else if ieq a "quiet_log".toList then options type o r
          else if ieq a "expose_authtok".toList then options type { o with expose := true } r
          else .done o (a :: r)

/-- no options: modules/pam_exec/pam_exec.c:93-99 -/
def Opts.zero : Opts := ⟨false, none, false, false, false⟩

/-- where the output of the child goes: modules/pam_exec/pam_exec.c:334-335, 369-415 -/
inductive Out | null | pipe | file (name : Str)
deriving DecidableEq, Repr

/-- the child at its `execve`: modules/pam_exec/pam_exec.c:326-492.  `stdin` is what can be read from descriptor 0. -/
structure Child where
  argv : List Str
  env : List Str
  stdin : Str
  out : Out
  seteuid : Bool
deriving DecidableEq, Repr

/-- how a child ends, as `waitpid` tells it; `lost` if `waitpid` fails -/
inductive End
  | exited (n : Nat)
  | signaled (n : Nat)
  | other
  | lost
deriving DecidableEq, Repr

/-- what the application is shown: a line of the output, or that the command failed -/
inductive Msg
  | info (line : Str)
  | failed (cmd : Str) (e : End)
deriving DecidableEq, Repr

/-- what the system and the application do -/
structure World where
  /-- `pam_get_user` -/
  user : Except Int Str
  /-- `pam_get_item(PAM_AUTHTOK)` -/
  tok : Except Int (Option Str)
  /-- the answer to "Password: " -/
  prompt : Int × Option Str
  /-- the other items and the environment of the handle -/
  service : Option Str
  tty : Option Str
  rhost : Option Str
  ruser : Option Str
  env : List Str
  /-- do these succeed: the pipe for the password, the pipe for the output, `fdopen`, `sigaction`, `fork` -/
  pipe1 : Bool
  pipe2 : Bool
  fdopen : Bool
  sigaction : Bool
  fork : Bool
  /-- what the child does: how it ends, and its output -/
  run : Child → End × Str

/-- the result: the code, the child, what was shown, PAM_AUTHTOK if it was set, whether the handler of SIGCHLD is left changed, and how many descriptors are left open -/
structure Result where
  code : Int
  child : Option Child
  shown : List Msg
  set : Option Str
  handler : Bool
  fds : Nat

/-- `PAM_MAX_RESP_SIZE`: libpam/include/security/_pam_types.h:248 -/
abbrev maxResp : Nat := 512

/-- `NAME=value` for an item that is set: modules/pam_exec/pam_exec.c:459-473 -/
def item (name : String) (v : Option Str) : List Str := match v with | none => [] | some v => [name.toList ++ '=' :: v]

/-- the environment of the child: modules/pam_exec/pam_exec.c:58-68, 445-481; `pam_get_user` has set PAM_USER -/
def environment (w : World) (user type : Str) : List Str :=
  w.env ++ item "PAM_SERVICE" w.service ++ item "PAM_USER" (some user) ++ item "PAM_TTY" w.tty ++ item "PAM_RHOST" w.rhost ++ item "PAM_RUSER" w.ruser ++
    ["PAM_TYPE=".toList ++ type]

/-- a line as `pam_info` is given it: modules/pam_exec/pam_exec.c:275-276 -/
def shownLine (l : Str) : Str := l.takeWhile (fun c => c ≠ '\n' ∧ c ≠ NUL)

/-- where the output goes: modules/pam_exec/pam_exec.c:334-335, 367-415 -/
def output (o : Opts) : Out := if o.stdout then .pipe else match o.log with | some f => .file f | none => .null

/-- from the second pipe on: modules/pam_exec/pam_exec.c:213-322.  `pass` is `authtok` if it is exposed. -/
def spawn (w : World) (o : Opts) (user type : Str) (pass : Option Str) (set : Option Str) (rest : List Str) : Result :=
  let fds1 := if pass.isSome then 2 else 0
  if o.stdout ∧ ¬ w.pipe2 then ⟨PAM_SYSTEM_ERR, none, [], set, false, fds1⟩
  else if o.stdout ∧ ¬ w.fdopen then ⟨PAM_SYSTEM_ERR, none, [], set, false, fds1 + 2⟩
  else
    let fds2 := if o.stdout then 2 else 0
    match rest with
    | [] => ⟨PAM_SERVICE_ERR, none, [], set, false, fds1 + fds2⟩
    | cmd :: args =>
      if ¬ w.sigaction then ⟨PAM_SYSTEM_ERR, none, [], set, false, fds1 + fds2⟩
      else if ¬ w.fork then ⟨PAM_SYSTEM_ERR, none, [], set, true, fds1 + fds2⟩
      else
        let c : Child := ⟨cmd :: args, environment w user type, pass.getD [], output o, o.seteuid⟩
        let lines := if o.stdout then (Config.physLines (w.run c).2).map fun l => Msg.info (shownLine l) else []
        match (w.run c).1 with
        | .lost => ⟨PAM_SYSTEM_ERR, some c, lines, set, false, 0⟩
        | .exited 0 => ⟨PAM_SUCCESS, some c, lines, set, false, 0⟩
        | e => ⟨PAM_SYSTEM_ERR, some c, lines ++ (if o.quiet then [] else [.failed cmd e]), set, false, 0⟩

/-- `call_exec`: modules/pam_exec/pam_exec.c:89-494 -/
def callExec (type : Str) (argv : List Str) (w : World) : Result :=
  if argv = [] then ⟨PAM_SERVICE_ERR, none, [], none, false, 0⟩
  else
    match options type .zero argv with
    | .ignore => ⟨PAM_IGNORE, none, [], none, false, 0⟩
    | .done o rest =>
      match w.user with
      | .error e => ⟨if e = PAM_CONV_AGAIN then PAM_INCOMPLETE else e, none, [], none, false, 0⟩
      | .ok user =>
        if o.expose ∧ (type = "auth".toList ∨ type = "password".toList) then
          match w.tok with
          | .error e => ⟨e, none, [], none, false, 0⟩
          | .ok (some p) =>
            if ¬ w.pipe1 then ⟨PAM_SYSTEM_ERR, none, [], none, false, 0⟩
            else spawn w o user type (some (p.take (maxResp - 1))) none rest
          | .ok none =>
            if w.prompt.1 ≠ PAM_SUCCESS then ⟨if w.prompt.1 = PAM_CONV_AGAIN then PAM_INCOMPLETE else w.prompt.1, none, [], none, false, 0⟩
            else if ¬ w.pipe1 then ⟨PAM_SYSTEM_ERR, none, [], w.prompt.2, false, 0⟩
            else spawn w o user type (some ((w.prompt.2.getD []).take (maxResp - 1))) w.prompt.2 rest
        else spawn w o user type none none rest

/-- the functions of the module: modules/pam_exec/pam_exec.c:496-540 -/
inductive Func | auth | setcred | password (prelim : Bool) | account | openSession | closeSession
deriving DecidableEq, Repr

/-- one call of the module: modules/pam_exec/pam_exec.c:496-540 -/
def call (f : Func) (argv : List Str) (w : World) : Result :=
  match f with
  | .auth => callExec "auth".toList argv w
  | .setcred => ⟨PAM_IGNORE, none, [], none, false, 0⟩
  | .password prelim => if prelim then ⟨PAM_SUCCESS, none, [], none, false, 0⟩ else callExec "password".toList argv w
  | .account => callExec "account".toList argv w
  | .openSession => callExec "open_session".toList argv w
  | .closeSession => callExec "close_session".toList argv w

end Pam.Exec
