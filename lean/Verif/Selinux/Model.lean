import Verif.Small.Gates
/-
modules/pam_selinux/pam_selinux.c, built with `getseuser` and `setkeycreatecon`.

libselinux is given by what its functions answer.  A context is what `context_new` makes of a text: four parts that can be read and set.  Left out: messages to the
log and to the user, the option "debug" and "verbose", and running out of memory.
-/
namespace Pam.Selinux
open Pam Pam.Small

/-- `context_t` -/
structure Ctx where
  user : Str
  role : Str
  type : Str
  range : Option Str
deriving DecidableEq, Repr

/-- the policy: what libselinux answers about contexts -/
structure Policy where
  contextNew : Str → Option Ctx
  contextStr : Ctx → Str
  /-- `context_role_set`, `context_type_set` and `context_range_set` take this text -/
  roleOk : Str → Bool
  typeOk : Str → Bool
  rangeOk : Option Str → Bool
  /-- `get_default_type` -/
  defaultType : Str → Option Str
  /-- `is_selinux_mls_enabled` -/
  mls : Bool
  /-- `security_check_context` -/
  valid : Str → Bool
  /-- `selinux_check_access(_, _, "context", "contains", NULL)` -/
  contains : Str → Str → Bool
  /-- `getcon` -/
  getcon : Option Str

/-- what is sent to the audit system: success, the default context and the selected one -/
structure Rec where
  ok : Bool
  default : Option Str
  selected : Option Str
deriving DecidableEq, Repr

/-- the range of the process: modules/pam_selinux/pam_selinux.c:209-225 and 315-326; `none` is a failure -/
def currentRange (p : Policy) : Option (Option Str) :=
  match p.getcon with
  | none => none
  | some c =>
    match p.contextNew c with
    | none => none
    | some m => some m.range

/-- an answer that is not empty: modules/pam_selinux/pam_selinux.c:142-161 with `response[0]` -/
def answered : Option Str → Option Str
  | some (c :: r) => some (c :: r)
  | _ => none

/-- the role of an answer, with its type: modules/pam_selinux/pam_selinux.c:198-201 and 301-304.  `none` is `fail_set`. -/
def setRole (p : Policy) (c : Ctx) (role type : Str) : Option Ctx :=
  if p.roleOk role = false then none
  else if p.typeOk type = false then none
  else some { c with role := role, type := type }

/-- `context_range_set` -/
def setRange (p : Policy) (c : Ctx) (range : Option Str) : Option Ctx :=
  if p.rangeOk range then some { c with range := range } else none

/-- the role in `config_context`: modules/pam_selinux/pam_selinux.c:189-205; `none`: there is no type for it and all is asked again, `some none` is `fail_set` -/
def askRole (p : Policy) (answer : Option Str) (c : Ctx) : Option (Option Ctx) :=
  match answered answer with
  | none => some (some c)
  | some r =>
    match p.defaultType r with
    | none => none
    | some t => some (setRole p c r t)

/-- the level in `config_context`: modules/pam_selinux/pam_selinux.c:207-232; the context, and how many questions were asked; `none` is `fail_set` -/
def askLevel (p : Policy) (ask : Nat → Option Str) (current : Bool) (c : Ctx) (i : Nat) : Option (Ctx × Nat) :=
  if p.mls = false then some (c, i)
  else if current then
    match currentRange p with
    | none => none
    | some r => (setRange p c r).map (fun c => (c, i))
  else
    match answered (ask i) with
    | some l => (setRange p c (some l)).map (fun c => (c, i + 1))
    | none => some (c, i + 1)

/-- is the answer yes: modules/pam_selinux/pam_selinux.c:176-184 -/
def yes : Option Str → Bool
  | some (c :: _) => c == 'y' || c == 'Y'
  | _ => false

/-- `config_context`: modules/pam_selinux/pam_selinux.c:163-277.  `ask i` is the answer to the i-th question.  The context that was chosen, if any, and what was sent to
the audit system.  The outer `none`: still asking after `n` rounds. -/
def configContext (p : Policy) (default : Str) (current : Bool) (ask : Nat → Option Str) : (n : Nat) → (i : Nat) → Option (Option Str × List Rec)
  | 0, _ => none
  | n + 1, i =>
    if yes (ask i) = false then some (some default, [])
    else
      match p.contextNew default with
      | none => some (none, [⟨false, some default, none⟩])
      | some c =>
        match askRole p (ask (i + 1)) c with
        | none => configContext p default current ask n (i + 2)
        | some none => some (none, [⟨false, some default, none⟩])
        | some (some c) =>
          match askLevel p ask current c (i + 2) with
          | none => some (none, [⟨false, some default, none⟩])
          | some (c, j) =>
            let new := p.contextStr c
            if p.valid new then
              if p.mls ∧ p.contains default new = false then some (none, [⟨false, some default, some new⟩])
              else some (some new, [])
            else (configContext p default current ask n j).map (fun r => (r.1, ⟨false, some default, some new⟩ :: r.2))

/-- the role of the environment: modules/pam_selinux/pam_selinux.c:293-306 -/
def envRole (p : Policy) (env : Str → Option Str) (params : Bool) (c : Ctx) : Option Ctx :=
  if params = false then some c
  else
    match answered (env "SELINUX_ROLE_REQUESTED".toList) with
    | none => some c
    | some r =>
      match p.defaultType r with
      | none => none
      | some t => setRole p c r t

/-- is the range of the process to be used: modules/pam_selinux/pam_selinux.c:309-313 -/
def useCurrent (v : Option Str) (current : Bool) : Bool :=
  match v with
  | some ('1' :: _) => true
  | _ => current

/-- the level of the environment: modules/pam_selinux/pam_selinux.c:308-337 -/
def envLevel (p : Policy) (env : Str → Option Str) (current : Bool) (c : Ctx) : Option Ctx :=
  if p.mls = false then some c
  else
    let level := if useCurrent (env "SELINUX_USE_CURRENT_RANGE".toList) current then currentRange p else some (env "SELINUX_LEVEL_REQUESTED".toList)
    match level with
    | none => none
    | some l =>
      match answered l with
      | none => some c
      | some l => setRange p c (some l)

/-- `context_from_env`: modules/pam_selinux/pam_selinux.c:279-375 -/
def contextFromEnv (p : Policy) (default : Str) (params current : Bool) (env : Str → Option Str) : Option Str × List Rec :=
  match p.contextNew default with
  | none => (none, [⟨false, some default, none⟩])
  | some c =>
    match (envRole p env params c).bind (envLevel p env current) with
    | none => (none, [⟨false, some default, none⟩])
    | some c =>
      let new := p.contextStr c
      if p.valid new = false then (none, [⟨false, some default, some new⟩])
      else if p.mls ∧ p.contains default new = false then (none, [⟨false, some default, some new⟩])
      else (some new, [])

/-- `module_data_t`: modules/pam_selinux/pam_selinux.c:378-385; it is kept only with a context for programs -/
structure Data where
  exec : Str
  prevExec : Option Str
  default : Str
  ttyContext : Option Str
  prevTty : Option Str
  ttyPath : Option Str
deriving DecidableEq, Repr

/-- the contexts of the process for programs and for keys, the labels of files, what the handle keeps, and what was sent to the audit system -/
structure State where
  exec : Option Str
  key : Option Str
  file : Str → Str
  data : Option Data
  sent : List Rec

/-- `setfilecon` -/
inductive SetFile
  | ok
  | enoent
  | fail
deriving DecidableEq, Repr

/-- the system during a call -/
structure World where
  policy : Policy
  /-- `is_selinux_enabled() > 0`, `security_getenforce() != 0` -/
  enabled : Bool
  enforcing : Bool
  user : Option Str
  service : Option Str
  /-- PAM_TTY, and the terminals of the standard descriptors -/
  tty : Option Str
  stdin : Option Str
  stdout : Option Str
  stderr : Option Str
  /-- `pw_name` of the user of that name -/
  pwname : Str → Option Str
  /-- `getseuser` of user and service, and the first of `get_ordered_context_list_with_level` -/
  contexts : Str → Str → Option Str
  env : Str → Option Str
  ask : Nat → Option Str
  /-- `getexeccon` works -/
  getexec : Bool
  /-- `getfilecon`: works, there is no such file, or fails -/
  getfile : Str → SetFile
  /-- there is the class chr_file -/
  tclass : Bool
  /-- `security_compute_relabel` of the context for programs and the label -/
  relabel : Str → Str → Option Str
  setfile : SetFile
  setexec : Bool
  setkey : Bool
  /-- `pam_set_data` -/
  save : Bool

/-- the result where SELinux cannot do something: an error only if it is enforcing -/
def World.refuse (w : World) : Int := if w.enforcing then PAM_SESSION_ERR else PAM_SUCCESS

/-- the arguments -/
structure Args where
  ttys : Bool := true
  select : Bool := false
  current : Bool := false
  params : Bool := false
  close : Bool := false
  restore : Bool := false
  open_ : Bool := false
deriving DecidableEq, Repr

/-- modules/pam_selinux/pam_selinux.c:678-691, 759-772 and 799-806 -/
def arg (a : Args) (s : Str) : Args :=
  if s = "nottys".toList then { a with ttys := false }
  else if s = "select_context".toList then { a with select := true }
  else if s = "use_current_range".toList then { a with current := true }
  else if s = "env_params".toList then { a with params := true }
  else if s = "close".toList then { a with close := true }
  else if s = "restore".toList then { a with restore := true }
  else if s = "open".toList then { a with open_ := true }
  else a

def args (argv : List Str) : Args := argv.foldl arg {}

/-- the choice of `compute_exec_context`: modules/pam_selinux/pam_selinux.c:487-504.  `none`: still asking after `n` rounds. -/
def choose (w : World) (n : Nat) (a : Args) (default : Str) : Option (Option Str × List Rec) :=
  if a.select ∧ a.params = false then configContext w.policy default a.current w.ask n 0
  else if a.params ∨ a.current then some (contextFromEnv w.policy default a.params a.current w.env)
  else some (some default, [])

/-- not NULL and not empty -/
def filled : Option Str → Option Str
  | some (c :: r) => some (c :: r)
  | _ => none

/-- the terminal: modules/pam_selinux/pam_selinux.c:521-539 -/
def ttyPath (w : World) : Option Str :=
  let t := match filled w.tty with
    | some t => if t = "ssh".toList ∨ (skipPrefix t "NODEV".toList).isSome then none else some t
    | none => none
  let t := match t with
    | some t => some t
    | none =>
      match filled w.stdin with
      | some t => some t
      | none =>
        match filled w.stdout with
        | some t => some t
        | none => filled w.stderr
  t.map (fun t => if (skipPrefix t "/dev/".toList).isSome then t else "/dev/".toList ++ t)

/-- `compute_tty_context`: modules/pam_selinux/pam_selinux.c:518-581: the result, and `tty_path`, `prev_tty_context` and `tty_context` -/
def computeTty (w : World) (st : State) (exec : Str) : Int × Option Str × Option Str × Option Str :=
  match ttyPath w with
  | none => (PAM_SUCCESS, none, none, none)
  | some path =>
    match w.getfile path with
    | .enoent => (PAM_SUCCESS, none, none, none)
    | .fail => (w.refuse, some path, none, none)
    | .ok =>
      if w.tclass = false then (w.refuse, none, none, none)
      else
        match w.relabel exec (st.file path) with
        | none => (w.refuse, none, none, none)
        | some new => (PAM_SUCCESS, some path, some (st.file path), some new)

/-- `set_file_context`: modules/pam_selinux/pam_selinux.c:432-443; whether it worked.  `none`: `setfilecon` is called with NULL for the context. -/
def setFileContext (w : World) (context path : Option Str) (st : State) : Option (Bool × State) :=
  match path with
  | none => some (true, st)
  | some f =>
    match context with
    | none => none
    | some c =>
      match w.setfile with
      | .ok => some (true, { st with file := fun x => if x = f then c else st.file x })
      | .enoent => some (true, st)
      | .fail => some (false, st)

/-- `set_context`: modules/pam_selinux/pam_selinux.c:614-664 -/
def setContext (w : World) (d : Data) (st : State) : Option (Int × State) :=
  match setFileContext w d.ttyContext d.ttyPath st with
  | none => none
  | some (ok, st) =>
    let st := { st with exec := if w.setexec then some d.exec else st.exec, sent := st.sent ++ [Rec.mk w.setexec (some d.default) (some d.exec)] }
    let st := { st with key := if w.setkey then some d.exec else st.key }
    some (if (ok && w.setexec && w.setkey) = false then w.refuse else PAM_SUCCESS, st)

/-- `restore_context`: modules/pam_selinux/pam_selinux.c:583-612 -/
def restoreContext (w : World) (st : State) : Option (Int × State) :=
  match st.data with
  | none => some (PAM_SUCCESS, st)
  | some d =>
    match setFileContext w d.prevTty d.ttyPath st with
    | none => none
    | some (ok, st) =>
      some (if (ok && w.setexec) = false then w.refuse else PAM_SUCCESS, { st with exec := if w.setexec then d.prevExec else st.exec })

/-- what a call comes to -/
inductive Out
  /-- `setfilecon` was called with NULL -/
  | null
  /-- the user is still being asked -/
  | asking
  | done (code : Int) (st : State)

def Out.of : Option (Int × State) → Out
  | none => .null
  | some (k, st) => .done k st

/-- `create_context` from the context of the user on: modules/pam_selinux/pam_selinux.c:487-516 and 717-733 -/
def createFrom (w : World) (a : Args) (default exec : Str) (st : State) : Out :=
  let prev := if w.getexec then st.exec else none
  let t := if a.ttys then computeTty w st exec else (PAM_SUCCESS, none, none, none)
  if t.1 ≠ PAM_SUCCESS then .done t.1 st
  else if w.save = false then .done PAM_SYSTEM_ERR st
  else
    let d : Data := ⟨exec, prev, default, t.2.2.2, t.2.2.1, t.2.1⟩
    .of (setContext w d { st with data := some d })

/-- `create_context` and `compute_exec_context`: modules/pam_selinux/pam_selinux.c:445-516 and 666-734.  The user is asked at most `n` times. -/
def createContext (w : World) (n : Nat) (a : Args) (st : State) : Out :=
  if w.enabled = false then .done PAM_SUCCESS st
  else
    match w.user with
    | none => .done PAM_USER_UNKNOWN st
    | some user =>
      let user := (w.pwname user).getD user
      match w.service with
      | none => .done PAM_SESSION_ERR st
      | some service =>
        match w.contexts user service with
        | none => .done w.refuse st
        | some default =>
          match choose w n a default with
          | none => .asking
          | some (none, sent) => .done w.refuse { st with sent := st.sent ++ sent }
          | some (some exec, sent) => createFrom w a default exec { st with sent := st.sent ++ sent }

/-- `pam_sm_open_session`: modules/pam_selinux/pam_selinux.c:751-790 -/
def openSession (w : World) (n : Nat) (argv : List Str) (st : State) : Out :=
  let a := args argv
  if a.close then .done PAM_SUCCESS st
  else if a.restore then .of (restoreContext w st)
  else
    match st.data with
    | some d => .of (setContext w d st)
    | none => createContext w n a st

/-- `pam_sm_close_session`: modules/pam_selinux/pam_selinux.c:792-817 -/
def closeSession (w : World) (argv : List Str) (st : State) : Out :=
  let a := args argv
  if a.open_ then .done PAM_SUCCESS st
  else .of (restoreContext w st)

/-- calls with one handle -/
inductive Call
  | opening (w : World) (n : Nat) (argv : List Str)
  | closing (w : World) (argv : List Str)

def call (st : State) : Call → Out
  | .opening w n argv => openSession w n argv st
  | .closing w argv => closeSession w argv st

/-- calls one after the other -/
def run : List Call → State → Out
  | [], st => .done PAM_SUCCESS st
  | c :: cs, st =>
    match call st c with
    | .done _ st => run cs st
    | o => o

end Pam.Selinux
