import Verif.Config.Token
import Verif.Config.Control
import Verif.Config.Line
import Verif.Dispatch.Model
/-
Model of libpam/pam_handlers.c: reading configuration files into handler lists.
Compiled without PAM_READ_BOTH_CONFS and PAM_LOCKING (the defaults).  Memory allocation failure
is not modelled.
-/
namespace Pam.Config
open Pam.Dispatch (HType)

/-- `PAM_T_AUTH` etc.: libpam/pam_handlers.c:38-42.  `PAM_T_ANY` is `none` of `Option MType`. -/
inductive MType
  | auth | sess | acct | pass
deriving DecidableEq, Repr

/-- A handler before its functions are looked up: libpam/pam_private.h:53-66.  `path = none` is
`UNKNOWN_MODULE`. -/
structure Entry where
  htype : HType
  level : Nat
  actions : Nat → Int
  path : Option (List Char)
  argv : List (List Char)

/-- `struct handlers`: libpam/pam_private.h:83-90. -/
structure Lists where
  authenticate : List Entry := []
  setcred : List Entry := []
  acctMgmt : List Entry := []
  openSession : List Entry := []
  closeSession : List Entry := []
  chauthtok : List Entry := []

/-- `struct service`: `conf` and `other`, libpam/pam_private.h:92-100. -/
structure Tables where
  conf : Lists := {}
  other : Lists := {}

/-- `strrchr(s, c) + 1`, or `s` itself if `c` does not occur -/
def afterLast (c : Char) (s : List Char) : List Char :=
  (s.reverse.takeWhile (· ≠ c)).reverse

/-- `s` cut at the last `c`, if there is one -/
def beforeLast (c : Char) (s : List Char) : List Char :=
  if c ∈ s then ((s.reverse.dropWhile (· ≠ c)).drop 1).reverse else s

/-- `extract_modulename`: libpam/pam_handlers.c:578-601. -/
def extractModulename (p : List Char) : Option (List Char) :=
  let r := beforeLast '.' (afterLast '/' p)
  if r = [] ∨ r = ['?'] then none else some r

/-- `UNKNOWN_MODULE`: libpam/pam_handlers.c:24. -/
def unknownModule : List Char := "<*unknown module*>".toList

/-- can the entry be named? -/
def named (e : Entry) : Bool := (extractModulename (e.path.getD unknownModule)).isSome

/-- append to the first list of a type: libpam/pam_handlers.c:759-779, 812-828 -/
def Lists.addFirst (l : Lists) (ty : MType) (e : Entry) : Lists :=
  match ty with
  | .auth => { l with authenticate := l.authenticate ++ [e] }
  | .sess => { l with openSession := l.openSession ++ [e] }
  | .acct => { l with acctMgmt := l.acctMgmt ++ [e] }
  | .pass => { l with chauthtok := l.chauthtok ++ [e] }

/-- append to the second list of a type, if it has one: libpam/pam_handlers.c:833-858 -/
def Lists.addSecond (l : Lists) (ty : MType) (e : Entry) : Lists :=
  match ty with
  | .auth => { l with setcred := l.setcred ++ [e] }
  | .sess => { l with closeSession := l.closeSession ++ [e] }
  | .acct => l
  | .pass => l

/-- the six lists by name -/
inductive Fn
  | authenticate | setcred | acctMgmt | openSession | closeSession | chauthtok
deriving DecidableEq, Repr

/-- the module type whose lines fill a list -/
def Fn.mtype : Fn → MType
  | .authenticate | .setcred => .auth
  | .openSession | .closeSession => .sess
  | .acctMgmt => .acct
  | .chauthtok => .pass

/-- is it the list of the first function of the type? -/
def Fn.first : Fn → Bool
  | .setcred | .closeSession => false
  | _ => true

/-- a list by name -/
def Lists.get (l : Lists) : Fn → List Entry
  | .authenticate => l.authenticate
  | .setcred => l.setcred
  | .acctMgmt => l.acctMgmt
  | .openSession => l.openSession
  | .closeSession => l.closeSession
  | .chauthtok => l.chauthtok

/-- `&pamh->handlers.other` or `&pamh->handlers.conf`: libpam/pam_handlers.c:752 -/
def Tables.side (t : Tables) (other : Bool) : Lists := if other then t.other else t.conf

/-- update the lists of the service or of `other` -/
def Tables.update (t : Tables) (other : Bool) (f : Lists → Lists) : Tables :=
  if other then { t with other := f t.other } else { t with conf := f t.conf }

/-- `_pam_add_handler`: libpam/pam_handlers.c:701-866.  `false` = PAM_ABORT.  Loading the module
(`_pam_load_module`, dlopen, dlsym) is separate: see `link`. -/
def addHandler (t : Tables) (other : Bool) (ty : MType) (e : Entry) : Tables × Bool :=
  let t1 := t.update other (·.addFirst ty e)
  if named e then (t1.update other (·.addSecond ty e), true) else (t1, false)

/-- what a configuration line asks for -/
inductive What
  /-- a module: actions, path and arguments -/
  | module (actions : Nat → Int) (path : Option (List Char)) (argv : List (List Char))
  /-- `include` (`sub = false`) or `substack` of the named configuration -/
  | incl (sub : Bool) (name : Option (List Char))

/-- A parsed configuration line.  `mtype = none`: the type is missing or illegal. -/
structure Directive where
  mtype : Option MType
  htype : HType
  what : What

/-- `_pam_tokenize(NULL, &nexttok)`: token and new `nexttok`. -/
def nextTok (n : Option (List Char)) : Option (List Char) × Option (List Char) :=
  match n with
  | none => (none, none)
  | some s =>
    match tokenize s with
    | none => (none, none)
    | some (t, nx) => (some t, nx)

/-- The module type: libpam/pam_handlers.c:106-138. -/
def parseType (tok : Option (List Char)) : Option MType × HType :=
  match tok with
  | none => (none, .mustFail)
  | some t =>
    let silent := t.head? = some '-'
    let t' := if silent then t.drop 1 else t
    let ht : HType := if silent then .silentModule else .module
    if ieq "auth".toList t' then (some .auth, ht)
    else if ieq "session".toList t' then (some .sess, ht)
    else if ieq "account".toList t' then (some .acct, ht)
    else if ieq "password".toList t' then (some .pass, ht)
    else (none, .mustFail)

/-- all actions `_PAM_ACTION_UNDEF`: libpam/pam_handlers.c:148-154 -/
def undefActions : Nat → Int := fun _ => ACT_UNDEF

/-- actions of a control flag that is no include: libpam/pam_handlers.c:156-184, 193-198 -/
def controlActions (tok : List Char) : Nat → Int :=
  if ieq "required".toList tok then
    setDefault (assign (assign (assign undefActions 0 ACT_OK) 12 ACT_OK) 25 ACT_IGNORE) ACT_BAD
  else if ieq "requisite".toList tok then
    setDefault (assign (assign (assign undefActions 0 ACT_OK) 12 ACT_OK) 25 ACT_IGNORE) ACT_DIE
  else if ieq "optional".toList tok then
    setDefault (assign (assign undefActions 0 ACT_OK) 12 ACT_OK) ACT_IGNORE
  else if ieq "sufficient".toList tok then
    setDefault (assign (assign undefActions 0 ACT_DONE) 12 ACT_DONE) ACT_IGNORE
  else bracketActions tok

/-- A line from the module type on: libpam/pam_handlers.c:108-255 without the filter on the
requested type (lines 141-146) and the side effects.  -/
def parseLine (n : Option (List Char)) : Directive :=
  let (t1, n) := nextTok n
  let (mtype, ht) := parseType t1
  let (t2, n) := nextTok n
  match t2 with
  | none =>
    -- no control flag; there are no more tokens either
    { mtype := mtype, htype := .mustFail,
      what := .module (setDefault undefActions ACT_BAD) (nextTok n).1
        (match (nextTok n).2 with | none => [] | some s => mkargv s) }
  | some c =>
    let (t3, n) := nextTok n
    if ieq "include".toList c then
      { mtype := mtype, htype := ht, what := .incl false t3 }
    else if ieq "substack".toList c then
      { mtype := mtype, htype := ht, what := .incl true t3 }
    else
      { mtype := mtype, htype := if t3.isSome then ht else .mustFail,
        what := .module (controlActions c) t3 (match n with | none => [] | some s => mkargv s) }

/-- The outside world of the loader.  `dirs` are the configuration directories in search order,
each as the text in front of the service name (`PAM_CONFIG_DF`, `PAM_CONFIG_DIST_DF`, ...:
"/etc/pam.d/", "/usr/lib/pam.d/").  Files do not change during a load. -/
structure Sys where
  /-- contents of the file at a path, `none` if it cannot be opened -/
  fs : List Char → Option (List Char)
  /-- `pamh->confdir` -/
  confdir : Option (List Char)
  dirs : List (List Char)
  /-- does one of the configuration directories exist? -/
  haveDir : Bool

/-- `_pam_open_config_file`: libpam/pam_handlers.c:293-352 (contents of the file found). -/
def openConfig (sys : Sys) (service : List Char) : Option (List Char) :=
  if service.head? = some '/' then sys.fs service
  else match sys.confdir with
    | some d => sys.fs (d ++ ['/'] ++ service)
    | none => sys.dirs.findSome? (fun d => sys.fs (d ++ service))

/-- Loading a nested configuration: name, service it is for, type, stack level, tables so far. -/
abbrev Loader := Option (List Char) → List Char → MType → Nat → Tables → Tables × Bool

/-- The side effects of one accepted line: libpam/pam_handlers.c:141-146, 200-283.
`false` = `return PAM_ABORT`. -/
def applyLine (load : Loader) (service : List Char) (other : Bool) (req : Option MType) (L : Nat)
    (d : Directive) (t : Tables) : Tables × Bool :=
  let ty := d.mtype.getD (req.getD .auth)
  if req ≠ none ∧ req ≠ some ty then (t, true)
  else match d.what with
    | .module a p argv => addHandler t other ty ⟨d.htype, L, a, p, argv⟩
    | .incl sub name =>
      let r1 := if sub then addHandler t other ty ⟨.substack, L, undefActions, name, []⟩ else (t, true)
      if r1.2 then
        let r2 := load name service ty (L + if sub then 1 else 0) r1.1
        if r2.2 then r2
        else addHandler r2.1 other ty ⟨.mustFail, L, setDefault undefActions ACT_BAD, none, []⟩
      else r1

/-- `PAM_DEFAULT_SERVICE`: libpam/pam_private.h:39. -/
def otherName : List Char := "other".toList

/-- The service a line is for, and the rest of the line: libpam/pam_handlers.c:85-91.  With a known
service all lines are for it; otherwise it is the first token of the line (it exists, see
`logical_line_has_token`; `getD []` is never used). -/
def lineService (known : Option (List Char)) (l : List Char) : List Char × Option (List Char) :=
  match known with
  | some s => (s, some l)
  | none => ((nextTok (some l)).1.getD [], (nextTok (some l)).2)

/-- The loop of `_pam_parse_conf_file`: libpam/pam_handlers.c:71-287. -/
def parseLines (load : Loader) (serviceName : List Char) (known : Option (List Char))
    (req : Option MType) (L : Nat) : List (List Char) → Tables → Tables × Bool
  | [], t => (t, true)
  | l :: ls, t =>
    let (service, n) := lineService known l
    let other := ieq service otherName
    if ieq service serviceName ∨ other = true then
      let r := applyLine load service other req L (parseLine n) t
      if r.2 then parseLines load serviceName known req L ls r.1 else (r.1, false)
    else parseLines load serviceName known req L ls t

/-- `_pam_parse_conf_file` on the bytes of a file: libpam/pam_handlers.c:54-290.  A read error of
the line reader makes the result PAM_ABORT. -/
def parseConf (load : Loader) (serviceName : List Char) (known : Option (List Char))
    (req : Option MType) (L : Nat) (bytes : List Char) (t : Tables) : Tables × Bool :=
  let f := fileLines ' ' bytes
  let r := parseLines load serviceName known req L f.1 t
  (r.1, r.2 && !f.2)

/-- `_pam_load_conf_file`: libpam/pam_handlers.c:354-402.  The argument is
`PAM_SUBSTACK_MAX_LEVEL - include_level`. -/
def loadConf (sys : Sys) (serviceName : List Char) : Nat → Loader
  | 0, _, _, _, _, t => (t, false)
  | n + 1, name, service, ty, L, t =>
    match name with
    | none => (t, false)
    | some nm =>
      match openConfig sys nm with
      | none => (t, false)
      | some bytes => parseConf (loadConf sys serviceName n) serviceName (some service) (some ty) L bytes t

/-- a file read at the top level: include level 0, all types, stack level 0 -/
def parseTop (sys : Sys) (serviceName : List Char) (known : Option (List Char)) (bytes : List Char)
    (t : Tables) : Tables × Bool :=
  parseConf (loadConf sys serviceName (SUBSTACK_MAX_LEVEL - 1)) serviceName known none 0 bytes t

/-- `/etc/pam.conf` -/
def pamConf : List Char := "/etc/pam.conf".toList

/-- `_pam_init_handlers` when nothing is loaded yet: libpam/pam_handlers.c:405-575.  `none` is a
failure (PAM_ABORT): nothing counts as loaded. -/
def initHandlers (sys : Sys) (serviceName : List Char) : Option Tables :=
  if sys.confdir.isSome ∨ sys.haveDir then
    let r1 : Tables × Bool × Bool := match openConfig sys serviceName with
      | some b => let r := parseTop sys serviceName (some serviceName) b {}; (r.1, r.2, r.2)
      | none => ({}, true, false)
    if r1.2.1 then
      match openConfig sys otherName with
      | some b =>
        let r := parseTop sys serviceName (some otherName) b r1.1
        if r.2 then some r.1 else none
      | none => if r1.2.2 then some r1.1 else none
    else none
  else
    match sys.fs pamConf with
    | none => none
    | some b =>
      let r := parseTop sys serviceName none b {}
      if r.2 then some r.1 else none

/-- The module functions found in a handler: `_pam_load_module` and `dlsym`,
libpam/pam_handlers.c:718-807.  `dl` gives the function for a path and arguments (`none`: module or
symbol not found).  A silent module differs from a module only in logging. -/
def link {σ : Type} (dl : List Char → List (List Char) → Option (σ → Int × σ)) (e : Entry) :
    Dispatch.Handler σ :=
  { htype := match e.htype with
      | .silentModule => .module
      | h => h
    func := match e.htype with
      | .module | .silentModule => e.path.bind (fun p => dl p e.argv)
      | _ => none
    actions := e.actions
    level := e.level }

end Pam.Config
