import Verif.Config.Line
import Verif.Core.Strtol
import Verif.Core.Codes
import Verif.Handle.PEnv
import Verif.Small.Basics
/-
Model of modules/pam_env/pam_env.c, built without libeconf and without a vendor directory.  Memory is available: the string buffer of lines 511-601
is a list (its memory is in Env/Buffer.lean), and `pam_putenv` is called with memory.  `none` as the environment is a bad memory access inside `pam_putenv` or `pam_getenv` (it does not
happen, C17).  What is only logged is left out.
-/
namespace Pam.Env
open Pam Pam.Small

abbrev PEnv := Handle.PEnv

/-! ### values -/

/-- `var->defval` and `var->override`: NULL, the address of `quote`, or a text: modules/pam_env/pam_env.c:39-44, 73-74 -/
inductive Val where
  | null
  | quote
  | text (s : Str)
deriving DecidableEq, Repr

/-- what a line says about its variable: modules/pam_env/pam_env.c:39-44 -/
structure Var where
  name : Str
  defval : Val := .null
  override : Val := .null
deriving DecidableEq, Repr

/-- the characters that end a word: `strcspn(_, " \t\n")` -/
def isWordEnd (c : Char) : Bool := c == ' ' || c == '\t' || c == '\n'

/-- which value is set: modules/pam_env/pam_env.c:406-418; `true` for OVERRIDE -/
def keyword (p : Str) : Option (Bool × Str) :=
  match skipPrefix p "DEFAULT=".toList with
  | some r => some (false, r)
  | none => match skipPrefix p "OVERRIDE=".toList with
    | some r => some (true, r)
    | none => none

/-- the value and what follows it, and whether it is in quotes: modules/pam_env/pam_env.c:420-437; `none` is BAD_LINE -/
def takeValue (p : Str) : Option (Bool × Str × Str) :=
  if p.head? = some '"' then
    let r := p.tail
    if '"' ∉ r then none
    else
      let rest := (r.dropWhile (· ≠ '"')).tail
      if rest ≠ [] ∧ !(rest.head?.any isWordEnd) then none
      else some (true, r.takeWhile (· ≠ '"'), rest)
  else some (false, p.takeWhile (fun c => !isWordEnd c), p.dropWhile (fun c => !isWordEnd c))

/-- storing it: modules/pam_env/pam_env.c:438-449 -/
def Var.put (v : Var) (override : Bool) (x : Val) : Var := if override then { v with override := x } else { v with defval := x }

/-- The loop over the settings of a line: modules/pam_env/pam_env.c:403-451; `none` is BAD_LINE.  Every round uses up a part of the line, so the fuel
given in `parseLine` is enough. -/
def parseLoop : (fuel : Nat) → (ptr : Str) → (quoteflg : Nat) → Var → Option Var
  | 0, _, _, v => some v
  | fuel + 1, ptr, quoteflg, v =>
    if !(ptr.head?.any Config.isLead) then some v
    else match keyword (ptr.dropWhile Config.isLead) with
    | none => none
    | some (override, p) =>
      match takeValue p with
      | none => none
      | some (quoted, t, rest) =>
        let quoteflg := if quoted then quoteflg + 1 else quoteflg
        if t ≠ [] then parseLoop fuel rest quoteflg (v.put override (.text t))
        else if quoteflg ≠ 0 then parseLoop fuel rest (quoteflg - 1) (v.put override .quote)
        else parseLoop fuel rest quoteflg v

/-- `_parse_line`: modules/pam_env/pam_env.c:367-460 -/
def parseLine (l : Str) : Option Var :=
  let r := l.dropWhile (fun c => !isWordEnd c)
  parseLoop (r.length + 1) r 0 { name := l.takeWhile (fun c => !isWordEnd c) }

/-! ### expansion -/

/-- what the handle and the user database say: PAM_USER, PAM_USER_PROMPT, PAM_TTY, PAM_RUSER and PAM_RHOST (`none` also if `pam_get_item` fails), and the
home directory and shell of a user -/
structure Who where
  user : Option Str
  userPrompt : Option Str
  tty : Option Str
  ruser : Option Str
  rhost : Option Str
  pw : Str → Option (Str × Str)

/-- `_pam_get_item_byname`: modules/pam_env/pam_env.c:462-509 -/
def itemByName (w : Who) (name : Str) : Option Str :=
  let itemval :=
    if name = "PAM_USER".toList ∨ name = "HOME".toList ∨ name = "SHELL".toList then w.user
    else if name = "PAM_USER_PROMPT".toList then w.userPrompt
    else if name = "PAM_TTY".toList then w.tty
    else if name = "PAM_RUSER".toList then w.ruser
    else if name = "PAM_RHOST".toList then w.rhost
    else none
  match itemval with
  | none => none
  | some u =>
    if name = "HOME".toList ∨ name = "SHELL".toList then
      match w.pw u with
      | none => none
      | some (dir, shell) => some (if name = "SHELL".toList then shell else dir)
    else some u

/-- one of the characters with a meaning -/
def isSpecial (c : Char) : Bool := c == '\\' || c == '$' || c == '@'

/-- what `_expand_arg` comes to: the text, PAM_ABORT, or a bad memory access -/
inductive Expanded where
  | done (s : Str)
  | abort
  | bad
deriving DecidableEq, Repr

/-- put something in front of the rest -/
def Expanded.cons (a : Str) : Expanded → Expanded
  | .done s => .done (a ++ s)
  | x => x

/-- The loop of `_expand_arg`: modules/pam_env/pam_env.c:626-717.  The fuel is the length of the text. -/
def expandLoop (e : PEnv) (w : Who) : (fuel : Nat) → Str → Expanded
  | _, [] => .done []
  | 0, _ :: _ => .done []
  | fuel + 1, c :: s =>
    if c = '\\' then
      match s with
      | d :: s' => if isSpecial d then (expandLoop e w fuel s').cons [d] else expandLoop e w fuel (d :: s')
      | [] => expandLoop e w fuel []
    else if c = '$' ∨ c = '@' then
      if s.head? = some '{' then
        if '}' ∉ s.tail then .abort
        else
          let name := s.tail.takeWhile (· ≠ '}')
          let rest := (s.tail.dropWhile (· ≠ '}')).tail
          match (if c = '$' then e.getenv (some name) else some (itemByName w name)) with
          | none => .bad
          | some v => (expandLoop e w fuel rest).cons (v.getD [])
      else (expandLoop e w fuel s).cons [c]
    else (expandLoop e w fuel s).cons [c]

/-- `_expand_arg`: modules/pam_env/pam_env.c:603-738.  (The early return for texts without special characters.) -/
def expandArg (e : PEnv) (w : Who) (v : Str) : Expanded :=
  if !(v.any isSpecial) then .done v else expandLoop e w v.length v

/-! ### one variable -/

/-- `_expand_arg` unless the value is NULL or `quote`: modules/pam_env/pam_env.c:770-777 -/
def expandVal (e : PEnv) (w : Who) : Val → Expanded
  | .text t => expandArg e w t
  | _ => .done []

/-- what to do: DEFINE_VAR with `var->value`, UNDEFINE_VAR, or an error -/
inductive Action where
  | define (v : Str)
  | undefine
  | abort
  | bad
deriving DecidableEq, Repr

/-- `_check_var`: modules/pam_env/pam_env.c:740-807 -/
def checkVar (e : PEnv) (w : Who) (v : Var) : Action :=
  match expandVal e w v.defval with
  | .bad => .bad
  | .abort => .abort
  | .done d =>
    match expandVal e w v.override with
    | .bad => .bad
    | .abort => .abort
    | .done o => if o ≠ [] then .define o else if v.defval ≠ .null then .define d else .undefine

/-- `pam_putenv` with memory -/
def put (e : PEnv) (nv : Str) : Option (Int × PEnv) := e.putenv (some nv) true true

/-- BAD_LINE: modules/pam_env/pam_env.c:61 -/
def BAD_LINE : Int := 100

/-- what one line of the configuration does, and the value of `retval` after it: modules/pam_env/pam_env.c:900-911 with `_define_var` and
`_undefine_var`, 823-863 -/
def confLine (w : Who) (e : PEnv) (l : Str) : Option (Int × PEnv) :=
  match parseLine l with
  | none => some (BAD_LINE, e)
  | some v =>
    match checkVar e w v with
    | .bad => none
    | .abort => some (PAM_ABORT, e)
    | .define x => put e (v.name ++ '=' :: x)
    | .undefine => put e v.name

/-- the loop over the lines: modules/pam_env/pam_env.c:899-915 -/
def confLines (w : Who) : (retval : Int) → PEnv → List Str → Option (Int × PEnv)
  | retval, e, [] => some (retval, e)
  | _, e, l :: ls =>
    match confLine w e l with
    | none => none
    | some (r, e') => if r ≠ PAM_SUCCESS ∧ r ≠ BAD_LINE ∧ r ≠ PAM_BAD_ITEM then some (r, e') else confLines w r e' ls

/-- `_parse_config_file` with `read_file`: modules/pam_env/pam_env.c:315-364, 865-923.  `content` is `none` if the file cannot be opened. -/
def configFile (w : Who) (e : PEnv) (content : Option Str) : Option (Int × PEnv) :=
  match content with
  | none => some (PAM_IGNORE, e)
  | some c => (confLines w PAM_SUCCESS e (Config.fileLines NUL c).1).map (fun r => (if r.1 ≠ 0 then PAM_ABORT else PAM_SUCCESS, r.2))

/-! ### /etc/environment -/

/-- `isalnum` in the C locale, or an underscore: modules/pam_env/pam_env.c:988 -/
def isNameChar (c : Char) : Bool := isDigit c || decide (97 ≤ c.toNat ∧ c.toNat ≤ 122) || decide (65 ≤ c.toNat ∧ c.toNat ≤ 90) || c == '_'

/-- one of the two quotes -/
def isQuote (c : Char) : Bool := c == '"' || c == '\''

/-- the loop that removes the last quote: modules/pam_env/pam_env.c:1002-1006 -/
def copyQuoted : Str → Str
  | [] => []
  | c :: r => if !isQuote c then c :: copyQuoted r else if r ≠ [] then c :: copyQuoted r else copyQuoted r

/-- "we try to be smart about quotes around the value": modules/pam_env/pam_env.c:998-1008 -/
def unquote : Str → Str
  | [] => []
  | c :: r => if isQuote c then copyQuoted r else c :: r

/-- The text handed to `pam_putenv`, if any: modules/pam_env/pam_env.c:955-1008, except the test of line 1008. -/
def envText (l : Str) : Option Str :=
  let key := l.dropWhile isWordEnd
  if key.head? = some '#' then none
  else
    let key := (skipPrefix key "export ".toList).getD key
    let key := key.takeWhile (fun c => c ≠ '\n' ∧ c ≠ '#')
    if key.head? = some '=' then none
    else
      let name := key.takeWhile isNameChar
      match key.dropWhile isNameChar with
      | [] => some key
      | c :: v => if c ≠ '=' then none else some (name ++ '=' :: unquote v)

/-- what a line of /etc/environment does, and the value of `retval` after it: modules/pam_env/pam_env.c:955-1026 -/
def envLine (e : PEnv) (l : Str) : Option (Int × PEnv) :=
  match envText l with
  | none => some (PAM_SUCCESS, e)
  | some k =>
    if '=' ∉ k then
      match e.getenv (some k) with
      | none => none
      | some none => some (PAM_SUCCESS, e)
      | some (some _) => put e k
    else put e k

/-- the loop over the lines: modules/pam_env/pam_env.c:954-1027 -/
def envLines : PEnv → List Str → Option (Int × PEnv)
  | e, [] => some (PAM_SUCCESS, e)
  | e, l :: ls =>
    match envLine e l with
    | none => none
    | some (r, e') => if r ≠ PAM_SUCCESS then some (r, e') else envLines e' ls

/-- `_parse_env_file` with `read_file`: modules/pam_env/pam_env.c:315-364, 925-1033 -/
def envFile (e : PEnv) (content : Option Str) : Option (Int × PEnv) :=
  match content with
  | none => some (PAM_SUCCESS, e)
  | some c => envLines e (Config.fileLines NUL c).1

/-! ### the module -/

/-- `atoi` as glibc has it: `strtol` with 64 bits, cut to 32; is the result other than 0? -/
def atoiNonzero (s : Str) : Bool :=
  let v := (strtoInt 10 s).1
  let v := if 9223372036854775807 < v then 9223372036854775807 else if v < -9223372036854775808 then -9223372036854775808 else v
  decide (v % 4294967296 ≠ 0)

/-- modules/pam_env/pam_env.c:98-102 -/
structure Opts where
  conffile : Option Str := none
  envfile : Option Str := none
  readenv : Bool := true
  userEnvfile : Str := ".pam_environment".toList
  userReadenv : Bool := false
deriving DecidableEq, Repr

/-- one argument of `_pam_parse`: modules/pam_env/pam_env.c:105-142 -/
def envArg (o : Opts) (arg : Str) : Opts :=
  if arg = "debug".toList then o
  else match skipPrefix arg "conffile=".toList with
  | some v => if v = [] then o else { o with conffile := some v }
  | none => match skipPrefix arg "envfile=".toList with
    | some v => if v = [] then o else { o with envfile := some v }
    | none => match skipPrefix arg "user_envfile=".toList with
      | some v => if v = [] then o else { o with userEnvfile := v }
      | none => match skipPrefix arg "readenv=".toList with
        | some v => { o with readenv := atoiNonzero v }
        | none => match skipPrefix arg "user_readenv=".toList with
          | some v => { o with userReadenv := atoiNonzero v }
          | none => o

/-- what the module meets.  `read priv path`: what `fopen` and `getline` give, with the caller's privileges (`priv = true`) or those of the user;
`conf`: SCONFIG_DIR/pam_env.conf.  `exists_`: does `stat` succeed.  `drop`, `regain`: do `pam_modutil_drop_priv` and `pam_modutil_regain_priv` succeed. -/
structure World where
  who : Who
  conf : Str
  read : (priv : Bool) → Str → Option Str
  exists_ : Str → Bool
  drop : Bool
  regain : Bool

/-- the user's own file: modules/pam_env/pam_env.c:1067-1101 -/
def userFile (w : World) (e : PEnv) (file : Str) : Option (Int × PEnv) :=
  match w.who.user.bind w.who.pw with
  | none => some (PAM_SUCCESS, e)
  | some (dir, _) =>
    let path := dir ++ '/' :: file
    if w.exists_ path then
      if !w.drop then some (PAM_SESSION_ERR, e)
      else match configFile w.who e (w.read false path) with
        | none => none
        | some (r, e') =>
          let r := if !w.regain then PAM_SESSION_ERR else r
          some (if r = PAM_IGNORE then PAM_SUCCESS else r, e')
    else some (PAM_SUCCESS, e)

/-- `handle_env`, which `pam_sm_setcred` and `pam_sm_open_session` call: modules/pam_env/pam_env.c:1044-1106 -/
def handleEnv (w : World) (e : PEnv) (argv : List Str) : Option (Int × PEnv) :=
  let o := argv.foldl envArg {}
  match configFile w.who e (w.read true (o.conffile.getD w.conf)) with
  | none => none
  | some (r, e) =>
    match (if o.readenv ∧ r = PAM_SUCCESS then envFile e (w.read true (o.envfile.getD "/etc/environment".toList)) else some (r, e)) with
    | none => none
    | some (r, e) =>
      if o.userReadenv ∧ r = PAM_SUCCESS then userFile w e o.userEnvfile else some (r, e)

end Pam.Env
