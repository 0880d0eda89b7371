import Verif.Small.Basics
import Verif.Core.Strtol
import Verif.Util.Files
/-
Models of pam_wheel, pam_nologin, pam_shells, pam_securetty, pam_rootok, pam_usertype and pam_localuser.  What is only logged (`debug`, `audit`) is left out.
-/
namespace Pam.Small
open Pam

/-! ### pam_wheel -/

/-- modules/pam_wheel/pam_wheel.c:49-53, 61 -/
structure WheelOpts where
  useUid : Bool := false
  trust : Bool := false
  deny : Bool := false
  rootOnly : Bool := false
  group : Str := []
deriving DecidableEq, Repr

/-- one argument of `_pam_parse`: modules/pam_wheel/pam_wheel.c:64-84 -/
def wheelArg (o : WheelOpts) (arg : Str) : WheelOpts :=
  if arg = "debug".toList then o
  else if arg = "use_uid".toList then { o with useUid := true }
  else if arg = "trust".toList then { o with trust := true }
  else if arg = "deny".toList then { o with deny := true }
  else if arg = "root_only".toList then { o with rootOnly := true }
  else match skipPrefix arg "group=".toList with
    | some v => { o with group := v }
    | none => o

/-- what the module meets: `pam_get_user`, `getuid`, `pam_modutil_getlogin`, and the items PAM_RHOST and PAM_RUSER (`pam_get_item` gives NULL if it fails) -/
structure WheelCall where
  user : Int × Str
  uid : Nat
  login : Option Str
  rhost : Option Str
  ruser : Option Str

/-- who is running the application: modules/pam_wheel/pam_wheel.c:121-153 -/
def wheelInvoker (a : Accounts) (c : WheelCall) (o : WheelOpts) : Option User :=
  if o.useUid then a.pwuid c.uid
  else
    let fromsu := match c.login with
      | some n => some n
      | none => if c.rhost = none then c.ruser else none
    match fromsu with
    | some n => a.pwnam n
    | none => none

/-- modules/pam_wheel/pam_wheel.c:159-165 -/
def wheelGroup (a : Accounts) (o : WheelOpts) : Option Group :=
  if o.group = [] then
    match a.grnam "wheel".toList with
    | some g => some g
    | none => a.grgid 0
  else a.grnam o.group

/-- `perform_check`: modules/pam_wheel/pam_wheel.c:89-232 -/
def wheelCheck (a : Accounts) (c : WheelCall) (o : WheelOpts) : Int :=
  if c.user.1 ≠ PAM_SUCCESS then PAM_SERVICE_ERR
  else match a.pwnam c.user.2 with
  | none => PAM_USER_UNKNOWN
  | some pwd =>
    if o.rootOnly ∧ pwd.uid ≠ 0 then PAM_IGNORE
    else match wheelInvoker a c o with
    | none => PAM_SERVICE_ERR
    | some tpwd =>
      match wheelGroup a o with
      | none => if o.deny then PAM_IGNORE else PAM_AUTH_ERR
      | some grp =>
        if inGroupUidGid a tpwd.uid grp.gid then
          if o.deny then PAM_PERM_DENIED
          else if o.trust then PAM_SUCCESS
          else PAM_IGNORE
        else if o.deny then
          if o.trust then PAM_SUCCESS else PAM_IGNORE
        else PAM_PERM_DENIED

/-- `pam_sm_authenticate` and `pam_sm_acct_mgmt`: modules/pam_wheel/pam_wheel.c:236-246, 255-265 -/
def wheel (a : Accounts) (c : WheelCall) (argv : List Str) : Int := wheelCheck a c (argv.foldl wheelArg {})

/-! ### pam_nologin -/

/-- modules/pam_nologin/pam_nologin.c:32-35 -/
structure NologinOpts where
  nofile : Int := PAM_IGNORE
  file : Option Str := none
deriving DecidableEq, Repr

/-- one argument of `parse_args`: modules/pam_nologin/pam_nologin.c:46-56 -/
def nologinArg (o : NologinOpts) (arg : Str) : NologinOpts :=
  if arg = "successok".toList then { o with nofile := PAM_SUCCESS }
  else match skipPrefix arg "file=".toList with
    | some v => { o with file := some v }
    | none => o

/-- an opened file: what `fstat` says (directory?, size), whether there is memory for the text, and what can be read (`none`: an error) -/
structure Opened where
  stat : Option (Bool × Nat)
  memory : Bool
  text : Option Str

/-- what the module meets -/
structure NologinCall where
  user : Int × Str
  open_ : Str → Option Opened

/-- the styles of messages that occur: PAM_TEXT_INFO and PAM_ERROR_MSG -/
inductive Style where
  | info | error
deriving DecidableEq, Repr

/-- `perform_check`: modules/pam_nologin/pam_nologin.c:63-145: the answer and what is shown.  `pam_modutil_read` reads `st_size` bytes, or what
there is if that is less (Util/IO).  The answer of the conversation is ignored, as there. -/
def nologinCheck (a : Accounts) (c : NologinCall) (o : NologinOpts) : Int × Option (Style × Str) :=
  if c.user.1 ≠ PAM_SUCCESS then (PAM_USER_UNKNOWN, none)
  else
    let fd := match o.file with
      | none => (match c.open_ "/var/run/nologin".toList with
        | some f => some f
        | none => c.open_ "/etc/nologin".toList)
      | some p => c.open_ p
    match fd with
    | none => (o.nofile, none)
    | some f =>
      let (retval, style) := match a.pwnam c.user.2 with
        | none => (PAM_USER_UNKNOWN, Style.error)
        | some u => if u.uid ≠ 0 then (PAM_AUTH_ERR, Style.error) else (o.nofile, Style.info)
      match f.stat with
      | none => (retval, none)
      | some (dir, size) =>
        if dir then (PAM_SYSTEM_ERR, none)
        else if 0 < size then
          if 2147483647 < size then (PAM_SYSTEM_ERR, none)
          else if !f.memory then (PAM_BUF_ERR, none)
          else match f.text with
            | none => (PAM_SYSTEM_ERR, none)
            | some t => if (t.take size).length = size then (retval, some (style, cstr (t.take size))) else (PAM_SYSTEM_ERR, none)
        else (retval, none)

/-- `pam_sm_authenticate` and `pam_sm_acct_mgmt`: modules/pam_nologin/pam_nologin.c:149-158, 173-182 -/
def nologin (a : Accounts) (c : NologinCall) (argv : List Str) : Int × Option (Style × Str) := nologinCheck a c (argv.foldl nologinArg {})

/-- `pam_sm_setcred`: modules/pam_nologin/pam_nologin.c:160-169 -/
def nologinSetcred (argv : List Str) : Int := (argv.foldl nologinArg {}).nofile

/-! ### pam_shells -/

/-- what the module meets: `stat` as in `LCall` (does it follow links here), `fopen` and what can be read -/
structure ShellsCall where
  user : Int × Str
  /-- for /etc/shells: writable for everybody, regular file -/
  stat : Option (Bool × Bool)
  /-- for /etc/shells -/
  open_ : Option Str

/-- `perform_check` with `check_file`: modules/pam_shells/pam_shells.c:34-153 without libeconf.  `pw_shell` is not NULL. -/
def shells (a : Accounts) (c : ShellsCall) : Int :=
  if c.user.1 ≠ PAM_SUCCESS then PAM_SERVICE_ERR
  else match a.pwnam c.user.2 with
  | none => PAM_USER_UNKNOWN
  | some pw =>
    let sh := if pw.shell = [] then "/bin/sh".toList else pw.shell
    match c.stat with
    | none => PAM_AUTH_ERR
    | some (ww, reg) =>
      if ww || !reg then PAM_AUTH_ERR
      else match c.open_ with
      | none => PAM_SERVICE_ERR
      | some content =>
        if (Config.physLines content).any (fun line =>
            let p := (cstr line).takeWhile (· ≠ '\n')
            if p.head? ≠ some '/' then false else p = sh) then PAM_SUCCESS
        else PAM_AUTH_ERR

/-! ### pam_securetty -/

/-- what the module meets.  Without VENDORDIR.  `cmdline` and `active`: the first line of /proc/cmdline and of /sys/class/tty/console/active if there is
one; these have no NUL. -/
structure TtyCall where
  user : Int × Str
  /-- PAM_TTY -/
  tty : Int × Option Str
  /-- /etc/securetty: writable for everybody, regular file -/
  stat : Option (Bool × Bool)
  /-- /etc/securetty -/
  open_ : Option Str
  cmdline : Option Str
  active : Option Str

/-- is this the end of a console's name: modules/pam_securetty/pam_securetty.c:198 -/
def nameEnd (e : Str) : Bool := match e with
  | [] => true
  | c :: _ => c = ',' || c = ' ' || c = '\n'

/-- is the terminal named at this place: modules/pam_securetty/pam_securetty.c:194-198 -/
def hit (tty p : Str) : Bool := match skipPrefix p tty with
  | some e => nameEnd e
  | none => false

/-- `strstr(p, "console=")`, keeping the character before the place found: modules/pam_securetty/pam_securetty.c:186, 190 -/
def findConsole : (prev : Char) → Str → Option (Char × Str)
  | _, [] => none
  | prev, c :: r => if "console=".toList.isPrefixOf (c :: r) then some (prev, c :: r) else findConsole c r

/-- The rest of the loop over the kernel's command line, after its first round: modules/pam_securetty/pam_securetty.c:186-202.  `q` begins one character
after the last place looked at, `prev` is that character.  The fuel is not used up when it is longer than the line (`consoleLoop_iff`). -/
def consoleLoop (tty : Str) : (fuel : Nat) → (prev : Char) → (q : Str) → Bool
  | 0, _, _ => false
  | fuel + 1, prev, q => match findConsole prev q with
    | none => false
    | some (before, p) =>
      if before = ' ' && hit tty (p.drop 8) then true
      else match p with
        | [] => false
        | c :: r => consoleLoop tty fuel c r

/-- The whole loop: modules/pam_securetty/pam_securetty.c:186-202.  Its first round looks at the beginning of the line without checking that it reads
`console=`; `none`: that round reads beyond the end of the line. -/
def onCmdline (tty line : Str) : Option Bool :=
  if line.length < 8 then none
  else if hit tty (line.drop 8) then some true
  else match line with
    | [] => some false
    | c :: r => some (consoleLoop tty (line.length + 1) c r)

/-- the words of a line separated by single spaces: modules/pam_securetty/pam_securetty.c:228-231 -/
def splitSpaces : Str → List Str
  | [] => [[]]
  | c :: r => if c = ' ' then [] :: splitSpaces r else match splitSpaces r with
    | [] => [[c]]
    | w :: ws => (c :: w) :: ws

/-- the consoles in use: modules/pam_securetty/pam_securetty.c:224-237 -/
def isActive (tty line : Str) : Bool := (splitSpaces (line.takeWhile (· ≠ '\n'))).contains tty

/-- the answer at the end: modules/pam_securetty/pam_securetty.c:243-258 -/
def ttyDenied (known : Bool) : Int := if known then PAM_AUTH_ERR else PAM_USER_UNKNOWN

/-- `securetty_perform_check`: modules/pam_securetty/pam_securetty.c:63-261; `none`: a read beyond the end of a string.
A text that begins with `pts/` is never one that begins with a digit, so `ptname` has no effect; it is kept here as it is. -/
def securetty (a : Accounts) (c : TtyCall) (noconsole : Bool) : Option Int :=
  if c.user.1 ≠ PAM_SUCCESS then some (if c.user.1 = PAM_CONV_AGAIN then PAM_INCOMPLETE else c.user.1)
  else
    let pwd := a.pwnam c.user.2
    if pwd.any (fun u => u.uid ≠ 0) then some PAM_SUCCESS
    else match c.tty with
    | (r, some t) =>
      if r ≠ PAM_SUCCESS then some PAM_SERVICE_ERR
      else
        let tty := (skipPrefix t "/dev/".toList).getD t
        match c.stat with
        | none => some PAM_SUCCESS
        | some (ww, reg) =>
          if ww || !reg then some PAM_AUTH_ERR
          else match c.open_ with
          | none => some PAM_SERVICE_ERR
          | some content =>
            let ptname := if tty.head?.any isDigit then "pts/".toList ++ tty else []
            if (Config.physLines content).any (fun line => (cstr line).takeWhile (· ≠ '\n') = tty || (ptname ≠ [] && ptname = tty)) then some PAM_SUCCESS
            else if noconsole then some (ttyDenied pwd.isSome)
            else match (match c.cmdline with
              | none => some false
              | some line => onCmdline tty line) with
            | none => none
            | some true => some PAM_SUCCESS
            | some false =>
              if c.active.any (isActive tty) then some PAM_SUCCESS
              else some (ttyDenied pwd.isSome)
    | (_, none) => some PAM_SERVICE_ERR

/-- `pam_sm_authenticate` and `pam_sm_acct_mgmt`: modules/pam_securetty/pam_securetty.c:41-61, 265-296 -/
def securettyArgs (a : Accounts) (c : TtyCall) (argv : List Str) : Option Int := securetty a c (argv.contains "noconsole".toList)

/-! ### pam_rootok -/

/-- `check_for_root`: modules/pam_rootok/pam_rootok.c:112-129; `selinux` is `none` if not built in, else whether SELinux agrees or is not enforcing -/
def rootok (uid : Nat) (selinux : Option Bool) : Int :=
  if uid = 0 then
    match selinux with
    | some false => PAM_AUTH_ERR
    | _ => PAM_SUCCESS
  else PAM_AUTH_ERR

/-! ### pam_usertype -/

/-- `strtoul(s, &ep, 10)` with 64 bits (libc): the value, and the text that follows -/
def strtoul10 (s : Str) : Nat × Str :=
  let (v, e) := strtoInt 10 s
  if 18446744073709551615 < v.natAbs then (18446744073709551615, e) else ((v % 18446744073709551616).toNat, e)

/-- `pam_usertype_get_id`: modules/pam_usertype/pam_usertype.c:155-191.  `value` is what `pam_modutil_search_key` found. -/
def getId (value : Option Str) (default : Nat) : Nat :=
  match value with
  | none => default
  | some v =>
    let v := (v.reverse.dropWhile isSpace).reverse
    let (ul, ep) := strtoul10 v
    if 4294967295 ≤ ul ∨ 4294967295 ≤ ul % 4294967296 ∨ v = ep ∨ ep ≠ [] then default else ul % 4294967296

/-- what is configured at build time: PAM_USERTYPE_UIDMIN and PAM_USERTYPE_OVERFLOW_UID (meson.build; 1000 and 65534 by default) -/
structure Build where
  uidMin : Nat
  overflow : Nat

/-- `pam_usertype_is_system`: modules/pam_usertype/pam_usertype.c:193-217.  `defs` looks a key up in /etc/login.defs (Util/Files `searchKey`). -/
def isSystem (b : Build) (defs : Str → Option Str) (uid : Nat) : Int :=
  if uid = 4294967295 then PAM_USER_UNKNOWN
  else if uid = b.overflow then PAM_SUCCESS
  else
    let uidMin := getId (defs "UID_MIN".toList) b.uidMin
    let sysMax := getId (defs "SYS_UID_MAX".toList) ((uidMin + 4294967295) % 4294967296)
    if uid ≤ sysMax ∧ uid < uidMin then PAM_SUCCESS else PAM_AUTH_ERR

/-- `pam_usertype_is_regular`: modules/pam_usertype/pam_usertype.c:219-233 -/
def isRegular (b : Build) (defs : Str → Option Str) (uid : Nat) : Int :=
  if isSystem b defs uid = PAM_SUCCESS then PAM_AUTH_ERR
  else if isSystem b defs uid = PAM_USER_UNKNOWN then PAM_USER_UNKNOWN
  else PAM_SUCCESS

/-- modules/pam_usertype/pam_usertype.c:57-68; `none` is OP_SENTINEL, `some true` OP_IS_SYSTEM -/
structure TypeOpts where
  system : Option Bool := none
  useUid : Bool := false
deriving DecidableEq, Repr

/-- one argument: modules/pam_usertype/pam_usertype.c:81-94 -/
def typeArg (o : TypeOpts) (arg : Str) : TypeOpts :=
  if arg = "use_uid".toList then { o with useUid := true }
  else if arg = "audit".toList then o
  else if arg = "issystem".toList then { o with system := some true }
  else if arg = "isregular".toList then { o with system := some false }
  else o

/-- what the module meets: `pam_get_user` and `getuid` -/
structure TypeCall where
  user : Int × Str
  uid : Nat

/-- `pam_usertype_get_uid`: modules/pam_usertype/pam_usertype.c:104-151 -/
def typeUid (a : Accounts) (c : TypeCall) (useUid : Bool) : Int × Nat :=
  if useUid then
    match a.pwuid c.uid with
    | none => (PAM_USER_UNKNOWN, 0)
    | some u => (PAM_SUCCESS, u.uid)
  else if c.user.1 ≠ PAM_SUCCESS then (if c.user.1 = PAM_CONV_AGAIN then PAM_INCOMPLETE else c.user.1, 0)
  else
    match a.pwnam c.user.2 with
    | none => (PAM_USER_UNKNOWN, 0)
    | some u => (PAM_SUCCESS, u.uid)

/-- `pam_usertype`: modules/pam_usertype/pam_usertype.c:96-99, 235-276 -/
def usertype (b : Build) (a : Accounts) (defs : Str → Option Str) (c : TypeCall) (argv : List Str) : Int :=
  match (argv.foldl typeArg {}).system with
  | none => PAM_SERVICE_ERR
  | some sys =>
    let r := typeUid a c (argv.foldl typeArg {}).useUid
    if r.1 ≠ PAM_SUCCESS then r.1
    else if sys then isSystem b defs r.2 else isRegular b defs r.2

/-! ### pam_localuser -/

/-- `pam_localuser`: modules/pam_localuser/pam_localuser.c:52-94; the file named last, /etc/passwd by default -/
def localuser (user : Int × Str) (read : Str → Option Str) (argv : List Str) : Int :=
  let file := argv.foldl (fun f arg => if arg = "debug".toList then f else match skipPrefix arg "file=".toList with
    | some v => some v
    | none => f) none
  if user.1 ≠ PAM_SUCCESS then (if user.1 = PAM_CONV_AGAIN then PAM_INCOMPLETE else user.1)
  else Util.checkUser user.2 (read (file.getD "/etc/passwd".toList))

end Pam.Small
