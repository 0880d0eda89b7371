import Verif.Core.Codes
import Verif.Core.Text
import Verif.Core.Strtol
/-
modules/pam_namespace: the configuration files, in argv_parse.c and in the first part of pam_namespace.c.

Memory is available.  Names of users and groups are looked up by functions.  Left out: messages to the log.
-/
namespace Pam.Namespace
open Pam

/-- a C string, without its NUL -/
abbrev Str := List Char

/-! ### argv_parse.c -/

/-- `state`: modules/pam_namespace/argv_parse.c:39-41 -/
inductive State | white | token | quoted
deriving DecidableEq, Repr

/-- what an escape stands for: modules/pam_namespace/argv_parse.c:106-115 -/
def escape (c : Char) : Char := if c = 'n' then '\n' else if c = 't' then '\t' else if c = 'b' then Char.ofNat 8 else c

/-- the loop: modules/pam_namespace/argv_parse.c:59-118.  `buf` is what has been written to the buffer, `argv` the positions of the words in it.  A backslash
at the end stands for itself. -/
def argvLoop : (st : State) → (buf : Str) → (argv : List Nat) → Str → State × Str × List Nat
  | st, buf, argv, [] => (st, buf, argv)
  | .quoted, buf, argv, c :: r => if c = '"' then argvLoop .token buf argv r else argvLoop .quoted (buf ++ [c]) argv r
  | st, buf, argv, c :: r =>
    if st = .white ∧ isSpace c then argvLoop .white buf argv r
    else
      let argv := if st = .white then argv ++ [buf.length] else argv
      if isSpace c then argvLoop .white (buf ++ [NUL]) argv r
      else if c = '"' then argvLoop .quoted buf argv r
      else if c = '\\' then
        match r with
        | [] => (.token, buf ++ ['\\'], argv)
        | e :: r => argvLoop .token (buf ++ [escape e]) argv r
      else argvLoop .token (buf ++ [c]) argv r

/-- the buffer and the positions of the words after `argv_parse`: modules/pam_namespace/argv_parse.c:46-137 -/
def argvParse (s : Str) : Str × List Nat :=
  let (st, buf, argv) := argvLoop .white [] [] s
  (if st ≠ .white then buf ++ [NUL] else buf, argv)

/-- the string at a position of the buffer; `none` if no NUL follows, as then memory after the buffer is read -/
def cstrAt (buf : Str) (i : Nat) : Option Str :=
  if NUL ∈ buf.drop i then some ((buf.drop i).takeWhile (· ≠ NUL)) else none

/-- the words of `argv`, as the caller reads them -/
def words (s : Str) : Option (List Str) := (argvParse s).2.mapM (cstrAt (argvParse s).1)

/-! ### fields of a line -/

/-- the dropped slashes at the end: modules/pam_namespace/pam_namespace.c:68-75; the first character stays -/
def stripSlashes : Str → Str
  | [] => []
  | c :: r => c :: (r.reverse.dropWhile (· = '/')).reverse

/-- `expand_variables`: modules/pam_namespace/pam_namespace.c:485-530.  `skip` characters of the name of a variable are still to be passed over; `out` is what
has been written.  After an empty value the last character is written once more; before the first character that is a bad access (`none`). -/
def expandLoop (vars : List (Str × Str)) : (skip : Nat) → (out : Str) → Str → Option Str
  | _, out, [] => some out
  | k + 1, out, _ :: r => expandLoop vars k out r
  | 0, out, c :: r =>
    if c = '$' then
      match vars.find? (fun v => v.1.isPrefixOf r) with
      | some (n, v) => if out ++ v = [] then none else expandLoop vars n.length (out ++ v) r
      | none => expandLoop vars 0 (out ++ [c]) r
    else expandLoop vars 0 (out ++ [c]) r

/-- the variables of a user: modules/pam_namespace/pam_namespace.c:766-768 -/
def expand (home user : Str) (s : Str) : Option Str := expandLoop [("HOME".toList, home), ("USER".toList, user)] 0 [] s

/-- the parts between separators; there is always one -/
def splitOn (sep : Char) : Str → List Str
  | [] => [[]]
  | c :: r => if c = sep then [] :: splitOn sep r else match splitOn sep r with | [] => [[c]] | w :: ws => (c :: w) :: ws

/-- `strtok_r(s, ":", …)` until it gives NULL -/
def tokens (s : Str) : List Str := (splitOn ':' s).filter (· ≠ [])

/-- how a directory is polyinstantiated: modules/pam_namespace/pam_namespace.h:136-143 -/
inductive Method | user | context | level | tmpdir | tmpfs
deriving DecidableEq, Repr

/-- the flags of a directory: modules/pam_namespace/pam_namespace.h:113-118 -/
structure Flags where
  exclusive : Bool
  create : Bool
  noinit : Bool
  shared : Bool
  iscript : Bool
  mntopts : Bool
deriving DecidableEq, Repr

/-- `(mode_t)ULONG_MAX` and the like: not given -/
abbrev unset : Nat := 2 ^ 32 - 1

/-- mount flags: modules/pam_namespace/pam_namespace.c:614-620 -/
structure MntFlags where
  noexec : Bool
  nosuid : Bool
  nodev : Bool
deriving DecidableEq, Repr

/-- an entry: modules/pam_namespace/pam_namespace.h:165-183 -/
structure Poly where
  dir : Str
  rdir : Str
  pre : Str
  method : Method
  flags : Flags
  uids : List Nat
  initScript : Option Str
  mountOpts : Option Str
  mountFlags : MntFlags
  owner : Nat
  group : Nat
  mode : Nat
deriving DecidableEq, Repr

/-- the databases of users and groups; an entry of the former has the user id, the group id and the home directory -/
structure Env where
  user : Str → Option (Nat × Nat × Str)
  group : Str → Option Nat

/-- the mode in create=: modules/pam_namespace/pam_namespace.c:552-558 (`strtoul` with base 0, what follows the number is not looked at) -/
def modeOf (s : Str) : Nat :=
  if s = [] then unset
  else
    let v := (strtoInt 0 s).1
    if v.natAbs < 2 ^ 64 then (v % 2 ^ 32).toNat else unset

/-- cut at the first comma: what is before it, and what is after it if there is one -/
def cut (s : Str) : Str × Option Str :=
  (s.takeWhile (· ≠ ','), match s.dropWhile (· ≠ ',') with | [] => none | _ :: r => some r)

/-- the owner in create=: modules/pam_namespace/pam_namespace.c:563-574; `none`: an error, `some none`: not given -/
def ownerOf (e : Env) (o : Str) : Option (Option (Nat × Nat × Str)) := if o = [] then some none else (e.user o).map some

/-- mode, owner and group in `create`: modules/pam_namespace/pam_namespace.c:532-588; `none`: an error.  `s` is what follows the word. -/
def createParams (e : Env) (s : Str) : Option (Nat × Nat × Nat) :=
  if s.head? ≠ some '=' then some (unset, unset, unset)
  else
    match cut s.tail with
    | (m, none) => some (modeOf m, unset, unset)
    | (m, some r) =>
      match ownerOf e (cut r).1 with
      | none => none
      | some pwd =>
        match (cut r).2.getD [] with
        | [] => some (modeOf m, pwd.elim unset (·.1), pwd.elim unset (·.2.1))
        | g :: gs => (e.group (g :: gs)).map fun g => (modeOf m, pwd.elim unset (·.1), g)

/-- `NAMESPACE_D_DIR`: modules/pam_namespace/pam_namespace.h:91 -/
def namespaceD : Str := "/etc/security/namespace.d/".toList

/-- `parse_iscript_params`: modules/pam_namespace/pam_namespace.c:590-606; the script before is kept if there is none -/
def iscriptParams (old : Option Str) (s : Str) : Option Str :=
  if s.head? ≠ some '=' then old
  else if s.tail = [] then old
  else if s.tail.head? ≠ some '/' then some (namespaceD ++ s.tail)
  else some s.tail

/-- one mount option: modules/pam_namespace/pam_namespace.c:639-667; an empty option is left out -/
def mntopt (acc : Option Str × MntFlags) (o : Str) (last : Bool) : Option Str × MntFlags :=
  if o = "noexec".toList then (acc.1, { acc.2 with noexec := true })
  else if o = "nosuid".toList then (acc.1, { acc.2 with nosuid := true })
  else if o = "nodev".toList then (acc.1, { acc.2 with nodev := true })
  else if o = [] ∧ ¬ last then acc
  else (match acc.1 with | some d => some (d ++ ',' :: o) | none => some o, acc.2)

/-- the options one after another: modules/pam_namespace/pam_namespace.c:635-670 -/
def mntLoop (acc : Option Str × MntFlags) : List Str → Option Str × MntFlags
  | [] => acc
  | o :: r => mntLoop (mntopt acc o (r = [])) r

/-- `filter_mntopts`: modules/pam_namespace/pam_namespace.c:622-673 -/
def filterMntopts (s : Str) : Option Str × MntFlags :=
  if s = [] then (none, ⟨false, false, false⟩) else mntLoop (none, ⟨false, false, false⟩) (splitOn ',' s)

/-- the names of the methods: modules/pam_namespace/pam_namespace.c:680-681, 690-703 -/
def methodOf (s : Str) : Option Method :=
  if s = "user".toList then some .user
  else if s = "context".toList then some .context
  else if s = "level".toList then some .level
  else if s = "tmpdir".toList then some .tmpdir
  else if s = "tmpfs".toList then some .tmpfs
  else none

/-- one flag of the method: modules/pam_namespace/pam_namespace.c:706-742; a flag is known by how it begins -/
def parseFlag (e : Env) (p : Poly) (f : Str) : Option Poly :=
  if "create".toList.isPrefixOf f then
    (createParams e (f.drop 6)).map fun m => { p with flags := { p.flags with create := true }, mode := m.1, owner := m.2.1, group := m.2.2 }
  else if "noinit".toList.isPrefixOf f then some { p with flags := { p.flags with noinit := true } }
  else if "iscript".toList.isPrefixOf f then
    some { p with flags := { p.flags with iscript := true }, initScript := iscriptParams p.initScript (f.drop 7) }
  else if "shared".toList.isPrefixOf f then some { p with flags := { p.flags with shared := true } }
  else if "mntopts".toList.isPrefixOf f then
    if (f.drop 7).head? ≠ some '=' ∨ p.method ≠ .tmpfs then some { p with flags := { p.flags with mntopts := true } }
    else
      let m := filterMntopts (f.drop 8)
      some { p with flags := { p.flags with mntopts := true }, mountOpts := m.1, mountFlags := m.2 }
  else some p

/-- the flags one after another: modules/pam_namespace/pam_namespace.c:705-743 -/
def parseFlags (e : Env) (p : Poly) : List Str → Option Poly
  | [] => some p
  | f :: r => match parseFlag e p f with | none => none | some p => parseFlags e p r

/-- an entry before it is filled in: modules/pam_namespace/pam_namespace.c:796-798 -/
def Poly.zero (m : Method) : Poly :=
  ⟨[], [], [], m, ⟨false, false, false, false, false, false⟩, [], none, none, ⟨false, false, false⟩, 0, 0, 0⟩

/-- the result of a line: nothing, an error, an entry, or a bad access -/
inductive Line | none | bad | fault | entry (p : Poly)
deriving DecidableEq, Repr

/-- `parse_method`: modules/pam_namespace/pam_namespace.c:675-746.  Without any token a null pointer is compared. -/
def parseMethod (e : Env) (s : Str) : Line :=
  match tokens s with
  | [] => .fault
  | m :: fs =>
    match methodOf m with
    | none => .bad
    | some m => match parseFlags e (.zero m) fs with | none => .bad | some p => .entry p

/-- `PATH_MAX` -/
abbrev pathMax : Nat := 4096

/-- `strstr(s, "..")` -/
def hasDots : Str → Bool
  | [] => false
  | c :: r => (c = '.' && r.head? = some '.') || hasDots r

/-- the list of users: modules/pam_namespace/pam_namespace.c:896-938: is it exclusive, and the ids of the known users -/
def parseUids (e : Env) : Option Str → Bool × List Nat
  | none => (false, [])
  | some s =>
    let x := s.head? = some '~'
    (x, (splitOn ',' (if x then s.tail else s)).filterMap fun u => (e.user u).map (·.1))

/-- the user whose session it is, and the one who asks for it, with their home directories -/
structure Who where
  user : Str
  home : Str
  ruser : Str
  rhome : Str

/-- the text of a line without blanks before it, comment and newline: modules/pam_namespace/pam_namespace.c:770-794 -/
def content (line : Str) : Str := (line.dropWhile isSpace).takeWhile (fun c => c ≠ '#' ∧ c ≠ '\n')

/-- `process_line` from the expanded fields on: modules/pam_namespace/pam_namespace.c:855-944 -/
def makeEntry (e : Env) (dir rdir pre method : Str) (uids : Option Str) : Line :=
  let dir := stripSlashes dir
  let rdir := stripSlashes rdir
  if dir = [] ∨ rdir = [] then .bad
  else
    match parseMethod e method with
    | .entry p =>
      if dir.length ≥ pathMax ∨ rdir.length ≥ pathMax ∨ pre.length ≥ pathMax then .bad
      else if dir.head? ≠ some '/' ∨ (p.method ≠ .tmpfs ∧ pre.head? ≠ some '/') then .bad
      else if hasDots dir ∨ hasDots pre then .bad
      else
        let u := parseUids e uids
        .entry { p with dir := dir, rdir := rdir, pre := pre, flags := { p.flags with exclusive := u.1 }, uids := u.2 }
    | r => r

/-- `process_line`: modules/pam_namespace/pam_namespace.c:756-963, before errors are ignored -/
def processLine (e : Env) (w : Who) (line : Str) : Line :=
  let s := content line
  if s = [] then .none
  else
    match words s with
    | none => .fault
    | some (d :: i :: m :: rest) =>
      match expand w.rhome w.ruser d, expand w.home w.user d, expand w.home w.user i with
      | some rdir, some dir, some pre => makeEntry e dir rdir pre m rest.head?
      | _, _, _ => .fault
    | some _ => .bad

/-- `parse_config_file` for the lines of all files: modules/pam_namespace/pam_namespace.c:1046-1061; `none` is a bad access, an error is `some none` -/
def processLines (e : Env) (w : Who) (ignore : Bool) : (acc : List Poly) → List Str → Option (Option (List Poly))
  | acc, [] => some (some acc)
  | acc, l :: r =>
    match processLine e w l with
    | .fault => none
    | .none => processLines e w ignore acc r
    | .bad => if ignore then processLines e w ignore acc r else some none
    | .entry p => processLines e w ignore (acc ++ [p]) r

/-! ### the files -/

/-- `base_name`: modules/pam_namespace/pam_namespace.c:47-51 -/
def baseName (s : Str) : Str := (s.reverse.takeWhile (· ≠ '/')).reverse

/-- `strcmp(a, b) <= 0`, byte by byte -/
def strLe : Str → Str → Bool
  | [], _ => true
  | _ :: _, [] => false
  | a :: r, b :: s => if a = b then strLe r s else decide (a.toNat < b.toNat)

/-- `read_namespace_dir`: modules/pam_namespace/pam_namespace.c:348-414; `qsort` is a stable sort here -/
def readDir (etc vendor : List Str) : List Str :=
  (etc ++ vendor.filter (fun v => ¬ etc.any (fun k => baseName k = baseName v))).mergeSort (fun a b => strLe (baseName a) (baseName b))

/-- `parse_config_file`: modules/pam_namespace/pam_namespace.c:972-1096.  `file` gives the lines of a file, if it can be opened; `main` is the first one. -/
def parseFiles (e : Env) (w : Who) (ignore : Bool) (file : Str → Option (List Str)) : (acc : List Poly) → List Str → Option (Option (List Poly))
  | acc, [] => some (some acc)
  | acc, f :: r =>
    match file f with
    | none => some none
    | some ls =>
      match processLines e w ignore acc ls with
      | none => none
      | some none => some none
      | some (some acc) => parseFiles e w ignore file acc r

end Pam.Namespace
