import Verif.Access.Model
/-
Model of modules/pam_limits/pam_limits.c for Linux with 64-bit `long` and `rlim_t`, built without logind and without
libaudit, with a vendor directory.  Logging is left out, memory is available.
-/
namespace Pam.Limits
open Pam Pam.Access

/-- the resources of getrlimit; on Linux these are all -/
inductive Res where
  | cpu | fsize | data | stack | core | rss | nproc | nofile | memlock | as | locks | sigpending | msgqueue | nice | rtprio | rttime
deriving DecidableEq, Repr

/-- the resources in the order of a loop from 0 to RLIM_NLIMITS - 1 -/
def Res.all : List Res :=
  [.cpu, .fsize, .data, .stack, .core, .rss, .nproc, .nofile, .memlock, .as, .locks, .sigpending, .msgqueue, .nice, .rtprio, .rttime]

/-- what `limit_item` can be -/
inductive Item where
  | rlimit (r : Res)
  | maxlogins
  | maxsyslogins
  | priority
  | nonewprivs
deriving DecidableEq, Repr

/-- LIMITS_DEF_*: modules/pam_limits/pam_limits.c:64-70 -/
inductive Src where
  | user | group | allgroup | all | default | kernel | none
deriving DecidableEq, Repr

/-- their values -/
def Src.rank : Src → Nat
  | .user => 0
  | .group => 1
  | .allgroup => 2
  | .all => 3
  | .default => 4
  | .kernel => 5
  | .none => 6

/-- RLIM_INFINITY -/
def INF : Nat := 2 ^ 64 - 1

/-- `struct pam_limit_s`: modules/pam_limits/pam_limits.c:89-109 -/
structure Pl where
  loginLimit : Int
  loginDef : Src
  sysFlag : Bool
  priority : Int
  nonewprivs : Int
  supported : Res → Bool
  cur : Res → Nat
  max : Res → Nat
  srcSoft : Res → Src
  srcHard : Res → Src
  loginGroup : Option Str

/-- what strtoul and strtoull make of a number -/
def ulong (v : Int) : Nat :=
  if v.natAbs < 2 ^ 64 then (if v < 0 then 2 ^ 64 - v.natAbs else v.natAbs) else 2 ^ 64 - 1

/-- do they set errno? -/
def overflows (v : Int) : Bool := decide (2 ^ 64 ≤ v.natAbs)

/-- what strtol makes of a number -/
def long (v : Int) : Int := if v < -(2 ^ 63) then -(2 ^ 63) else if 2 ^ 63 - 1 < v then 2 ^ 63 - 1 else v

/-- forced into the range of int: modules/pam_limits/pam_limits.c:742-743 -/
def toInt (v : Int) : Int :=
  let t := if v < 2 ^ 31 - 1 then v else 2 ^ 31 - 1
  if -(2 ^ 31) < t then t else -(2 ^ 31)

/-- the names of items, in the order they are compared: modules/pam_limits/pam_limits.c:643-702 -/
def names : List (Str × Item) :=
  [("cpu".toList, .rlimit .cpu), ("fsize".toList, .rlimit .fsize), ("data".toList, .rlimit .data), ("stack".toList, .rlimit .stack),
    ("core".toList, .rlimit .core), ("rss".toList, .rlimit .rss), ("nproc".toList, .rlimit .nproc), ("nofile".toList, .rlimit .nofile),
    ("memlock".toList, .rlimit .memlock), ("as".toList, .rlimit .as), ("locks".toList, .rlimit .locks),
    ("sigpending".toList, .rlimit .sigpending), ("msgqueue".toList, .rlimit .msgqueue), ("nice".toList, .rlimit .nice),
    ("rtprio".toList, .rlimit .rtprio), ("rttime".toList, .rlimit .rttime), ("maxlogins".toList, .maxlogins),
    ("maxsyslogins".toList, .maxsyslogins), ("priority".toList, .priority), ("nonewprivs".toList, .nonewprivs)]

/-- the item of a name -/
def itemOf (s : Str) : Option Item := (names.find? (fun n => n.1 == s)).map (·.2)

/-- the type of a limit (soft, hard), or `none` to give up: modules/pam_limits/pam_limits.c:704-714 -/
def typeOf (it : Item) (s : Str) : Option (Bool × Bool) :=
  if s = "soft".toList then some (true, false)
  else if s = "hard".toList then some (false, true)
  else if s = "-".toList then some (true, true)
  else if it = .maxlogins ∨ it = .maxsyslogins ∨ it = .nonewprivs then some (false, false)
  else none

/-- the words for no limit: modules/pam_limits/pam_limits.c:730-732 -/
def unlimited (s : Str) : Bool :=
  s == "-1".toList || s == "-".toList || s == "unlimited".toList || s == "infinity".toList

/-- `int_value` and `rlimit_value`, or `none` to give up: modules/pam_limits/pam_limits.c:715-762 -/
def readValue (it : Item) (s : Str) : Option (Int × Nat) :=
  if it = .nonewprivs then
    if s = "0".toList then some (0, 0) else if s = "1".toList then some (1, 0) else some (0, 0)
  else if it ≠ .priority ∧ it ≠ .rlimit .nice ∧ unlimited s then some (-1, INF)
  else if it = .priority ∨ it = .maxlogins ∨ it = .rlimit .nice ∨ it = .maxsyslogins then
    let r := strtoInt 10 s
    let v := toInt (long r.1)
    if v = 0 ∧ r.2 = s then none else some (v, 0)
  else
    let r := strtoInt 10 s
    let v := ulong r.1
    if v = 0 ∧ r.2 = s then none else some (0, v)

/-- multiply, or no limit at all: modules/pam_limits/pam_limits.c:775-781, 792-798 -/
def times (v unit : Nat) : Nat :=
  if v ≠ INF then (if INF / unit ≤ v then INF else v * unit) else v

/-- modules/pam_limits/pam_limits.c:773-823.  `nr`: what is read from /proc/sys/fs/nr_open. -/
def scale (nr : Option Nat) (it : Item) (v : Int × Nat) : Int × Nat :=
  match it with
  | .rlimit .cpu => (v.1, times v.2 60)
  | .rlimit .fsize | .rlimit .data | .rlimit .stack | .rlimit .core | .rlimit .rss | .rlimit .memlock | .rlimit .as =>
    (v.1, times v.2 1024)
  | .rlimit .nice =>
    let i := if 19 < v.1 then 19 else v.1
    let i := if i < -20 then -20 else i
    (i, (20 - i).toNat)
  | .rlimit .nofile => if v.2 = INF then (v.1, nr.getD INF) else v
  | _ => v

/-- one element changed -/
def set {α β : Type} [DecidableEq α] (f : α → β) (a : α) (b : β) : α → β := fun x => if x = a then b else f x

/-- the soft half: modules/pam_limits/pam_limits.c:829-836; `none`: return -/
def storeSoft (src : Src) (r : Res) (soft : Bool) (v : Nat) (pl : Pl) : Option Pl :=
  if soft then
    if (pl.srcSoft r).rank < src.rank then none
    else some { pl with cur := set pl.cur r v, srcSoft := set pl.srcSoft r src }
  else some pl

/-- the hard half: modules/pam_limits/pam_limits.c:837-844 -/
def storeHard (src : Src) (r : Res) (hard : Bool) (v : Nat) (pl : Pl) : Pl :=
  if hard then
    if (pl.srcHard r).rank < src.rank then pl
    else { pl with max := set pl.max r v, srcHard := set pl.srcHard r src }
  else pl

/-- modules/pam_limits/pam_limits.c:825-861 -/
def store (src : Src) (it : Item) (type : Bool × Bool) (v : Int × Nat) (pl : Pl) : Pl :=
  match it with
  | .rlimit r =>
    match storeSoft src r type.1 v.2 pl with
    | none => pl
    | some pl' => storeHard src r type.2 v.2 pl'
  | .priority => { pl with priority := v.1 }
  | .nonewprivs => { pl with nonewprivs := v.1 }
  | .maxlogins | .maxsyslogins =>
    if pl.loginDef.rank < src.rank then pl else { pl with loginLimit := v.1, loginDef := src }

/-- flag_numsyslogins: modules/pam_limits/pam_limits.c:689-694 -/
def flag (it : Item) (pl : Pl) : Pl :=
  match it with
  | .maxlogins => { pl with sysFlag := false }
  | .maxsyslogins => { pl with sysFlag := true }
  | _ => pl

/-- `process_limit`: modules/pam_limits/pam_limits.c:626-861 -/
def processLimit (nr : Option Nat) (src : Src) (type item value : Str) (pl : Pl) : Pl :=
  match itemOf item with
  | none => pl
  | some it =>
    let pl := flag it pl
    match typeOf it type with
    | none => pl
    | some ty =>
      match readValue it value with
      | none => pl
      | some v =>
        if (src = .all ∨ src = .allgroup) ∧ it ≠ .maxlogins then pl
        else store src it ty (scale nr it v) pl

/-- LIMIT_RANGE_*, with the numbers as uid_t -/
inductive Range where
  | err
  | none
  | one (max : Nat)
  | min (min : Nat)
  | mm (min max : Nat)
deriving DecidableEq, Repr

/-- the number before the colon: modules/pam_limits/pam_limits.c:882-888 -/
def rangeMin (range : Str) : Option Nat :=
  let r := strtoInt 10 range
  if overflows r.1 ∨ r.2 = range ∨ r.2.head? ≠ some ':' then none else some (ulong r.1 % 2 ^ 32)

/-- the number behind it: modules/pam_limits/pam_limits.c:898-904 -/
def rangeMax (s : Str) : Option Nat :=
  let r := strtoInt 10 s
  if overflows r.1 ∨ r.2 = s ∨ r.2 ≠ [] then none else some (ulong r.1 % 2 ^ 32)

/-- `parse_uid_range`: modules/pam_limits/pam_limits.c:863-909 -/
def parseRange (domain : Str) : Range :=
  if ':' ∉ domain then .none
  else
    let pmax := (domain.dropWhile (· ≠ ':')).drop 1
    let range := if domain.head? = some '@' ∨ domain.head? = some '%' then domain.drop 1 else domain
    if range.head? = some ':' then
      if pmax = [] then .err
      else match rangeMax pmax with
        | none => .err
        | some m => .one m
    else match rangeMin range with
      | none => .err
      | some lo =>
        if pmax = [] then .min lo
        else match rangeMax pmax with
          | none => .err
          | some hi => .mm lo hi

/-- the user: name, uid, gid -/
structure User where
  name : Str
  uid : Nat
  gid : Nat

/-- what is asked of the system; answers do not change during the call -/
structure Sys where
  /-- pam_modutil_user_in_group_nam_nam -/
  inGroup : Str → Str → Bool
  /-- pam_modutil_user_in_group_nam_gid -/
  inGid : Str → Nat → Bool
  /-- pam_modutil_getgrgid; asked only for a group that was found -/
  groupName : Nat → Str
  /-- /proc/sys/fs/nr_open as value_from_file reads it -/
  nrOpen : Option Nat

/-- the kind of entry this is for the user: modules/pam_limits/pam_limits.c:1032-1111 -/
def sourceOf (sys : Sys) (u : User) (domain : Str) (rng : Range) : Option Src :=
  if u.name = domain then some .user
  else if domain.head? = some '@' then
    match rng with
    | .none => if sys.inGroup u.name (domain.drop 1) then some .group else none
    | .one m => if sys.inGid u.name m then some .group else none
    | .mm lo hi => if hi < u.gid then none else if lo ≤ u.gid then some .group else none
    | .min lo => if lo ≤ u.gid then some .group else none
    | .err => none
  else if domain.head? = some '%' then
    match rng with
    | .none => if domain = "%".toList then some .all else if sys.inGroup u.name (domain.drop 1) then some .allgroup else none
    | .one m => if sys.inGid u.name m then some .allgroup else none
    | _ => none
  else
    match rng with
    | .none => if domain = "*".toList then some .default else none
    | .one m => if u.uid = m then some .user else none
    | .mm lo hi => if hi < u.uid then none else if lo ≤ u.uid then some .user else none
    | .min lo => if lo ≤ u.uid then some .user else none
    | .err => none

/-- login_group for an entry that is for all of a group: modules/pam_limits/pam_limits.c:1072-1073, 1081-1083 -/
def groupOf (sys : Sys) (domain : Str) : Range → Str
  | .one m => sys.groupName m
  | _ => domain.drop 1

/-- a no-limit line for the user: modules/pam_limits/pam_limits.c:1112-1162 -/
def exempt (sys : Sys) (u : User) (domain : Str) (rng : Range) : Bool :=
  if u.name = domain then true
  else if domain.head? = some '@' then
    match rng with
    | .none => sys.inGroup u.name (domain.drop 1)
    | .one m => sys.inGid u.name m
    | .mm lo hi => decide (u.gid ≤ hi) && decide (lo ≤ u.gid)
    | .min lo => decide (lo ≤ u.gid)
    | .err => false
  else
    match rng with
    | .none => false
    | .one m => decide (u.uid = m)
    | .mm lo hi => decide (u.uid ≤ hi) && decide (lo ≤ u.uid)
    | .min lo => decide (lo ≤ u.uid)
    | .err => false

/-- `trim`: modules/pam_limits/pam_limits.c:921-939 -/
def trim (s : Str) : Option Str :=
  let t := s.dropWhile (· ∈ " \t".toList)
  if t = [] then none else some (t.reverse.dropWhile (· ∈ " \t".toList)).reverse

/-- `split`: modules/pam_limits/pam_limits.c:941-962: the fields that are there -/
def splitLine (line : Str) : List Str :=
  match strtok " \t".toList line with
  | none => []
  | some (d, t) =>
    match strtok " \t".toList t with
    | none => [d]
    | some (ty, t) =>
      match strtok " \t".toList t with
      | none => [d, ty]
      | some (i, t) =>
        match trim t with
        | none => [d, ty, i]
        | some v => [d, ty, i, v]

/-- what is left of a line: modules/pam_limits/pam_limits.c:997-1012 -/
def content (raw : Str) : Str :=
  ((((raw.takeWhile (· ≠ NUL)).dropWhile isSpace).takeWhile (· ≠ '#')).takeWhile (· ≠ '\n'))

/-- one line: modules/pam_limits/pam_limits.c:987-1167.  `none`: the file is left with PAM_IGNORE. -/
def oneLine (sys : Sys) (u : User) (pl : Pl) (raw : Str) : Option Pl :=
  if content raw = [] then some pl
  else
    let fields := splitLine (content raw)
    let domain := fields.headD []
    let rng := parseRange domain
    if rng = .err then some pl
    else match fields with
      | [_, type, item, value] =>
        match sourceOf sys u domain rng with
        | none => some pl
        | some src =>
          let pl := if src = .allgroup then { pl with loginGroup := some (groupOf sys domain rng) } else pl
          some (processLimit sys.nrOpen src (type.map lower) (item.map lower) (value.map lower) pl)
      | [_, type] =>
        if (type.map lower).head? = some '-' then (if exempt sys u domain rng then none else some pl) else some pl
      | _ => some pl

/-- the loop of parse_config_file -/
def parseLines (sys : Sys) (u : User) : Pl → List Str → Option Pl
  | pl, [] => some pl
  | pl, l :: ls =>
    match oneLine sys u pl l with
    | none => none
    | some pl => parseLines sys u pl ls

/-- what parse_config_file returns -/
inductive Parsed where
  | ok (pl : Pl)
  | ignore
  | error

/-- `parse_config_file`: modules/pam_limits/pam_limits.c:964-1172 -/
def parseFile (sys : Sys) (u : User) (set_by_user : Bool) (file : Except Errno (List Str)) (pl : Pl) : Parsed :=
  match file with
  | .error .enoent => if set_by_user then .error else .ok pl
  | .error .other => .error
  | .ok lines =>
    match parseLines sys u pl lines with
    | none => .ignore
    | some pl => .ok pl

/-- the files of the directories: modules/pam_limits/pam_limits.c:1394-1401.  `none`: ended by a no-limit line or an error. -/
def parseFiles (sys : Sys) (u : User) (open_ : Str → Except Errno (List Str)) : Pl → List Str → Parsed
  | pl, [] => .ok pl
  | pl, f :: fs =>
    match parseFile sys u false (open_ f) pl with
    | .ok pl => parseFiles sys u open_ pl fs
    | r => r

/-- an entry of utmp: is it a USER_PROCESS, its user, and is the process there -/
structure Utmp where
  process : Bool
  user : Str
  alive : Bool

/-- does the entry count?  modules/pam_limits/pam_limits.c:358-389 -/
def counts (sys : Sys) (name : Str) (pl : Pl) (e : Utmp) : Bool :=
  if !e.process then false
  else if e.user = [] then false
  else if pl.sysFlag then true
  else if (pl.loginDef = .user ∨ pl.loginDef = .group ∨ pl.loginDef = .default) ∧ name ≠ e.user then false
  else if pl.loginDef = .allgroup ∧ pl.loginGroup.isSome ∧ !sys.inGroup e.user (pl.loginGroup.getD []) then false
  else e.alive

/-- the loop over utmp with `count`: modules/pam_limits/pam_limits.c:355-394 -/
def countLoop (sys : Sys) (name : Str) (pl : Pl) (limit : Int) : Int → List Utmp → Int
  | count, [] => count
  | count, e :: es =>
    if counts sys name pl e then
      if limit < count + 1 then count + 1 else countLoop sys name pl limit (count + 1) es
    else countLoop sys name pl limit count es

/-- `check_logins`: modules/pam_limits/pam_limits.c:251-406: too many logins? -/
def tooMany (sys : Sys) (name : Str) (early : Bool) (utmp : List Utmp) (pl : Pl) : Bool :=
  if pl.loginLimit < 0 then false
  else if pl.loginLimit = 0 then true
  else decide (pl.loginLimit < countLoop sys name pl pl.loginLimit (if early then 0 else 1) utmp)

/-- system calls with an effect -/
inductive Effect where
  | setrlimit (r : Res) (cur max : Nat)
  | setpriority (p : Int)
  | noNewPrivs
deriving DecidableEq, Repr

/-- the limits that are set: modules/pam_limits/pam_limits.c:1182-1203 -/
def rlimits (pl : Pl) : List Effect :=
  (Res.all.filter (fun r => pl.supported r && !(decide (pl.srcSoft r = .none) && decide (pl.srcHard r = .none)))).map
    (fun r => .setrlimit r (if pl.max r < pl.cur r then pl.max r else pl.cur r) (pl.max r))

/-- `setup_limits`: modules/pam_limits/pam_limits.c:1174-1240.  `works`: does the call succeed.  The value: was all well, and what was
called. -/
def setupLimits (sys : Sys) (u : User) (works : Effect → Bool) (early : Bool) (utmp : List Utmp) (pl : Pl) : Bool × List Effect :=
  let login := if u.uid = 0 then false
    else if 0 < pl.loginLimit then tooMany sys u.name early utmp pl
    else decide (pl.loginLimit = 0)
  let effects := rlimits pl ++ [.setpriority pl.priority] ++ (if pl.nonewprivs ≠ 0 then [.noNewPrivs] else [])
  (effects.all works && !login, effects)

/-- what the arguments say: modules/pam_limits/pam_limits.c:143-171 -/
structure Args where
  conf : Option Str
  early : Bool
  setAll : Bool
deriving DecidableEq, Repr

/-- `_pam_parse`: modules/pam_limits/pam_limits.c:143-171 -/
def parseArgs (argv : List Str) : Args :=
  argv.foldl (fun a w =>
    if w = "debug".toList then a
    else if "conf=".toList.isPrefixOf w then { a with conf := some (w.drop 5) }
    else if w = "utmp_early".toList then { a with early := true }
    else if w = "noaudit".toList then a
    else if w = "set_all".toList then { a with setAll := true }
    else a) ⟨none, false, false⟩

/-- what a call finds -/
structure Call where
  /-- PAM_USER, and its entry in the user database -/
  user : Option Str
  pw : Str → Option User
  /-- getrlimit: `none` if the resource is not known -/
  getrlimit : Res → Option (Nat × Nat)
  /-- does it fail in another way for some resource? -/
  rlimitFails : Bool
  /-- getpriority, `none` if it fails -/
  priority : Option Int
  /-- what parse_kernel_limits finds in /proc/1/limits -/
  kernel : Res → Option (Nat × Nat)
  /-- LIMITS_FILE, or VENDOR_LIMITS_FILE if that is missing -/
  default : Str
  open_ : Str → Except Errno (List Str)
  etcDir : List Str
  vendorDir : List Str
  works : Effect → Bool
  utmp : List Utmp

/-- `init_limits` with the memset before it: modules/pam_limits/pam_limits.c:542-586, 1349.  The fields of a resource that is not known are 0;
set_all takes what the first process has. -/
def initLimits (c : Call) (setAll : Bool) (prio : Int) : Pl where
  loginLimit := -2
  loginDef := .none
  sysFlag := false
  priority := prio
  nonewprivs := 0
  supported := fun r => (c.getrlimit r).isSome
  cur := fun r => if setAll ∧ (c.kernel r).isSome then ((c.kernel r).getD (0, 0)).1 else ((c.getrlimit r).getD (0, 0)).1
  max := fun r => if setAll ∧ (c.kernel r).isSome then ((c.kernel r).getD (0, 0)).2 else ((c.getrlimit r).getD (0, 0)).2
  srcSoft := fun r => if setAll ∧ (c.kernel r).isSome then .kernel else if (c.getrlimit r).isSome then .none else .user
  srcHard := fun r => if setAll ∧ (c.kernel r).isSome then .kernel else if (c.getrlimit r).isSome then .none else .user
  loginGroup := none

/-- `read_limits_dir`: modules/pam_limits/pam_limits.c:1242-1331: the code is that of pam_access -/
def limitsDir (etc vendor : List Str) : List Str := accessDir etc vendor

/-- `pam_sm_open_session`: modules/pam_limits/pam_limits.c:1335-1441: the answer, and what was called -/
def openSession (sys : Sys) (c : Call) (argv : List Str) : Int × List Effect :=
  let a := parseArgs argv
  match c.user with
  | none => (PAM_SESSION_ERR, [])
  | some name =>
    match c.pw name with
    | none => (PAM_USER_UNKNOWN, [])
    | some u =>
      match (if c.rlimitFails then none else c.priority) with
      | none => (PAM_ABORT, [])
      | some prio =>
        let first := parseFile sys u a.conf.isSome (c.open_ (a.conf.getD c.default)) (initLimits c a.setAll prio)
        let all : Parsed := match first with
          | .ok pl => if a.conf.isSome then .ok pl else parseFiles sys u c.open_ pl (limitsDir c.etcDir c.vendorDir)
          | r => r
        match all with
        | .ignore => (PAM_SUCCESS, [])
        | .error => (PAM_SERVICE_ERR, [])
        | .ok pl =>
          let r := setupLimits sys u c.works a.early c.utmp pl
          (if r.1 then PAM_SUCCESS else PAM_PERM_DENIED, r.2)

end Pam.Limits
