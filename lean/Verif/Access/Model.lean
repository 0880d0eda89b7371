import Verif.Core.Strtol
import Verif.Core.Codes
/-
Model of modules/pam_access/pam_access.c, built without libaudit and with netgroups.  Logging is left out, memory is
available.
-/
namespace Pam.Access
open Pam

/-- a C string -/
abbrev Str := List Char

/-- AF_INET and AF_INET6 -/
inductive Fam where
  | v4
  | v6
deriving DecidableEq, Repr

/-- bytes of an address -/
def Fam.size : Fam → Nat
  | .v4 => 4
  | .v6 => 16

/-- An element of the list of `getaddrinfo`: family, address and what `getnameinfo` makes of it with NI_NUMERICHOST
(`none`: it fails). -/
structure Entry where
  fam : Fam
  bytes : List Nat
  numeric : Option Str
deriving DecidableEq, Repr

/-- the hints given to `getaddrinfo`: none, AF_INET or AF_UNSPEC -/
inductive Hint where
  | plain
  | inet
  | unspec
deriving DecidableEq, Repr

/-- What the module asks of the system; answers do not change during the call. -/
structure Sys where
  /-- inet_pton -/
  pton : Fam → Str → Option (List Nat)
  /-- inet_ntop -/
  ntop : Fam → List Nat → Str
  /-- getaddrinfo(name, NULL, hint, ..): `none` if it fails, otherwise a list that is not empty -/
  gai : Hint → Str → Option (List Entry)
  /-- innetgr(group, host, user, domain) == 1 -/
  innetgr : Str → Option Str → Option Str → Bool
  /-- pam_modutil_user_in_group_nam_nam(pamh, user, group) -/
  inGroup : Str → Str → Bool
  /-- pam_modutil_user_in_group_nam_gid(pamh, user, gid) -/
  inGid : Str → Nat → Bool
  /-- /dev/<name> is a character device -/
  isDevice : Str → Bool
  /-- what an array that was not written to holds -/
  garbage : Str

/-- the fields of `struct login_info` that matter: pam_access.c:93-109 -/
structure Item where
  user : Str
  uid : Nat
  origin : Str
  hostname : Option Str
  nodefgroup : Bool
  nodns : Bool
  fs : Str
  sep : Str
  remote : Bool

/-- `res` and `gai_rv`: `none` if `getaddrinfo` was not called yet, otherwise its answer -/
abbrev Cache := Option (Option (List Entry))

/-- modules/pam_access/pam_access.c:830-834 and 1049-1059: resolve the origin, once -/
def lookup (sys : Sys) (h : Hint) (name : Str) (cache : Cache) : Option (List Entry) × Cache :=
  match cache with
  | some r => (r, cache)
  | none => let r := sys.gai h name; (r, some r)

/-- `isipaddr`: modules/pam_access/pam_access.c:273-310 -/
def isip (sys : Sys) (s : Str) : Option (Fam × List Nat) :=
  match sys.pton .v4 s with
  | some b => some (.v4, b)
  | none =>
    match sys.pton .v6 s with
    | some b => some (.v6, b)
    | none => none

/-- `is_local_addr`: modules/pam_access/pam_access.c:313-327 -/
def isLocal (s : Str) : Fam → Bool
  | .v4 => s == "127.0.0.1".toList
  | .v6 => s == "::1".toList

/-- the bytes that count: modules/pam_access/pam_access.c:369-383.  What is behind the address is 0 in both. -/
def masked (mask : Option (List Nat)) (bytes : List Nat) : List Nat :=
  match mask with
  | none => bytes
  | some m => List.zipWith (· &&& ·) bytes m

/-- `are_addresses_equal`: modules/pam_access/pam_access.c:335-393 -/
def addrEqual (sys : Sys) (a0 a1 : Str) (netmask : Option Str) : Bool :=
  match isip sys a0 with
  | none => false
  | some (f0, b0) =>
    match isip sys a1 with
    | none => false
    | some (f1, b1) =>
      if f0 ≠ f1 then isLocal a0 f0 && isLocal a1 f1
      else masked (netmask.bind (sys.pton f0)) b0 == masked (netmask.bind (sys.pton f0)) b1

/-- the loop of number_to_netmask: modules/pam_access/pam_access.c:426-438 -/
def maskBytes : (bytes : Nat) → (netmask : Nat) → List Nat
  | 0, _ => []
  | k + 1, n =>
    if 8 ≤ n then 255 :: maskBytes k (n - 8)
    else if 0 < n then (255 <<< (8 - n)) % 256 :: List.replicate k 0
    else List.replicate (k + 1) 0

/-- `number_to_netmask`: modules/pam_access/pam_access.c:395-447 -/
def numberToNetmask (sys : Sys) (netmask : Nat) (f : Fam) : Option Str :=
  if netmask = 0 then none else some (sys.ntop f (maskBytes f.size netmask))

/-- the first half of network_netmask_match: modules/pam_access/pam_access.c:950-1038: the addresses and the netmask a
token stands for, or `none` for "no match" -/
def resolveToken (sys : Sys) (item : Item) (tok : Str) : Option (List Entry × Option Str) :=
  if '/' ∈ tok then
    let net := tok.takeWhile (· ≠ '/')
    let mask := (tok.dropWhile (· ≠ '/')).drop 1
    match isip sys net with
    | none => none
    | some (f, _) =>
      match isip sys mask with
      | some _ => (sys.gai .plain net).map (fun ai => (ai, some mask))
      | none =>
        let r := strtoInt 0 mask
        if r.2 = mask ∨ r.2 ≠ [] then none
        else if r.1 < 0 ∨ (f.size * 8 : Nat) < r.1 then none
        else (sys.gai .plain net).map (fun ai => (ai, numberToNetmask sys r.1.toNat f))
  else if (isip sys tok).isSome then (sys.gai .plain tok).map (fun ai => (ai, none))
  else if item.nodns then none
  else if tok.head? = some ':' then none
  else if sys.isDevice tok then none
  else (sys.gai .plain tok).map (fun ai => (ai, none))

/-- The inner loop over the addresses of the token: modules/pam_access/pam_access.c:1075-1093.  `none`: `getnameinfo`
failed, which ends everything. -/
def eachToken (sys : Sys) (fam : Fam) (buf : Str) (mask : Option Str) : List Entry → Option Bool
  | [] => some false
  | e :: es =>
    if fam ≠ e.fam then eachToken sys fam buf mask es
    else match e.numeric with
      | none => none
      | some buf1 => if addrEqual sys buf buf1 mask then some true else eachToken sys fam buf mask es

/-- The loop over the addresses of the origin: modules/pam_access/pam_access.c:1062-1096 -/
def eachOrigin (sys : Sys) (ai : List Entry) (mask : Option Str) : List Entry → Bool
  | [] => false
  | e :: es =>
    match e.numeric with
    | none => false
    | some buf =>
      match eachToken sys e.fam buf mask ai with
      | none => false
      | some true => true
      | some false => eachOrigin sys ai mask es

/-- `network_netmask_match`: modules/pam_access/pam_access.c:936-1119 -/
def networkMatch (sys : Sys) (item : Item) (cache : Cache) (tok : Str) : Bool × Cache :=
  match resolveToken sys item tok with
  | none => (false, cache)
  | some (ai, mask) =>
    if (isip sys item.origin).isSome then
      (ai.any (fun e => addrEqual sys item.origin (e.numeric.getD sys.garbage) mask), cache)
    else
      match lookup sys .unspec item.origin cache with
      | (none, c) => (false, c)
      | (some res, c) => (eachOrigin sys ai mask res, c)

/-- `remote_match`: modules/pam_access/pam_access.c:812-866 -/
def remoteMatch (sys : Sys) (item : Item) (cache : Cache) (tok : Str) : Bool × Cache :=
  if tok.head? = some '.' then
    if tok.length < item.origin.length ∧ ieq tok (item.origin.drop (item.origin.length - tok.length)) then (true, cache)
    else networkMatch sys item cache tok
  else if tok.getLast? = some '.' then
    match lookup sys .inet item.origin cache with
    | (none, c) => (false, c)
    | (some res, c) =>
      (res.any (fun e => decide (e.fam = .v4) && tok.isPrefixOf (sys.ntop .v4 e.bytes ++ ['.'])), c)
  else networkMatch sys item cache tok

/-- `string_match` for a string that is there: modules/pam_access/pam_access.c:870-895 -/
def stringMatch (tok string : Str) : Bool := ieq tok "ALL".toList || ieq tok string

/-- `from_match`: modules/pam_access/pam_access.c:775-810 -/
def fromMatch (sys : Sys) (item : Item) (cache : Cache) (tok : Str) : Bool × Cache :=
  if tok.head? = some '@' then (sys.innetgr (tok.drop 1) (some item.origin) none, cache)
  else if stringMatch tok item.origin then (true, cache)
  else if ieq tok "LOCAL".toList then (!item.remote, cache)
  else if item.remote then remoteMatch sys item cache tok
  else (false, cache)

/-- the characters of "0123456789" only -/
def allDigits (s : Str) : Bool := s.all isDigit

/-- `user_name_or_uid_match`: modules/pam_access/pam_access.c:636-655 -/
def nameOrUid (item : Item) (tok : Str) : Bool :=
  if stringMatch tok item.user then true
  else if !allDigits tok then false
  else stringMatch tok (Nat.toDigits 10 item.uid)

/-- `group_match` with group_name_or_gid_match: modules/pam_access/pam_access.c:721-770.  Decimal digits that strtoul
reads without overflow and that fit gid_t are a number below 2^32. -/
def groupMatch (sys : Sys) (item : Item) (tok : Str) : Bool :=
  if tok.length < 3 then false
  else
    let g := (tok.drop 1).dropLast
    if sys.inGroup item.user g then true
    else if !allDigits g then false
    else if 2 ^ 32 ≤ valueOf 10 g then false
    else sys.inGid item.user (valueOf 10 g)

/-- a token in parentheses: modules/pam_access/pam_access.c:681 -/
def isGroupToken (tok : Str) : Bool := decide (tok.head? = some '(' ∧ tok.getLast? = some ')')

/-- user_match for a token that is not split: modules/pam_access/pam_access.c:681-682, 699-716 -/
def userPlain (sys : Sys) (item : Item) (tok : Str) : Bool :=
  if isGroupToken tok then groupMatch sys item tok
  else if tok.head? = some '@' then
    if (tok.drop 1).head? = some '@' then
      match item.hostname with
      | none => false
      | some h => sys.innetgr (tok.drop 2) (some h) (some item.user)
    else sys.innetgr (tok.drop 1) none (some item.user)
  else nameOrUid item tok || (!item.nodefgroup && sys.inGroup item.user tok)

/-- "split on a pattern (@*[^@]+)(@+.*)": modules/pam_access/pam_access.c:678-684 -/
def splitToken (tok : Str) : Option (Str × Str) :=
  let rest := tok.dropWhile (· == '@')
  if '@' ∈ rest then
    some (tok.takeWhile (· == '@') ++ rest.takeWhile (· ≠ '@'), (rest.dropWhile (· ≠ '@')).drop 1)
  else none

/-- `user_match`: modules/pam_access/pam_access.c:659-717.  The part before the at sign is not split again.  The lookup of
the host name has its own cache. -/
def userMatch (sys : Sys) (item : Item) (tok : Str) : Bool :=
  if isGroupToken tok then groupMatch sys item tok
  else match splitToken tok with
    | some (u, h) =>
      match item.hostname with
      | none => false
      | some host =>
        if userPlain sys item u then (fromMatch sys { item with origin := host, remote := true } none h).1 else false
    | none => userPlain sys item tok

/-- `strtok_r`: skip separators, take what is not one, and drop one separator -/
def strtok (sep s : Str) : Option (Str × Str) :=
  let t := s.dropWhile (· ∈ sep)
  if t = [] then none
  else some (t.takeWhile (· ∉ sep), (t.dropWhile (· ∉ sep)).drop 1)

theorem dropWhile_length {α : Type} (p : α → Bool) (l : List α) : (l.dropWhile p).length ≤ l.length :=
  (List.dropWhile_sublist p).length_le

theorem strtok_length {sep s w t : Str} (h : strtok sep s = some (w, t)) : t.length < s.length := by
  unfold strtok at h
  simp only at h
  split at h
  · cases h
  · rename_i hne
    cases h
    have h1 := dropWhile_length (fun c => decide (c ∈ sep)) s
    have h2 := dropWhile_length (fun c => decide (c ∉ sep)) (s.dropWhile (fun c => decide (c ∈ sep)))
    have h3 : 0 < (s.dropWhile (fun c => decide (c ∈ sep))).length := List.length_pos_iff.mpr hne
    rw [List.length_drop]
    omega

/-- all tokens: the loop of modules/pam_access/pam_access.c:584-585 -/
def tokens (sep s : Str) : List Str :=
  match _h : strtok sep s with
  | none => []
  | some (w, t) => w :: tokens sep t
termination_by s.length
decreasing_by exact strtok_length _h

/-- `list_match` over the tokens: modules/pam_access/pam_access.c:563-597.  `σ` is what the matching function
remembers. -/
def listLoop {σ : Type} (m : σ → Str → Bool × σ) : (inclusion matched result : Bool) → σ → List Str → Bool × σ
  | _, _, result, st, [] => (result, st)
  | inclusion, matched, result, st, tok :: toks =>
    if ieq tok "EXCEPT".toList then
      if !matched then (result, st) else listLoop m (!inclusion) false result st toks
    else if (m st tok).1 then listLoop m inclusion true inclusion (m st tok).2 toks
    else listLoop m inclusion matched result (m st tok).2 toks

def listMatch {σ : Type} (m : σ → Str → Bool × σ) (sep : Str) (st : σ) (list : Str) : Bool × σ :=
  listLoop m true false false st (tokens sep list)

/-- One line of the table as getline gives it, with its newline: modules/pam_access/pam_access.c:485-532.  The value:
the first character, and the two lists; `none` for a line that is passed over. -/
def readLine (fs line : Str) : Option (Option Char × Str × Str) :=
  let l := line.takeWhile (· ≠ NUL)
  if l = [] then none
  else if l.getLast? ≠ some '\n' then none
  else if l.head? = some '#' then none
  else
    let l := (l.dropLast.reverse.dropWhile isSpace).reverse
    if l = [] then none
    else match strtok fs l with
      | none => none
      | some (perm, t) =>
        match strtok fs t with
        | none => none
        | some (users, t) =>
          match strtok ['\n'] t with
          | none => none
          | some (froms, _) =>
            if perm.head? ≠ some '+' ∧ perm.head? ≠ some '-' then none
            else some (l.head?, users, froms)

/-- `login_access` with the lines of an open file: modules/pam_access/pam_access.c:483-534, 550-557.  `none`: NOMATCH. -/
def loginLines (sys : Sys) (item : Item) : Cache → List Str → Option Bool × Cache
  | cache, [] => (none, cache)
  | cache, line :: lines =>
    match readLine item.fs line with
    | none => loginLines sys item cache lines
    | some (sign, users, froms) =>
      if (listMatch (fun (_ : Unit) tok => (userMatch sys item tok, ())) item.sep () users).1 then
        let r := listMatch (fromMatch sys item) item.sep cache froms
        if r.1 then (some (decide (sign = some '+')), r.2)
        else loginLines sys item r.2 lines
      else loginLines sys item cache lines

/-- the errors of `fopen` told apart -/
inductive Errno where
  | enoent
  | other
deriving DecidableEq, Repr

/-- `login_access`: modules/pam_access/pam_access.c:451-558 -/
def loginAccess (sys : Sys) (item : Item) (cache : Cache) (file : Except Errno (List Str)) : Option Bool × Cache :=
  match file with
  | .ok lines => loginLines sys item cache lines
  | .error .enoent => (none, cache)
  | .error .other => (some false, cache)

/-- `base_name`: modules/pam_access/pam_access.c:169-173 -/
def baseName (path : Str) : Str := (path.reverse.takeWhile (· ≠ '/')).reverse

/-- `strcmp(a, b) <= 0` -/
def strLe : Str → Str → Bool
  | [], _ => true
  | _ :: _, [] => false
  | a :: s, b :: t => if a = b then strLe s t else decide (a.toNat < b.toNat)

/-- `read_access_dir`: modules/pam_access/pam_access.c:188-255.  `etc`, `vendor`: what `glob` finds (nothing, if it
fails).  `qsort` gives what any sorting gives, as long as no base name occurs twice. -/
def accessDir (etc vendor : List Str) : List Str :=
  (etc ++ vendor.filter (fun v => !etc.any (fun e => baseName e == baseName v))).mergeSort
    (fun a b => strLe (baseName a) (baseName b))

/-- The loop over the files: modules/pam_access/pam_access.c:1236-1242 -/
def eachFile (sys : Sys) (item : Item) (open_ : Str → Except Errno (List Str)) : Cache → List Str → Option Bool
  | _, [] => none
  | cache, f :: fs =>
    match loginAccess sys item cache (open_ f) with
    | (none, c) => eachFile sys item open_ c fs
    | (some r, _) => some r

/-- what the arguments say: modules/pam_access/pam_access.c:113-166 -/
structure Args where
  fs : Str
  sep : Str
  file : Option Str
  nodefgroup : Bool
  nodns : Bool
deriving DecidableEq, Repr

/-- `parse_args`: modules/pam_access/pam_access.c:113-166.  `none`: the access file cannot be opened. -/
def parseArgs (canOpen : Str → Bool) : Args → List Str → Option Args
  | a, [] => some a
  | a, w :: ws =>
    if "fieldsep=".toList.isPrefixOf w then parseArgs canOpen { a with fs := w.drop 9 } ws
    else if "listsep=".toList.isPrefixOf w then parseArgs canOpen { a with sep := w.drop 8 } ws
    else if "accessfile=".toList.isPrefixOf w then
      if canOpen (w.drop 11) then parseArgs canOpen { a with file := some (w.drop 11) } ws else none
    else if w = "nodefgroup".toList then parseArgs canOpen { a with nodefgroup := true } ws
    else if w = "nodns".toList then parseArgs canOpen { a with nodns := true } ws
    else parseArgs canOpen a ws

/-- the defaults: modules/pam_access/pam_access.c:123-124, 1149-1158 -/
def Args.default : Args := ⟨":".toList, ", \t".toList, none, false, false⟩

/-- What one call finds: the items of the handle, the name of the terminal and of the host, the files. -/
structure Call where
  /-- pam_get_user and pam_modutil_getpwnam: name in the user database and uid -/
  user : Option (Str × Nat)
  rhost : Option Str
  tty : Option Str
  ttyname : Option Str
  service : Option Str
  hostname : Option Str
  default : Str
  open_ : Str → Except Errno (List Str)
  etcDir : List Str
  vendorDir : List Str

/-- "full path, remove device path": modules/pam_access/pam_access.c:1211-1217 -/
def stripDevice (s : Str) : Str :=
  match s with
  | '/' :: t => if '/' ∈ t then (t.dropWhile (· ≠ '/')).drop 1 else t
  | _ => s

/-- where the user comes from, and whether that is PAM_RHOST: modules/pam_access/pam_access.c:1172-1222 -/
def originOf (c : Call) : Option (Str × Bool) :=
  match c.rhost with
  | some (x :: xs) => some (x :: xs, true)
  | _ =>
    match c.tty with
    | some t => some (stripDevice t, false)
    | none =>
      match c.ttyname with
      | some t => some (stripDevice t, false)
      | none =>
        match c.service with
        | some t => some (stripDevice t, false)
        | none => none

/-- the `fopen` of parse_args: modules/pam_access/pam_access.c:138-148 -/
def canOpen (c : Call) (f : Str) : Bool :=
  match c.open_ f with
  | .ok _ => true
  | .error _ => false

/-- `pam_access`, the work of all module functions but pam_sm_setcred: modules/pam_access/pam_access.c:1124-1261.
`c.default` is the default file, or the vendor's one if that is missing. -/
def pamAccess (sys : Sys) (c : Call) (argv : List Str) : Int :=
  match c.user with
  | none => PAM_USER_UNKNOWN
  | some (user, uid) =>
    match parseArgs (canOpen c) .default argv with
    | none => PAM_ABORT
    | some a =>
      match originOf c with
      | none => PAM_ABORT
      | some (origin, remote) =>
        let item : Item := ⟨user, uid, origin, c.hostname, a.nodefgroup, a.nodns, a.fs, a.sep, remote⟩
        let r := loginAccess sys item none (c.open_ (a.file.getD c.default))
        let rv := match r.1 with
          | some b => some b
          | none => if a.file = none then eachFile sys item c.open_ r.2 (accessDir c.etcDir c.vendorDir) else none
        if rv = some false then PAM_PERM_DENIED else PAM_SUCCESS

end Pam.Access
