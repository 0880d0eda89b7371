import Verif.Core.Strtol
import Verif.Core.Codes
/-
Model of modules/pam_succeed_if/pam_succeed_if.c.  Logging is left out, memory is available, and the
module is built with netgroups (HAVE_INNETGR).
-/
namespace Pam.SucceedIf

/-- a C string -/
abbrev Str := List Char

/-- the literal as a C string -/
abbrev lit (s : String) : Str := s.toList

/-- the fields of `struct passwd` used -/
structure Pw where
  name : Str
  uid : Nat
  gid : Nat
  dir : Str
  shell : Str
deriving DecidableEq, Repr

/-- What the module asks of the system and of the handle; answers do not change during the call. -/
structure Sys where
  /-- pam_modutil_getpwnam -/
  getpwnam : Str → Option Pw
  /-- pam_modutil_getpwuid(pamh, getuid()) -/
  caller : Option Pw
  /-- pam_get_user: its code, or the name -/
  user : Except Int Str
  /-- pam_modutil_user_in_group_nam_nam(pamh, user, group) == 1 -/
  inGroup : Str → Str → Bool
  /-- innetgr(group, host, user, NULL): 1 or 0 -/
  innetgr : Str → Option Str → Str → Bool
  /-- fnmatch(pattern, string, 0) == 0 -/
  fnmatch : Str → Str → Bool
  service : Option Str
  ruser : Option Str
  rhost : Option Str
  tty : Option Str

/-- `strtoll(s, &p, 0)` and the checks of `evaluate_num`: pam_succeed_if.c:72-83.  `none`: "is not a
number" or out of range. -/
def parseNum (s : Str) : Option Int :=
  let r := strtoInt 0 s
  if r.2 ≠ [] ∨ s = [] then none
  else if r.1 < -(2 : Int) ^ 63 ∨ (2 : Int) ^ 63 ≤ r.1 then none
  else some r.1

/-- `evaluate_num`: pam_succeed_if.c:64-90 -/
def evaluateNum (left right : Str) (cmp : Int → Int → Bool) : Int :=
  match parseNum left, parseNum right with
  | some l, some r => if cmp l r then PAM_SUCCESS else PAM_AUTH_ERR
  | _, _ => PAM_SERVICE_ERR

/-- `strstr(right, left)`: the part of `right` before the first occurrence, and from it on -/
def strstr (left : Str) : (right : Str) → Option (Str × Str)
  | [] => if left = [] then some ([], []) else none
  | c :: r =>
    if left.isPrefixOf (c :: r) then some ([], c :: r)
    else match strstr left r with
      | none => none
      | some (a, b) => some (c :: a, b)

/-- `strchr(p, ':')` and one further -/
def afterColon (p : Str) : Option Str :=
  match p.dropWhile (fun c => c != ':') with
  | [] => none
  | _ :: r => some r

theorem afterColon_length {p r : Str} (h : afterColon p = some r) : r.length < p.length := by
  unfold afterColon at h
  split at h
  · exact absurd h (by simp)
  · rename_i x r' e
    cases h
    have h1 : (p.dropWhile (fun c => c != ':')).length ≤ p.length := (List.dropWhile_sublist _).length_le
    rw [e] at h1; simp at h1; omega

theorem strstr_length {left : Str} : ∀ {right a b : Str}, strstr left right = some (a, b) →
    right = a ++ b ∧ ∃ t, b = left ++ t
  | [], a, b, h => by
    rw [strstr] at h
    split at h
    next e => cases h; exact ⟨rfl, [], by simp [e]⟩
    next => exact absurd h (by simp)
  | c :: r, a, b, h => by
    rw [strstr] at h
    split at h
    next e =>
      cases h
      obtain ⟨t, ht⟩ := List.isPrefixOf_iff_prefix.mp e
      exact ⟨rfl, t, ht.symm⟩
    next =>
      split at h
      next => exact absurd h (by simp)
      next a' b' e =>
        cases h
        obtain ⟨h1, h2⟩ := strstr_length e
        exact ⟨by rw [h1]; rfl, h2⟩

/-- what one iteration comes to: PAM_AUTH_ERR, PAM_SUCCESS, or a new `right` -/
inductive Step where
  | no
  | yes
  | more (right : Str)
deriving DecidableEq, Repr

/-- `right = strchr(p, ':')` and so on: pam_succeed_if.c:197-201 -/
def goOn (p : Str) : Step :=
  match afterColon p with
  | none => .no
  | some r => .more r

/-- One iteration of `evaluate_inlist`: pam_succeed_if.c:190-202.  In `p == right || *(p-1) == ':'` the
part `a` of `right` before `p` is empty or ends in a colon. -/
def listStep (left right : Str) : Step :=
  match strstr left right with
  | none => .no
  | some (a, p) =>
    if a = [] ∨ a.getLast? = some ':' then
      if p.drop left.length = [] ∨ (p.drop left.length).head? = some ':' then .yes
      else goOn (p.drop left.length)
    else goOn p

theorem goOn_more {p r : Str} (h : goOn p = .more r) : afterColon p = some r := by
  unfold goOn at h
  split at h
  · cases h
  · next e => cases h; exact e

theorem listStep_length {left right r : Str} (h : listStep left right = .more r) : r.length < right.length := by
  unfold listStep at h
  split at h
  · cases h
  · next a p e =>
    have h1 := congrArg List.length (strstr_length e).1
    rw [List.length_append] at h1
    split at h
    · split at h
      · cases h
      · have h2 := afterColon_length (goOn_more h)
        rw [List.length_drop] at h2; omega
    · have h2 := afterColon_length (goOn_more h)
      omega

/-- `evaluate_inlist`: pam_succeed_if.c:185-204; true is PAM_SUCCESS. -/
def inList (left right : Str) : Bool :=
  match _h : listStep left right with
  | .no => false
  | .yes => true
  | .more right' => inList left right'
termination_by right.length
decreasing_by exact listStep_length _h

/-- `strtok_r(group, ":", &ptr)`: the words between colons that are not empty; `cur` is the word so
far -/
def tokens (cur : Str) : Str → List Str
  | [] => if cur = [] then [] else [cur]
  | c :: r =>
    if c = ':' then (if cur = [] then tokens [] r else cur :: tokens [] r)
    else tokens (cur ++ [c]) r

/-- The loop of `evaluate_ingroup` and `evaluate_notingroup`: pam_succeed_if.c:223-230, 246-253; true if
the user is in one of the groups. -/
def anyGroup (sys : Sys) (user : Str) : List Str → Bool
  | [] => false
  | g :: gs => if sys.inGroup user g then true else anyGroup sys user gs

/-- the code of a test that came out -/
def codeOf (b : Bool) : Int := if b then PAM_SUCCESS else PAM_AUTH_ERR

/-- Does the attribute need the password entry?  pam_succeed_if.c:300-305 -/
def needsPw (left : Str) : Bool :=
  ieq left (lit "uid") || ieq left (lit "gid") || ieq left (lit "shell") || ieq left (lit "home") ||
  ieq left (lit "dir") || ieq left (lit "homedir")

/-- The attribute as a string: pam_succeed_if.c:311-356; `none`: "unknown attribute".  `pwd` is not NULL
where it is used (`pw` returns the value the pointer has). -/
def attrText (sys : Sys) (pwd : Option Pw) (user left : Str) : Option Str :=
  if ieq left (lit "login") || ieq left (lit "name") || ieq left (lit "user") then some user
  else if ieq left (lit "uid") then pwd.map (fun p => Nat.toDigits 10 p.uid)
  else if ieq left (lit "gid") then pwd.map (fun p => Nat.toDigits 10 p.gid)
  else if ieq left (lit "shell") then pwd.map (·.shell)
  else if ieq left (lit "home") || ieq left (lit "dir") || ieq left (lit "homedir") then pwd.map (·.dir)
  else if ieq left (lit "service") then some (sys.service.getD [])
  else if ieq left (lit "ruser") then some (sys.ruser.getD [])
  else if ieq left (lit "rhost") then some (sys.rhost.getD [])
  else if ieq left (lit "tty") then some (sys.tty.getD [])
  else none

/-- The test: pam_succeed_if.c:362-437 -/
def test (sys : Sys) (user left qual right : Str) : Int :=
  if ieq qual (lit "<") || ieq qual (lit "lt") then evaluateNum left right (fun i j => decide (i < j))
  else if ieq qual (lit "<=") || ieq qual (lit "le") then
    evaluateNum left right (fun i j => decide (i < j) || decide (i = j))
  else if ieq qual (lit ">") || ieq qual (lit "gt") then evaluateNum left right (fun i j => decide (i > j))
  else if ieq qual (lit ">=") || ieq qual (lit "ge") then
    evaluateNum left right (fun i j => decide (i > j) || decide (i = j))
  else if ieq qual (lit "eq") then evaluateNum left right (fun i j => decide (i = j))
  else if ieq qual (lit "=") then codeOf (decide (left = right))
  else if ieq qual (lit "ne") then evaluateNum left right (fun i j => decide (i ≠ j))
  else if ieq qual (lit "!=") then codeOf (decide (left ≠ right))
  else if ieq qual (lit "=~") || ieq qual (lit "glob") then codeOf (sys.fnmatch right left)
  else if ieq qual (lit "!~") || ieq qual (lit "noglob") then codeOf (!sys.fnmatch right left)
  else if ieq qual (lit "in") then codeOf (inList left right)
  else if ieq qual (lit "notin") then codeOf (!inList left right)
  else if ieq qual (lit "ingroup") then codeOf (anyGroup sys user (tokens [] right))
  else if ieq qual (lit "notingroup") then codeOf (!anyGroup sys user (tokens [] right))
  else if ieq qual (lit "innetgr") then codeOf (sys.innetgr right sys.rhost user)
  else if ieq qual (lit "notinnetgr") then codeOf (!sys.innetgr right sys.rhost user)
  else PAM_SERVICE_ERR

/-- `evaluate`: pam_succeed_if.c:291-438.  The result is the code and `*pwd`. -/
def evaluate (sys : Sys) (left qual right : Str) (pwd : Option Pw) (user : Str) : Int × Option Pw :=
  let pwd1 := if pwd.isNone && needsPw left then sys.getpwnam user else pwd
  if pwd.isNone && needsPw left && pwd1.isNone then (PAM_USER_UNKNOWN, none)
  else match attrText sys pwd1 user left with
    | none => (PAM_SERVICE_ERR, pwd1)
    | some v => (test sys user v qual right, pwd1)

/-- `log_requirement` may look the user up: pam_succeed_if.c:450 -/
def logLookup (sys : Sys) (check : Bool) (pwd : Option Pw) (user : Str) : Option Pw :=
  if check && pwd.isNone then sys.getpwnam user else pwd

/-- the words that are options: pam_succeed_if.c:523-540 -/
def isOption (w : Str) : Bool :=
  decide (w = lit "debug") || decide (w = lit "use_uid") || decide (w = lit "quiet") ||
  decide (w = lit "quiet_fail") || decide (w = lit "quiet_success") || decide (w = lit "audit")

/-- The loop over the arguments: pam_succeed_if.c:520-578.  State: the count of conditions, `ret`, `left`,
`qual` (`right` is NULL between iterations) and `pwd`.  Result: `ret`, `count`, and whether `left` or `qual`
is left over. -/
def walk (sys : Sys) (user : Str) (check quietFail quietSucc : Bool) :
    (count : Nat) → (ret : Int) → (left qual : Option Str) → (pwd : Option Pw) → List Str → Int × Nat × Bool
  | count, ret, left, qual, _, [] => (ret, count, left.isSome || qual.isSome)
  | count, ret, left, qual, pwd, w :: ws =>
    if isOption w then walk sys user check quietFail quietSucc count ret left qual pwd ws
    else match left, qual with
      | none, _ => walk sys user check quietFail quietSucc count ret (some w) qual pwd ws
      | some l, none => walk sys user check quietFail quietSucc count ret (some l) (some w) pwd ws
      | some l, some q =>
        let e := evaluate sys l q w pwd user
        if e.1 ≠ PAM_SUCCESS then (e.1, count + 1, false)
        else
          walk sys user check quietFail quietSucc (count + 1) e.1 none none
            (if quietSucc then e.2 else logLookup sys check e.2 user) ws

/-- `pam_succeed_if`: pam_succeed_if.c:462-591, the body of pam_sm_authenticate, pam_sm_acct_mgmt,
pam_sm_open_session, pam_sm_close_session and pam_sm_chauthtok (pam_succeed_if.c:600-633).  `ret` before it is
assigned is 0 (it is not returned then). -/
def succeedIf (sys : Sys) (argv : List Str) : Int :=
  let useUid := decide (lit "use_uid" ∈ argv)
  let quiet := decide (lit "quiet" ∈ argv)
  let quietFail := quiet || decide (lit "quiet_fail" ∈ argv)
  let quietSucc := quiet || decide (lit "quiet_success" ∈ argv)
  let audit := decide (lit "audit" ∈ argv)
  let go := fun (user : Str) (pwd : Option Pw) =>
    let r := walk sys user (!(audit || useUid)) quietFail quietSucc 0 0 none none pwd argv
    if r.2.2 then PAM_SERVICE_ERR else if r.2.1 = 0 then PAM_SUCCESS else r.1
  if useUid then
    match sys.caller with
    | none => PAM_USER_UNKNOWN
    | some p => go p.name (some p)
  else
    match sys.user with
    | .error code => code
    | .ok user => go user none

/-- `pam_sm_setcred`: pam_succeed_if.c:593-598 -/
def setcred : Int := PAM_IGNORE

end Pam.SucceedIf
