import Verif.SucceedIf.Model
/-
What the conditions of pam_succeed_if mean, after pam_succeed_if(8).
-/
namespace Pam.SucceedIf.Spec
open Pam Pam.SucceedIf

/-- the attributes of the user and of the request -/
inductive Attr where
  | user | uid | gid | shell | home | service | ruser | rhost | tty
deriving DecidableEq, Repr

/-- the names of the attributes, in lower case -/
def attrNames : List (String × Attr) :=
  [("login", .user), ("name", .user), ("user", .user), ("uid", .uid), ("gid", .gid), ("shell", .shell),
   ("home", .home), ("dir", .home), ("homedir", .home), ("service", .service), ("ruser", .ruser),
   ("rhost", .rhost), ("tty", .tty)]

/-- attributes kept in the password file -/
def Attr.stored : Attr → Bool
  | .uid | .gid | .shell | .home => true
  | _ => false

/-- the tests -/
inductive Test where
  | lt | le | gt | ge | eq | ne
  | same | differs | matches | mismatches | isIn | notIn
  | inGroup | notInGroup | inNetgroup | notInNetgroup
deriving DecidableEq, Repr

/-- the names of the tests, in lower case -/
def testNames : List (String × Test) :=
  [("<", .lt), ("lt", .lt), ("<=", .le), ("le", .le), (">", .gt), ("gt", .gt), (">=", .ge), ("ge", .ge),
   ("eq", .eq), ("ne", .ne), ("=", .same), ("!=", .differs), ("=~", .matches), ("glob", .matches),
   ("!~", .mismatches), ("noglob", .mismatches), ("in", .isIn), ("notin", .notIn),
   ("ingroup", .inGroup), ("notingroup", .notInGroup), ("innetgr", .inNetgroup),
   ("notinnetgr", .notInNetgroup)]

/-- find a name without regard to case -/
def named {α : Type} (tbl : List (String × α)) (w : Str) : Option α :=
  (tbl.find? (fun e => e.1.toList = w.map lower)).map (·.2)

/-- Who is asking, and the password entry of that user, if there is one. -/
structure Person where
  name : Str
  pw : Option Pw

/-- the attribute has this text -/
inductive HasText (sys : Sys) (who : Person) : Attr → Str → Prop
  | user : HasText sys who .user who.name
  | uid {p} : who.pw = some p → HasText sys who .uid (Nat.toDigits 10 p.uid)
  | gid {p} : who.pw = some p → HasText sys who .gid (Nat.toDigits 10 p.gid)
  | shell {p} : who.pw = some p → HasText sys who .shell p.shell
  | home {p} : who.pw = some p → HasText sys who .home p.dir
  | service : HasText sys who .service (sys.service.getD [])
  | ruser : HasText sys who .ruser (sys.ruser.getD [])
  | rhost : HasText sys who .rhost (sys.rhost.getD [])
  | tty : HasText sys who .tty (sys.tty.getD [])

/-- the elements of a list written with colons -/
def elements : Str → List Str
  | [] => [[]]
  | c :: r =>
    if c = ':' then [] :: elements r
    else match elements r with
      | [] => [[c]]
      | e :: es => (c :: e) :: es

/-- a number that fits `long long` -/
def IsNumber (s : Str) (v : Int) : Prop := Numeral s v ∧ -(2 : Int) ^ 63 ≤ v ∧ v < (2 : Int) ^ 63

/-- the comparison of a numeric test -/
def Test.compares : Test → Option (Int → Int → Prop)
  | .lt => some (· < ·)
  | .le => some (· ≤ ·)
  | .gt => some (· > ·)
  | .ge => some (· ≥ ·)
  | .eq => some (· = ·)
  | .ne => some (· ≠ ·)
  | _ => none

/-- the other tests: the text of the attribute is `v`, the operand `r` -/
def Test.Holds (sys : Sys) (user : Str) (t : Test) (v r : Str) : Prop :=
  match t with
  | .same => v = r
  | .differs => v ≠ r
  | .matches => sys.fnmatch r v
  | .mismatches => ¬ sys.fnmatch r v
  | .isIn => v ∈ elements r
  | .notIn => v ∉ elements r
  | .inGroup => ∃ g ∈ elements r, g ≠ [] ∧ sys.inGroup user g
  | .notInGroup => ¬ ∃ g ∈ elements r, g ≠ [] ∧ sys.inGroup user g
  | .inNetgroup => sys.innetgr r sys.rhost user
  | .notInNetgroup => ¬ sys.innetgr r sys.rhost user
  | _ => False

/-- attribute, test, operand -/
abbrev Cond := Str × Str × Str

/-- What becomes of one condition. -/
inductive Judged (sys : Sys) (who : Person) : Cond → Int → Prop
  | badAttr {a q r} : named attrNames a = none → Judged sys who (a, q, r) PAM_SERVICE_ERR
  | unknown {a q r at'} : named attrNames a = some at' → at'.stored → who.pw = none →
      Judged sys who (a, q, r) PAM_USER_UNKNOWN
  | badTest {a q r at' v} : named attrNames a = some at' → HasText sys who at' v → named testNames q = none →
      Judged sys who (a, q, r) PAM_SERVICE_ERR
  | notNumber {a q r at' v t cmp} : named attrNames a = some at' → HasText sys who at' v →
      named testNames q = some t → t.compares = some cmp →
      (¬ (∃ x, IsNumber v x) ∨ ¬ (∃ y, IsNumber r y)) → Judged sys who (a, q, r) PAM_SERVICE_ERR
  | number {a q r at' v t cmp x y} : named attrNames a = some at' → HasText sys who at' v →
      named testNames q = some t → t.compares = some cmp → IsNumber v x → IsNumber r y → cmp x y →
      Judged sys who (a, q, r) PAM_SUCCESS
  | numberNot {a q r at' v t cmp x y} : named attrNames a = some at' → HasText sys who at' v →
      named testNames q = some t → t.compares = some cmp → IsNumber v x → IsNumber r y → ¬ cmp x y →
      Judged sys who (a, q, r) PAM_AUTH_ERR
  | holds {a q r at' v t} : named attrNames a = some at' → HasText sys who at' v →
      named testNames q = some t → t.compares = none → t.Holds sys who.name v r →
      Judged sys who (a, q, r) PAM_SUCCESS
  | holdsNot {a q r at' v t} : named attrNames a = some at' → HasText sys who at' v →
      named testNames q = some t → t.compares = none → ¬ t.Holds sys who.name v r →
      Judged sys who (a, q, r) PAM_AUTH_ERR

/-- a condition is met -/
def Met (sys : Sys) (who : Person) (c : Cond) : Prop := Judged sys who c PAM_SUCCESS

/-- the words that are not part of a condition -/
def options : List String := ["debug", "use_uid", "quiet", "quiet_fail", "quiet_success", "audit"]

/-- the words of the conditions -/
def wordsOf (argv : List Str) : List Str := argv.filter (fun w => w ∉ options.map String.toList)

/-- the words of a condition -/
def Cond.words (c : Cond) : List Str := [c.1, c.2.1, c.2.2]

/-- Whom the conditions are about: the calling user with use_uid, else the user of the handle. -/
def Subject (sys : Sys) (argv : List Str) (who : Person) : Prop :=
  if lit "use_uid" ∈ argv then ∃ p, sys.caller = some p ∧ who = ⟨p.name, some p⟩
  else ∃ u, sys.user = .ok u ∧ who = ⟨u, sys.getpwnam u⟩

/-- lists are only searched for texts without a colon -/
def Plain (sys : Sys) (who : Person) (c : Cond) : Prop :=
  ∀ a t v, named attrNames c.1 = some a → named testNames c.2.1 = some t → (t = .isIn ∨ t = .notIn) →
    HasText sys who a v → ':' ∉ v

end Pam.SucceedIf.Spec
