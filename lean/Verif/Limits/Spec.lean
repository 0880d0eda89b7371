import Verif.Limits.Model
/-
What limits.conf(5) says, for C42 and C60 to C62.
-/
namespace Pam.Limits.Spec
open Pam Pam.Access Pam.Limits

/-! ## lines -/

/-- blanks between fields -/
def Blanks (s : Str) : Prop := ∀ c ∈ s, c = ' ' ∨ c = '\t'

/-- a field: no blanks, and nothing that ends a line -/
def Field (s : Str) : Prop := s ≠ [] ∧ ∀ c ∈ s, c ≠ ' ' ∧ c ≠ '\t' ∧ c ≠ '#' ∧ c ≠ '\n' ∧ c ≠ NUL

/-- a value: as a field, but with blanks inside -/
def Value (s : Str) : Prop := (∀ c ∈ s, c ≠ '#' ∧ c ≠ '\n' ∧ c ≠ NUL) ∧
  (∃ c, s.head? = some c ∧ c ≠ ' ' ∧ c ≠ '\t') ∧ (∃ c, s.getLast? = some c ∧ c ≠ ' ' ∧ c ≠ '\t')

/-- what may come behind: nothing, a comment or the end of the line -/
def Tail (s : Str) : Prop := s = [] ∨ s.head? = some '#' ∨ s.head? = some '\n'

/-- an entry; upper case has been turned to lower case -/
structure Entry where
  domain : Str
  type : Str
  item : Str
  value : Str

/-- `line` is the entry `domain type item value` -/
def IsEntry (line : Str) (e : Entry) : Prop := ∃ pre d g1 t g2 i g3 v post tail,
  line = pre ++ (d ++ (g1 ++ (t ++ (g2 ++ (i ++ (g3 ++ (v ++ (post ++ tail)))))))) ∧
  (∀ c ∈ pre, isSpace c = true) ∧ (∀ c, d.head? = some c → isSpace c = false) ∧
  Field d ∧ Field t ∧ Field i ∧ Value v ∧ g1 ≠ [] ∧ g2 ≠ [] ∧ g3 ≠ [] ∧ Blanks g1 ∧ Blanks g2 ∧ Blanks g3 ∧ Blanks post ∧ Tail tail ∧
  e = ⟨d, t.map lower, i.map lower, v.map lower⟩

/-- `line` says that there are no limits for the domain: `domain -` -/
def IsNoLimit (line : Str) (d : Str) : Prop := ∃ pre g post tail,
  line = pre ++ (d ++ (g ++ ('-' :: (post ++ tail)))) ∧ (∀ c ∈ pre, isSpace c = true) ∧ (∀ c, d.head? = some c → isSpace c = false) ∧
  Field d ∧ g ≠ [] ∧ Blanks g ∧ Blanks post ∧ Tail tail

/-- blank lines and comments -/
def IsIgnored (line : Str) : Prop := ∃ pre tail, line = pre ++ tail ∧ (∀ c ∈ pre, isSpace c = true) ∧ (tail = [] ∨ tail.head? = some '#')

/-- The domain stands for the user; `k` says how.  (The forms of domains are treated in C60.) -/
def Stands (sys : Sys) (u : User) (d : Str) (k : Src) : Prop := parseRange d ≠ .err ∧ sourceOf sys u d (parseRange d) = some k

/-- A line `d -` is about the user. -/
def Exempts (sys : Sys) (u : User) (d : Str) : Prop := parseRange d ≠ .err ∧ exempt sys u d (parseRange d) = true

/-- `lines` write down the entries `es`, and no line frees the user from limits -/
inductive Table (sys : Sys) (u : User) : List Str → List Entry → Prop
  | nil : Table sys u [] []
  | entry {l ls e es} : IsEntry l e → Table sys u ls es → Table sys u (l :: ls) (e :: es)
  | skip {l ls es} : IsIgnored l → Table sys u ls es → Table sys u (l :: ls) es
  | other {l ls es d} : IsNoLimit l d → ¬ Exempts sys u d → Table sys u ls es → Table sys u (l :: ls) es

/-! ## precedence -/

/-- how specific a kind of entry is: the user, a group, all of a group, all, everybody else (the last two are no
kinds of entries) -/
def level : Src → Nat
  | .user => 0
  | .group => 1
  | .allgroup => 2
  | .all => 3
  | .default => 4
  | .kernel => 5
  | .none => 6

/-- Of the entries that matter (`rel e k`: `e` matters, and is of kind `k`) `e` is the one that counts: none is more specific, and
it is the last of its kind. -/
def Wins (rel : Entry → Src → Prop) (es : List Entry) (e : Entry) (k : Src) : Prop :=
  ∃ pre post, es = pre ++ e :: post ∧ rel e k ∧ (∀ x ∈ pre, ∀ k', rel x k' → level k ≤ level k') ∧
    (∀ x ∈ post, ∀ k', rel x k' → level k < level k')

/-- the name of a resource -/
def resName : Res → Str
  | .cpu => "cpu".toList
  | .fsize => "fsize".toList
  | .data => "data".toList
  | .stack => "stack".toList
  | .core => "core".toList
  | .rss => "rss".toList
  | .nproc => "nproc".toList
  | .nofile => "nofile".toList
  | .memlock => "memlock".toList
  | .as => "as".toList
  | .locks => "locks".toList
  | .sigpending => "sigpending".toList
  | .msgqueue => "msgqueue".toList
  | .nice => "nice".toList
  | .rtprio => "rtprio".toList
  | .rttime => "rttime".toList

/-- the entry is about the soft limit of `r` for the user; `%` entries are about logins only -/
def SetsSoft (sys : Sys) (u : User) (r : Res) (e : Entry) (k : Src) : Prop :=
  e.item = resName r ∧ (e.type = "soft".toList ∨ e.type = "-".toList) ∧ Stands sys u e.domain k ∧ k ≠ .all ∧ k ≠ .allgroup

/-- the entry is about the hard limit of `r` for the user -/
def SetsHard (sys : Sys) (u : User) (r : Res) (e : Entry) (k : Src) : Prop :=
  e.item = resName r ∧ (e.type = "hard".toList ∨ e.type = "-".toList) ∧ Stands sys u e.domain k ∧ k ≠ .all ∧ k ≠ .allgroup

/-! ## values -/

/-- minutes, kilobytes, or just numbers -/
def unit : Res → Nat
  | .cpu => 60
  | .fsize | .data | .stack | .core | .rss | .memlock | .as => 1024
  | _ => 1

/-- no limit; for the number of files the limit of the system -/
def top (sys : Sys) : Res → Nat
  | .nofile => sys.nrOpen.getD INF
  | _ => INF

/-- the words for no limit -/
def NoLimitWord (s : Str) : Prop :=
  s = "-1".toList ∨ s = "-".toList ∨ s = "unlimited".toList ∨ s = "infinity".toList

/-- the text `s` means the limit `n` for `r` -/
def Means (sys : Sys) (r : Res) (s : Str) (n : Nat) : Prop :=
  if r = .nice then ∃ v, Signed (Digits 10) s v ∧ (n : Int) = 20 - max (-20) (min 19 v)
  else (NoLimitWord s ∧ n = top sys r) ∨ ∃ v, Digits 10 s v ∧ n = if v < INF / unit r then v * unit r else top sys r

/-! ## logins -/

/-- the entry is about the number of logins -/
def SetsLogins (sys : Sys) (u : User) (item : Str) (e : Entry) (k : Src) : Prop :=
  e.item = item ∧ Stands sys u e.domain k ∧ (item = "maxlogins".toList ∨ (k ≠ .all ∧ k ≠ .allgroup))

/-- the text means the number of logins; a negative number stands for no limit -/
def MeansLogins (s : Str) (n : Int) : Prop := (NoLimitWord s ∧ n = -1) ∨
  (¬ NoLimitWord s ∧ Signed (Digits 10) s n ∧ -(2 ^ 31) ≤ n ∧ n < 2 ^ 31)

/-- does the login count against a limit of kind `k`?  `g`: the group of a `%` entry -/
def counted (sys : Sys) (u : User) (g : Str) (k : Src) (e : Utmp) : Bool :=
  e.process && decide (e.user ≠ []) && e.alive && (match k with
    | .all => true
    | .allgroup => sys.inGroup e.user g
    | _ => decide (e.user = u.name))

/-- with `n` logins, is one more (or, with utmp_early, the one that is already in utmp) too many? -/
def Full (early : Bool) (limit : Int) (n : Nat) : Prop := limit = 0 ∨ (0 < limit ∧ limit < n + (if early then 0 else 1))

/-- a number as strtoul takes it, modulo 2^32 -/
def Num (s : Str) (n : Nat) : Prop := ∃ v : Int, Signed (Digits 10) s v ∧ v.natAbs < 2 ^ 64 ∧ (n : Int) = v % 2 ^ 32

/-- `g` is the group of `%g` or `%:gid` -/
inductive GroupOf (sys : Sys) : Str → Str → Prop
  | name {g} : ':' ∉ g → GroupOf sys ('%' :: g) g
  | gid {s n} : Num s n → GroupOf sys ('%' :: ':' :: s) (sys.groupName n)

/-! ## priority and nonewprivs -/

/-- `e` is the last of the entries that matter -/
def Last (rel : Entry → Prop) (es : List Entry) (e : Entry) : Prop := ∃ pre post, es = pre ++ e :: post ∧ rel e ∧ ∀ x ∈ post, ¬ rel x

/-- the entry is about the priority of the user -/
def SetsPriority (sys : Sys) (u : User) (e : Entry) : Prop :=
  e.item = "priority".toList ∧ (e.type = "soft".toList ∨ e.type = "hard".toList ∨ e.type = "-".toList) ∧
  (∃ k, Stands sys u e.domain k ∧ k ≠ .all ∧ k ≠ .allgroup) ∧ (∃ v, Signed (Digits 10) e.value v)

/-- the entry is about no_new_privs for the user -/
def SetsNoNewPrivs (sys : Sys) (u : User) (e : Entry) : Prop :=
  e.item = "nonewprivs".toList ∧ ∃ k, Stands sys u e.domain k ∧ k ≠ .all ∧ k ≠ .allgroup

/-! ## sessions -/

/-- What the entries that matter make of the value `old`: the text of the entry that counts means `n`, or no entry matters. -/
def Settles (rel : Entry → Src → Prop) (means : Str → Nat → Prop) (es : List Entry) (old n : Nat) : Prop :=
  (∃ e k, Wins rel es e k ∧ means e.value n) ∨ ((∀ e ∈ es, ∀ k, ¬ rel e k) ∧ n = old)

/-- the user is known and the process can be asked about its limits -/
def Ready (c : Call) (u : User) (prio : Int) : Prop :=
  ∃ name, c.user = some name ∧ c.pw name = some u ∧ c.rlimitFails = false ∧ c.priority = some prio

/-- the lines of some files, one after the other; files that do not exist are skipped -/
inductive Reads (open_ : Str → Except Errno (List Str)) : List Str → List Str → Prop
  | nil : Reads open_ [] []
  | file {f fs ls rest} : open_ f = .ok ls → Reads open_ fs rest → Reads open_ (f :: fs) (ls ++ rest)
  | missing {f fs rest} : open_ f = .error .enoent → Reads open_ fs rest → Reads open_ (f :: fs) rest

/-- the lines that are read: from the file given with conf=, or from the default file and the directories -/
def ReadsAll (c : Call) (a : Args) (lines : List Str) : Prop :=
  match a.conf with
  | some f => c.open_ f = .ok lines
  | none => Reads c.open_ (c.default :: limitsDir c.etcDir c.vendorDir) lines

/-- the limits before: those of the process, or with set_all those of the first process -/
def before (c : Call) (a : Args) (r : Res) (l : Nat × Nat) : Nat × Nat :=
  if a.setAll = true then (c.kernel r).getD l else l

/-- No entry for the soft limit alone, or no entry for both limits at once, is about `r` and the user. -/
def Unmixed (sys : Sys) (u : User) (r : Res) (es : List Entry) : Prop :=
  (∀ e ∈ es, ∀ k, SetsSoft sys u r e k → e.type ≠ "soft".toList) ∨ (∀ e ∈ es, ∀ k, SetsSoft sys u r e k → e.type ≠ "-".toList)

/-! ## domains -/

/-- the forms of domains, and the kind of entry they make for the user -/
inductive Domain (sys : Sys) (u : User) : Str → Src → Prop
  /-- the name of the user -/
  | name : Domain sys u u.name .user
  /-- `@group` -/
  | group {g} : '@' :: g ≠ u.name → ':' ∉ g → sys.inGroup u.name g = true → Domain sys u ('@' :: g) .group
  /-- `@:gid` -/
  | gid {s n} : Num s n → sys.inGid u.name n = true → Domain sys u ('@' :: ':' :: s) .group
  /-- `@min:` for the primary group -/
  | gidMin {a lo} : Num a lo → lo ≤ u.gid → Domain sys u ('@' :: (a ++ [':'])) .group
  /-- `@min:max` -/
  | gidRange {a b lo hi} : Num a lo → Num b hi → lo ≤ u.gid → u.gid ≤ hi → Domain sys u ('@' :: (a ++ ':' :: b)) .group
  /-- `%` -/
  | all : "%".toList ≠ u.name → Domain sys u "%".toList .all
  /-- `%group` -/
  | allGroup {g} : '%' :: g ≠ u.name → g ≠ [] → ':' ∉ g → sys.inGroup u.name g = true → Domain sys u ('%' :: g) .allgroup
  /-- `%:gid` -/
  | allGid {s n} : Num s n → sys.inGid u.name n = true → Domain sys u ('%' :: ':' :: s) .allgroup
  /-- `*` -/
  | default : "*".toList ≠ u.name → Domain sys u "*".toList .default
  /-- `:uid` -/
  | uid {s} : Num s u.uid → Domain sys u (':' :: s) .user
  /-- `min:` -/
  | uidMin {a lo} : Num a lo → lo ≤ u.uid → Domain sys u (a ++ [':']) .user
  /-- `min:max` -/
  | uidRange {a b lo hi} : Num a lo → Num b hi → lo ≤ u.uid → u.uid ≤ hi → Domain sys u (a ++ ':' :: b) .user

/-- the domains of lines `domain -` that are about the user -/
inductive Free (sys : Sys) (u : User) : Str → Prop
  | name : Free sys u u.name
  | group {g} : '@' :: g ≠ u.name → ':' ∉ g → sys.inGroup u.name g = true → Free sys u ('@' :: g)
  | gid {s n} : Num s n → sys.inGid u.name n = true → Free sys u ('@' :: ':' :: s)
  | gidMin {a lo} : Num a lo → lo ≤ u.gid → Free sys u ('@' :: (a ++ [':']))
  | gidRange {a b lo hi} : Num a lo → Num b hi → lo ≤ u.gid → u.gid ≤ hi → Free sys u ('@' :: (a ++ ':' :: b))
  | uid {s} : Num s u.uid → Free sys u (':' :: s)
  | uidMin {a lo} : Num a lo → lo ≤ u.uid → Free sys u (a ++ [':'])
  | uidRange {a b lo hi} : Num a lo → Num b hi → lo ≤ u.uid → u.uid ≤ hi → Free sys u (a ++ ':' :: b)

end Pam.Limits.Spec
