import Verif.Env.Model
import Verif.Handle.PEnvSpec
import Verif.Env.LineNul
/-
What pam_env.conf(5) says: entries, their settings, what is put in the place of `${NAME}` and `@{NAME}`, and what an entry does to the environment.
-/
namespace Pam.Env.Spec
open Pam Pam.Small

/-- the variables of an environment and their values -/
abbrev Vars := Str → Option Str

/-- with one variable changed -/
def update (m : Vars) (n : Str) (v : Option Str) : Vars := fun k => if k = n then v else m k

/-- An environment that some history of `pam_putenv` leads to, and what `pam_getenv` says about it -/
def Reads (e : PEnv) (m : Vars) : Prop :=
  (∃ cs h, Handle.Spec.runPuts cs = some (h, e)) ∧ ∀ n, '=' ∉ n → e.getenv (some n) = some (m n)

/-! ### entries -/

/-- a blank that separates words -/
def Blank (c : Char) : Prop := c = ' ' ∨ c = '\t'

/-- a setting of an entry: the blanks in front of it, DEFAULT or OVERRIDE, its value with or without quotes -/
structure Setting where
  sep : Str
  override : Bool
  quoted : Bool
  text : Str

/-- how it is written -/
def Setting.written (s : Setting) : Str :=
  s.sep ++ (if s.override then "OVERRIDE=".toList else "DEFAULT=".toList) ++ (if s.quoted then '"' :: s.text ++ ['"'] else s.text)

/-- well-formed settings -/
def Setting.Ok (s : Setting) : Prop :=
  s.sep ≠ [] ∧ (∀ c ∈ s.sep, Blank c) ∧
  (s.quoted = true → '"' ∉ s.text) ∧
  (s.quoted = false → (∀ c ∈ s.text, ¬ Blank c ∧ c ≠ '\n') ∧ s.text.head? ≠ some '"')

/-- an entry: the name of a variable and its settings -/
structure Entry where
  name : Str
  settings : List Setting

/-- a line that is this entry: it may end with a newline, and nothing else follows -/
def Entry.IsLine (e : Entry) (l : Str) : Prop :=
  (∀ c ∈ e.name, ¬ Blank c ∧ c ≠ '\n') ∧ (∀ s ∈ e.settings, s.Ok) ∧
  ∃ rest, l = e.name ++ e.settings.flatMap Setting.written ++ rest ∧ (rest = [] ∨ ∃ x, rest = '\n' :: x)

/-- the setting that counts: the last one that gives a value.  `DEFAULT=` without anything gives none, `DEFAULT=""` an empty one. -/
def Entry.last (e : Entry) (override : Bool) : Option Setting :=
  e.settings.reverse.find? (fun s => s.override == override && (s.quoted || !s.text.isEmpty))

/-- no `DEFAULT=` or `OVERRIDE=` without a value follows a value in quotes in the same entry -/
def Entry.Plain (e : Entry) : Prop :=
  ∀ a s b, e.settings = a ++ s :: b → s.quoted = true → s.text ≠ [] → ∀ t ∈ b, t.quoted = true ∨ t.text ≠ []

/-! ### values -/

/-- what `@{NAME}` stands for -/
def item (w : Who) (n : Str) : Option Str :=
  ([("PAM_USER".toList, w.user), ("PAM_USER_PROMPT".toList, w.userPrompt), ("PAM_TTY".toList, w.tty), ("PAM_RUSER".toList, w.ruser),
    ("PAM_RHOST".toList, w.rhost), ("HOME".toList, (w.user.bind w.pw).map Prod.fst), ("SHELL".toList, (w.user.bind w.pw).map Prod.snd)].lookup n).join

/-- the characters with a meaning -/
def Special (c : Char) : Prop := c = '\\' ∨ c = '$' ∨ c = '@'

/-- What a value becomes: `${NAME}` becomes the value of the variable, `@{NAME}` that of the item, nothing if there is none; a backslash takes the
meaning from a special character and is dropped otherwise; `none` if there is `${` or `@{` without a closing brace. -/
inductive Expands (m : Vars) (w : Who) : Str → Option Str → Prop
  | nil : Expands m w [] (some [])
  | char {c s r} : ¬ Special c → Expands m w s r → Expands m w (c :: s) (r.map (c :: ·))
  | escaped {c s r} : Special c → Expands m w s r → Expands m w ('\\' :: c :: s) (r.map (c :: ·))
  | dropped {s r} : (∀ c ∈ s.head?, ¬ Special c) → Expands m w s r → Expands m w ('\\' :: s) r
  | lone {c s r} : c = '$' ∨ c = '@' → s.head? ≠ some '{' → Expands m w s r → Expands m w (c :: s) (r.map (c :: ·))
  | var {n s r} : '}' ∉ n → '=' ∉ n → Expands m w s r → Expands m w ("${".toList ++ n ++ '}' :: s) (r.map ((m n).getD [] ++ ·))
  | item {n s r} : '}' ∉ n → Expands m w s r → Expands m w ("@{".toList ++ n ++ '}' :: s) (r.map ((item w n).getD [] ++ ·))
  | unclosed {c s} : c = '$' ∨ c = '@' → '}' ∉ s → Expands m w (c :: '{' :: s) none

/-- the value of a setting, `some none` if there is no setting, `none` if its text is malformed -/
def Value (m : Vars) (w : Who) (o : Option Setting) (r : Option (Option Str)) : Prop :=
  match o with
  | none => r = some none
  | some s => ∃ x, Expands m w s.text x ∧ r = x.map some

/-! ### what an entry does -/

inductive Effect where
  | set (v : Str)
  | unset
  | fails

/-- The value of OVERRIDE counts if it is not empty, else that of DEFAULT, if there is one; without both the variable is removed. -/
inductive Entry.Does (m : Vars) (w : Who) (e : Entry) : Effect → Prop
  | override {d v} : Value m w (e.last false) (some d) → Value m w (e.last true) (some (some v)) → v ≠ [] → Does m w e (.set v)
  | default {v o} : Value m w (e.last false) (some (some v)) → Value m w (e.last true) (some o) → o = none ∨ o = some [] → Does m w e (.set v)
  | unset {o} : Value m w (e.last false) (some none) → Value m w (e.last true) (some o) → o = none ∨ o = some [] → Does m w e .unset
  | fails {d o} : Value m w (e.last false) d → Value m w (e.last true) o → d = none ∨ o = none → Does m w e .fails

/-- a line and what it means: an entry about a variable whose name has no `=` in it, or `none` for a line that is no entry at all -/
def Means (l : Str) : Option Entry → Prop
  | some e => e.IsLine l ∧ e.Plain ∧ e.name ≠ [] ∧ '=' ∉ e.name
  | none => ¬ ∃ e : Entry, e.IsLine l

/-- lines and what each of them means -/
inductive Meanings : List Str → List (Option Entry) → Prop
  | nil : Meanings [] []
  | cons {l ls o es} : Means l o → Meanings ls es → Meanings (l :: ls) (o :: es)

/-- Reading a file, line by line, from `m`: the variables afterwards, and how the last line went (`none`: reading stopped at a malformed value;
`some false`: it was no entry or had nothing to remove). -/
inductive Runs (w : Who) : Vars → List (Option Entry) → (before : Bool) → Vars → Option Bool → Prop
  | nil {m ok} : Runs w m [] ok m (some ok)
  | skip {m es ok m' r} : Runs w m es false m' r → Runs w m (none :: es) ok m' r
  | set {m e es ok v m' r} : e.Does m w (.set v) → Runs w (update m e.name (some v)) es true m' r → Runs w m (some e :: es) ok m' r
  | unset {m e es ok m' r} : e.Does m w .unset → Runs w (update m e.name none) es (m e.name).isSome m' r → Runs w m (some e :: es) ok m' r
  | fails {m e es ok} : e.Does m w .fails → Runs w m (some e :: es) ok m none

/-! ### /etc/environment -/

/-- a character of a name -/
def NameChar (c : Char) : Prop := ('0' ≤ c ∧ c ≤ '9') ∨ ('a' ≤ c ∧ c ≤ 'z') ∨ ('A' ≤ c ∧ c ≤ 'Z') ∨ c = '_'

/-- what is between the quotes, if the value begins with one; a last quote is dropped then, the others stay -/
inductive Unquoted : Str → Str → Prop
  | bare {v} : (∀ c ∈ v.head?, c ≠ '"' ∧ c ≠ '\'') → Unquoted v v
  | closed {q q' v} : q = '"' ∨ q = '\'' → q' = '"' ∨ q' = '\'' → Unquoted (q :: v ++ [q']) v
  | unclosed {q v} : q = '"' ∨ q = '\'' → (∀ c ∈ v.getLast?, c ≠ '"' ∧ c ≠ '\'') → Unquoted (q :: v) v

/-- a line of /etc/environment without indentation: `[export ]text`, up to the newline -/
def Body (l t : Str) : Prop :=
  ∃ pre rest, l = pre ++ t ++ rest ∧ (pre = "export ".toList ∨ (pre = [] ∧ ¬ "export ".toList <+: l)) ∧ '\n' ∉ t ∧ (rest = [] ∨ ∃ x, rest = '\n' :: x)

inductive EnvEffect where
  | set (n v : Str)
  | unset (n : Str)
  | nothing

/-- `NAME=value` sets the variable, `NAME` removes it, everything else is ignored -/
def EnvMeans (l : Str) (f : EnvEffect) : Prop :=
  ∃ t, Body l t ∧
  match f with
  | .set n v => n ≠ [] ∧ (∀ c ∈ n, NameChar c) ∧ ∃ q, t = n ++ '=' :: q ∧ Unquoted q v
  | .unset n => n ≠ [] ∧ t = n ∧ ∀ c ∈ n, NameChar c
  | .nothing => ¬ ∃ n q, t = n ++ q ∧ n ≠ [] ∧ (∀ c ∈ n, NameChar c) ∧ (q = [] ∨ ∃ q', q = '=' :: q')

/-- lines and what each of them means, leading blanks of the line aside -/
inductive EnvMeanings : List Str → List EnvEffect → Prop
  | nil : EnvMeanings [] []
  | cons {l ls f fs} : EnvMeans l f → EnvMeanings ls fs → EnvMeanings (l :: ls) (f :: fs)

/-- what it does to the variables -/
def EnvEffect.on (m : Vars) : EnvEffect → Vars
  | .set n v => update m n (some v)
  | .unset n => update m n none
  | .nothing => m

/-! ### files -/

/-- A file read as pam_env.conf: not there (PAM_IGNORE), or made of entries and comments; PAM_ABORT if the last line was not good or a value is
malformed. -/
def ConfRead (w : Who) (content : Option Str) (m m' : Vars) (code : Int) : Prop :=
  (content = none ∧ m' = m ∧ code = PAM_IGNORE) ∨
  ∃ (its : List Config.Spec.Item) (es : List (Option Entry)) (r : Option Bool), content = some (its.flatMap Config.Spec.Item.text) ∧ (∀ it ∈ its, it.Ok) ∧ Meanings (its.filterMap Config.Spec.Item.glued) es ∧
    Runs w m es true m' r ∧ code = if r = some true then PAM_SUCCESS else PAM_ABORT

/-- a file read as /etc/environment -/
def EnvRead (content : Option Str) (m m' : Vars) : Prop :=
  (content = none ∧ m' = m) ∨
  ∃ (its : List Config.Spec.Item) (fs : List EnvEffect), content = some (its.flatMap Config.Spec.Item.text) ∧ (∀ it ∈ its, it.Ok) ∧ EnvMeanings (its.filterMap Config.Spec.Item.glued) fs ∧
    m' = fs.foldl EnvEffect.on m

/-! ### options -/

/-- the file named by the last `key=file` that names one, else the default -/
def File (key : Str) (argv : List Str) (default file : Str) : Prop :=
  ((∀ x ∈ argv, ∀ v, x = key ++ v → v = []) ∧ file = default) ∨
  ∃ a b, argv = a ++ (key ++ file) :: b ∧ file ≠ [] ∧ ∀ x ∈ b, ∀ v, x = key ++ v → v = []

/-- the last of `key=0` and `key=1`, else the default -/
def Flag (key : Str) (argv : List Str) (default flag : Bool) : Prop :=
  ((∀ x ∈ argv, ¬ key <+: x) ∧ flag = default) ∨
  ∃ a b, argv = a ++ (key ++ if flag then ['1'] else ['0']) :: b ∧ ∀ x ∈ b, ¬ key <+: x

/-! ### opening a session -/

/-- the options of the module -/
structure Args where
  conffile : Str
  envfile : Str
  ownfile : Str
  readenv : Bool
  userReadenv : Bool

/-- what the arguments say -/
structure Args.Of (a : Args) (argv : List Str) (conf : Str) : Prop where
  conffile : File "conffile=".toList argv conf a.conffile
  envfile : File "envfile=".toList argv "/etc/environment".toList a.envfile
  ownfile : File "user_envfile=".toList argv ".pam_environment".toList a.ownfile
  readenv : Flag "readenv=".toList argv true a.readenv
  userReadenv : Flag "user_readenv=".toList argv false a.userReadenv

/-- both files of the system are read, the second unless `readenv=0` -/
def SystemFiles (w : World) (a : Args) (m m2 : Vars) : Prop :=
  ∃ m1, ConfRead w.who (w.read true a.conffile) m m1 PAM_SUCCESS ∧
    ((a.readenv = true ∧ EnvRead (w.read true a.envfile) m1 m2) ∨ (a.readenv = false ∧ m2 = m1))

/-- the user has a file of their own, and it is to be read -/
def OwnFile (w : World) (a : Args) (path : Str) : Prop :=
  a.userReadenv = true ∧ ∃ u dir shell, w.who.user = some u ∧ w.who.pw u = some (dir, shell) ∧ path = dir ++ '/' :: a.ownfile ∧ w.exists_ path = true

/-- What opening a session does to the variables, and its result.  If the first file of the system is not there or is not good, nothing else is read. The
user's own file is read without privileges (`w.read false`), and not at all if they cannot be dropped. -/
inductive Session (w : World) (a : Args) (m : Vars) : Vars → Int → Prop
  | conf {m1 code} : ConfRead w.who (w.read true a.conffile) m m1 code → code ≠ PAM_SUCCESS → Session w a m m1 code
  | system {m2} : SystemFiles w a m m2 → (∀ path, ¬ OwnFile w a path) → Session w a m m2 PAM_SUCCESS
  | privileged {m2 path} : SystemFiles w a m m2 → OwnFile w a path → w.drop = false → Session w a m m2 PAM_SESSION_ERR
  | own {m2 path m3 code} : SystemFiles w a m m2 → OwnFile w a path → w.drop = true → ConfRead w.who (w.read false path) m2 m3 code →
      Session w a m m3 (if w.regain = false then PAM_SESSION_ERR else if code = PAM_IGNORE then PAM_SUCCESS else code)

end Pam.Env.Spec
