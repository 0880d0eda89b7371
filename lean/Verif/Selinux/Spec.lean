import Verif.Selinux.Model
/-
Vocabulary for C159 and C160.
-/
namespace Pam.Selinux.Spec
open Pam Pam.Selinux Pam.Small

/-- A context made from the default one: same user; role and type are those of the default, or a role that was asked for with the type that the policy has for it; the
level is that of the default, one that was asked for, or that of the process; the level never changes if the policy has none.  The policy finds it valid, and, if it has
levels, within the default. -/
structure Made (p : Policy) (role level : Str → Prop) (default new : Str) : Prop where
  parts : ∃ d c, p.contextNew default = some d ∧ new = p.contextStr c ∧ c.user = d.user ∧
    ((c.role = d.role ∧ c.type = d.type) ∨ (role c.role ∧ p.defaultType c.role = some c.type)) ∧
    (c.range = d.range ∨ (p.mls = true ∧ ((∃ l, level l ∧ c.range = some l) ∨ ∃ my m, p.getcon = some my ∧ p.contextNew my = some m ∧ c.range = m.range)))
  valid : p.valid new = true
  within : p.mls = true → p.contains default new = true

/-- an answer that begins with y or Y -/
def Yes (s : Option (List Char)) : Prop := ∃ t, s = some ('y' :: t) ∨ s = some ('Y' :: t)

/-- nothing was asked for -/
def Nothing (s : Option (List Char)) : Prop := s = none ∨ s = some []

/-- role and type as the variable SELINUX_ROLE_REQUESTED asks for, if it is to be looked at -/
def RoleIs (p : Policy) (env : List Char → Option (List Char)) (params : Bool) (d c : Ctx) : Prop :=
  (params = false ∨ Nothing (env "SELINUX_ROLE_REQUESTED".toList) → c.role = d.role ∧ c.type = d.type) ∧
  (∀ r, params = true → env "SELINUX_ROLE_REQUESTED".toList = some r → r ≠ [] →
    c.role = r ∧ p.defaultType r = some c.type ∧ p.roleOk r = true ∧ p.typeOk c.type = true)

/-- the level that is asked for is this one -/
def LevelIs (p : Policy) (l : Option (List Char)) (d c : Ctx) : Prop :=
  (Nothing l → c.range = d.range) ∧ (∀ x, l = some x → x ≠ [] → c.range = some x ∧ p.rangeOk (some x) = true)

/-- SELINUX_USE_CURRENT_RANGE begins with 1, or the module's argument says so -/
def Current (env : List Char → Option (List Char)) (current : Bool) : Prop := current = true ∨ ∃ t, env "SELINUX_USE_CURRENT_RANGE".toList = some ('1' :: t)

/-- the level as the variables ask for it -/
def RangeIs (p : Policy) (env : List Char → Option (List Char)) (current : Bool) (d c : Ctx) : Prop :=
  (p.mls = false → c.range = d.range) ∧
  (p.mls = true → ¬ Current env current → LevelIs p (env "SELINUX_LEVEL_REQUESTED".toList) d c) ∧
  (p.mls = true → Current env current → ∃ my m, p.getcon = some my ∧ p.contextNew my = some m ∧ LevelIs p m.range d c)

/-- a name for a terminal: not empty, not "ssh" and not beginning with NODEV -/
def Usable (s : Option (List Char)) (n : List Char) : Prop := s = some n ∧ n ≠ [] ∧ n ≠ "ssh".toList ∧ ¬ "NODEV".toList <+: n

/-- the name of the user's terminal: PAM_TTY if that is usable, otherwise the first of the terminals of standard input, output and error that has a name -/
def Named (w : World) (n : List Char) : Prop :=
  Usable w.tty n ∨ ((∀ x, ¬ Usable w.tty x) ∧
    ((w.stdin = some n ∧ n ≠ []) ∨ (Nothing w.stdin ∧
      ((w.stdout = some n ∧ n ≠ []) ∨ (Nothing w.stdout ∧ w.stderr = some n ∧ n ≠ [])))))

/-- the path of the user's terminal: its name, below /dev/ -/
def Terminal (w : World) (path : List Char) : Prop :=
  ∃ n, Named w n ∧ (("/dev/".toList <+: n ∧ path = n) ∨ (¬ "/dev/".toList <+: n ∧ path = "/dev/".toList ++ n))

end Pam.Selinux.Spec
