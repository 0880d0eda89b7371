import Verif.Small.Gates
/-
pam_setquota: modules/pam_setquota/pam_setquota.c.  Strings have no NUL.  /proc/mounts is the list that `getmntent` gives, `quotactl` is given by what it reads and
whether a change succeeds.  Logging and `debug=` are left out.
-/
namespace Pam.Quota
open Pam Pam.Small

/-- `struct if_dqblk` without `dqb_valid`: limits of blocks and inodes, and the times of grace -/
structure Quota where
  bhard : Nat
  bsoft : Nat
  ihard : Nat
  isoft : Nat
  btime : Nat
  itime : Nat
deriving DecidableEq, Repr

/-- `dqb_valid`: QIF_BLIMITS, QIF_ILIMITS, QIF_BTIME, QIF_ITIME -/
structure Valid where
  blimits : Bool := false
  ilimits : Bool := false
  btime : Bool := false
  itime : Bool := false
deriving DecidableEq, Repr

/-- what `quotactl(Q_SETQUOTA)` is called with -/
structure Request where
  device : Str
  uid : Nat
  quota : Quota
  valid : Valid
deriving DecidableEq, Repr

/-- `quotactl(2)`: only the fields named by `dqb_valid` are changed -/
def Request.apply (r : Request) (q : Quota) : Quota where
  bhard := if r.valid.blimits then r.quota.bhard else q.bhard
  bsoft := if r.valid.blimits then r.quota.bsoft else q.bsoft
  ihard := if r.valid.ilimits then r.quota.ihard else q.ihard
  isoft := if r.valid.ilimits then r.quota.isoft else q.isoft
  btime := if r.valid.btime then r.quota.btime else q.btime
  itime := if r.valid.itime then r.quota.itime else q.itime

/-- a line of /proc/mounts -/
structure Mount where
  dir : Str
  fsname : Str
deriving DecidableEq, Repr

structure World where
  /-- `UID_MIN` of login.defs, as `pam_modutil_search_key` finds it -/
  uidMin : Option Str
  /-- PAM_USERTYPE_UIDMIN -/
  built : Nat
  /-- PAM_USER -/
  user : Option Str
  /-- `getpwnam`: uid and home directory -/
  pw : Str → Option (Nat × Str)
  /-- /proc/mounts -/
  mounts : Option (List Mount)
  /-- `Q_GETQUOTA` -/
  read : Str → Nat → Option Quota
  /-- `Q_SETQUOTA` succeeds -/
  setOk : Bool

/-- `str_to_dqb_num`: modules/pam_setquota/pam_setquota.c:57-70; `strtoll` sets errno outside of its range -/
def dqbNum (s : Str) : Nat :=
  let (v, ep) := strtoInt 10 s
  if v < 0 ∨ s = ep ∨ ep ≠ [] ∨ 9223372036854775807 < v then 0 else v.toNat

/-- `bhard`, `bsoft`, `ihard`, `isoft` and the quota of `parse_dqblk` -/
structure Parse where
  q : Quota
  v : Valid := {}
  bhard : Bool := false
  bsoft : Bool := false
  ihard : Bool := false
  isoft : Bool := false

/-- the loop of `parse_dqblk`: modules/pam_setquota/pam_setquota.c:77-102 -/
def limitArg (p : Parse) (a : Str) : Parse :=
  match skipPrefix a "bhardlimit=".toList with
  | some s => { p with q := { p.q with bhard := dqbNum s }, v := { p.v with blimits := true }, bhard := true }
  | none =>
  match skipPrefix a "bsoftlimit=".toList with
  | some s => { p with q := { p.q with bsoft := dqbNum s }, v := { p.v with blimits := true }, bsoft := true }
  | none =>
  match skipPrefix a "ihardlimit=".toList with
  | some s => { p with q := { p.q with ihard := dqbNum s }, v := { p.v with ilimits := true }, ihard := true }
  | none =>
  match skipPrefix a "isoftlimit=".toList with
  | some s => { p with q := { p.q with isoft := dqbNum s }, v := { p.v with ilimits := true }, isoft := true }
  | none =>
  match skipPrefix a "btime=".toList with
  | some s => { p with q := { p.q with btime := dqbNum s }, v := { p.v with btime := true } }
  | none =>
  match skipPrefix a "itime=".toList with
  | some s => { p with q := { p.q with itime := dqbNum s }, v := { p.v with itime := true } }
  | none => p

/-- `parse_dqblk`: modules/pam_setquota/pam_setquota.c:72-108 -/
def parseDqblk (argv : List Str) (q : Quota) : Option (Quota × Valid) :=
  let p := argv.foldl limitArg { q := q }
  if p.bhard = p.bsoft ∧ p.ihard = p.isoft then some (p.q, p.v) else none

/-- `str_to_uid`: modules/pam_setquota/pam_setquota.c:110-132 -/
def strToUid (v : Str) (default : Nat) : Nat :=
  let (ul, ep) := strtoul10 v
  if 4294967295 ≤ ul ∨ 4294967295 ≤ ul % 4294967296 ∨ v = ep ∨ ep ≠ [] then default else ul % 4294967296

/-- a `long` cut to an `int` -/
def toInt32 (x : Int) : Int := let y := x % 4294967296; if y < 2147483648 then y else y - 4294967296

/-- the text of `overwrite=`: modules/pam_setquota/pam_setquota.c:151-157 -/
def overwriteOf (s : Str) : Int :=
  let (v, ep) := strtoInt 10 s
  let n := toInt32 (if 9223372036854775807 < v then 9223372036854775807 else if v < -9223372036854775808 then -9223372036854775808 else v)
  if ep ≠ [] ∨ s = ep ∨ (9223372036854775807 < v ∨ v < -9223372036854775808) ∨ n < 0 then 0 else n

/-- `struct pam_params` -/
structure Params where
  start : Nat
  stop : Nat := 0
  fs : Option Str := none
  overwrite : Int := 0

/-- the text of `fs=` up to `fs_len`: modules/pam_setquota/pam_setquota.c:145-149 -/
def fsOf (s : Str) : Str := if 1 < s.length ∧ s.getLast? = some '/' then s.take (s.length - 1) else s

/-- the loop of `parse_params`: modules/pam_setquota/pam_setquota.c:134-168 -/
def paramArg (p : Params) (a : Str) : Params :=
  match skipPrefix a "startuid=".toList with
  | some s => { p with start := strToUid s p.start }
  | none =>
  match skipPrefix a "enduid=".toList with
  | some s => { p with stop := strToUid s p.stop }
  | none =>
  match skipPrefix a "fs=".toList with
  | some s => { p with fs := some (fsOf s) }
  | none =>
  match skipPrefix a "overwrite=".toList with
  | some s => { p with overwrite := overwriteOf s }
  | none => p

/-- the settings: modules/pam_setquota/pam_setquota.c:178-181, 195-213 -/
def params (w : World) (argv : List Str) : Params :=
  let start := match w.uidMin with
    | some v => strToUid v w.built
    | none => w.built
  argv.foldl paramArg { start := start }

/-- a directory without the slashes at its end: modules/pam_setquota/pam_setquota.c:262-264 -/
def bare (d : Str) : Str := (d.reverse.dropWhile (· = '/')).reverse

/-- the search for the home directory: modules/pam_setquota/pam_setquota.c:258-292; the device and `match_size` -/
def homeStep (home : Str) (st : Option Str × Nat) (m : Mount) : Option Str × Nat :=
  let len := (bare m.dir).length
  if st.2 < len ∨ (len = 0 ∧ m.dir.head? = some '/') then
    match skipPrefix home (bare m.dir) with
    | some s => if s.head? = some '/' then (some m.fsname, len) else st
    | none => st
  else st

/-- the search for `fs=`: modules/pam_setquota/pam_setquota.c:293-307 -/
def fsStep (fs : Str) (st : Option Str) (m : Mount) : Option Str :=
  if m.dir = fs ∨ m.fsname = fs then some m.fsname else st

/-- the device: modules/pam_setquota/pam_setquota.c:248-308 -/
def device (fs : Option Str) (home : Str) (mounts : List Mount) : Option Str :=
  match fs with
  | none => (mounts.foldl (homeStep home) (none, 0)).1
  | some f => mounts.foldl (fsStep f) none

/-- is the user in the range: modules/pam_setquota/pam_setquota.c:236-240 -/
def outside (p : Params) (uid : Nat) : Prop := uid < p.start ∨ (p.start ≤ p.stop ∧ p.start ≠ 0 ∧ p.stop < uid)

instance (p : Params) (uid : Nat) : Decidable (outside p uid) := by unfold outside; infer_instance

/-- the rest, once the device is known: modules/pam_setquota/pam_setquota.c:317-382; the result and the change that was asked for -/
def setOn (w : World) (argv : List Str) (overwrite : Int) (uid : Nat) (dev : Str) : Int × Option Request :=
  match w.read dev uid with
  | none => (PAM_PERM_DENIED, none)
  | some q =>
    if (q.bsoft = 0 ∧ q.bhard = 0 ∧ q.isoft = 0 ∧ q.ihard = 0) ∨ overwrite = 1 then
      match parseDqblk argv q with
      | none => (PAM_PERM_DENIED, none)
      | some (nq, v) =>
        if v = {} then (PAM_IGNORE, none)
        else (if w.setOk then PAM_SUCCESS else PAM_PERM_DENIED, some ⟨dev, uid, nq, v⟩)
    else (PAM_IGNORE, none)

/-- `pam_sm_open_session`: modules/pam_setquota/pam_setquota.c:170-384 -/
def openSession (w : World) (argv : List Str) : Int × Option Request :=
  let p := params w argv
  match w.user with
  | none => (PAM_USER_UNKNOWN, none)
  | some user =>
    if user = [] then (PAM_USER_UNKNOWN, none)
    else
      match w.pw user with
      | none => (PAM_USER_UNKNOWN, none)
      | some (uid, home) =>
        if outside p uid then (PAM_SUCCESS, none)
        else
          match w.mounts with
          | none => (PAM_PERM_DENIED, none)
          | some mounts =>
            match device p.fs home mounts with
            | none => (PAM_PERM_DENIED, none)
            | some dev => setOn w argv p.overwrite uid dev

end Pam.Quota
