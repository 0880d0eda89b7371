import Verif.Timestamp.Model
import Verif.Digest.Sha1Spec
/-
What pam_timestamp promises, without reference to how the code computes it.  Only the records of the model that describe the world are used.
-/
namespace Pam.Timestamp.Spec
open Pam Pam.Digest Pam.Timestamp

/-- the directories on the way to `dir`: what ends in a '/', and `dir` itself -/
def Component (dir p : Str) : Prop := p ≠ [] ∧ p <+: dir ∧ (p = dir ∨ p.getLast? = some slash)

/-- a directory of root's that only root can write to -/
def Safe (st : Stat) : Prop := st.kind = .dir ∧ st.uid = 0 ∧ st.gid = 0 ∧ st.lax = false

/-- every directory on the way is safe or does not exist -/
def SafeDir (lstat : Str → LRes) (dir : Str) : Prop :=
  dir ≠ [] ∧ ∀ p, Component dir p → (∃ st, lstat p = .ok st ∧ Safe st) ∨ lstat p = .noent

/-- usable as one component of a path -/
def Part (s : Str) : Prop := s ≠ [] ∧ slash ∉ s ∧ s ≠ lit "." ∧ s ≠ lit ".."

/-- the user who asks: PAM_RUSER if it is set, which must be usable in a path, and the owner of the process otherwise -/
def Requester (it : Items) (r : Str) : Prop :=
  r ≠ [] ∧ ((it.ruser = some r ∧ Part r) ∨ ((it.ruser = none ∨ it.ruser = some []) ∧ it.login = some r))

/-- the first name there is -/
def FirstName (l : List (Option Str)) (t : Str) : Prop :=
  (∃ a b, l = a ++ some t :: b ∧ t ≠ [] ∧ ∀ x ∈ a, x = none ∨ x = some []) ∨ (t = lit "unknown" ∧ ∀ x ∈ l, x = none ∨ x = some [])

/-- the terminal `full` is called `t` in the name of the file: a name without '/', or the last part of a name below /dev -/
def Terminal (full t : Str) : Prop :=
  Part t ∧ (full = t ∨ ∃ d, full = d ++ slash :: t ∧ lit "/dev/" <+: full)

/-- the file for the requests of `r` from `t` to become `u` -/
def fileFor (dir r t u : Str) : Str :=
  dir ++ slash :: (r ++ slash :: (t ++ (if r = u then [] else colon :: u)))

/-- the directory: the last `timestampdir=`, or the default -/
def DirOf (argv : List Str) (dir : Str) : Prop :=
  (∃ a b, argv = a ++ (lit "timestampdir=" ++ dir) :: b ∧ ∀ x ∈ b, ¬ lit "timestampdir=" <+: x) ∨
  ((∀ x ∈ argv, ¬ lit "timestampdir=" <+: x) ∧ dir = lit "/var/run/pam_timestamp")

/-- the text after `timestamp_timeout=` gives the number `v`; an empty text gives 0 -/
def Seconds (s : Str) (v : Int) : Prop :=
  (s = [] ∧ v = 0) ∨ ∃ n, Numeral (chars s) n ∧ v = max (-(2 ^ 63)) (min (2 ^ 63 - 1) n)

/-- the last `timestamp_timeout=` with a number, or five minutes -/
def Timeout (argv : List Str) (v : Int) : Prop :=
  (∃ a s b, argv = a ++ (lit "timestamp_timeout=" ++ s) :: b ∧ Seconds s v ∧ ∀ x ∈ b, ∀ s' v', x = lit "timestamp_timeout=" ++ s' → ¬ Seconds s' v') ∨
  ((∀ x ∈ argv, ∀ s' v', x = lit "timestamp_timeout=" ++ s' → ¬ Seconds s' v') ∧ v = 300)

/-- the file that belongs to a request -/
def FileOf (lstat : Str → LRes) (it : Items) (argv : List Str) (p : Str) : Prop :=
  ∃ dir u r full t, DirOf argv dir ∧ SafeDir lstat dir ∧ it.user = some u ∧ u ≠ [] ∧ Requester it r ∧ FirstName (it.tty :: it.ttyname) full ∧
    Terminal full t ∧ p = fileFor dir r t u ∧ p.length < 4096

/-- recent: less than `iv` seconds old, or less than twice that in the future -/
def Fresh (thn now iv : Int) : Prop := (thn ≤ now ∧ now - thn < iv) ∨ (now < thn ∧ thn - now < 2 * iv)

/-- `r` was logged in at the time -/
def LoggedInBy (us : List Ut) (r : Str) (thn : Int) : Prop :=
  ∃ u ∈ us, u.process = true ∧ u.user.take 32 = r.take 32 ∧ (u.sec.toNat : Int) ≤ thn

/-- the login times in utmp are after 1970 and before 2038 -/
def SaneLogins (us : List Ut) : Prop := ∀ u ∈ us, u.process = true → 0 < u.sec.toNat ∧ u.sec.toNat < 2 ^ 31

/-- the key that is in force: what is in the key file, or what has just been created from random bytes because there was no file -/
def KeyOf (io : KeyIO) (f : KeyFile) (key : Str) : Prop :=
  io.fstat = true ∧ io.readAll = true ∧
  (f = .bytes key ∨ (f = .absent ∧ io.create = true ∧ io.reopen = true ∧
    io.chown = true ∧ ∃ r, io.random = some r ∧ 64 ≤ r.length ∧ key = r.take (min io.written 64)))

/-- the value of a `time_t` in memory -/
def timeValue (b : Str) : Int :=
  let n : Nat := b.foldr (fun x acc => acc * 256 + x.toNat) 0
  if n < 2 ^ 63 then n else (n : Int) - 2 ^ 64

/-- A time stamp of `thn` for the path, made with the key: path, one byte, time, and the HMAC of all that. -/
def Stamp (key path : Str) (thn : Int) (content : Str) : Prop :=
  ∃ x t, t.length = 8 ∧ timeValue t = thn ∧ content = path ++ x :: t ++ Spec.hmacSha1 key (path ++ x :: t)

end Pam.Timestamp.Spec
