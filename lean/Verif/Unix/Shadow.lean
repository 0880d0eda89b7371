import Verif.Core.Codes
import Verif.Core.Text
/-
Model of password aging, `check_shadow_expiry`: modules/pam_unix/passverify.c:276-335.
-/
namespace Pam.Unix
open Pam

/-- the numbers of a line of /etc/shadow; a field that is empty is -1 -/
structure Aging where
  lstchg : Int
  min : Int
  max : Int
  warn : Int
  inact : Int
  expire : Int
deriving DecidableEq, Repr

/-- LONG_MAX -/
abbrev LMAX : Int := 9223372036854775807

/-- arithmetic on `long`: a result that does not fit is undefined behaviour, `none` -/
def long (v : Int) : Option Int := if -LMAX - 1 ≤ v ∧ v ≤ LMAX then some v else none

/-- lines 305-315: is the password dead, and the days since -/
def inactive (e : Aging) (passed : Int) : Option (Option Int) :=
  if e.inact ≥ 0 then do
    let room ← long (LMAX - e.inact)
    let inact ← if e.max < room then long (e.max + e.inact) else some LMAX
    if passed ≥ inact then do
      let d ← long (inact - passed)
      some (some d)
    else some none
  else some none

/-- lines 320-328: the days left, if it is time to warn -/
def warning (e : Aging) (passed : Int) : Option Int :=
  if e.warn > 0 then do
    let w ← if e.warn > e.max then some (-1) else long (e.max - e.warn)
    if passed ≥ w then long (e.max - passed) else some (-1)
  else some (-1)

/-- lines 330-337 -/
def tooYoung (e : Aging) (passed daysleft : Int) : Int × Int :=
  if e.min > 0 ∧ passed < e.min then (PAM_AUTHTOK_ERR, daysleft) else (PAM_SUCCESS, daysleft)

/-- lines 304-337 -/
def aged (e : Aging) (passed : Int) : Option (Int × Int) :=
  if e.max ≥ 0 then do
    match ← inactive e passed with
    | some d => some (PAM_AUTHTOK_EXPIRED, d)
    | none =>
      if passed ≥ e.max then some (PAM_NEW_AUTHTOK_REQD, -1)
      else do
        let d ← warning e passed
        some (tooYoung e passed d)
  else some (tooYoung e passed (-1))

/-- `check_shadow_expiry`: modules/pam_unix/passverify.c:276-337, on day `curdays`: the code and the days left.  `none`: undefined
behaviour. -/
def checkExpiry (e : Aging) (curdays : Int) : Option (Int × Int) :=
  if e.expire ≥ 0 ∧ curdays ≥ e.expire then some (PAM_ACCT_EXPIRED, -1)
  else if e.lstchg = 0 then some (PAM_NEW_AUTHTOK_REQD, 0)
  else if e.lstchg < 0 then some (PAM_SUCCESS, -1)
  else if curdays < e.lstchg then some (PAM_SUCCESS, -1)
  else do
    let passed ← long (curdays - e.lstchg)
    aged e passed

end Pam.Unix
