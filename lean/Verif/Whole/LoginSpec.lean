import Verif.Whole.Unix
import Verif.Whole.Call
import Verif.Unix.LoginProps
/-
What a login with pam_unix is about: the words of the theorems C176 to C178.
-/
namespace Pam.Whole
open Pam Pam.Handle
open Pam.Stack (fileLinesOf)

variable {W : Type}

/-- the application's conversation functions leave the machine alone -/
def Still (host : W → Host) (lib : Lib W) : Prop := ∀ c st msg w, host (lib.conv c st msg w).2 = host w

/-- the configuration of a service has, for an operation, the one line `required` with a module and these arguments, and the module's
function is this one -/
structure OneLine (lib : Lib W) (service : Str) (fn : Config.Fn) (f : Nat → List Str → Prog W) (args : List Str) : Prop where
  dir : lib.sys.confdir.isSome ∨ lib.sys.haveDir
  own : ieq (serviceName service) Config.otherName = false
  line : ∃ path, fileLinesOf lib.sys (serviceName service) fn.mtype = some [⟨.required, path, args⟩] ∧ lib.modules fn path = some f

/-- the machine is in order, as far as a user is concerned -/
structure Healthy (H : Host) (shadow : Str → Option Unix.Sp) (name : Str) : Prop where
  fine : ∀ i, (H.luck i).Fine
  reads : H.sys.RootReads shadow
  trusted : Unix.Trusted H.sys H.bin H.proc name
  nobody : H.sys.pwnam Unix.nobody = none
  day : Unix.Day H.sys.today
  aging : ∀ sp, shadow name = some sp → sp.aging.Ok
  sign : name.head? ≠ some '-' ∧ name.head? ≠ some '+'

/-- how the user's name becomes known: it was given to pam_start, or is the answer to a question -/
inductive Knows (lib : Lib W) (conv : Nat) (w : W) : Option Str → Str → W → List Talk → Prop
  | given (name : Str) : Knows lib conv w (some name) name w []
  | asked (name : Str) (w1 : W) : lib.conv conv .echoOn "login:".toList w = ((PAM_SUCCESS, some (some name)), w1) →
      Knows lib conv w none name w1 [⟨.echoOn, "login:".toList, PAM_SUCCESS, some name⟩]

/-- accounts without a password are let in: `nullok` is given and the application does not forbid it with PAM_DISALLOW_NULL_AUTHTOK -/
def Lenient (args : List Str) (flags : Nat) : Prop := (∃ a ∈ args, "nullok".toList <+: a) ∧ flags.testBit 0 = false

/-- the helper comes to an end -/
def Ends (H : Host) (flags : Nat) (args : List Str) (name : Str) (tok : Int × Str) : Prop :=
  ∀ ctrl, unixCtrl H flags args = some ctrl →
    (Unix.authenticate H.sys H.bin H.luck H.proc ctrl (fun _ => 0) (PAM_SUCCESS, name) tok).isSome = true

/-- no argument begins with that word -/
def Lacks (args : List Str) (word : String) : Prop := ∀ a ∈ args, ¬ word.toList <+: a

/-- no password is stored for the account, and it may be used nevertheless -/
def Open (H : Host) (shadow : Str → Option Unix.Sp) (args : List Str) (flags : Nat) (name : Str) : Prop :=
  Lenient args flags ∧ Unix.NoPassword H.sys shadow name

/-- the password is right -/
def Right (H : Host) (shadow : Str → Option Unix.Sp) (nullok : Bool) (name pw : Str) : Prop :=
  ∃ hash, Unix.Account H.sys shadow name hash ∧ Unix.Accepts H.sys.crypts nullok hash (pw.take 512)

/-- the aging information of an account -/
def Ages (H : Host) (shadow : Str → Option Unix.Sp) (name : Str) (e : Unix.Aging) : Prop :=
  ∃ pw sp, H.sys.pwnam name = some pw ∧ pw.Shadowed ∧ shadow name = some sp ∧ sp.aging = e

/-- the account may be used today: it has no aging information, or that says nothing against it -/
def InOrder (H : Host) (shadow : Str → Option Unix.Sp) (name : Str) : Prop :=
  (∃ pw, H.sys.pwnam name = some pw ∧ ¬ pw.Shadowed) ∨
  ∃ e, Ages H shadow name e ∧ ¬ Unix.Closed e H.sys.today ∧ ¬ Unix.TooLate e H.sys.today ∧ ¬ Unix.MustChange e H.sys.today

/-- what the user is told about an account that is aging so, on a day -/
inductive Told (e : Unix.Aging) (today : Int) : List (Style × Str) → Prop
  | expired : Unix.Closed e today ∨ Unix.TooLate e today →
      Told e today [(.error, "Your account has expired; please contact your system administrator.".toList)]
  | enforced : Unix.MustChange e today → e.lstchg = 0 →
      Told e today [(.error, "You are required to change your password immediately (administrator enforced).".toList)]
  | aged : Unix.MustChange e today → e.lstchg ≠ 0 →
      Told e today [(.error, "You are required to change your password immediately (password expired).".toList)]
  | soon (days : Nat) : ¬ Unix.Closed e today → ¬ Unix.TooLate e today → ¬ Unix.MustChange e today → Unix.Counting e today →
      Unix.WarnTime e today → today + days = e.lstchg + e.max →
      Told e today [(.info, "Warning: your password will expire in ".toList ++ (toString days).toList ++
        (if days = 1 then " day.".toList else " days.".toList))]
  | nothing : ¬ Unix.Closed e today → ¬ Unix.TooLate e today → ¬ Unix.MustChange e today →
      ¬ (Unix.Counting e today ∧ Unix.WarnTime e today) → Told e today []

/-- the messages of a conversation -/
def messages (ts : List Talk) : List (Style × Str) := ts.map fun t => (t.style, t.msg)

end Pam.Whole
