import Verif.Core.Codes
/-
modules/pam_stress/pam_stress.c: the module for testing applications.

A handle is the items the module uses and its data `stress_new_pwd`.  The conversation function of the application is any function of the messages so far, which also says how the
call ends; `none`: the application has none.  Memory is available.  Left out: the log.
-/
namespace Pam.Stress
open Pam

/-- a C string -/
abbrev Str := List Char

/-- the options: modules/pam_stress/pam_stress.c:30-42 -/
structure Ctrl where
  noWarn : Bool := false
  useFirst : Bool := false
  tryFirst : Bool := false
  rootok : Bool := false
  expired : Bool := false
  fail1 : Bool := false
  fail2 : Bool := false
  prelim : Bool := false
  required : Bool := false
  deriving DecidableEq

/-- one argument: modules/pam_stress/pam_stress.c:72-101 -/
def parseArg (c : Ctrl) (a : Str) : Ctrl :=
  if a = "debug".toList then c
  else if a = "no_warn".toList then { c with noWarn := true }
  else if a = "use_first_pass".toList then { c with useFirst := true }
  else if a = "try_first_pass".toList then { c with tryFirst := true }
  else if a = "rootok".toList then { c with rootok := true }
  else if a = "expired".toList then { c with expired := true }
  else if a = "fail_1".toList then { c with fail1 := true }
  else if a = "fail_2".toList then { c with fail2 := true }
  else if a = "prelim".toList then { c with prelim := true }
  else if a = "required".toList then { c with required := true }
  else c

/-- `_pam_parse`: modules/pam_stress/pam_stress.c:62-105 -/
def parse (argv : List Str) : Ctrl := argv.foldl parseArg {}

/-- a message to the user -/
inductive Msg
  | secret (text : Str)
  | info (text : Str)
  | error (text : Str)
  deriving DecidableEq

/-- the items and the data of the handle -/
structure H where
  user : Option Str
  service : Option Str
  authtok : Option Str
  oldauthtok : Option Str
  newPwd : Option Str
  deriving DecidableEq

/-- the conversation function: what was asked before, and what is asked now; the code, and the answers, which may be NULL -/
abbrev Conv := Option (List (List Msg) → List Msg → Int × Option (List (Option Str)))

/-- what the call comes from: the flags, the user id, and what `pam_get_user` answers -/
structure Call where
  silent : Bool := false
  disallowNull : Bool := false
  prelimCheck : Bool := false
  update : Bool := false
  changeExpired : Bool := false
  root : Bool := false
  getUser : Int := 0

/-- the handle and what the user was asked -/
structure St where
  h : H
  asked : List (List Msg) := []

/-- `converse`: modules/pam_stress/pam_stress.c:107-130 -/
def converse (conv : Conv) (msgs : List Msg) (s : St) : Int × Option (List (Option Str)) × St :=
  match conv with
  | none => (PAM_BAD_ITEM, none, s)
  | some f => ((f s.asked msgs).1, (f s.asked msgs).2, { s with asked := s.asked ++ [msgs] })

/-- `stress_get_password`: modules/pam_stress/pam_stress.c:134-195; the code, the password, which may be NULL, and the state.  `none`: an answer that is not there is read. -/
def getPassword (conv : Conv) (c : Ctrl) (k : Call) (s : St) : Option (Int × Option Str × St) :=
  if (c.tryFirst ∨ c.useFirst) ∧ s.h.authtok ≠ none then some (PAM_SUCCESS, s.h.authtok, s)
  else if c.useFirst then some (PAM_PERM_DENIED, none, s)
  else
    match converse conv [.secret "STRESS Password: ".toList] s with
    | (r, resp, s) =>
      if r ≠ PAM_SUCCESS then some (r, none, s)
      else match resp with
        | none => some (PAM_CONV_ERR, none, s)
        | some [] => none
        | some (a :: _) => if k.disallowNull ∧ a = none then some (PAM_AUTH_ERR, none, s) else some (PAM_SUCCESS, a, s)

/-- `pam_sm_authenticate`: modules/pam_stress/pam_stress.c:205-269 -/
def authenticate (conv : Conv) (argv : List Str) (k : Call) (s : St) : Option (Int × St) :=
  let c := parse argv
  if k.getUser ≠ PAM_SUCCESS then some (k.getUser, s)
  else match getPassword conv c k s with
    | none => none
    | some (r, pass, s) =>
      if r ≠ PAM_SUCCESS then some (r, s)
      else some (if c.fail1 then PAM_PERM_DENIED else PAM_SUCCESS, { s with h := { s.h with authtok := pass } })

/-- `pam_sm_setcred`: modules/pam_stress/pam_stress.c:271-284 -/
def setcred (argv : List Str) : Int := if (parse argv).fail2 then PAM_CRED_ERR else PAM_SUCCESS

/-- `pam_sm_acct_mgmt`: modules/pam_stress/pam_stress.c:288-320 -/
def acct (argv : List Str) (h : H) : Int × H :=
  let c := parse argv
  if c.fail1 then (PAM_PERM_DENIED, h)
  else if c.expired then (PAM_NEW_AUTHTOK_REQD, { h with newPwd := some "yes".toList })
  else (PAM_SUCCESS, h)

/-- `pam_sm_open_session`: modules/pam_stress/pam_stress.c:322-347 -/
def openSession (argv : List Str) (h : H) : Int :=
  if h.user = none ∨ h.service = none then PAM_SESSION_ERR
  else if (parse argv).fail1 then PAM_SESSION_ERR else PAM_SUCCESS

/-- `pam_sm_close_session`: modules/pam_stress/pam_stress.c:349-374 -/
def closeSession (argv : List Str) (h : H) : Int :=
  if h.user = none ∨ h.service = none then PAM_SESSION_ERR
  else if (parse argv).fail2 then PAM_SESSION_ERR else PAM_SUCCESS

/-- the old password, if it is to be asked for: modules/pam_stress/pam_stress.c:418-444 -/
def oldPassword (conv : Conv) (c : Ctrl) (k : Call) (s : St) : Option (Int × St) :=
  if c.required ∧ ¬ (k.root ∧ c.rootok) then
    match getPassword conv c k s with
    | none => none
    | some (r, pass, s) => if r ≠ PAM_SUCCESS then some (r, s) else some (PAM_SUCCESS, { s with h := { s.h with oldauthtok := pass } })
  else some (PAM_SUCCESS, s)

/-- the questions for the new password: modules/pam_stress/pam_stress.c:446-476 -/
def questions (k : Call) (user : Str) : List Msg :=
  (if ¬ k.silent then [.info ("Changing STRESS password for ".toList ++ user ++ ".".toList)] else []) ++
    [.secret "Enter new STRESS password: ".toList, .secret "Retype new STRESS password: ".toList]

/-- what is done with the answers: modules/pam_stress/pam_stress.c:491-527; `i` is the number of questions -/
def store (conv : Conv) (c : Ctrl) (k : Call) (i : Nat) (resp : List (Option Str)) (s : St) : Option (Int × St) :=
  match resp[i - 2]?, resp[i - 1]?, resp[0]? with
  | some a, some b, some first =>
    if a ≠ none ∧ b ≠ none then
      if a ≠ b then
        if ¬ k.silent ∧ ¬ c.noWarn then some (PAM_AUTHTOK_ERR, (converse conv [.error "Verification mis-typed; password unchanged".toList] s).2.2)
        else some (PAM_AUTHTOK_ERR, s)
      else some (PAM_SUCCESS, { s with h := { s.h with oldauthtok := s.h.authtok, authtok := first } })
    else some (PAM_SYSTEM_ERR, s)
  | _, _, _ => none

/-- `pam_sm_chauthtok`: modules/pam_stress/pam_stress.c:376-533 -/
def chauthtok (conv : Conv) (argv : List Str) (k : Call) (s : St) : Option (Int × St) :=
  let c := parse argv
  if k.prelimCheck then some (if c.prelim then PAM_TRY_AGAIN else PAM_SUCCESS, s)
  else if k.update then
    if c.fail1 then some (PAM_AUTHTOK_LOCK_BUSY, s)
    else if ¬ c.expired ∧ k.changeExpired ∧ s.h.newPwd ≠ some "yes".toList then some (PAM_SUCCESS, s)
    else match oldPassword conv c k s with
      | none => none
      | some (r, s) =>
        if r ≠ PAM_SUCCESS then some (r, s)
        else if ¬ k.silent ∧ s.h.user = none then some (PAM_USER_UNKNOWN, s)
        else
          match converse conv (questions k (s.h.user.getD [])) s with
          | (r, resp, s) =>
            if r ≠ PAM_SUCCESS then some (r, s)
            else match resp with
              | none => some (PAM_CONV_ERR, s)
              | some resp => store conv c k (questions k (s.h.user.getD [])).length resp s
  else some (PAM_SYSTEM_ERR, s)

end Pam.Stress
