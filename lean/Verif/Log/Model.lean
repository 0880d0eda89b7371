import Verif.Core.Codes
/-
libpam/pam_syslog.c (`_pam_choice2str`, `pam_vsyslog`, `pam_syslog`) and libpam/pam_strerror.c.

`printf` is here with the directives `%s`, `%m` and `%%`; another directive, or a `%s` without an argument, is undefined (`none`).  Arguments are strings (no NULL).
The texts of `pam_strerror` are those of the C locale (no translation).
-/
namespace Pam.Log

abbrev Str := List Char

/-- `pam_strerror`: libpam/pam_strerror.c:37-107 -/
def strerror (e : Int) : Str :=
  if e = PAM_SUCCESS then "Success".toList
  else if e = PAM_ABORT then "Critical error - immediate abort".toList
  else if e = PAM_OPEN_ERR then "Failed to load module".toList
  else if e = PAM_SYMBOL_ERR then "Symbol not found".toList
  else if e = PAM_SERVICE_ERR then "Error in service module".toList
  else if e = PAM_SYSTEM_ERR then "System error".toList
  else if e = PAM_BUF_ERR then "Memory buffer error".toList
  else if e = PAM_PERM_DENIED then "Permission denied".toList
  else if e = PAM_AUTH_ERR then "Authentication failure".toList
  else if e = PAM_CRED_INSUFFICIENT then "Insufficient credentials to access authentication data".toList
  else if e = PAM_AUTHINFO_UNAVAIL then "Authentication service cannot retrieve authentication info".toList
  else if e = PAM_USER_UNKNOWN then "User not known to the underlying authentication module".toList
  else if e = PAM_MAXTRIES then "Have exhausted maximum number of retries for service".toList
  else if e = PAM_NEW_AUTHTOK_REQD then "Authentication token is no longer valid; new one required".toList
  else if e = PAM_ACCT_EXPIRED then "User account has expired".toList
  else if e = PAM_SESSION_ERR then "Cannot make/remove an entry for the specified session".toList
  else if e = PAM_CRED_UNAVAIL then "Authentication service cannot retrieve user credentials".toList
  else if e = PAM_CRED_EXPIRED then "User credentials expired".toList
  else if e = PAM_CRED_ERR then "Failure setting user credentials".toList
  else if e = PAM_NO_MODULE_DATA then "No module specific data is present".toList
  else if e = PAM_BAD_ITEM then "Bad item passed to pam_*_item()".toList
  else if e = PAM_CONV_ERR then "Conversation error".toList
  else if e = PAM_AUTHTOK_ERR then "Authentication token manipulation error".toList
  else if e = PAM_AUTHTOK_RECOVERY_ERR then "Authentication information cannot be recovered".toList
  else if e = PAM_AUTHTOK_LOCK_BUSY then "Authentication token lock busy".toList
  else if e = PAM_AUTHTOK_DISABLE_AGING then "Authentication token aging disabled".toList
  else if e = PAM_TRY_AGAIN then "Failed preliminary check by password service".toList
  else if e = PAM_IGNORE then "The return value should be ignored by PAM dispatch".toList
  else if e = PAM_MODULE_UNKNOWN then "Module is unknown".toList
  else if e = PAM_AUTHTOK_EXPIRED then "Authentication token expired".toList
  else if e = PAM_CONV_AGAIN then "Conversation is waiting for event".toList
  else if e = PAM_INCOMPLETE then "Application needs to call libpam again".toList
  else "Unknown PAM error".toList

/-- `vasprintf` and `syslog` of the C library, which libpam/pam_syslog.c:80-99 calls: `msg` gives the text of an error number, `e` is errno -/
def printf (msg : Nat → Str) (e : Nat) : Str → List Str → Option Str
  | [], _ => some []
  | '%' :: 's' :: r, a :: as => (printf msg e r as).map (a ++ ·)
  | '%' :: 'm' :: r, as => (printf msg e r as).map (msg e ++ ·)
  | '%' :: '%' :: r, as => (printf msg e r as).map ('%' :: ·)
  | '%' :: _, _ => none
  | c :: r, as => (printf msg e r as).map (c :: ·)

/-- `_pam_choice2str`: libpam/pam_syslog.c:51-69; the numbers are in libpam/pam_private.h:186-192 -/
def choice2str (choice : Nat) : Str :=
  match choice with
  | 1 => "auth".toList
  | 2 => "setcred".toList
  | 3 => "account".toList
  | 4 => "session".toList
  | 5 => "session".toList
  | 6 => "chauthtok".toList
  | _ => []

/-- what `pam_vsyslog` reads from a handle: libpam/pam_syslog.c:78-82 -/
structure Handle where
  modName : Option Str
  service : Option Str
  choice : Nat

/-- the surroundings: errno at the call; is there memory for the two buffers; what the two allocations leave in errno, whether or not they succeed -/
structure World where
  msg : Nat → Str
  errno : Nat
  mem1 : Bool
  errno1 : Nat
  mem2 : Bool
  errno2 : Nat

/-- what a call does: the lines it gives to the log with their priorities, the buffers it gets (1 and 2) and the buffers it frees -/
structure Effect where
  lines : List (Nat × Str) := []
  got : List Nat := []
  freed : List Nat := []
  deriving DecidableEq

/-- `LOG_AUTHPRIV`: 10 << 3, libpam/pam_syslog.c:47-49 -/
def authpriv : Nat := 80
/-- `LOG_ERR` -/
def logErr : Nat := 3

/-- the rest of `pam_vsyslog`, with `msgbuf1`: libpam/pam_syslog.c:90-103 -/
def vsyslogRest (w : World) (buf1 : Option Str) (priority : Nat) (fmt : Str) (args : List Str) (s : Effect) : Option Effect :=
  let drop1 (s : Effect) : Effect := if buf1.isSome then { s with freed := s.freed ++ [1] } else s
  if w.mem2 then
    match printf w.msg w.errno fmt args with
    | none => none
    | some text =>
      match printf w.msg w.errno "%s %s".toList [buf1.getD "PAM".toList, text] with
      | none => none
      | some line =>
        let s := { s with got := s.got ++ [2], lines := s.lines ++ [(authpriv ||| priority, line)] }
        let s := drop1 s
        some { s with freed := s.freed ++ [2] }
  else
    match printf w.msg w.errno2 "vasprintf: %m".toList [] with
    | none => none
    | some line => some (drop1 { s with lines := s.lines ++ [(authpriv ||| logErr, line)] })

/-- `pam_vsyslog`: libpam/pam_syslog.c:71-104.  `none` as a handle is a NULL pointer; `none` as a result is undefined behaviour. -/
def vsyslog (w : World) (h : Option Handle) (priority : Nat) (fmt : Str) (args : List Str) : Option Effect :=
  match h with
  | some ⟨some m, service, choice⟩ =>
    if w.mem1 then
      match printf w.msg w.errno "%s(%s:%s):".toList [m, service.getD "<unknown>".toList, choice2str choice] with
      | none => none
      | some tag => vsyslogRest w (some tag) priority fmt args { got := [1] }
    else
      match printf w.msg w.errno1 "asprintf: %m".toList [] with
      | none => none
      | some line => some { lines := [(authpriv ||| logErr, line)] }
  | _ => vsyslogRest w none priority fmt args {}

end Pam.Log
