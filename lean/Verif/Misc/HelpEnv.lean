import Verif.Handle.PEnv
/-
libpam_misc/help_env.c: conveniences for applications that work on the environment of a handle.  pam_misc_drop_env only frees memory and is left out.
-/
namespace Pam.Misc
open Pam Pam.Handle

/-- `pam_misc_setenv`: libpam_misc/help_env.c:62-89.  `ok` is the success of `pam_asprintf`, `ok1` and `ok2` of the allocations of `pam_putenv`. -/
def setenv (e : PEnv) (name value : Handle.Str) (readonly ok ok1 ok2 : Bool) : Option (Int × PEnv) :=
  let put : Option (Int × PEnv) := if ok then e.putenv (some (name ++ ['='] ++ value)) ok1 ok2 else some (PAM_BUF_ERR, e)
  if readonly then
    match e.getenv (some name) with
    | none => none
    | some (some _) => some (PAM_PERM_DENIED, e)
    | some none => put
  else put

/-- `pam_misc_paste_env`: libpam_misc/help_env.c:42-56; with every string the success of the allocations of `pam_putenv` -/
def pasteEnv : PEnv → List (Handle.Str × Bool × Bool) → Option (Int × PEnv)
  | e, [] => some (PAM_SUCCESS, e)
  | e, (s, ok1, ok2) :: l =>
    match e.putenv (some s) ok1 ok2 with
    | none => none
    | some (code, e') => if code ≠ PAM_SUCCESS then some (code, e') else pasteEnv e' l

end Pam.Misc
