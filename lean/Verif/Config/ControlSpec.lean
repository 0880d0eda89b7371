import Verif.Core.Text
import Verif.Core.Codes
/-
Documented syntax and meaning of a bracketed control, independent of the parser.
Reference: pam.conf(5), /repo/doc/man/pam.conf-syntax.xml:
`[value1=action1 value2=action2 ...]`.
-/
namespace Pam.Config.Spec

/-- The names of the return codes.  The code of a name is its position (PAM_SUCCESS = 0, ...,
PAM_INCOMPLETE = 31). -/
def codeNames : List String :=
  ["success", "open_err", "symbol_err", "service_err", "system_err", "buf_err", "perm_denied",
   "auth_err", "cred_insufficient", "authinfo_unavail", "user_unknown", "maxtries",
   "new_authtok_reqd", "acct_expired", "session_err", "cred_unavail", "cred_expired", "cred_err",
   "no_module_data", "conv_err", "authtok_err", "authtok_recover_err", "authtok_lock_busy",
   "authtok_disable_aging", "try_again", "ignore", "abort", "authtok_expired", "module_unknown",
   "bad_item", "conv_again", "incomplete"]

/-- left-hand side of an entry -/
inductive Key
  | code (c : Nat)
  | dflt
deriving DecidableEq, Repr

/-- how a key is written -/
inductive KeyText : Key → List Char → Prop
  | code (c : Nat) (n : String) (h : codeNames[c]? = some n) : KeyText (.code c) n.toList
  | dflt : KeyText .dflt "default".toList

/-- decimal value of a digit string -/
def decimal (ds : List Char) : Nat := ds.foldl (fun n d => n * 10 + (d.toNat - '0'.toNat)) 0

/-- how an action is written, given the text that follows it -/
inductive ActionText (rest : List Char) : Int → List Char → Prop
  | ignore : ActionText rest ACT_IGNORE "ignore".toList
  | ok : ActionText rest ACT_OK "ok".toList
  | done : ActionText rest ACT_DONE "done".toList
  | bad : ActionText rest ACT_BAD "bad".toList
  | die : ActionText rest ACT_DIE "die".toList
  | reset : ActionText rest ACT_RESET "reset".toList
  /-- a jump: a decimal number between 1 and 2147483647 -/
  | jump (ds : List Char) (hne : ds ≠ []) (hd : ∀ d ∈ ds, isDigit d = true)
      (hend : ∀ c ∈ rest.head?, isDigit c = false)
      (hpos : 1 ≤ decimal ds) (hmax : decimal ds ≤ 2147483647) : ActionText rest (decimal ds) ds

/-- only white space -/
def Blank (w : List Char) : Prop := ∀ c ∈ w, isSpace c = true

/-- The text `s` is a control string with the entries `items`, in order.  White space is allowed
around every name and `=`. -/
inductive Control : List Char → List (Key × Int) → Prop
  | nil (w : List Char) (hw : Blank w) : Control w []
  | cons (w₁ k w₂ w₃ a rest : List Char) (key : Key) (act : Int) (items : List (Key × Int))
      (h₁ : Blank w₁) (h₂ : Blank w₂) (h₃ : Blank w₃) (hk : KeyText key k)
      (ha : ActionText rest act a) (hr : Control rest items) :
      Control (w₁ ++ k ++ w₂ ++ ['='] ++ w₃ ++ a ++ rest) ((key, act) :: items)

/-- the action of the first entry for `key` -/
def firstFor (key : Key) : List (Key × Int) → Option Int
  | [] => none
  | (k, a) :: t => if k = key then some a else firstFor key t

/-- The action for code `c`: the last entry for `c`, else the first `default`, else bad. -/
def meaning (items : List (Key × Int)) (c : Nat) : Int :=
  match firstFor (.code c) items.reverse with
  | some a => a
  | none =>
    match firstFor .dflt items with
    | some a => a
    | none => ACT_BAD

end Pam.Config.Spec
