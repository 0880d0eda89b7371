import Verif.Handle.Call
/-
Specification for C25, C26 and C45: what items, the question for the user name and the failure
delay must be after a history of calls.
-/
namespace Pam.Handle.Spec

/-! ### Items -/

/-- Items that everybody can read and that only pam_set_item and pam_get_user change. -/
def isPublic : Item → Bool
  | .authtok | .oldauthtok | .authtokType => false
  | _ => true

/-- the items after pam_start -/
def startItems (service : Str) (user : Option Str) (conv : Nat) : Item → Value
  | .service => .str service
  | .user => .ofStr user
  | .conv => .conv conv
  | .xauth => .xauth [] []
  | _ => .null

/-- how a value is stored: service names in lower case -/
def stored : Item → Value → Value
  | .service, .str s => .str (s.map lower)
  | _, v => v

/-- change one item -/
def put (vals : Item → Value) (it : Item) (v : Value) : Item → Value := fun j => if j = it then v else vals j

/-- The items after one more event: a successful pam_set_item stores its value, a successful
pam_get_user stores the user name.  A failed pam_set_item of PAM_XAUTHDATA clears that item. -/
def itemsStep (vals : Item → Value) : Event → Item → Value
  | .call _ (.setItem i v _ _) ans _ =>
    match Item.ofInt i with
    | some it =>
      if ans.code = PAM_SUCCESS then put vals it (stored it v)
      else if it = .xauth ∧ ans.code = PAM_BUF_ERR then put vals it (.xauth [] [])
      else vals
    | none => vals
  | .call _ (.getUser _ _ _) ans _ => if ans.code = PAM_SUCCESS then put vals .user ans.value else vals
  | _ => vals

/-- the items after a history -/
def itemsAfter (init : Item → Value) (hist : List Event) : Item → Value := hist.foldl itemsStep init

/-- values that an item can have -/
def fits : Item → Value → Bool
  | .service, .str _ => true
  | .conv, .conv _ => true
  | .failDelay, .fn _ | .failDelay, .null => true
  | .xauth, .xauth _ _ => true
  | .user, v | .userPrompt, v | .tty, v | .ruser, v | .rhost, v | .xdisplay, v => v.toStr.isSome
  | _, _ => false

/-! ### The question for the user name -/

/-- State of the question: the code of a failed conversation (0: none), and the prompt of a
suspended one (`some none`: suspended, but the prompt could not be saved). -/
structure Ask where
  failed : Int := 0
  pending : Option (Option Str) := none

/-- that state after one more event -/
def askStep (a : Ask) : Event → Ask
  | .call _ (.setItem i _ _ _) ans _ =>
    if ans.code = PAM_SUCCESS ∧ (i = PAM_USER ∨ i = PAM_USER_PROMPT ∨ i = PAM_CONV) then { a with failed := 0 } else a
  | .call _ (.getUser _ okPrompt _) ans [t] =>
    if ans.code = PAM_CONV_AGAIN then { failed := 0, pending := some (if okPrompt then some t.msg else none) }
    else if t.code = PAM_SUCCESS ∧ t.answer ≠ none then { failed := 0, pending := none }
    else { failed := ans.code, pending := none }
  | _ => a

/-- the state after a history -/
def askAfter (hist : List Event) : Ask := hist.foldl askStep {}

/-- the prompt to use: the caller's, else PAM_USER_PROMPT, else the default -/
def question (vals : Item → Value) (p : Option Str) : Str :=
  match p, vals .userPrompt with
  | some p, _ => p
  | none, .str q => q
  | none, _ => "login:".toList

/-- what pam_get_user gives for a conversation; `ok`: the name could be stored -/
def answerOf (t : Talk) (ok : Bool) : Ans :=
  if t.code = PAM_SUCCESS then
    match t.answer with
    | some u => if ok then { code := PAM_SUCCESS, value := .str u } else { code := PAM_BUF_ERR }
    | none => { code := PAM_CONV_ERR }
  else if t.code = PAM_CONV_AGAIN then { code := PAM_CONV_AGAIN }
  else if t.code = PAM_BUF_ERR then { code := PAM_BUF_ERR }
  else { code := PAM_CONV_ERR }

/-- what a call of pam_get_user must do, given items and the state of the question -/
def userRule (vals : Item → Value) (a : Ask) (p : Option Str) (okUser : Bool) (ans : Ans) (talk : List Talk) : Prop :=
  match vals .user with
  | .str u => ans = { code := PAM_SUCCESS, value := .str u } ∧ talk = []
  | _ =>
    if a.failed ≠ 0 then ans = { code := a.failed } ∧ talk = []
    else if a.pending ≠ none ∧ a.pending ≠ some (some (question vals p)) then ans = { code := PAM_ABORT } ∧ talk = []
    else ∃ t : Talk, talk = [t] ∧ t.style = .echoOn ∧ t.msg = question vals p ∧ ans = answerOf t okUser

/-! ### Delay -/

/-- the delays requested since an operation last waited -/
def requestStep (r : List Nat) : Event → List Nat
  | .call _ (.failDelay u) _ _ => r ++ [u]
  | .waited _ _ => []
  | _ => r

/-- the delays requested since an operation last waited -/
def requests (hist : List Event) : List Nat := hist.foldl requestStep []

/-- the largest of some delays -/
def largest (r : List Nat) : Nat := r.foldl max 0

/-- How an operation must be delayed: by the application's function if it set one, else by a sleep
if the operation failed and a delay was requested. -/
def waitRule (fn : Value) (r : List Nat) (status : Int) : Wait :=
  match fn with
  | .fn f => .called f status (largest r)
  | _ => if status ≠ PAM_SUCCESS ∧ r ≠ [] then .slept (largest r) else .none

/-- The cases in which the delay is determined by the requests alone: the first request since the
last wait was for a positive delay; or no delay function is set and there was no request or no
failure. -/
def delayKnown (fn : Value) (r : List Nat) (status : Int) : Prop :=
  (∃ u us, r = u :: us ∧ 0 < u) ∨ (fn = .null ∧ (r = [] ∨ status = PAM_SUCCESS))

end Pam.Handle.Spec
