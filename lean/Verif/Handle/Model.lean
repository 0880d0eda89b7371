import Verif.Core.Codes
import Verif.Core.Text
import Verif.Handle.PEnv
/-
Model of the handle and of the interface functions that do not dispatch: libpam/pam_item.c,
libpam/pam_data.c, libpam/pam_delay.c, libpam/pam_get_authtok.c, libpam/pam_vprompt.c and
`_pam_sanitize` of libpam/pam_misc.c.

The handle pointer is not NULL.  Pointers handed out are modelled by what they point to.  Every
allocation takes its success from a Boolean argument of the call.  Calls from a conversation
function or from a cleanup function back into the library are not modelled.
-/
namespace Pam.Handle

/-- `caller_is`: libpam/pam_private.h:308-309 -/
inductive Caller
  | app | module
deriving DecidableEq, Repr

/-! Item types: libpam/include/security/_pam_types.h:132-146 -/

/-- `PAM_SERVICE`: libpam/include/security/_pam_types.h:132 -/
abbrev PAM_SERVICE : Int := 1
/-- `PAM_USER`: libpam/include/security/_pam_types.h:133 -/
abbrev PAM_USER : Int := 2
/-- `PAM_TTY`: libpam/include/security/_pam_types.h:134 -/
abbrev PAM_TTY : Int := 3
/-- `PAM_RHOST`: libpam/include/security/_pam_types.h:135 -/
abbrev PAM_RHOST : Int := 4
/-- `PAM_CONV`: libpam/include/security/_pam_types.h:136 -/
abbrev PAM_CONV : Int := 5
/-- `PAM_AUTHTOK`: libpam/include/security/_pam_types.h:137 -/
abbrev PAM_AUTHTOK : Int := 6
/-- `PAM_OLDAUTHTOK`: libpam/include/security/_pam_types.h:138 -/
abbrev PAM_OLDAUTHTOK : Int := 7
/-- `PAM_RUSER`: libpam/include/security/_pam_types.h:139 -/
abbrev PAM_RUSER : Int := 8
/-- `PAM_USER_PROMPT`: libpam/include/security/_pam_types.h:140 -/
abbrev PAM_USER_PROMPT : Int := 9
/-- `PAM_FAIL_DELAY`: libpam/include/security/_pam_types.h:142 -/
abbrev PAM_FAIL_DELAY : Int := 10
/-- `PAM_XDISPLAY`: libpam/include/security/_pam_types.h:144 -/
abbrev PAM_XDISPLAY : Int := 11
/-- `PAM_XAUTHDATA`: libpam/include/security/_pam_types.h:145 -/
abbrev PAM_XAUTHDATA : Int := 12
/-- `PAM_AUTHTOK_TYPE`: libpam/include/security/_pam_types.h:146 -/
abbrev PAM_AUTHTOK_TYPE : Int := 13

/-- the items -/
inductive Item
  | service | user | tty | rhost | conv | authtok | oldauthtok | ruser | userPrompt | failDelay | xdisplay | xauth
  | authtokType
deriving DecidableEq, Repr

/-- the item of a number: libpam/include/security/_pam_types.h:132-146 -/
def Item.ofInt (i : Int) : Option Item :=
  if i = PAM_SERVICE then some .service
  else if i = PAM_USER then some .user
  else if i = PAM_TTY then some .tty
  else if i = PAM_RHOST then some .rhost
  else if i = PAM_CONV then some .conv
  else if i = PAM_AUTHTOK then some .authtok
  else if i = PAM_OLDAUTHTOK then some .oldauthtok
  else if i = PAM_RUSER then some .ruser
  else if i = PAM_USER_PROMPT then some .userPrompt
  else if i = PAM_FAIL_DELAY then some .failDelay
  else if i = PAM_XDISPLAY then some .xdisplay
  else if i = PAM_XAUTHDATA then some .xauth
  else if i = PAM_AUTHTOK_TYPE then some .authtokType
  else none

/-- What a `void *` item points to.  Conversation and delay functions are named by numbers. -/
inductive Value
  | null
  | str (s : Str)
  | conv (c : Nat)
  | fn (f : Nat)
  | xauth (name data : Str)
deriving DecidableEq, Repr

/-- a string pointer as an item -/
def Value.ofStr : Option Str → Value
  | none => .null
  | some s => .str s

/-- One entry of the module data list: libpam/pam_private.h:261-266.  `id` is a ghost number that
tells apart the data of different pam_set_data calls; `cleanup = false` is a NULL function. -/
structure Datum where
  name : Str
  id : Nat
  data : Nat
  cleanup : Bool
deriving DecidableEq, Repr

/-- A call of a cleanup function (ghost): which datum, and the status passed. -/
structure Cleaned where
  id : Nat
  data : Nat
  status : Int
deriving DecidableEq, Repr

/-- The part of `struct pam_handle` (libpam/pam_private.h:153-183) that interface functions called
by modules can reach: everything but the handler lists and the suspended walk.  `former` fields
used by pam_get_user are `failUser`, `wantUser` and `savedPrompt`; `loaded` is
`handlers.handlers_loaded`; `choice` is the operation being run (`none`: none yet).  The ghost
fields are `nextId` and `cleaned`. -/
structure Inner where
  caller : Caller := .app
  service : Str
  user : Option Str := none
  prompt : Option Str := none
  tty : Option Str := none
  ruser : Option Str := none
  rhost : Option Str := none
  authtok : Option Str := none
  oldauthtok : Option Str := none
  xdisplay : Option Str := none
  authtokType : Option Str := none
  conv : Nat
  delayFn : Option Nat := none
  xauth : Option (Str × Str) := none
  env : PEnv := .make
  data : List Datum := []
  delaySet : Bool := false
  delay : Nat := 0
  failUser : Int := PAM_SUCCESS
  wantUser : Bool := false
  savedPrompt : Option Str := none
  loaded : Bool := false
  authtokVerified : Bool := false
  chauthtok : Bool := false
  modArgs : List Str := []
  nextId : Nat := 0
  cleaned : List Cleaned := []

/-! ### Items -/

/-- `TRY_SET` on a string field: libpam/pam_item.c:16-25.  (If the pointer passed is the one
stored nothing happens, which is the same as storing an equal string.)  `none` = PAM_BUF_ERR. -/
def trySet (v : Option Str) (ok : Bool) : Option (Option Str) :=
  match v with
  | none => some none
  | some s => if ok then some (some s) else none

/-- a token after `pam_overwrite_string`: the empty string -/
def overwritten (t : Option Str) : Option Str := t.map (fun _ => [])

/-- the string in an item -/
def Value.toStr : Value → Option (Option Str)
  | .null => some none
  | .str s => some (some s)
  | _ => none

/-- store a string item -/
def storeStr (h : Inner) (v : Value) (ok : Bool) (set : Option Str → Inner) : Int × Inner :=
  match v.toStr with
  | none => (PAM_BAD_ITEM, h)
  | some v =>
    match trySet v ok with
    | none => (PAM_BUF_ERR, h)
    | some v => (PAM_SUCCESS, set v)

/-- `pam_set_item` for an existing item: libpam/pam_item.c:37-175.  `ok` is the success of
allocations (`ok2` of the second one for PAM_XAUTHDATA).  Passing an object of the wrong kind is
undefined behaviour in C and modelled as PAM_BAD_ITEM; so is PAM_XAUTHDATA with NULL. -/
def putItem (h : Inner) (item : Item) (v : Value) (ok ok2 : Bool) : Int × Inner :=
  match item with
  | .service =>
    match v with
    | .str s =>
      -- handlers_loaded is cleared before the copy
      if ok then (PAM_SUCCESS, { h with loaded := false, service := s.map lower })
      else (PAM_BUF_ERR, { h with loaded := false })
    | _ => (PAM_BAD_ITEM, h)
  | .user => storeStr h v ok (fun s => { h with user := s, failUser := PAM_SUCCESS })
  | .userPrompt => storeStr h v ok (fun s => { h with prompt := s, failUser := PAM_SUCCESS })
  | .tty => storeStr h v ok (fun s => { h with tty := s })
  | .ruser => storeStr h v ok (fun s => { h with ruser := s })
  | .rhost => storeStr h v ok (fun s => { h with rhost := s })
  | .authtok =>
    if h.caller = .module then
      storeStr { h with authtok := overwritten h.authtok } v ok (fun s => { h with authtok := s })
    else (PAM_BAD_ITEM, h)
  | .oldauthtok =>
    if h.caller = .module then
      storeStr { h with oldauthtok := overwritten h.oldauthtok } v ok (fun s => { h with oldauthtok := s })
    else (PAM_BAD_ITEM, h)
  | .conv =>
    match v with
    | .conv c => if ok then (PAM_SUCCESS, { h with conv := c, failUser := PAM_SUCCESS }) else (PAM_BUF_ERR, h)
    | .null => (PAM_PERM_DENIED, h)
    | _ => (PAM_BAD_ITEM, h)
  | .failDelay =>
    match v with
    | .fn f => (PAM_SUCCESS, { h with delayFn := some f })
    | .null => (PAM_SUCCESS, { h with delayFn := none })
    | _ => (PAM_BAD_ITEM, h)
  | .xdisplay => storeStr h v ok (fun s => { h with xdisplay := s })
  | .xauth =>
    match v with
    | .xauth n d =>
      if ok ∧ ok2 then (PAM_SUCCESS, { h with xauth := some (n, d) }) else (PAM_BUF_ERR, { h with xauth := none })
    | _ => (PAM_BAD_ITEM, h)
  | .authtokType => storeStr h v ok (fun s => { h with authtokType := s })

/-- `pam_set_item`: libpam/pam_item.c:29-179 -/
def setItem (h : Inner) (item : Int) (v : Value) (ok ok2 : Bool) : Int × Inner :=
  match Item.ofInt item with
  | some it => putItem h it v ok ok2
  | none => (PAM_BAD_ITEM, h)

/-- `pam_get_item` for an existing item: libpam/pam_item.c:196-270 -/
def readItem (h : Inner) : Item → Int × Value
  | .service => (PAM_SUCCESS, .str h.service)
  | .user => (PAM_SUCCESS, .ofStr h.user)
  | .userPrompt => (PAM_SUCCESS, .ofStr h.prompt)
  | .tty => (PAM_SUCCESS, .ofStr h.tty)
  | .ruser => (PAM_SUCCESS, .ofStr h.ruser)
  | .rhost => (PAM_SUCCESS, .ofStr h.rhost)
  | .authtok => if h.caller = .module then (PAM_SUCCESS, .ofStr h.authtok) else (PAM_BAD_ITEM, .null)
  | .oldauthtok => if h.caller = .module then (PAM_SUCCESS, .ofStr h.oldauthtok) else (PAM_BAD_ITEM, .null)
  | .conv => (PAM_SUCCESS, .conv h.conv)
  | .failDelay => (PAM_SUCCESS, match h.delayFn with | none => .null | some f => .fn f)
  | .xdisplay => (PAM_SUCCESS, .ofStr h.xdisplay)
  | .xauth => (PAM_SUCCESS, match h.xauth with | none => .xauth [] [] | some (n, d) => .xauth n d)
  | .authtokType => (PAM_SUCCESS, .ofStr h.authtokType)

/-- `pam_get_item` with a destination: libpam/pam_item.c:181-273.  The code and `*item`. -/
def getItem (h : Inner) (item : Int) : Int × Value :=
  match Item.ofInt item with
  | some it => readItem h it
  | none => (PAM_BAD_ITEM, .null)

/-- `_pam_sanitize`: libpam/pam_misc.c:212-223 -/
def sanitize (h : Inner) : Inner :=
  let h1 := { h with caller := .module }
  let h2 := (setItem h1 PAM_AUTHTOK .null true true).2
  let h3 := (setItem h2 PAM_OLDAUTHTOK .null true true).2
  { h3 with caller := h.caller }

/-! ### Failure delay -/

/-- `pam_fail_delay`: libpam/pam_delay.c:156-179 -/
def failDelay (h : Inner) (usec : Nat) : Int × Inner :=
  let largest := if h.delaySet then h.delay else 0
  (PAM_SUCCESS, { h with delaySet := true, delay := if largest < usec then usec else h.delay })

/-- How the end of an operation is delayed. -/
inductive Wait
  /-- the application's delay function `fn` is called with the status and a delay derived from
  `usec` -/
  | called (fn : Nat) (status : Int) (usec : Nat)
  /-- a sleep with a length derived from `usec` -/
  | slept (usec : Nat)
  | none
deriving DecidableEq, Repr

/-- `_pam_await_timer`: libpam/pam_delay.c:105-148.  The delay is `_pam_compute_delay(begin, usec)`
(lines 78-95), `usec` times a random factor between 0.5 and 1.5: see Verif/Handle/Delay.lean. -/
def awaitTimer (h : Inner) (status : Int) : Wait × Inner :=
  (match h.delayFn with
   | some f => .called f status h.delay
   | Option.none => if status ≠ PAM_SUCCESS ∧ h.delaySet then .slept h.delay else .none,
   { h with delaySet := false })

/-! ### Module data -/

/-- `PAM_DATA_REPLACE`: libpam/include/security/pam_modules.h:76 -/
abbrev PAM_DATA_REPLACE : Int := 0x20000000

/-- the effect of the cleanup function of a datum on the ghost log -/
def runCleanup (d : Datum) (status : Int) : List Cleaned :=
  if d.cleanup then [⟨d.id, d.data, status⟩] else []

/-- `pam_set_data`: libpam/pam_data.c:60-112.  `ok` is the success of both allocations. -/
def setData (h : Inner) (name : Option Str) (data : Nat) (cleanup ok : Bool) : Int × Inner :=
  if h.caller = .app then (PAM_SYSTEM_ERR, h)
  else match name with
    | none => (PAM_SYSTEM_ERR, h)
    | some n =>
      match h.data.find? (fun d => d.name == n) with
      | some d =>
        -- the first entry of that name is overwritten in place
        (PAM_SUCCESS, { h with
          data := replaceFirst n ⟨n, h.nextId, data, cleanup⟩ h.data,
          nextId := h.nextId + 1,
          cleaned := h.cleaned ++ runCleanup d PAM_DATA_REPLACE })
      | none =>
        if ok then (PAM_SUCCESS, { h with data := ⟨n, h.nextId, data, cleanup⟩ :: h.data, nextId := h.nextId + 1 })
        else (PAM_BUF_ERR, h)
where
  /-- overwrite the entry found by `_pam_locate_data` (libpam/pam_data.c:39-58) -/
  replaceFirst (n : Str) (d' : Datum) : List Datum → List Datum
    | [] => []
    | d :: ds => if d.name == n then d' :: ds else d :: replaceFirst n d' ds

/-- `pam_get_data`: libpam/pam_data.c:114-143.  The code and, on success, `*datap`. -/
def getData (h : Inner) (name : Option Str) : Int × Option Nat :=
  if h.caller = .app then (PAM_SYSTEM_ERR, none)
  else match name with
    | none => (PAM_SYSTEM_ERR, none)
    | some n =>
      match h.data.find? (fun d => d.name == n) with
      | some d => (PAM_SUCCESS, some d.data)
      | none => (PAM_NO_MODULE_DATA, none)

/-- `_pam_free_data`: libpam/pam_data.c:145-164 -/
def freeData (h : Inner) (status : Int) : Inner :=
  { h with data := [], cleaned := h.cleaned ++ h.data.flatMap (fun d => runCleanup d status) }

/-! ### Conversations -/

/-- message styles: libpam/include/security/_pam_types.h:229-231 -/
inductive Style
  | echoOff | echoOn | error | info
deriving DecidableEq, Repr

/-- Ghost record of one conversation: what was asked and what came back. -/
structure Talk where
  style : Style
  msg : Str
  code : Int
  answer : Option Str
deriving DecidableEq, Repr

/-- What a conversation function gives back: its code and the response (`none`: NULL response,
`some none`: response without text). -/
abbrev Reply := Int × Option (Option Str)

/-- The application's conversation functions: function, style and message to reply. -/
abbrev Convs (W : Type) := Nat → Style → Str → W → Reply × W

/-- Handle and world while interface functions run.  `talk` is a ghost field: all conversations
so far. -/
structure S (W : Type) where
  inner : Inner
  world : W
  talk : List Talk := []

variable {W : Type}

/-- Call the conversation function with one message.  The text of the response counts as the
answer whatever the code. -/
def converse (cv : Convs W) (style : Style) (msg : Str) (m : S W) : Reply × S W :=
  let r := cv m.inner.conv style msg m.world
  (r.1, { m with world := r.2, talk := m.talk ++ [⟨style, msg, r.1.1, r.1.2.bind id⟩] })

/-- the prompt used if there is no other, libpam/pam_item.c:317 (untranslated) -/
def loginPrompt : Str := "login:".toList

/-- The prompt for the user name: libpam/pam_item.c:311-317. -/
def userPromptOf (h : Inner) (prompt : Option Str) : Str :=
  match prompt with
  | some p => p
  | none => h.prompt.getD loginPrompt

/-- libpam/pam_item.c:352-360: other codes of the conversation function count as PAM_CONV_ERR. -/
def convCode (c : Int) : Int :=
  if c = PAM_SUCCESS ∨ c = PAM_BUF_ERR ∨ c = PAM_CONV_AGAIN ∨ c = PAM_CONV_ERR then c else PAM_CONV_ERR

/-- What pam_get_user does with the reply: libpam/pam_item.c:362-387. -/
def userReply (use : Str) (okPrompt okUser : Bool) (r : Reply) (h : Inner) : Int × Option Str × Inner :=
  if convCode r.1 = PAM_CONV_AGAIN then
    (PAM_CONV_AGAIN, none, { h with wantUser := true, savedPrompt := if okPrompt then some use else none })
  else if convCode r.1 = PAM_SUCCESS then
    match r.2.bind id with
    | some u =>
      let s := setItem h PAM_USER (.str u) okUser true
      (s.1, s.2.user, s.2)
    | none => (PAM_CONV_ERR, none, { h with failUser := PAM_CONV_ERR })
  else (convCode r.1, none, { h with failUser := convCode r.1 })

/-- Resuming a suspended question: libpam/pam_item.c:337-340. -/
def resumeUser (h : Inner) : Inner :=
  if h.wantUser then { h with wantUser := false, savedPrompt := none } else h

/-- `pam_get_user` with a destination: libpam/pam_item.c:279-402.  `okPrompt` and `okUser` are the
success of the two string copies.  The code, `*user`, and the state. -/
def getUser (cv : Convs W) (prompt : Option Str) (okPrompt okUser : Bool) (m : S W) : Int × Option Str × S W :=
  match m.inner.user with
  | some u => (PAM_SUCCESS, some u, m)
  | none =>
    if m.inner.failUser ≠ PAM_SUCCESS then (m.inner.failUser, none, m)
    else if m.inner.wantUser ∧ m.inner.savedPrompt ≠ some (userPromptOf m.inner prompt) then (PAM_ABORT, none, m)
    else
      let c := converse cv .echoOn (userPromptOf m.inner prompt) m
      let r := userReply (userPromptOf m.inner prompt) okPrompt okUser c.1 (resumeUser m.inner)
      (r.1, r.2.1, { c.2 with inner := r.2.2 })

/-- `pam_prompt` with an echo-off message: libpam/pam_vprompt.c:46-99.  The code and `*response`.
`ok` is the success of formatting the message. -/
def promptFor (cv : Convs W) (msg : Str) (ok : Bool) (m : S W) : Int × Option Str × S W :=
  if ok then
    let (r, m1) := converse cv .echoOff msg m
    (r.1, r.2.bind id, m1)
  else (PAM_BUF_ERR, none, m)

/-- `pam_error`: libpam/pam_vprompt.c:46-99 with `response == NULL` -/
def pamError (cv : Convs W) (msg : Str) (m : S W) : S W := (converse cv .error msg m).2

/-- `get_option`: libpam/pam_get_authtok.c:54-78.  (An argument `option` without value gives the
empty string.) -/
def getOption (args : List Str) (option : Str) : Option Str :=
  args.findSome? (fun a =>
    if option.isPrefixOf a then
      match a.drop option.length with
      | [] => some []
      | '=' :: v => some v
      | _ => none
    else none)

/-- success of the allocations of one pam_get_authtok call -/
structure AuthtokOk where
  type : Bool := true
  p1 : Bool := true
  p2 : Bool := true
  set : Bool := true

/-- a prompt with the token type inserted after `a`, libpam/pam_get_authtok.c:42-49 -/
def typedPrompt (a : Str) (type : Str) : Str :=
  if type = [] then a ++ " password: ".toList else a ++ ' ' :: type ++ " password: ".toList

/-- `MISTYPED_PASS`: libpam/pam_get_authtok.c:50 -/
def mistyped : Str := "Sorry, passwords do not match.".toList
/-- libpam/pam_get_authtok.c:185 -/
def aborted : Str := "Password change has been aborted.".toList

/-- libpam/pam_get_authtok.c:108-116: the token type and the state (PAM_AUTHTOK_TYPE is set from
the module option). -/
def authtokTypeOf (h : Inner) (ok : Bool) : Str × Inner :=
  if h.chauthtok then
    match getOption h.modArgs "authtok_type".toList with
    | none => (h.authtokType.getD [], h)
    | some t => (t, (setItem h PAM_AUTHTOK_TYPE (.str t) ok true).2)
  else ([], h)

/-- How new tokens are asked for, libpam/pam_get_authtok.c:98-107: not at all (0), once (1), with
repetition (2). -/
def chpassOf (h : Inner) (item : Int) (noverify : Bool) : Nat :=
  if h.chauthtok ∧ item = PAM_AUTHTOK then (if noverify then 1 else 2) else 0

/-- The first prompt: libpam/pam_get_authtok.c:137-175. -/
def firstPrompt (prompt : Option Str) (chpass : Nat) (item : Int) (type : Str) : Str :=
  match prompt with
  | some p => p
  | none =>
    if chpass ≠ 0 then typedPrompt "New".toList type
    else if item = PAM_OLDAUTHTOK then typedPrompt "Current".toList type
    else "Password: ".toList

/-- The prompt for the repetition: libpam/pam_get_authtok.c:143-145, 156-163, 246-261. -/
def secondPrompt (prompt : Option Str) (type : Str) : Str :=
  match prompt with
  | some p => "Retype ".toList ++ p
  | none => typedPrompt "Retype new".toList type

/-- Asking, once or twice: libpam/pam_get_authtok.c:137-175.  The last code, the two answers. -/
def askToken (cv : Convs W) (ask1 ask2 : Str) (twice ok1 ok2 : Bool) (m : S W) : Int × Option Str × Option Str × S W :=
  let r := promptFor cv ask1 ok1 m
  if r.1 = PAM_SUCCESS ∧ twice ∧ r.2.1.isSome then
    let r2 := promptFor cv ask2 ok2 r.2.2
    (r2.1, r.2.1, r2.2.1, r2.2.2)
  else (r.1, r.2.1, none, r.2.2)

/-- change `authtok_verified` under a condition -/
def markVerified (cond value : Bool) (h : Inner) : Inner := if cond then { h with authtokVerified := value } else h

/-- Storing a token and handing it out: libpam/pam_get_authtok.c:202-211, 280-288. -/
def keepToken (item : Int) (t : Str) (ok verified : Bool) (m : S W) : Int × Option Value × S W :=
  let s := setItem m.inner item (.str t) ok true
  if s.1 ≠ PAM_SUCCESS then (s.1, none, { m with inner := s.2 })
  else
    let h := markVerified verified true s.2
    ((getItem h item).1, some (getItem h item).2, { m with inner := h })

/-- What becomes of the answers: libpam/pam_get_authtok.c:176-211. -/
def tokenReply (cv : Convs W) (item : Int) (chpass : Nat) (okSet : Bool) (code : Int) (r1 r2 : Option Str) (m : S W) :
    Int × Option Value × S W :=
  match r1 with
  | none => (PAM_AUTHTOK_ERR, none, if chpass ≠ 0 then pamError cv aborted m else m)
  | some t =>
    if code ≠ PAM_SUCCESS ∨ (1 < chpass ∧ r2 = none) then
      (PAM_AUTHTOK_ERR, none, if chpass ≠ 0 then pamError cv aborted m else m)
    else if 1 < chpass ∧ r2 ≠ some t then (PAM_TRY_AGAIN, none, pamError cv mistyped m)
    else keepToken item t okSet (decide (1 < chpass)) m

/-- `pam_get_authtok_internal` with a destination: libpam/pam_get_authtok.c:81-212.  The code,
`*authtok` (if it is written), and the state. -/
def getAuthtok (cv : Convs W) (item : Int) (prompt : Option Str) (noverify : Bool) (ok : AuthtokOk) (m : S W) :
    Int × Option Value × S W :=
  let chpass := chpassOf m.inner item noverify
  let ty := authtokTypeOf m.inner ok.type
  let prev := getItem ty.2 item
  if prev.1 = PAM_SUCCESS ∧ prev.2 ≠ .null then (PAM_SUCCESS, some prev.2, { m with inner := ty.2 })
  else if (getOption ty.2.modArgs "use_first_pass".toList).isSome ∨
      (chpass ≠ 0 ∧ (getOption ty.2.modArgs "use_authtok".toList).isSome) then
    (if prev.2 = .null then (if chpass ≠ 0 then PAM_AUTHTOK_ERR else PAM_AUTH_ERR) else prev.1, none, { m with inner := ty.2 })
  else
    -- authtok_verified is cleared only with the default prompts
    let h := markVerified (decide (prompt = none ∧ chpass ≠ 0)) false ty.2
    let r := askToken cv (firstPrompt prompt chpass item ty.1) (secondPrompt prompt ty.1) (decide (1 < chpass)) ok.p1 ok.p2
      { m with inner := h }
    tokenReply cv item chpass ok.set r.1 r.2.1 r.2.2.1 r.2.2.2

/-- What pam_get_authtok_verify does with the answer: libpam/pam_get_authtok.c:263-288. -/
def verifyReply (cv : Convs W) (given : Str) (okSet : Bool) (code : Int) (r : Option Str) (m : S W) :
    Int × Option Value × S W :=
  let unset : S W := { m with inner := (setItem m.inner PAM_AUTHTOK .null true true).2 }
  match r with
  | none => (PAM_AUTHTOK_ERR, none, pamError cv aborted unset)
  | some t =>
    if code ≠ PAM_SUCCESS then (PAM_AUTHTOK_ERR, none, pamError cv aborted unset)
    else if given ≠ t then (PAM_TRY_AGAIN, none, pamError cv mistyped unset)
    else keepToken PAM_AUTHTOK t okSet true m

/-- `pam_get_authtok_verify` with `*authtok = given`: libpam/pam_get_authtok.c:230-289. -/
def getAuthtokVerify (cv : Convs W) (given : Str) (prompt : Option Str) (okP okSet : Bool) (m : S W) :
    Int × Option Value × S W :=
  if ¬ m.inner.chauthtok then (PAM_SYSTEM_ERR, none, m)
  else if m.inner.authtokVerified then
    ((getItem m.inner PAM_AUTHTOK).1, some (getItem m.inner PAM_AUTHTOK).2, m)
  else
    let r := promptFor cv (secondPrompt prompt (m.inner.authtokType.getD [])) okP m
    verifyReply cv given okSet r.1 r.2.1 r.2.2

end Pam.Handle
