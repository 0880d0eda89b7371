import Verif.Core.Codes
/-
libpam_misc/misc_conv.c: the conversation function for text terminals.

Standard input is a list of events: bytes, an end of file, an error of `read` (with or without the alarm of this file going off).  At the end of
the list there is the end of the file.  A terminal is in canonical mode, so that `read` returns at most a line; input that is pending when a prompt is shown on a terminal
is thrown away and not among the events.  What the clock says and whether the
alarm can be set is given by a list of `Tick`s, one for each round of the loop in `read_string` that sets an alarm.
Left out: signals other than SIGALRM, and the overwriting of memory.  Memory does not run out.
-/
namespace Pam.Misc
open Pam

/-- a C string, without its NUL -/
abbrev Str := List Char

/-- PAM_PROMPT_ECHO_OFF: libpam/include/security/_pam_types.h:229 -/
abbrev ECHO_OFF : Int := 1
/-- PAM_PROMPT_ECHO_ON: libpam/include/security/_pam_types.h:230 -/
abbrev ECHO_ON : Int := 2
/-- PAM_ERROR_MSG: libpam/include/security/_pam_types.h:231 -/
abbrev ERROR_MSG : Int := 3
/-- PAM_TEXT_INFO: libpam/include/security/_pam_types.h:232 -/
abbrev TEXT_INFO : Int := 4
/-- PAM_BINARY_PROMPT: libpam/include/security/_pam_types.h:241 -/
abbrev BINARY : Int := 7

/-- what happens on standard input -/
inductive Ev where
  | byte (c : Char)
  | eof
  | error (alarm : Bool)
deriving DecidableEq, Repr

/-- a round with an alarm: could it be set, does it go off after `read` is done, and what does the clock say if it went off -/
structure Tick where
  alarmOk : Bool
  late : Bool
  now : Int
deriving DecidableEq, Repr

/-- `pam_misc_conv_warn_time`, `pam_misc_conv_die_time`, `pam_misc_conv_died` -/
structure Times where
  warn : Int
  die : Int
  died : Bool
deriving DecidableEq, Repr

/-- the flags of the terminal that matter -/
structure Term where
  echo : Bool
  canon : Bool
  echoctl : Bool
deriving DecidableEq, Repr

/-- what is shown: on standard error or standard output -/
inductive Out where
  | err (s : Str)
  | out (s : Str)
  | warnLine
  | dieLine
deriving DecidableEq, Repr

/-- the state of the process; `log` has what is shown in the order in which it is shown, `echoes` the echo flag at each `read` from a terminal -/
structure St where
  stdin : List Ev
  ticks : List Tick
  times : Times
  term : Option Term
  log : List Out
  echoes : List Bool
deriving DecidableEq, Repr

/-- the conversion of a `time_t` to an `int` -/
def toInt32 (v : Int) : Int := (v + 2 ^ 31) % 2 ^ 32 - 2 ^ 31

/-- `get_delay`: libpam_misc/misc_conv.c:95-128 -/
def getDelay (now : Int) (s : St) : Int × St :=
  let t := s.times
  if t.die ≠ 0 ∧ now ≥ t.die then (-1, { s with times := { t with died := true }, log := s.log ++ [.dieLine] })
  else if t.warn ≠ 0 ∧ now ≥ t.warn then
    (if t.die ≠ 0 then toInt32 (t.die - now) else 0, { s with times := { t with warn := 0 }, log := s.log ++ [.warnLine] })
  else if t.warn ≠ 0 then (toInt32 (t.warn - now), s)
  else if t.die ≠ 0 then (toInt32 (t.die - now), s)
  else (0, s)

/-- what `read` (terminal) or the loop over single bytes gives: libpam_misc/misc_conv.c:184-197.  `n` is the room that is left. -/
def readLine : (n : Nat) → (got : Str) → List Ev → (Option Str × Bool) × List Ev
  | 0, got, evs => ((some got, false), evs)
  | _ + 1, got, [] => ((some got, false), [])
  | _ + 1, got, .eof :: r => ((some got, false), r)
  | _ + 1, _, .error a :: r => ((none, a), r)
  | n + 1, got, .byte c :: r => if c = '\n' then ((some (got ++ [c]), false), r) else readLine n (got ++ [c]) r

/-- up to the first NUL: `strdup` -/
def cstr (s : Str) : Str := s.takeWhile (· ≠ '\x00')

/-- the answer made of the bytes that were read: libpam_misc/misc_conv.c:208-244; `nc` and the string -/
def answer (got : Option Str) : Int × Option Str :=
  match got with
  | none => (-1, none)
  | some [] => (0, none)
  | some l => if l.getLast? = some '\n' then ((l.length : Int) - 1, some (cstr l.dropLast)) else (l.length, some (cstr l))

/-- the value of `nc` before the answer is made -/
def ncOf (got : Option Str) : Int := match got with | none => -1 | some l => l.length

/-- what is shown after reading: libpam_misc/misc_conv.c:198-202, 214-216, 232-241 -/
def after (echo haveTerm expired : Bool) (got : Option Str) : List Out :=
  (if haveTerm ∧ (¬ echo ∨ expired) then [.err ['\n']] else []) ++
  (if echo ∧ ¬ expired ∧ got.bind List.getLast? ≠ some '\n' then [.err ['\n']] else [])

/-- `term_tmp`: libpam_misc/misc_conv.c:149-153 -/
def setTerm (echo : Bool) (t : Term) : Term := if echo then { t with canon := true, echoctl := true } else { t with echo := false }

/-- the loop of `read_string`: libpam_misc/misc_conv.c:173-246.  `nc` is the value of the last round; `none`: it waits for ever.
`before` is the state of the terminal at the beginning. -/
def readLoop (size : Nat) (echo : Bool) (prompt : Str) (before : Option Term) : (ticks : List Tick) → (nc : Int) → (delay : Int) → St → Option ((Int × Option Str) × St)
  | ticks, nc, delay, s =>
    if delay < 0 then some ((nc, none), { s with ticks := ticks })
    else
      let during := before.map (setTerm echo)
      let s : St := { s with log := s.log ++ [Out.err prompt], term := during }
      if delay = 0 then
        let r := readLine (size - 1) [] s.stdin
        let s : St := { s with stdin := r.2, ticks := ticks, term := before, echoes := s.echoes ++ (during.map (·.echo)).toList, log := s.log ++ after echo before.isSome false r.1.1 }
        some (answer r.1.1, s)
      else
        match ticks with
        | [] => none
        | t :: ts =>
          if ¬ t.alarmOk then some ((nc, none), { s with ticks := ts })
          else
            let r := readLine (size - 1) [] s.stdin
            let expired := r.1.2 || t.late
            let s : St := { s with stdin := r.2, term := before, echoes := s.echoes ++ (during.map (·.echo)).toList, log := s.log ++ after echo before.isSome expired r.1.1 }
            if expired then
              let d := getDelay t.now s
              readLoop size echo prompt before ts (ncOf r.1.1) d.1 d.2
            else some (answer r.1.1, { s with ticks := ts })

/-- `read_string`: libpam_misc/misc_conv.c:131-263.  `now` is the clock at the beginning, `tcget` whether `tcgetattr` works.  The result is `nc` and
the string. -/
def readString (size : Nat) (tcget : Bool) (now : Int) (echo : Bool) (prompt : Str) (s : St) : Option ((Int × Option Str) × St) :=
  if s.term.isSome ∧ ¬ tcget then some ((-1, none), s)
  else
    let d := getDelay now s
    match readLoop size echo prompt s.term s.ticks (-1) d.1 d.2 with
    | none => none
    | some (r, s') => some (r, { s' with term := s.term })

/-- `struct pam_message` -/
structure Msg where
  style : Int
  text : Str
deriving DecidableEq, Repr

/-- a response: a string, or a binary prompt -/
inductive Resp where
  | text (s : Str)
  | binary (b : Str)
deriving DecidableEq, Repr

/-- the rest of the world: the size of the buffer, `tcgetattr`, the clock at the beginning of each prompt, whether writing to the two outputs works,
and the handler of binary prompts (which gives no answer if it fails) -/
structure Env where
  size : Nat
  tcget : Bool
  clock : Nat → Int
  errOk : Bool
  outOk : Bool
  binary : Option (Str → Option Str)

/-- one message: libpam_misc/misc_conv.c:303-354; inside `none`: the conversation fails -/
def oneMsg (e : Env) (i : Nat) (m : Msg) (s : St) : Option (Option (Option Resp) × St) :=
  if m.style = ECHO_OFF ∨ m.style = ECHO_ON then
    match readString e.size e.tcget (e.clock i) (m.style = ECHO_ON) m.text s with
    | none => none
    | some ((nc, str), s) => if nc < 0 then some (none, s) else some (some (str.map .text), s)
  else if m.style = ERROR_MSG then
    if e.errOk then some (some none, { s with log := s.log ++ [.err (m.text ++ ['\n'])] }) else some (none, s)
  else if m.style = TEXT_INFO then
    if e.outOk then some (some none, { s with log := s.log ++ [.out (m.text ++ ['\n'])] }) else some (none, s)
  else if m.style = BINARY then
    match e.binary with
    | none => some (none, s)
    | some f => match f m.text with
      | none => some (none, s)
      | some b => some (some (some (.binary b)), s)
  else some (none, s)

/-- the loop over the messages: libpam_misc/misc_conv.c:299-363; the replies so far, and whether the conversation failed -/
def msgLoop (e : Env) : (i : Nat) → (done : List (Option Resp)) → List Msg → St → Option ((Bool × List (Option Resp)) × St)
  | _, done, [], s => some ((true, done), s)
  | i, done, m :: ms, s =>
    match oneMsg e i m s with
    | none => none
    | some (none, s) => some ((false, done), s)
    | some (some r, s) => msgLoop e (i + 1) (done ++ [r]) ms s

/-- the outcome of a conversation -/
inductive Outcome where
  /-- it waits for ever -/
  | waits
  /-- undefined behaviour -/
  | bad
  | done (code : Int) (replies : Option (List (Option Resp))) (s : St)
deriving DecidableEq, Repr

/-- `misc_conv`: libpam_misc/misc_conv.c:280-404.  When the conversation fails the free function for binary prompts is given a binary prompt
instead of a pointer to it (libpam_misc/misc_conv.c:387-391): the default one takes the first bytes of the prompt for an address. -/
def miscConv (e : Env) (msgs : List Msg) (s : St) : Outcome :=
  if msgs.length = 0 then .done PAM_CONV_ERR none s
  else
    match msgLoop e 0 [] msgs s with
    | none => .waits
    | some ((true, replies), s) => .done PAM_SUCCESS (some replies) s
    | some ((false, replies), s) => if replies.any (fun r => match r with | some (.binary _) => true | _ => false) then .bad else .done PAM_CONV_ERR none s

end Pam.Misc
