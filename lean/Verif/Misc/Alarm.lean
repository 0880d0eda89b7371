import Verif.Misc.Conv
/-
libpam_misc/misc_conv.c with the alarm clock of the process, the function for SIGALRM, and the signals that are blocked.  The rest is as in Verif.Misc.Conv, whose list of
`Tick`s is not used here.
-/
namespace Pam.Misc
open Pam

/-- a function for SIGALRM: one of the application, or `time_is_up` -/
inductive Handler where
  | app (n : Nat)
  | timeIsUp
deriving DecidableEq, Repr

/-- a round with an alarm: does `sigaction` work, does the alarm go off after `read` is done, and what does the clock say if it went off -/
structure Round where
  sigOk : Bool
  late : Bool
  now : Int
deriving DecidableEq, Repr

/-- signals: the function for SIGALRM, the seconds until the next one (0: none), whether SIGTSTP is blocked, and the rounds to come -/
structure Sig where
  handler : Handler
  pending : Int
  tstp : Bool
  rounds : List Round
deriving DecidableEq, Repr

/-- `set_alarm`: libpam_misc/misc_conv.c:77-92; `alarm` gives the seconds that were left of the alarm before.  `true`: it worked.  What it leaves in `o_ptr` is the old function. -/
def setAlarm (delay : Int) (sigOk : Bool) (g : Sig) : Bool × Sig :=
  if ¬ sigOk then (false, g)
  else
    let old := g.handler
    let g1 := { g with handler := .timeIsUp }
    let left := g1.pending
    let g2 := { g1 with pending := delay }
    if left ≠ 0 then (false, { g2 with handler := old }) else (true, g2)

/-- `reset_alarm`: libpam_misc/misc_conv.c:64-68 -/
def resetAlarm (old : Handler) (g : Sig) : Sig := { g with pending := 0, handler := old }

/-- the loop of `read_string`: libpam_misc/misc_conv.c:173-246 -/
def readLoopA (size : Nat) (echo : Bool) (prompt : Str) (before : Option Term) : (rounds : List Round) → (nc : Int) → (delay : Int) → St → Sig → Option ((Int × Option Str) × St × Sig)
  | rounds, nc, delay, s, g =>
    if delay < 0 then some ((nc, none), s, { g with rounds := rounds })
    else
      let during := before.map (setTerm echo)
      let s : St := { s with log := s.log ++ [Out.err prompt], term := during }
      if delay = 0 then
        let r := readLine (size - 1) [] s.stdin
        let s : St := { s with stdin := r.2, term := before, echoes := s.echoes ++ (during.map (·.echo)).toList, log := s.log ++ after echo before.isSome false r.1.1 }
        some (answer r.1.1, s, { g with rounds := rounds })
      else
        match rounds with
        | [] => none
        | t :: ts =>
          let a := setAlarm delay t.sigOk g
          if ¬ a.1 then some ((nc, none), s, { a.2 with rounds := ts })
          else
            let r := readLine (size - 1) [] s.stdin
            let expired := r.1.2 || t.late
            let s : St := { s with stdin := r.2, term := before, echoes := s.echoes ++ (during.map (·.echo)).toList, log := s.log ++ after echo before.isSome expired r.1.1 }
            let g2 := resetAlarm g.handler a.2
            if expired then
              let d := getDelay t.now s
              readLoopA size echo prompt before ts (ncOf r.1.1) d.1 d.2 g2
            else some (answer r.1.1, s, { g2 with rounds := ts })

/-- `read_string`: libpam_misc/misc_conv.c:131-263, with the blocking of SIGTSTP at lines 161-163 and 258 -/
def readStringA (size : Nat) (tcget : Bool) (now : Int) (echo : Bool) (prompt : Str) (s : St) (g : Sig) : Option ((Int × Option Str) × St × Sig) :=
  if s.term.isSome ∧ ¬ tcget then some ((-1, none), s, g)
  else
    let oset := g.tstp
    let d := getDelay now s
    match readLoopA size echo prompt s.term g.rounds (-1) d.1 d.2 (if s.term.isSome then { g with tstp := true } else g) with
    | none => none
    | some (r, s', g') => some (r, { s' with term := s.term }, if s.term.isSome then { g' with tstp := oset } else g')

/-- one message: libpam_misc/misc_conv.c:303-354.  Only prompts have to do with signals. -/
def oneMsgA (e : Env) (i : Nat) (m : Msg) (s : St) (g : Sig) : Option (Option (Option Resp) × St × Sig) :=
  if m.style = ECHO_OFF ∨ m.style = ECHO_ON then
    match readStringA e.size e.tcget (e.clock i) (m.style = ECHO_ON) m.text s g with
    | none => none
    | some ((nc, str), s, g) => if nc < 0 then some (none, s, g) else some (some (str.map .text), s, g)
  else (oneMsg e i m s).map (fun x => (x.1, x.2, g))

/-- the loop over the messages: libpam_misc/misc_conv.c:299-363 -/
def msgLoopA (e : Env) : (i : Nat) → (done : List (Option Resp)) → List Msg → St → Sig → Option ((Bool × List (Option Resp)) × St × Sig)
  | _, done, [], s, g => some ((true, done), s, g)
  | i, done, m :: ms, s, g =>
    match oneMsgA e i m s g with
    | none => none
    | some (none, s, g) => some ((false, done), s, g)
    | some (some r, s, g) => msgLoopA e (i + 1) (done ++ [r]) ms s g

/-- `misc_conv`: libpam_misc/misc_conv.c:280-404: whether all messages were handled, the replies, and the state; `none`: it waits for ever -/
def miscConvA (e : Env) (msgs : List Msg) (s : St) (g : Sig) : Option ((Bool × List (Option Resp)) × St × Sig) :=
  if msgs.length = 0 then some ((false, []), s, g) else msgLoopA e 0 [] msgs s g

end Pam.Misc
