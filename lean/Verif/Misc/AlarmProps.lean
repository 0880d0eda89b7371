import Verif.Misc.Alarm
import Verif.Misc.ConvProps
/-
C167: the application's signals and misc_conv.
-/
namespace Pam.Misc
open Pam

/-! ### the model with signals is the model without -/

/-- what the model without signals sees of the rounds: the alarm can be set if `sigaction` works and the application has no alarm -/
def seen (g : Sig) (ts : List Round) : List Tick := ts.map (fun t => ⟨t.sigOk && decide (g.pending = 0), t.late, t.now⟩)

theorem seen_of {g g' : Sig} (h : g.pending = 0 ↔ g'.pending = 0) (ts : List Round) : seen g ts = seen g' ts := by
  unfold seen
  simp only [h]

theorem getDelay_ticks (now : Int) (s : St) (ts : List Tick) : getDelay now { s with ticks := ts } = ((getDelay now s).1, { (getDelay now s).2 with ticks := ts }) := by
  unfold getDelay
  simp only
  repeat' split
  all_goals rfl

theorem getDelay_same_ticks (now : Int) (s : St) : (getDelay now s).2.ticks = s.ticks := by
  unfold getDelay
  simp only
  repeat' split
  all_goals rfl

theorem setAlarm_ok {delay : Int} {ok : Bool} {g : Sig} : (setAlarm delay ok g).1 = (ok && decide (g.pending = 0)) := by
  unfold setAlarm
  cases ok
  · rfl
  · simp only [not_true, if_false, Bool.true_and]
    by_cases h : g.pending = 0
    · rw [if_neg (by simpa using h)]; simp [h]
    · rw [if_pos h]; simp [h]

theorem setAlarm_pending {delay : Int} (hd : 0 < delay) {ok : Bool} {g : Sig} (h : (setAlarm delay ok g).1 = false) :
    (setAlarm delay ok g).2.handler = g.handler ∧ (g.pending = 0 → (setAlarm delay ok g).2 = g) ∧ (g.pending ≠ 0 → (setAlarm delay ok g).2.pending ≠ 0) ∧ (setAlarm delay ok g).2.tstp = g.tstp ∧
    (g.pending = 0 ∨ ok = false → (setAlarm delay ok g).2.pending = g.pending) := by
  unfold setAlarm at h ⊢
  cases ok
  · exact ⟨rfl, fun _ => rfl, fun h => h, rfl, fun _ => rfl⟩
  · simp only [not_true, if_false] at h ⊢
    by_cases hp : g.pending = 0
    · rw [if_neg (by simpa using hp)] at h
      cases h
    · rw [if_pos hp]
      exact ⟨rfl, fun h => absurd h hp, fun _ => by show delay ≠ 0; omega, rfl, fun h => by rcases h with h | h; exact absurd h hp; cases h⟩

/-- what the loop leaves of the signals, and that its answers are those without them -/
theorem loopA (size : Nat) (echo : Bool) (prompt : Str) (before : Option Term) : ∀ (rounds : List Round) (nc delay : Int) (s : St) (g : Sig),
    (readLoopA size echo prompt before rounds nc delay s g).map (fun x => (x.1, { x.2.1 with ticks := seen g x.2.2.rounds })) =
      readLoop size echo prompt before (seen g rounds) nc delay s ∧
    ∀ r s' g', readLoopA size echo prompt before rounds nc delay s g = some (r, s', g') →
      g'.handler = g.handler ∧ g'.tstp = g.tstp ∧ (g.pending = 0 ↔ g'.pending = 0) := by
  intro rounds
  induction rounds with
  | nil =>
    intro nc delay s g
    unfold readLoopA readLoop
    by_cases h1 : delay < 0
    · simp only [if_pos h1]
      refine ⟨rfl, ?_⟩
      intro r s' g' h
      cases h
      exact ⟨rfl, rfl, Iff.rfl⟩
    · simp only [if_neg h1]
      by_cases h2 : delay = 0
      · simp only [if_pos h2]
        refine ⟨rfl, ?_⟩
        intro r s' g' h
        cases h
        exact ⟨rfl, rfl, Iff.rfl⟩
      · simp only [if_neg h2]
        exact ⟨rfl, nofun⟩
  | cons t ts ih =>
    intro nc delay s g
    unfold readLoopA readLoop
    by_cases h1 : delay < 0
    · simp only [if_pos h1]
      refine ⟨rfl, ?_⟩
      intro r s' g' h
      cases h
      exact ⟨rfl, rfl, Iff.rfl⟩
    · simp only [if_neg h1]
      by_cases h2 : delay = 0
      · simp only [if_pos h2]
        refine ⟨rfl, ?_⟩
        intro r s' g' h
        cases h
        exact ⟨rfl, rfl, Iff.rfl⟩
      · simp only [if_neg h2]
        have hseen : seen g (t :: ts) = ⟨t.sigOk && decide (g.pending = 0), t.late, t.now⟩ :: seen g ts := rfl
        rw [hseen]
        simp only
        have hok := @setAlarm_ok delay t.sigOk g
        rw [← hok]
        have hpos : 0 < delay := by omega
        cases ha : (setAlarm delay t.sigOk g).1 with
        | false =>
          obtain ⟨k1, k2, k3, k4, -⟩ := setAlarm_pending hpos ha
          simp only [Bool.false_eq_true, not_false_eq_true, if_true]
          refine ⟨rfl, ?_⟩
          intro r s' g' h
          cases h
          refine ⟨k1, k4, ?_⟩
          constructor
          · intro h; rw [k2 h]; exact h
          · intro h
            exact Classical.byContradiction fun hn => k3 hn h
        | true =>
          simp only [not_true, if_false]
          have hp : g.pending = 0 := by
            rw [ha] at hok
            simpa using (Bool.and_eq_true _ _ ▸ hok.symm : t.sigOk = true ∧ decide (g.pending = 0) = true).2
          have hg : (resetAlarm g.handler (setAlarm delay t.sigOk g).2).pending = 0 := rfl
          have hst : (resetAlarm g.handler (setAlarm delay t.sigOk g).2).tstp = g.tstp := by
            unfold resetAlarm setAlarm
            cases t.sigOk
            · rfl
            · simp only [not_true, if_false]
              split <;> rfl
          generalize hG : resetAlarm g.handler (setAlarm delay t.sigOk g).2 = g2 at hg hst
          have hh : g2.handler = g.handler := by rw [← hG]; rfl
          by_cases hx : ((readLine (size - 1) [] s.stdin).1.2 || t.late) = true
          · simp only [if_pos hx]
            have ih' := ih (ncOf (readLine (size - 1) [] s.stdin).1.1)
              (getDelay t.now { s with stdin := (readLine (size - 1) [] s.stdin).2, term := before, log := s.log ++ [Out.err prompt] ++ after echo before.isSome ((readLine (size - 1) [] s.stdin).1.2 || t.late) (readLine (size - 1) [] s.stdin).1.1, echoes := s.echoes ++ ((before.map (setTerm echo)).map (·.echo)).toList }).1
              (getDelay t.now { s with stdin := (readLine (size - 1) [] s.stdin).2, term := before, log := s.log ++ [Out.err prompt] ++ after echo before.isSome ((readLine (size - 1) [] s.stdin).1.2 || t.late) (readLine (size - 1) [] s.stdin).1.1, echoes := s.echoes ++ ((before.map (setTerm echo)).map (·.echo)).toList }).2 g2
            have hsn : ∀ l, seen g2 l = seen g l := seen_of ⟨fun _ => hp, fun _ => hg⟩
            simp only [hsn] at ih'
            refine ⟨ih'.1, ?_⟩
            intro r s' g' h
            obtain ⟨e1, e2, e3⟩ := ih'.2 r s' g' h
            exact ⟨e1.trans hh, e2.trans hst, ⟨fun _ => e3.mp hg, fun _ => hp⟩⟩
          · simp only [if_neg hx]
            refine ⟨rfl, ?_⟩
            intro r s' g' h
            cases h
            exact ⟨hh, hst, ⟨fun _ => hg, fun _ => hp⟩⟩

/-- the signals before and after: the same function, the same ones blocked, and no alarm if there was none -/
def Kept (g g' : Sig) : Prop := g'.handler = g.handler ∧ g'.tstp = g.tstp ∧ (g.pending = 0 ↔ g'.pending = 0)

theorem Kept.trans {a b c : Sig} (h : Kept a b) (h' : Kept b c) : Kept a c :=
  ⟨h'.1.trans h.1, h'.2.1.trans h.2.1, h.2.2.trans h'.2.2⟩

theorem readLoop_ticks (size : Nat) (echo : Bool) (prompt : Str) (before : Option Term) (tk : List Tick) : ∀ (ticks : List Tick) (nc delay : Int) (s : St),
    readLoop size echo prompt before ticks nc delay { s with ticks := tk } = readLoop size echo prompt before ticks nc delay s := by
  intro ticks
  induction ticks with
  | nil =>
    intro nc delay s
    unfold readLoop
    split
    · rfl
    · split <;> rfl
  | cons t ts ih =>
    intro nc delay s
    conv => lhs; unfold readLoop
    conv => rhs; unfold readLoop
    by_cases h1 : delay < 0
    · rw [if_pos h1, if_pos h1]
    · rw [if_neg h1, if_neg h1]
      by_cases h2 : delay = 0
      · simp only [if_pos h2]
      · simp only [if_neg h2]
        by_cases h3 : t.alarmOk = true
        · simp only [h3, not_true, if_false]
          split
          · have := getDelay_ticks t.now { s with stdin := (readLine (size - 1) [] s.stdin).2, term := before, log := s.log ++ [Out.err prompt] ++ after echo before.isSome ((readLine (size - 1) [] s.stdin).1.2 || t.late) (readLine (size - 1) [] s.stdin).1.1, echoes := s.echoes ++ ((before.map (setTerm echo)).map (·.echo)).toList } tk
            simp only at this
            rw [this]
            exact ih _ _ _
          · rfl
        · simp only [h3]
          rfl

theorem stringA (size : Nat) (tcget : Bool) (now : Int) (echo : Bool) (prompt : Str) (s : St) (g : Sig) :
    (readStringA size tcget now echo prompt s g).map (fun x => (x.1, { x.2.1 with ticks := seen g x.2.2.rounds })) =
      readString size tcget now echo prompt { s with ticks := seen g g.rounds } ∧
    ∀ r s' g', readStringA size tcget now echo prompt s g = some (r, s', g') → Kept g g' := by
  unfold readStringA readString
  simp only
  by_cases hc : s.term.isSome ∧ ¬ tcget
  · rw [if_pos hc, if_pos hc]
    refine ⟨rfl, ?_⟩
    intro r s' g' h
    cases h
    exact ⟨rfl, rfl, Iff.rfl⟩
  · rw [if_neg hc, if_neg hc]
    rw [getDelay_ticks now s (seen g g.rounds)]
    dsimp only
    generalize hG : (if s.term.isSome = true then { g with tstp := true } else g) = g0
    have hp : g0.pending = g.pending ∧ g0.handler = g.handler ∧ g0.rounds = g.rounds ∧ (s.term.isSome = false → g0.tstp = g.tstp) := by
      rw [← hG]
      cases s.term.isSome
      · exact ⟨rfl, rfl, rfl, fun _ => rfl⟩
      · exact ⟨rfl, rfl, rfl, nofun⟩
    have hl := loopA size echo prompt s.term g.rounds (-1) (getDelay now s).1 (getDelay now s).2 g0
    have hsn : ∀ l, seen g0 l = seen g l := seen_of (by rw [hp.1])
    simp only [hsn] at hl
    rw [readLoop_ticks, ← hl.1]
    cases hr : readLoopA size echo prompt s.term g.rounds (-1) (getDelay now s).1 (getDelay now s).2 g0 with
    | none => exact ⟨rfl, nofun⟩
    | some x =>
      obtain ⟨r, s', g'⟩ := x
      simp only [Option.map_some]
      constructor
      · cases s.term.isSome <;> rfl
      · intro r1 s1 g1 h
        obtain ⟨e1, e2, e3⟩ := hl.2 r s' g' hr
        cases ht : s.term.isSome with
        | false =>
          rw [ht] at h
          cases h
          exact ⟨e1.trans hp.2.1, e2.trans (hp.2.2.2 ht), by rw [← hp.1]; exact e3⟩
        | true =>
          rw [ht] at h
          cases h
          exact ⟨e1.trans hp.2.1, rfl, by rw [← hp.1]; exact e3⟩

theorem oneA (e : Env) (i : Nat) (m : Msg) (s : St) (g : Sig) :
    (oneMsgA e i m s g).map (fun x => (x.1, { x.2.1 with ticks := seen g x.2.2.rounds })) = oneMsg e i m { s with ticks := seen g g.rounds } ∧
    ∀ r s' g', oneMsgA e i m s g = some (r, s', g') → Kept g g' := by
  unfold oneMsgA
  by_cases hs : m.style = ECHO_OFF ∨ m.style = ECHO_ON
  · unfold oneMsg
    rw [if_pos hs, if_pos hs]
    obtain ⟨h1, h2⟩ := stringA e.size e.tcget (e.clock i) (m.style = ECHO_ON) m.text s g
    rw [← h1]
    cases hr : readStringA e.size e.tcget (e.clock i) (m.style = ECHO_ON) m.text s g with
    | none => exact ⟨rfl, nofun⟩
    | some x =>
      obtain ⟨⟨nc, str⟩, s', g'⟩ := x
      simp only [Option.map_some]
      have hk := h2 _ _ _ hr
      by_cases hn : nc < 0
      · simp only [if_pos hn]
        refine ⟨rfl, ?_⟩
        intro r s1 g1 h
        cases h
        exact hk
      · simp only [if_neg hn]
        refine ⟨rfl, ?_⟩
        intro r s1 g1 h
        cases h
        exact hk
  · rw [if_neg hs]
    constructor
    · unfold oneMsg
      rw [if_neg hs, if_neg hs]
      by_cases h3 : m.style = ERROR_MSG
      · rw [if_pos h3, if_pos h3]
        split <;> rfl
      · rw [if_neg h3, if_neg h3]
        by_cases h4 : m.style = TEXT_INFO
        · rw [if_pos h4, if_pos h4]
          split <;> rfl
        · rw [if_neg h4, if_neg h4]
          by_cases h5 : m.style = BINARY
          · rw [if_pos h5, if_pos h5]
            cases e.binary with
            | none => rfl
            | some f =>
              simp only
              cases f m.text <;> rfl
          · rw [if_neg h5, if_neg h5]
            rfl
    · intro r s' g' h
      simp only [Option.map_eq_some_iff] at h
      obtain ⟨x, -, hx⟩ := h
      cases hx
      exact ⟨rfl, rfl, Iff.rfl⟩

theorem msgA (e : Env) : ∀ (ms : List Msg) (i : Nat) (done : List (Option Resp)) (s : St) (g : Sig),
    (msgLoopA e i done ms s g).map (fun x => (x.1, { x.2.1 with ticks := seen g x.2.2.rounds })) = msgLoop e i done ms { s with ticks := seen g g.rounds } ∧
    ∀ r s' g', msgLoopA e i done ms s g = some (r, s', g') → Kept g g' := by
  intro ms
  induction ms with
  | nil =>
    intro i done s g
    refine ⟨rfl, ?_⟩
    intro r s' g' h
    cases h
    exact ⟨rfl, rfl, Iff.rfl⟩
  | cons m ms ih =>
    intro i done s g
    obtain ⟨h1, h2⟩ := oneA e i m s g
    unfold msgLoopA msgLoop
    rw [← h1]
    cases hr : oneMsgA e i m s g with
    | none => exact ⟨rfl, nofun⟩
    | some x =>
      obtain ⟨r, s', g'⟩ := x
      have hk := h2 _ _ _ hr
      cases r with
      | none =>
        refine ⟨rfl, ?_⟩
        intro r s1 g1 h
        cases h
        exact hk
      | some r =>
        simp only [Option.map_some]
        obtain ⟨i1, i2⟩ := ih (i + 1) (done ++ [r]) s' g'
        have hsn : ∀ l, seen g' l = seen g l := seen_of hk.2.2.symm
        simp only [hsn] at i1
        exact ⟨i1, fun r1 s1 g1 h => hk.trans (i2 r1 s1 g1 h)⟩

/-! ### theorems -/

/-- **C167** The alarms make no difference to what was proved of conversations: this is the conversation of C100 to C102, in which an alarm can be set if the system lets it and the application has none running. -/
theorem C167_refines (e : Env) (msgs : List Msg) (s : St) (g : Sig) :
    miscConv e msgs { s with ticks := g.rounds.map (fun t => ⟨t.sigOk && decide (g.pending = 0), t.late, t.now⟩) } =
      match miscConvA e msgs s g with
      | none => .waits
      | some ((ok, replies), s', g') =>
        if ok then .done PAM_SUCCESS (some replies) { s' with ticks := g'.rounds.map (fun t => ⟨t.sigOk && decide (g.pending = 0), t.late, t.now⟩) }
        else if replies.any (fun r => match r with | some (.binary _) => true | _ => false) then .bad
        else .done PAM_CONV_ERR none { s' with ticks := g'.rounds.map (fun t => ⟨t.sigOk && decide (g.pending = 0), t.late, t.now⟩) } := by
  unfold miscConv miscConvA
  by_cases h0 : msgs.length = 0
  · rw [if_pos h0, if_pos h0]
    rfl
  · rw [if_neg h0, if_neg h0]
    have h := (msgA e msgs 0 [] s g).1
    unfold seen at h
    rw [← h]
    cases msgLoopA e 0 [] msgs s g with
    | none => rfl
    | some x =>
      obtain ⟨⟨ok, rs⟩, s', g'⟩ := x
      cases ok <;> rfl

/-- **C167** After a conversation, successful or not, with or without time limits, the function for SIGALRM is the one the application had, and the same signals are blocked.  If the application had no alarm running, none is. -/
theorem C167_signals_partial (e : Env) (msgs : List Msg) (s s' : St) (g g' : Sig) (r : Bool × List (Option Resp)) (h : miscConvA e msgs s g = some (r, s', g')) :
    g'.handler = g.handler ∧ g'.tstp = g.tstp ∧ (g.pending = 0 → g'.pending = 0) := by
  unfold miscConvA at h
  split at h
  · cases h
    exact ⟨rfl, rfl, id⟩
  · obtain ⟨a, b, c⟩ := (msgA e msgs 0 [] s g).2 _ _ _ h
    exact ⟨a, b, c.mp⟩

theorem oneA_untimed (e : Env) (i : Nat) (m : Msg) (s : St) (g : Sig) (hu : Untimed s) : ∃ r s', oneMsgA e i m s g = some (r, s', g) ∧ Untimed s' := by
  unfold oneMsgA
  by_cases hs : m.style = ECHO_OFF ∨ m.style = ECHO_ON
  · rw [if_pos hs]
    unfold readStringA
    by_cases hc : s.term.isSome ∧ ¬ e.tcget
    · rw [if_pos hc]
      exact ⟨_, _, rfl, hu⟩
    · rw [if_neg hc]
      rw [getDelay_untimed hu]
      unfold readLoopA
      simp only [if_neg (by decide : ¬ ((0 : Int) < 0)), if_true]
      cases hterm : s.term.isSome with
      | false =>
        simp only [Bool.false_eq_true, if_false]
        by_cases hn : (answer (readLine (e.size - 1) [] s.stdin).1.1).1 < 0
        · rw [if_pos hn]; exact ⟨_, _, rfl, hu⟩
        · rw [if_neg hn]; exact ⟨_, _, rfl, hu⟩
      | true =>
        simp only [if_true]
        by_cases hn : (answer (readLine (e.size - 1) [] s.stdin).1.1).1 < 0
        · rw [if_pos hn]; exact ⟨_, _, rfl, hu⟩
        · rw [if_neg hn]; exact ⟨_, _, rfl, hu⟩
  · rw [if_neg hs]
    unfold oneMsg
    rw [if_neg hs]
    repeat' split
    all_goals exact ⟨_, _, rfl, hu⟩

/-- **C167** Without time limits misc_conv does nothing to signals at all: an alarm of the application runs on. -/
theorem C167_untimed (e : Env) (msgs : List Msg) (s : St) (g : Sig) (h : s.times.warn = 0 ∧ s.times.die = 0) : ∃ r s', miscConvA e msgs s g = some (r, s', g) := by
  have go : ∀ (ms : List Msg) (i : Nat) (done : List (Option Resp)) (s : St), Untimed s → ∃ r s', msgLoopA e i done ms s g = some (r, s', g) := by
    intro ms
    induction ms with
    | nil => intro i done s _; exact ⟨_, _, rfl⟩
    | cons m ms ih =>
      intro i done s hu
      obtain ⟨r, s', h1, h2⟩ := oneA_untimed e i m s g hu
      unfold msgLoopA
      rw [h1]
      cases r with
      | none => exact ⟨_, _, rfl⟩
      | some r => exact ih _ _ _ h2
  unfold miscConvA
  split
  · exact ⟨_, _, rfl⟩
  · exact go msgs 0 [] s h

/-- **C167** (against) If the application has an alarm running and a time limit is set, the first prompt fails, whatever is typed, and the alarm is moved to the time limit.  libpam_misc/misc_conv.c:87-90. -/
theorem C167_pending (e : Env) (m : Msg) (hm : m.style = ECHO_OFF ∨ m.style = ECHO_ON) (ms : List Msg) (s : St) (g : Sig) (he : s.term.isSome = true → e.tcget = true)
    (hp : g.pending ≠ 0) (hw : s.times.warn = 0) (h0 : e.clock 0 < s.times.die) (hd : s.times.die ≠ 0) (hfar : s.times.die - e.clock 0 < 2 ^ 31) (t : Round) (ts : List Round)
    (hr : g.rounds = t :: ts) (ht : t.sigOk = true) :
    ∃ s' g', miscConvA e (m :: ms) s g = some ((false, []), s', g') ∧ g'.pending = s.times.die - e.clock 0 ∧ g'.handler = g.handler := by
  have hdelay : getDelay (e.clock 0) s = (s.times.die - e.clock 0, s) := by
    unfold getDelay
    simp only
    rw [if_neg (by omega), if_neg (by omega), if_neg (by omega), if_pos hd]
    unfold toInt32
    congr 1
    omega
  have hc : ¬ (s.term.isSome = true ∧ ¬ e.tcget = true) := fun h => h.2 (he h.1)
  have hset : ∀ g : Sig, g.pending ≠ 0 → setAlarm (s.times.die - e.clock 0) true g = (false, { g with pending := s.times.die - e.clock 0 }) := by
    intro g hg
    unfold setAlarm
    simp only [not_true, if_false]
    rw [if_pos hg]
  unfold miscConvA
  rw [if_neg (by simp)]
  unfold msgLoopA oneMsgA
  rw [if_pos hm]
  unfold readStringA
  rw [if_neg hc, hdelay, hr]
  unfold readLoopA
  simp only [if_neg (by omega : ¬ (s.times.die - e.clock 0 < 0)), if_neg (by omega : ¬ (s.times.die - e.clock 0 = 0)), ht]
  cases hterm : s.term.isSome with
  | false =>
    simp only [Bool.false_eq_true, if_false]
    rw [hset g hp]
    exact ⟨_, _, rfl, rfl, rfl⟩
  | true =>
    simp only [if_true]
    rw [hset { g with tstp := true, rounds := t :: ts } hp]
    exact ⟨_, _, rfl, rfl, rfl⟩

/-! ### examples -/

def demoSig (n : Int) : Sig := ⟨.app 7, n, false, [⟨true, true, 150⟩, ⟨true, false, 0⟩]⟩
/-- a time limit at 200, a warning at 150; it is 100 -/
def demoTimed : St := { sampleSt ["x".toList, "secret".toList] with times := ⟨150, 200, false⟩ }

example : (miscConvA sampleEnv [⟨ECHO_OFF, "pw: ".toList⟩] demoTimed (demoSig 0)).map (fun x => (x.1, x.2.2)) =
    some ((true, [some (.text "secret".toList)]), ⟨.app 7, 0, false, []⟩) := by decide +kernel
/-- **C167** (against) an instance: the alarm in 30 seconds is put off for 50 -/
theorem C167_counterexample : (miscConvA sampleEnv [⟨ECHO_OFF, "pw: ".toList⟩] demoTimed (demoSig 30)).map (fun x => (x.1, x.2.2)) =
    some ((false, []), ⟨.app 7, 50, false, [⟨true, false, 0⟩]⟩) := by decide +kernel
example : (miscConvA sampleEnv [⟨ECHO_OFF, "pw: ".toList⟩] (sampleSt ["secret".toList]) (demoSig 30)).map (fun x => (x.1, x.2.2)) =
    some ((true, [some (.text "secret".toList)]), demoSig 30) := by decide +kernel
/-- the hypotheses of `C167_pending` -/
example : (demoSig 30).pending ≠ 0 ∧ ({ demoTimed with times := ⟨0, 200, false⟩ } : St).times.warn = 0 ∧ sampleEnv.clock 0 < 200 ∧ (200 : Int) - sampleEnv.clock 0 < 2 ^ 31 := by decide +kernel

end Pam.Misc
