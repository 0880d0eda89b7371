import Verif.Misc.Conv
/-
C100 to C102: misc_conv.
-/
namespace Pam.Misc
open Pam

/-! ### specification -/

/-- the lines that are typed or come from a file, one after the other -/
def typed (lines : List Str) : List Ev := lines.flatMap fun l => (l ++ ['\n']).map .byte

/-- a line that fits into the buffer together with its newline -/
def Plain (size : Nat) (l : Str) : Prop := '\n' ∉ l ∧ '\x00' ∉ l ∧ l.length + 1 < size

/-- messages, the lines there are, the replies, the lines that are left: each prompt is answered by the next line, other messages have no reply -/
inductive Answered : List Msg → List Str → List (Option Resp) → List Str → Prop
  | nil (ls) : Answered [] ls [] ls
  | prompt {m ms l ls rs rest} : (m.style = ECHO_OFF ∨ m.style = ECHO_ON) → Answered ms ls rs rest → Answered (m :: ms) (l :: ls) (some (.text l) :: rs) rest
  | message {m ms ls rs rest} : (m.style = ERROR_MSG ∨ m.style = TEXT_INFO) → Answered ms ls rs rest → Answered (m :: ms) ls (none :: rs) rest

/-- what is shown for a message: prompts and errors on standard error, information on standard output; a newline where a hidden line was typed at
a terminal -/
def shown (tty : Bool) (m : Msg) : List Out :=
  if m.style = ECHO_ON then [.err m.text]
  else if m.style = ECHO_OFF then .err m.text :: (if tty then [.err ['\n']] else [])
  else if m.style = ERROR_MSG then [.err (m.text ++ ['\n'])]
  else [.out (m.text ++ ['\n'])]

/-- the code, the replies and whether the time ran out -/
def result : Outcome → Option (Int × Option (List (Option Resp)) × Bool)
  | .done code rs s => some (code, rs, s.times.died)
  | _ => none

/-! ### lemmas -/

theorem readLine_line : ∀ (l : Str) (n : Nat) (got : Str) (r : List Ev), '\n' ∉ l → l.length < n →
    readLine n got ((l ++ ['\n']).map Ev.byte ++ r) = ((some (got ++ l ++ ['\n']), false), r) := by
  intro l
  induction l with
  | nil =>
    intro n got r _ hn
    cases n with
    | zero => simp at hn
    | succ n => simp [readLine]
  | cons c l ih =>
    intro n got r hc hn
    cases n with
    | zero => simp at hn
    | succ n =>
      simp only [List.cons_append, List.map_cons]
      unfold readLine
      rw [if_neg (fun e => hc (by simp [e])), ih n (got ++ [c]) r (fun h => hc (by simp [h])) (by simp at hn; omega)]
      simp

theorem takeWhile_all {p : Char → Bool} {l : Str} (h : ∀ c ∈ l, p c = true) : l.takeWhile p = l := by
  induction l with
  | nil => rfl
  | cons c l ih => rw [List.takeWhile_cons_of_pos (h c (by simp)), ih fun x hx => h x (by simp [hx])]

theorem answer_line {l : Str} (h : '\x00' ∉ l) : answer (some (l ++ ['\n'])) = ((l.length : Int), some l) := by
  have hc : cstr l = l := takeWhile_all (by intro c hc; simp; rintro rfl; exact h hc)
  have : ∃ a q, l ++ ['\n'] = a :: q := by cases l with | nil => exact ⟨_, _, rfl⟩ | cons c l => exact ⟨_, _, rfl⟩
  obtain ⟨a, q, e⟩ := this
  have h2 : answer (some (l ++ ['\n'])) = if (l ++ ['\n']).getLast? = some '\n' then (((l ++ ['\n']).length : Int) - 1, some (cstr (l ++ ['\n']).dropLast))
      else ((l ++ ['\n']).length, some (cstr (l ++ ['\n']))) := by rw [e]; rfl
  rw [h2, if_pos (by simp)]
  simp [hc]

/-- neither a warning nor an end is set -/
def Untimed (s : St) : Prop := s.times.warn = 0 ∧ s.times.die = 0

theorem getDelay_untimed {s : St} (h : Untimed s) (now : Int) : getDelay now s = (0, s) := by
  unfold getDelay
  dsimp only
  rw [if_neg (by simp [h.2]), if_neg (by simp [h.1]), if_neg (by simp [h.1]), if_neg (by simp [h.2])]

/-- without time limits there is one round -/
theorem readString_untimed {s : St} (h : Untimed s) (size : Nat) (now : Int) (echo : Bool) (prompt : Str) :
    readString size true now echo prompt s =
      let r := readLine (size - 1) [] s.stdin
      some (answer r.1.1, { s with stdin := r.2, echoes := s.echoes ++ ((s.term.map (setTerm echo)).map Term.echo).toList, log := s.log ++ .err prompt :: after echo s.term.isSome false r.1.1 }) := by
  unfold readString
  rw [if_neg (by simp), getDelay_untimed h]
  dsimp only
  unfold readLoop
  rw [if_neg (by decide)]
  dsimp only
  rw [if_pos rfl]
  dsimp only
  simp

theorem typed_cons (l : Str) (ls : List Str) (evs : List Ev) : typed (l :: ls) ++ evs = (l ++ ['\n']).map Ev.byte ++ (typed ls ++ evs) := by
  unfold typed; simp

theorem after_line (tty echo : Bool) (l : Str) : after echo tty false (some (l ++ ['\n'])) = if tty ∧ ¬ echo then [.err ['\n']] else [] := by
  unfold after
  cases tty <;> cases echo <;> simp

theorem msgLoop_lines (e : Env) (he : e.tcget = true ∧ e.errOk = true ∧ e.outOk = true) (evs : List Ev) {msgs : List Msg} {ls rest : List Str} {rs : List (Option Resp)}
    (h : Answered msgs ls rs rest) : (∀ l ∈ ls, Plain e.size l) → ∀ (i : Nat) (done : List (Option Resp)) (s : St), Untimed s → s.stdin = typed ls ++ evs →
    ∃ s', msgLoop e i done msgs s = some ((true, done ++ rs), s') ∧ s'.stdin = typed rest ++ evs ∧ s'.log = s.log ++ msgs.flatMap (shown s.term.isSome) ∧
      s'.term = s.term := by
  induction h with
  | nil ls => intro _ i done s _ hs; exact ⟨s, by simp [msgLoop], hs, by simp, rfl⟩
  | @prompt m ms l ls rs rest hm _ ih =>
    intro hp i done s hu hs
    have hl := hp l (by simp)
    have hread := readString_untimed hu e.size (e.clock i) (decide (m.style = ECHO_ON)) m.text
    rw [hs, typed_cons, readLine_line l _ _ _ hl.1 (by have := hl.2.2; omega)] at hread
    simp only [List.nil_append] at hread
    rw [answer_line hl.2.1, after_line] at hread
    have hone : oneMsg e i m s = some (some (some (.text l)), { s with stdin := typed ls ++ evs, echoes := s.echoes ++ ((s.term.map (setTerm (decide (m.style = ECHO_ON)))).map Term.echo).toList, log := s.log ++ shown s.term.isSome m }) := by
      unfold oneMsg
      rw [if_pos hm, he.1, hread]
      dsimp only
      rw [if_neg (by omega)]
      congr 3
      unfold shown
      rcases hm with h | h <;> simp [h, ECHO_OFF, ECHO_ON]
    obtain ⟨s', h1, h2, h3, h4⟩ := ih (fun x hx => hp x (by simp [hx])) (i + 1) (done ++ [some (.text l)]) { s with stdin := typed ls ++ evs, echoes := s.echoes ++ ((s.term.map (setTerm (decide (m.style = ECHO_ON)))).map Term.echo).toList, log := s.log ++ shown s.term.isSome m } hu rfl
    refine ⟨s', ?_, h2, ?_, h4⟩
    · unfold msgLoop
      rw [hone]
      dsimp only
      rw [h1]; simp
    · rw [h3]; simp
  | @message m ms ls rs rest hm _ ih =>
    intro hp i done s hu hs
    have hone : oneMsg e i m s = some (some none, { s with log := s.log ++ shown s.term.isSome m }) := by
      unfold oneMsg shown
      rcases hm with h | h <;> simp [h, he.2.1, he.2.2, ECHO_OFF, ECHO_ON, ERROR_MSG, TEXT_INFO]
    obtain ⟨s', h1, h2, h3, h4⟩ := ih hp (i + 1) (done ++ [none]) { s with log := s.log ++ shown s.term.isSome m } hu hs
    refine ⟨s', ?_, h2, ?_, h4⟩
    · unfold msgLoop
      rw [hone]
      dsimp only
      rw [h1]; simp
    · rw [h3]; simp

/-! ### C100: prompts and answers -/

/-- C100: Every prompt gets the next line of input, whole and without its newline, in order, other messages get no reply; all messages are shown in
order; and the lines that were not asked for are left for the next conversation. -/
theorem C100_lines (e : Env) (he : e.tcget = true ∧ e.errOk = true ∧ e.outOk = true) (msgs : List Msg) (hne : msgs ≠ []) (ls rest : List Str) (rs : List (Option Resp))
    (h : Answered msgs ls rs rest) (hp : ∀ l ∈ ls, Plain e.size l) (evs : List Ev) (s : St) (hu : s.times.warn = 0 ∧ s.times.die = 0)
    (hs : s.stdin = typed ls ++ evs) :
    ∃ s', miscConv e msgs s = .done PAM_SUCCESS (some rs) s' ∧ s'.stdin = typed rest ++ evs ∧ s'.log = s.log ++ msgs.flatMap (shown s.term.isSome) := by
  obtain ⟨s', h1, h2, h3, _⟩ := msgLoop_lines e he evs h hp 0 [] s hu hs
  refine ⟨s', ?_, h2, h3⟩
  unfold miscConv
  rw [if_neg (by simpa using hne), h1]
  rfl

/-- a world for the examples -/
def sampleEnv : Env := ⟨8, true, fun _ => 100, true, true, none⟩
/-- input for the examples, from a file -/
def sampleSt (ls : List Str) : St := ⟨typed ls, [], ⟨0, 0, false⟩, none, [], []⟩

example : miscConv sampleEnv [⟨ECHO_ON, "login: ".toList⟩, ⟨TEXT_INFO, "hi".toList⟩, ⟨ECHO_OFF, "pw: ".toList⟩] (sampleSt ["bob".toList, "s3cret".toList, "x".toList]) =
    .done PAM_SUCCESS (some [some (.text "bob".toList), none, some (.text "s3cret".toList)])
      { sampleSt ["x".toList] with log := [.err "login: ".toList, .out "hi\n".toList, .err "pw: ".toList] } := by decide

example : Answered [⟨ECHO_ON, "login: ".toList⟩, ⟨TEXT_INFO, "hi".toList⟩, ⟨ECHO_OFF, "pw: ".toList⟩] ["bob".toList, "s3cret".toList, "x".toList]
    [some (.text "bob".toList), none, some (.text "s3cret".toList)] ["x".toList] :=
  .prompt (.inr rfl) (.message (.inr rfl) (.prompt (.inl rfl) (.nil _)))

theorem msgLoop_length (e : Env) : ∀ (msgs : List Msg) (i : Nat) (done rs : List (Option Resp)) (s s' : St), msgLoop e i done msgs s = some ((true, rs), s') →
    rs.length = done.length + msgs.length := by
  intro msgs
  induction msgs with
  | nil => intro i done rs s s' h; simp [msgLoop] at h; rw [← h.1]; simp
  | cons m ms ih =>
    intro i done rs s s' h
    unfold msgLoop at h
    cases ho : oneMsg e i m s with
    | none => rw [ho] at h; cases h
    | some p =>
      obtain ⟨o, s1⟩ := p
      rw [ho] at h
      cases o with
      | none => cases h
      | some r =>
        dsimp only at h
        have := ih _ _ _ _ _ h
        rw [this]; simp; omega

/-- C100: A conversation gives PAM_SUCCESS with one reply for each message, or PAM_CONV_ERR without replies. -/
theorem C100_all_or_nothing (e : Env) (msgs : List Msg) (s s' : St) (code : Int) (rs : Option (List (Option Resp))) (h : miscConv e msgs s = .done code rs s') :
    (code = PAM_SUCCESS ∧ ∃ l, rs = some l ∧ l.length = msgs.length) ∨ (code = PAM_CONV_ERR ∧ rs = none) := by
  unfold miscConv at h
  by_cases h0 : msgs.length = 0
  · rw [if_pos h0] at h; cases h; exact .inr ⟨rfl, rfl⟩
  rw [if_neg h0] at h
  cases hm : msgLoop e 0 [] msgs s with
  | none => rw [hm] at h; cases h
  | some p =>
    obtain ⟨⟨b, l⟩, s1⟩ := p
    rw [hm] at h
    cases b with
    | true => cases h; exact .inl ⟨rfl, l, rfl, by simpa using msgLoop_length e _ _ _ _ _ _ hm⟩
    | false =>
      dsimp only at h
      split at h
      · cases h
      · cases h; exact .inr ⟨rfl, rfl⟩

/-- C100: After the end of the input prompts are answered with no string at all, which still counts as success. -/
theorem C100_end_of_input (e : Env) (he : e.tcget = true) (m : Msg) (hm : m.style = ECHO_OFF ∨ m.style = ECHO_ON) (s : St) (hu : s.times.warn = 0 ∧ s.times.die = 0)
    (hs : s.stdin = []) (hsize : 2 ≤ e.size) : ∃ s', miscConv e [m] s = .done PAM_SUCCESS (some [none]) s' := by
  have hread := readString_untimed hu e.size (e.clock 0) (decide (m.style = ECHO_ON)) m.text
  obtain ⟨n, hn⟩ : ∃ n, e.size - 1 = n + 1 := ⟨e.size - 2, by omega⟩
  rw [hs, hn] at hread
  simp only [readLine] at hread
  unfold miscConv msgLoop oneMsg
  rw [if_neg (by simp), if_pos hm, he, hread]
  exact ⟨_, rfl⟩

theorem readLine_fails : ∀ (l : Str) (n : Nat) (got : Str) (r : List Ev), '\n' ∉ l → l.length < n →
    readLine n got (l.map Ev.byte ++ .error false :: r) = ((none, false), r) := by
  intro l
  induction l with
  | nil =>
    intro n got r _ hn
    cases n with
    | zero => simp at hn
    | succ n => simp [readLine]
  | cons c l ih =>
    intro n got r hc hn
    cases n with
    | zero => simp at hn
    | succ n =>
      simp only [List.cons_append, List.map_cons]
      unfold readLine
      rw [if_neg (fun e => hc (by simp [e])), ih n (got ++ [c]) r (fun h => hc (by simp [h])) (by simp at hn; omega)]

/-- C100: If reading fails, also in the middle of a line, the conversation fails. -/
theorem C100_read_error (e : Env) (he : e.tcget = true) (m : Msg) (hm : m.style = ECHO_OFF ∨ m.style = ECHO_ON) (ms : List Msg) (s : St)
    (hu : s.times.warn = 0 ∧ s.times.die = 0) (l : Str) (r : List Ev) (hl : Plain e.size l) (hs : s.stdin = l.map Ev.byte ++ .error false :: r) :
    ∃ s', miscConv e (m :: ms) s = .done PAM_CONV_ERR none s' := by
  have hread := readString_untimed hu e.size (e.clock 0) (decide (m.style = ECHO_ON)) m.text
  rw [hs, readLine_fails l _ _ _ hl.1 (by have := hl.2.2; omega)] at hread
  unfold miscConv msgLoop oneMsg
  rw [if_neg (by simp), if_pos hm, he, hread]
  exact ⟨_, rfl⟩

example : result (miscConv sampleEnv [⟨ECHO_OFF, "pw: ".toList⟩] ⟨[.byte 'a', .error false], [], ⟨0, 0, false⟩, none, [], []⟩) = some (PAM_CONV_ERR, none, false) := by
  decide

/-- A line that does not fit is cut, and the rest of it answers the next prompt. -/
theorem C100_long_line_counterexample : result (miscConv sampleEnv [⟨ECHO_OFF, "old: ".toList⟩, ⟨ECHO_OFF, "new: ".toList⟩]
    (sampleSt ["0123456789".toList, "x".toList])) = some (PAM_SUCCESS, some [some (.text "0123456".toList), some (.text "789".toList)], false) := by decide

/-- A NUL byte ends the answer. -/
theorem C100_nul_counterexample : result (miscConv sampleEnv [⟨ECHO_OFF, "pw: ".toList⟩] (sampleSt ["a\x00bc".toList])) =
    some (PAM_SUCCESS, some [some (.text "a".toList)], false) := by decide

/-- When a conversation fails after a binary prompt was answered, the reply itself is taken for a pointer to it. -/
theorem C100_binary_counterexample : ∃ e : Env, miscConv e [⟨BINARY, "x".toList⟩, ⟨99, []⟩] (sampleSt []) = .bad :=
  ⟨{ sampleEnv with binary := some fun _ => some "y".toList }, by decide⟩

theorem oneMsg_text (e : Env) (i : Nat) (m : Msg) (s s' : St) (r : Option Resp) (h : oneMsg e i m s = some (some r, s')) (hm : m.style ≠ BINARY) :
    ∀ b, r ≠ some (.binary b) := by
  unfold oneMsg at h
  by_cases h1 : m.style = ECHO_OFF ∨ m.style = ECHO_ON
  · rw [if_pos h1] at h
    obtain ⟨o, ho⟩ : ∃ o, readString e.size e.tcget (e.clock i) (decide (m.style = ECHO_ON)) m.text s = o := ⟨_, rfl⟩
    rw [ho] at h
    cases o with
    | none => cases h
    | some p =>
      obtain ⟨⟨nc, str⟩, s1⟩ := p
      dsimp only at h
      split at h
      · cases h
      · cases h; intro b; cases str <;> simp
  · rw [if_neg h1] at h
    by_cases h2 : m.style = ERROR_MSG
    · rw [if_pos h2] at h; split at h <;> cases h; simp
    · rw [if_neg h2] at h
      by_cases h3 : m.style = TEXT_INFO
      · rw [if_pos h3] at h; split at h <;> cases h; simp
      · rw [if_neg h3, if_neg hm] at h; cases h

theorem msgLoop_text (e : Env) : ∀ (msgs : List Msg) (i : Nat) (done : List (Option Resp)) (s : St) (b : Bool) (rs : List (Option Resp)) (s' : St),
    (∀ m ∈ msgs, m.style ≠ BINARY) → (∀ r ∈ done, ∀ x, r ≠ some (.binary x)) → msgLoop e i done msgs s = some ((b, rs), s') → ∀ r ∈ rs, ∀ x, r ≠ some (.binary x) := by
  intro msgs
  induction msgs with
  | nil => intro i done s b rs s' _ hd h; simp [msgLoop] at h; rw [← h.1.2]; exact hd
  | cons m ms ih =>
    intro i done s b rs s' hm hd h
    unfold msgLoop at h
    cases ho : oneMsg e i m s with
    | none => rw [ho] at h; cases h
    | some p =>
      obtain ⟨o, s1⟩ := p
      rw [ho] at h
      cases o with
      | none => cases h; exact hd
      | some r =>
        dsimp only at h
        refine ih _ _ _ _ _ _ (fun x hx => hm x (by simp [hx])) ?_ h
        intro r' hr'
        rcases List.mem_append.1 hr' with hr' | hr'
        · exact hd r' hr'
        · have hr2 : r' = r := by simpa using hr'
          rw [hr2]
          exact oneMsg_text e i m s s1 r ho (hm m (by simp))

/-- C100: without binary prompts nothing undefined happens. -/
theorem C100_safe (e : Env) (msgs : List Msg) (s : St) (h : ∀ m ∈ msgs, m.style ≠ BINARY) : miscConv e msgs s ≠ .bad := by
  unfold miscConv
  by_cases h0 : msgs.length = 0
  · rw [if_pos h0]; simp
  rw [if_neg h0]
  cases hm : msgLoop e 0 [] msgs s with
  | none => simp
  | some p =>
    obtain ⟨⟨b, l⟩, s1⟩ := p
    cases b with
    | true => simp
    | false =>
      have := msgLoop_text e msgs 0 [] s false l s1 h (by simp) hm
      dsimp only
      rw [if_neg]
      · simp
      · simp only [List.any_eq_true, not_exists, not_and]
        intro r hr
        have := this r hr
        cases r with
        | none => simp
        | some r => cases r with
          | text _ => simp
          | binary x => exact absurd rfl (this x)

/-! ### C101: the echo -/

theorem getDelay_keeps (now : Int) (s : St) : (getDelay now s).2.term = s.term ∧ (getDelay now s).2.echoes = s.echoes ∧ (getDelay now s).2.times.die = s.times.die ∧
    (getDelay now s).2.stdin = s.stdin ∧ (getDelay now s).2.ticks = s.ticks := by
  unfold getDelay; dsimp only
  by_cases h1 : s.times.die ≠ 0 ∧ now ≥ s.times.die
  · rw [if_pos h1]; simp
  rw [if_neg h1]
  by_cases h2 : s.times.warn ≠ 0 ∧ now ≥ s.times.warn
  · rw [if_pos h2]; simp
  rw [if_neg h2]
  by_cases h3 : s.times.warn ≠ 0
  · rw [if_pos h3]; simp
  rw [if_neg h3]
  by_cases h4 : s.times.die ≠ 0
  · rw [if_pos h4]; simp
  rw [if_neg h4]; simp

theorem readLoop_echo (size : Nat) (echo : Bool) (prompt : Str) (before : Option Term) : ∀ (ticks : List Tick) (nc delay : Int) (s : St) r s',
    readLoop size echo prompt before ticks nc delay s = some (r, s') →
    (∃ added, s'.echoes = s.echoes ++ added ∧ ∀ b ∈ added, (before.map (setTerm echo)).map Term.echo = some b) ∧ s'.times.die = s.times.die := by
  intro ticks
  induction ticks with
  | nil =>
    intro nc delay s r s' h
    unfold readLoop at h
    by_cases h1 : delay < 0
    · rw [if_pos h1] at h; cases h; exact ⟨⟨[], by simp, by simp⟩, rfl⟩
    rw [if_neg h1] at h
    dsimp only at h
    by_cases h2 : delay = 0
    · rw [if_pos h2] at h; cases h
      exact ⟨⟨_, rfl, by intro b hb; exact Option.mem_toList.1 hb⟩, rfl⟩
    · rw [if_neg h2] at h; cases h
  | cons t ts ih =>
    intro nc delay s r s' h
    unfold readLoop at h
    by_cases h1 : delay < 0
    · rw [if_pos h1] at h; cases h; exact ⟨⟨[], by simp, by simp⟩, rfl⟩
    rw [if_neg h1] at h
    dsimp only at h
    by_cases h2 : delay = 0
    · rw [if_pos h2] at h; cases h
      exact ⟨⟨_, rfl, by intro b hb; exact Option.mem_toList.1 hb⟩, rfl⟩
    rw [if_neg h2] at h
    by_cases h3 : ¬ t.alarmOk = true
    · rw [if_pos h3] at h; cases h; exact ⟨⟨[], by simp, by simp⟩, rfl⟩
    rw [if_neg h3] at h
    by_cases h4 : ((readLine (size - 1) [] s.stdin).1.2 || t.late) = true
    · rw [if_pos h4] at h
      obtain ⟨⟨added, e1, e2⟩, e3⟩ := ih _ _ _ _ _ h
      have hk := getDelay_keeps t.now { stdin := (readLine (size - 1) [] s.stdin).2, ticks := s.ticks, times := s.times, term := before, log := s.log ++ [Out.err prompt] ++ after echo before.isSome ((readLine (size - 1) [] s.stdin).1.2 || t.late) (readLine (size - 1) [] s.stdin).1.1, echoes := s.echoes ++ ((before.map (setTerm echo)).map Term.echo).toList }
      rw [hk.2.1] at e1
      rw [hk.2.2.1] at e3
      refine ⟨⟨((before.map (setTerm echo)).map Term.echo).toList ++ added, by rw [e1]; simp, ?_⟩, e3⟩
      intro b hb
      rcases List.mem_append.1 hb with hb | hb
      · exact Option.mem_toList.1 hb
      · exact e2 b hb
    · rw [if_neg h4] at h; cases h
      exact ⟨⟨_, rfl, by intro b hb; exact Option.mem_toList.1 hb⟩, rfl⟩

/-- C101: While a hidden answer is read from a terminal, in every attempt, echo is off; afterwards the terminal is as it was before. -/
theorem C101_prompt (size : Nat) (tcget : Bool) (now : Int) (prompt : Str) (s s' : St) (r : Int × Option Str)
    (h : readString size tcget now false prompt s = some (r, s')) :
    s'.term = s.term ∧ ∃ added, s'.echoes = s.echoes ++ added ∧ ∀ b ∈ added, b = false := by
  unfold readString at h
  by_cases h1 : s.term.isSome ∧ ¬ tcget
  · rw [if_pos h1] at h; cases h; exact ⟨rfl, [], by simp, by simp⟩
  rw [if_neg h1] at h
  dsimp only at h
  cases hr : readLoop size false prompt s.term s.ticks (-1) (getDelay now s).1 (getDelay now s).2 with
  | none => rw [hr] at h; cases h
  | some p =>
    obtain ⟨r', s1⟩ := p
    rw [hr] at h
    cases h
    obtain ⟨⟨added, e1, e2⟩, _⟩ := readLoop_echo _ _ _ _ _ _ _ _ _ _ hr
    refine ⟨rfl, added, by rw [← (getDelay_keeps now s).2.1]; exact e1, fun b hb => ?_⟩
    have := e2 b hb
    cases ht : s.term with
    | none => rw [ht] at this; cases this
    | some t => rw [ht] at this; simp [setTerm] at this; exact this

theorem readString_term {size : Nat} {tcget : Bool} {now : Int} {echo : Bool} {prompt : Str} {s s' : St} {r : Int × Option Str}
    (h : readString size tcget now echo prompt s = some (r, s')) : s'.term = s.term ∧ s'.times.die = s.times.die := by
  unfold readString at h
  by_cases h1 : s.term.isSome ∧ ¬ tcget
  · rw [if_pos h1] at h; cases h; exact ⟨rfl, rfl⟩
  rw [if_neg h1] at h
  dsimp only at h
  cases hr : readLoop size echo prompt s.term s.ticks (-1) (getDelay now s).1 (getDelay now s).2 with
  | none => rw [hr] at h; cases h
  | some p =>
    obtain ⟨r', s1⟩ := p
    rw [hr] at h
    cases h
    obtain ⟨_, e⟩ := readLoop_echo _ _ _ _ _ _ _ _ _ _ hr
    exact ⟨rfl, by rw [← (getDelay_keeps now s).2.2.1]; exact e⟩

theorem oneMsg_keeps {e : Env} {i : Nat} {m : Msg} {s s' : St} {r : Option (Option Resp)} (h : oneMsg e i m s = some (r, s')) :
    s'.term = s.term ∧ s'.times.die = s.times.die ∧ (m.style ≠ ECHO_ON → ∃ added, s'.echoes = s.echoes ++ added ∧ ∀ b ∈ added, b = false) := by
  unfold oneMsg at h
  by_cases h1 : m.style = ECHO_OFF ∨ m.style = ECHO_ON
  · rw [if_pos h1] at h
    cases ho : readString e.size e.tcget (e.clock i) (decide (m.style = ECHO_ON)) m.text s with
    | none => rw [ho] at h; cases h
    | some p =>
      obtain ⟨⟨nc, str⟩, s1⟩ := p
      rw [ho] at h
      dsimp only at h
      have ht := readString_term ho
      have hs : s' = s1 := by split at h <;> cases h <;> rfl
      subst hs
      refine ⟨ht.1, ht.2, fun hne => ?_⟩
      rw [decide_eq_false hne] at ho
      exact (C101_prompt _ _ _ _ _ _ _ ho).2
  · rw [if_neg h1] at h
    have triv : ∀ (s' : St), s'.term = s.term → s'.times = s.times → s'.echoes = s.echoes → s'.term = s.term ∧ s'.times.die = s.times.die ∧
        (m.style ≠ ECHO_ON → ∃ added, s'.echoes = s.echoes ++ added ∧ ∀ b ∈ added, b = false) :=
      fun s' a b c => ⟨a, by rw [b], fun _ => ⟨[], by simp [c], by simp⟩⟩
    by_cases h2 : m.style = ERROR_MSG
    · rw [if_pos h2] at h; split at h <;> cases h <;> exact triv _ rfl rfl rfl
    rw [if_neg h2] at h
    by_cases h3 : m.style = TEXT_INFO
    · rw [if_pos h3] at h; split at h <;> cases h <;> exact triv _ rfl rfl rfl
    rw [if_neg h3] at h
    by_cases h4 : m.style = BINARY
    · rw [if_pos h4] at h
      cases hb : e.binary with
      | none => rw [hb] at h; cases h; exact triv _ rfl rfl rfl
      | some f =>
        rw [hb] at h
        dsimp only at h
        cases hf : f m.text <;> rw [hf] at h <;> cases h <;> exact triv _ rfl rfl rfl
    · rw [if_neg h4] at h; cases h; exact triv _ rfl rfl rfl

theorem msgLoop_keeps (e : Env) : ∀ (msgs : List Msg) (i : Nat) (done : List (Option Resp)) (s s' : St) r, msgLoop e i done msgs s = some (r, s') →
    s'.term = s.term ∧ ((∀ m ∈ msgs, m.style ≠ ECHO_ON) → ∃ added, s'.echoes = s.echoes ++ added ∧ ∀ b ∈ added, b = false) := by
  intro msgs
  induction msgs with
  | nil => intro i done s s' r h; simp [msgLoop] at h; rw [← h.2]; exact ⟨rfl, fun _ => ⟨[], by simp, by simp⟩⟩
  | cons m ms ih =>
    intro i done s s' r h
    unfold msgLoop at h
    cases ho : oneMsg e i m s with
    | none => rw [ho] at h; cases h
    | some p =>
      obtain ⟨o, s1⟩ := p
      rw [ho] at h
      obtain ⟨k1, _, k3⟩ := oneMsg_keeps ho
      cases o with
      | none => cases h; exact ⟨k1, fun hm => k3 (hm m (by simp))⟩
      | some r' =>
        dsimp only at h
        obtain ⟨a1, a2⟩ := ih _ _ _ _ _ h
        refine ⟨a1.trans k1, fun hm => ?_⟩
        obtain ⟨x, x1, x2⟩ := k3 (hm m (by simp))
        obtain ⟨y, y1, y2⟩ := a2 fun z hz => hm z (by simp [hz])
        refine ⟨x ++ y, by rw [y1, x1]; simp, ?_⟩
        intro b hb
        rcases List.mem_append.1 hb with hb | hb
        · exact x2 b hb
        · exact y2 b hb

/-- C101: After a conversation, successful or not, the terminal is as it was before; if nothing visible was asked for, echo was off whenever something
was read. -/
theorem C101_conversation (e : Env) (msgs : List Msg) (s s' : St) (code : Int) (rs : Option (List (Option Resp))) (h : miscConv e msgs s = .done code rs s') :
    s'.term = s.term ∧ ((∀ m ∈ msgs, m.style ≠ ECHO_ON) → ∃ added, s'.echoes = s.echoes ++ added ∧ ∀ b ∈ added, b = false) := by
  unfold miscConv at h
  by_cases h0 : msgs.length = 0
  · rw [if_pos h0] at h; cases h; exact ⟨rfl, fun _ => ⟨[], by simp, by simp⟩⟩
  rw [if_neg h0] at h
  cases hm : msgLoop e 0 [] msgs s with
  | none => rw [hm] at h; cases h
  | some p =>
    obtain ⟨⟨b, l⟩, s1⟩ := p
    rw [hm] at h
    have hk := msgLoop_keeps e _ _ _ _ _ _ hm
    cases b with
    | true => cases h; exact hk
    | false =>
      dsimp only at h
      split at h
      · cases h
      · cases h; exact hk

/-- C101: If the settings of the terminal cannot be read, so that echo cannot be turned off, nothing is shown or read and the conversation fails. -/
theorem C101_no_settings (e : Env) (he : e.tcget = false) (m : Msg) (hm : m.style = ECHO_OFF ∨ m.style = ECHO_ON) (ms : List Msg) (s : St)
    (ht : s.term.isSome = true) : miscConv e (m :: ms) s = .done PAM_CONV_ERR none s := by
  unfold miscConv msgLoop oneMsg readString
  rw [if_neg (by simp), if_pos hm, if_pos (by simp [ht, he])]
  rfl

/-- a terminal: the password is not echoed, not even when the alarm interrupts the first attempt -/
example : miscConv { sampleEnv with clock := fun _ => 100 } [⟨ECHO_OFF, "pw: ".toList⟩]
    ⟨.byte 'x' :: .error true :: typed ["abc".toList], [⟨true, false, 150⟩, ⟨true, false, 0⟩], ⟨140, 200, false⟩, some ⟨true, true, true⟩, [], []⟩ =
    .done PAM_SUCCESS (some [some (.text "abc".toList)])
      ⟨[], [], ⟨0, 200, false⟩, some ⟨true, true, true⟩, [.err "pw: ".toList, .err ['\n'], .warnLine, .err "pw: ".toList, .err ['\n']], [false, false]⟩ := by decide

/-! ### C102: the time limit -/

/-- C102: If the time is up when a prompt is due, it is not shown, nothing is read and the prompt fails. -/
theorem C102_prompt (size : Nat) (now : Int) (echo : Bool) (prompt : Str) (s : St) (hd : s.times.die ≠ 0) (hn : s.times.die ≤ now) :
    readString size true now echo prompt s = some ((-1, none), { s with times := { s.times with died := true }, log := s.log ++ [.dieLine] }) := by
  have : getDelay now s = (-1, { s with times := { s.times with died := true }, log := s.log ++ [.dieLine] }) := by
    unfold getDelay; dsimp only; rw [if_pos ⟨hd, hn⟩]
  unfold readString
  rw [if_neg (by simp), this]
  dsimp only
  unfold readLoop
  rw [if_pos (by decide)]

theorem msgLoop_late (e : Env) (he : e.tcget = true) : ∀ (msgs : List Msg) (i : Nat) (done rs : List (Option Resp)) (s s' : St) (j : Nat) (m : Msg),
    msgs[j]? = some m → (m.style = ECHO_OFF ∨ m.style = ECHO_ON) → s.times.die ≠ 0 → s.times.die ≤ e.clock (i + j) → msgLoop e i done msgs s ≠ some ((true, rs), s') := by
  intro msgs
  induction msgs with
  | nil => intro i done rs s s' j m h; simp at h
  | cons m0 ms ih =>
    intro i done rs s s' j m hj hm hd hc h
    unfold msgLoop at h
    cases ho : oneMsg e i m0 s with
    | none => rw [ho] at h; cases h
    | some p =>
      obtain ⟨o, s1⟩ := p
      rw [ho] at h
      cases o with
      | none => cases h
      | some r =>
        dsimp only at h
        cases j with
        | zero =>
          have : m0 = m := by simpa using hj
          subst this
          unfold oneMsg at ho
          rw [if_pos hm, he, C102_prompt _ _ _ _ _ hd (by simpa using hc)] at ho
          dsimp only at ho
          rw [if_pos (by decide)] at ho
          cases ho
        | succ j =>
          obtain ⟨_, k, _⟩ := oneMsg_keeps ho
          refine ih (i + 1) _ rs s1 s' j m (by simpa using hj) hm (by rw [k]; exact hd) (by rw [k]; rw [show i + 1 + j = i + (j + 1) by omega]; exact hc) h

/-- C102: So a conversation in which a prompt is due after the time is up does not succeed. -/
theorem C102_too_late (e : Env) (he : e.tcget = true) (msgs : List Msg) (s s' : St) (code : Int) (rs : Option (List (Option Resp))) (j : Nat) (m : Msg) (hj : msgs[j]? = some m)
    (hm : m.style = ECHO_OFF ∨ m.style = ECHO_ON) (hd : s.times.die ≠ 0) (hc : s.times.die ≤ e.clock j) (h : miscConv e msgs s = .done code rs s') :
    code = PAM_CONV_ERR ∧ rs = none := by
  rcases C100_all_or_nothing e msgs s s' code rs h with ⟨rfl, l, rfl, _⟩ | h'
  · exfalso
    unfold miscConv at h
    by_cases h0 : msgs.length = 0
    · rw [if_pos h0] at h; cases h
    rw [if_neg h0] at h
    cases hl : msgLoop e 0 [] msgs s with
    | none => rw [hl] at h; cases h
    | some p =>
      obtain ⟨⟨b, l'⟩, s1⟩ := p
      rw [hl] at h
      cases b with
      | true => exact msgLoop_late e he msgs 0 [] l' s s1 j m hj hm hd (by simpa using hc) hl
      | false =>
        dsimp only at h
        split at h <;> cases h
  · exact h'

theorem getDelay_died (now : Int) (s : St) (h : s.times.died = false) : (getDelay now s).2.times.died = true → (getDelay now s).1 = -1 := by
  unfold getDelay; dsimp only
  by_cases h1 : s.times.die ≠ 0 ∧ now ≥ s.times.die
  · rw [if_pos h1]; simp
  rw [if_neg h1]
  by_cases h2 : s.times.warn ≠ 0 ∧ now ≥ s.times.warn
  · rw [if_pos h2]; simp [h]
  rw [if_neg h2]
  by_cases h3 : s.times.warn ≠ 0
  · rw [if_pos h3]; simp [h]
  rw [if_neg h3]
  by_cases h4 : s.times.die ≠ 0
  · rw [if_pos h4]; simp [h]
  rw [if_neg h4]; simp [h]

theorem readLine_error {n : Nat} : ∀ {got : Str} {evs : List Ev}, (readLine n got evs).1.2 = true → (readLine n got evs).1.1 = none := by
  induction n with
  | zero => intro got evs h; simp [readLine] at h
  | succ n ih =>
    intro got evs h
    match evs with
    | [] => simp [readLine] at h
    | .eof :: r => simp [readLine] at h
    | .error a :: r => simp [readLine]
    | .byte c :: r =>
      unfold readLine at h ⊢
      by_cases hc : c = '\n'
      · rw [if_pos hc] at h; simp at h
      · rw [if_neg hc] at h ⊢; exact ih h

theorem readLoop_died (size : Nat) (echo : Bool) (prompt : Str) (before : Option Term) : ∀ (ticks : List Tick) (nc delay : Int) (s : St) r s',
    (∀ t ∈ ticks, t.late = false) → nc = -1 → (s.times.died = true → delay = -1) → readLoop size echo prompt before ticks nc delay s = some (r, s') →
    (∃ k, s'.ticks = ticks.drop k) ∧ (s'.times.died = true → r.1 = -1) := by
  intro ticks
  induction ticks with
  | nil =>
    intro nc delay s r s' hl hnc hd h
    unfold readLoop at h
    by_cases h1 : delay < 0
    · rw [if_pos h1] at h; cases h; exact ⟨⟨0, rfl⟩, fun _ => hnc⟩
    rw [if_neg h1] at h
    dsimp only at h
    by_cases h2 : delay = 0
    · rw [if_pos h2] at h; cases h
      exact ⟨⟨0, rfl⟩, fun e => by have := hd e; omega⟩
    · rw [if_neg h2] at h; cases h
  | cons t ts ih =>
    intro nc delay s r s' hl hnc hd h
    unfold readLoop at h
    by_cases h1 : delay < 0
    · rw [if_pos h1] at h; cases h; exact ⟨⟨0, rfl⟩, fun _ => hnc⟩
    rw [if_neg h1] at h
    dsimp only at h
    by_cases h2 : delay = 0
    · rw [if_pos h2] at h; cases h
      exact ⟨⟨0, rfl⟩, fun e => by have := hd e; omega⟩
    rw [if_neg h2] at h
    by_cases h3 : ¬ t.alarmOk = true
    · rw [if_pos h3] at h; cases h; exact ⟨⟨1, rfl⟩, fun _ => hnc⟩
    rw [if_neg h3] at h
    have hsd : s.times.died = false := by
      cases hx : s.times.died with
      | false => rfl
      | true => have := hd hx; omega
    by_cases h4 : ((readLine (size - 1) [] s.stdin).1.2 || t.late) = true
    · rw [if_pos h4] at h
      have hexp : (readLine (size - 1) [] s.stdin).1.2 = true := by rw [hl t (by simp)] at h4; simpa using h4
      have hnc' : ncOf (readLine (size - 1) [] s.stdin).1.1 = -1 := by rw [readLine_error hexp]; rfl
      obtain ⟨⟨k, hk⟩, e2⟩ := ih _ _ _ _ _ (fun x hx => hl x (by simp [hx])) hnc' (getDelay_died _ _ (by exact hsd)) h
      exact ⟨⟨k + 1, by rw [hk]; rfl⟩, e2⟩
    · rw [if_neg h4] at h; cases h
      exact ⟨⟨1, rfl⟩, fun e => absurd (show s.times.died = true from e) (by simp [hsd])⟩

theorem readString_died {size : Nat} {tcget : Bool} {now : Int} {echo : Bool} {prompt : Str} {s s' : St} {r : Int × Option Str}
    (hl : ∀ t ∈ s.ticks, t.late = false) (hd : s.times.died = false) (h : readString size tcget now echo prompt s = some (r, s')) :
    (∀ t ∈ s'.ticks, t.late = false) ∧ (s'.times.died = true → r.1 = -1) := by
  unfold readString at h
  by_cases h1 : s.term.isSome ∧ ¬ tcget
  · rw [if_pos h1] at h; cases h; exact ⟨hl, fun e => absurd e (by simp [hd])⟩
  rw [if_neg h1] at h
  dsimp only at h
  cases hr : readLoop size echo prompt s.term s.ticks (-1) (getDelay now s).1 (getDelay now s).2 with
  | none => rw [hr] at h; cases h
  | some p =>
    obtain ⟨r', s1⟩ := p
    rw [hr] at h
    cases h
    obtain ⟨⟨k, hk⟩, e2⟩ := readLoop_died _ _ _ _ _ _ _ _ _ _ hl rfl (getDelay_died now s hd) hr
    exact ⟨fun t ht => hl t (List.mem_of_mem_drop (by rw [← hk]; exact ht)), e2⟩

theorem oneMsg_died {e : Env} {i : Nat} {m : Msg} {s s' : St} {r : Option Resp} (hl : ∀ t ∈ s.ticks, t.late = false) (hd : s.times.died = false)
    (h : oneMsg e i m s = some (some r, s')) : (∀ t ∈ s'.ticks, t.late = false) ∧ s'.times.died = false := by
  unfold oneMsg at h
  by_cases h1 : m.style = ECHO_OFF ∨ m.style = ECHO_ON
  · rw [if_pos h1] at h
    cases ho : readString e.size e.tcget (e.clock i) (decide (m.style = ECHO_ON)) m.text s with
    | none => rw [ho] at h; cases h
    | some p =>
      obtain ⟨⟨nc, str⟩, s1⟩ := p
      rw [ho] at h
      dsimp only at h
      obtain ⟨k1, k2⟩ := readString_died hl hd ho
      by_cases hnc : nc < 0
      · rw [if_pos hnc] at h; cases h
      · rw [if_neg hnc] at h; cases h
        refine ⟨k1, ?_⟩
        cases hx : s'.times.died with
        | false => rfl
        | true => have : nc = -1 := k2 hx; omega
  · rw [if_neg h1] at h
    by_cases h2 : m.style = ERROR_MSG
    · rw [if_pos h2] at h; split at h <;> cases h; exact ⟨hl, hd⟩
    rw [if_neg h2] at h
    by_cases h3 : m.style = TEXT_INFO
    · rw [if_pos h3] at h; split at h <;> cases h; exact ⟨hl, hd⟩
    rw [if_neg h3] at h
    by_cases h4 : m.style = BINARY
    · rw [if_pos h4] at h
      cases hb : e.binary with
      | none => rw [hb] at h; cases h
      | some f =>
        rw [hb] at h
        dsimp only at h
        cases hf : f m.text <;> rw [hf] at h <;> cases h; exact ⟨hl, hd⟩
    · rw [if_neg h4] at h; cases h

theorem msgLoop_died (e : Env) : ∀ (msgs : List Msg) (i : Nat) (done rs : List (Option Resp)) (s s' : St), (∀ t ∈ s.ticks, t.late = false) → s.times.died = false →
    msgLoop e i done msgs s = some ((true, rs), s') → s'.times.died = false := by
  intro msgs
  induction msgs with
  | nil => intro i done rs s s' _ hd h; simp [msgLoop] at h; rw [← h.2]; exact hd
  | cons m ms ih =>
    intro i done rs s s' hl hd h
    unfold msgLoop at h
    cases ho : oneMsg e i m s with
    | none => rw [ho] at h; cases h
    | some p =>
      obtain ⟨o, s1⟩ := p
      rw [ho] at h
      cases o with
      | none => cases h
      | some r =>
        dsimp only at h
        obtain ⟨a, b⟩ := oneMsg_died hl hd ho
        exact ih _ _ _ _ _ a b h

/-- C102, as far as it is true: If the alarm only ever goes off while input is waited for, a conversation in which the time ran out does not succeed. -/
theorem C102_time_up_partial (e : Env) (msgs : List Msg) (s s' : St) (rs : Option (List (Option Resp))) (hl : ∀ t ∈ s.ticks, t.late = false)
    (hd : s.times.died = false) (h : miscConv e msgs s = .done PAM_SUCCESS rs s') : s'.times.died = false := by
  unfold miscConv at h
  by_cases h0 : msgs.length = 0
  · rw [if_pos h0] at h; cases h
  rw [if_neg h0] at h
  cases hm : msgLoop e 0 [] msgs s with
  | none => rw [hm] at h; cases h
  | some p =>
    obtain ⟨⟨b, l⟩, s1⟩ := p
    rw [hm] at h
    cases b with
    | true => cases h; exact msgLoop_died e _ _ _ _ _ _ hl hd hm
    | false =>
      dsimp only at h
      split at h <;> cases h

/-- If the alarm goes off between the end of the reading and the test for it, the time is up, and still the conversation succeeds, with no answer. -/
theorem C102_race_counterexample : result (miscConv sampleEnv [⟨ECHO_OFF, "pw: ".toList⟩]
    ⟨typed ["abc".toList], [⟨true, true, 200⟩], ⟨0, 200, false⟩, none, [], []⟩) = some (PAM_SUCCESS, some [none], true) := by decide

/-- If the time limit is 2^31 seconds or more ahead, the prompt fails at once. -/
theorem C102_far_counterexample : result (miscConv sampleEnv [⟨ECHO_OFF, "pw: ".toList⟩]
    ⟨typed ["abc".toList], [], ⟨0, 100 + 2 ^ 31, false⟩, none, [], []⟩) = some (PAM_CONV_ERR, none, false) := by decide

/-- in time, and too late -/
example : result (miscConv sampleEnv [⟨ECHO_OFF, "pw: ".toList⟩]
    ⟨typed ["abc".toList], [⟨true, false, 0⟩], ⟨0, 200, false⟩, none, [], []⟩) = some (PAM_SUCCESS, some [some (.text "abc".toList)], false) := by decide
example : result (miscConv sampleEnv [⟨ECHO_OFF, "pw: ".toList⟩]
    ⟨.byte 'a' :: .error true :: typed ["abc".toList], [⟨true, false, 200⟩], ⟨0, 200, false⟩, none, [], []⟩) = some (PAM_CONV_ERR, none, true) := by decide

end Pam.Misc
