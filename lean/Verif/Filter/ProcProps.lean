import Verif.Filter.Props
/-
C163: the three processes pam_filter makes.
-/
namespace Pam.Filter
open Pam Pam.Small Spec

theorem wait2_done (evs : List Ev) (st : Int) : wait2 evs false false st = some st := by
  cases evs <;> simp [wait2]

theorem wait2_app : ∀ (evs : List Ev) (st : Int), Hist true false evs → wait2 evs true false st = appEnd evs
  | [], _, _ => by simp [wait2, appEnd]
  | .app (.exited n) :: es, st, h => by simp [wait2, appEnd, wait2_done]
  | .app .killed :: es, st, h => by simp [wait2, appEnd, wait2_done]
  | .app .stopped :: es, st, h => by
    simp only [Hist] at h
    simp [wait2, appEnd, wait2_app es st h.2]
  | .filter e :: es, st, h => by
    cases e <;> simp [Hist] at h
  | .other :: es, st, h => by simp [Hist] at h

theorem wait2_filter : ∀ (evs : List Ev) (st : Int), Hist false true evs → ∀ v, wait2 evs false true st = some v ↔ filterEnds evs ∧ v = st
  | [], _, _, _ => by simp [wait2, filterEnds]
  | .filter (.exited n) :: es, st, h, v => by simp [wait2, filterEnds, wait2_done, eq_comm]
  | .filter .killed :: es, st, h, v => by simp [wait2, filterEnds, wait2_done, eq_comm]
  | .filter .stopped :: es, st, h, v => by
    simp only [Hist] at h
    have := wait2_filter es st h.2 v
    simp only [wait2, filterEnds, Bool.false_or, if_true]
    exact this
  | .app e :: es, st, h, v => by
    cases e <;> simp [Hist] at h
  | .other :: es, st, h, v => by simp [Hist] at h

/-- the two loops together -/
theorem waits_both : ∀ (evs : List Ev) (st : Int), Hist true true evs → ∀ v,
    ((match wait1 evs true true st with
      | none => none
      | some (c, c2, st, rest) => wait2 rest c c2 st) = some v) ↔ filterEnds evs ∧ appEnd evs = some v
  | [], _, _, _ => by simp [wait1, filterEnds]
  | .app (.exited n) :: es, st, h, v => by
    simp only [Hist] at h
    have e : wait1 es false true (n : Int) = some (false, true, (n : Int), es) := by cases es <;> simp [wait1]
    simp only [wait1, Bool.and_self, if_true, e, appEnd, filterEnds]
    refine Iff.trans (wait2_filter es _ h.2 v) ?_
    simp [eq_comm]
  | .app .killed :: es, st, h, v => by
    simp only [Hist] at h
    have e : wait1 es false true (-1) = some (false, true, -1, es) := by cases es <;> simp [wait1]
    simp only [wait1, Bool.and_self, if_true, e, appEnd, filterEnds]
    refine Iff.trans (wait2_filter es _ h.2 v) ?_
    simp [eq_comm]
  | .app .stopped :: es, st, h, v => by
    simp only [Hist] at h
    have := waits_both es st h.2 v
    simp only [wait1, Bool.and_self, if_true, filterEnds, appEnd]
    exact this
  | .filter (.exited n) :: es, st, h, v => by
    simp only [Hist] at h
    have e : wait1 es true false st = some (true, false, st, es) := by cases es <;> simp [wait1]
    simp only [wait1, Bool.and_self, if_true, e, appEnd, filterEnds, true_and, wait2_app es st h.2]
  | .filter .killed :: es, st, h, v => by
    simp only [Hist] at h
    have e : wait1 es true false st = some (true, false, st, es) := by cases es <;> simp [wait1]
    simp only [wait1, Bool.and_self, if_true, e, appEnd, filterEnds, true_and, wait2_app es st h.2]
  | .filter .stopped :: es, st, h, v => by
    simp only [Hist] at h
    have := waits_both es st h.2 v
    simp only [wait1, Bool.and_self, if_true, filterEnds, appEnd]
    exact this
  | .other :: es, st, h, v => by simp [Hist] at h

/-- which of the processes this is, after a good start -/
structure Started (y : Sys) (path : Str) : Prop where
  full : ∃ p, path = '/' :: p
  tty : y.tty = true → y.master = true ∧ y.getattr = true ∧ y.setraw = true
  pair : y.tty = false → y.pair = true

theorem setFilter_parent {y : Sys} {path : Str} (hs : Started y path) (hf : y.fork1 = .parent) (env : List Str) (s : St) :
    setFilter y (some path) env s = parentSide y path env (if y.tty then { s with raw := true, fds := s.fds + 1 } else { s with fds := s.fds + 2 }) := by
  obtain ⟨p, rfl⟩ := hs.full
  simp only [setFilter, List.head?_cons, ne_eq, not_true_eq_false, if_false]
  rw [if_neg (by rintro ⟨a, b⟩; exact b (hs.tty a).1), if_neg (by rintro ⟨a, b⟩; exact b (hs.tty a).2.1), if_neg (by rintro ⟨a, b⟩; exact b (hs.tty a).2.2),
    if_neg (by rintro ⟨a, b⟩; exact b (hs.pair (by simpa using a)))]
  rw [hf]

theorem parentEnd_exited (y : Sys) (s : St) (b : Bool) (st : Int) : (∃ s', parentEnd y s b = .exited st s') ↔ waits b y.events = some st := by
  unfold parentEnd
  cases waits b y.events with
  | none => simp
  | some v => simp

/-- **C163** The process that waits ends when both the application and the filter have ended, in whatever order, and with the exit status of the application (-1 if that was killed); it does not end before. -/
theorem C163_status_partial (y : Sys) (path : Str) (env : List Str) (s : St) (hs : Started y path) (hf : y.fork1 = .parent) (hf2 : y.fork2 = .parent) (he : Hist true true y.events) (st : Int) :
    (∃ s', setFilter y (some path) env s = .exited st s') ↔ filterEnds y.events ∧ appEnd y.events = some st := by
  rw [setFilter_parent hs hf]
  simp only [parentSide, hf2]
  refine Iff.trans (parentEnd_exited _ _ _ _) ?_
  simp only [waits, if_true]
  exact waits_both y.events (-1) he st

/-- **C163** If there is no process for the filter, it waits for the application alone. -/
theorem C163_alone_partial (y : Sys) (path : Str) (env : List Str) (s : St) (hs : Started y path) (hf : y.fork1 = .parent) (hf2 : y.fork2 = .failed) (he : Hist true false y.events) (st : Int) :
    (∃ s', setFilter y (some path) env s = .exited st s') ↔ appEnd y.events = some st := by
  rw [setFilter_parent hs hf]
  simp only [parentSide, hf2]
  refine Iff.trans (parentEnd_exited _ _ _ _) ?_
  simp only [waits, Bool.false_eq_true, if_false]
  rw [wait2_app y.events (-1) he]

/-- a terminal; the filter ends first -/
def exParent : Sys := { exSys with tty := true, fork2 := .parent, events := [.app .stopped, .filter .killed, .app (.exited 3)] }

example : Started exParent "/f".toList ∧ Hist true true exParent.events ∧ setFilter exParent (some "/f".toList) [] { tok := some [] } = .exited 3 {} :=
  ⟨⟨⟨"f".toList, rfl⟩, by decide, by decide⟩, ⟨rfl, rfl, rfl, trivial⟩, by decide +kernel⟩

/-- **C163** (counterexample) If `wait` is interrupted or reports some other child, the process ends with -1 although both still run. -/
theorem C163_interrupted_counterexample : setFilter { exParent with events := [.other] } (some "/f".toList) [] {} = .exited (-1) {} := by decide +kernel

theorem childSide_state (y : Sys) (s : St) (hs : if y.tty then 1 ≤ s.fds else 2 ≤ s.fds) : ∃ code s', childSide y s = .returned code s' ∧
    s'.fds = (if y.tty then s.fds - 1 else s.fds - 2) ∧ s'.tok = s.tok ∧ s'.oldtok = s.oldtok ∧ (code = PAM_SUCCESS → s'.filtered = true ∧ y.dup = true ∧ y.keep = true) := by
  unfold childSide
  cases ht : y.tty with
  | false =>
    simp only [Bool.false_eq_true, if_false]
    rw [ht] at hs
    simp only [Bool.false_eq_true, if_false] at hs
    cases hd : y.dup with
    | false => exact ⟨_, _, rfl, by simp only; omega, rfl, rfl, fun h => absurd h (by decide)⟩
    | true =>
      cases hk : y.keep with
      | false => exact ⟨_, _, rfl, by simp only; omega, rfl, rfl, fun h => absurd h (by decide)⟩
      | true => exact ⟨_, _, rfl, by simp only; omega, rfl, rfl, fun _ => ⟨rfl, rfl, rfl⟩⟩
  | true =>
    rw [ht] at hs
    simp only [if_true] at hs ⊢
    cases hc : childTty y s with
    | some s2 =>
      have h2 : s2.fds = s.fds - 1 ∧ s2.tok = s.tok ∧ s2.oldtok = s.oldtok := by
        unfold childTty at hc
        grind
      exact ⟨_, _, rfl, h2.1, h2.2.1, h2.2.2, fun h => absurd h (by decide)⟩
    | none =>
      simp only
      cases hd : y.dup with
      | false => exact ⟨_, _, rfl, by simp only; omega, rfl, rfl, fun h => absurd h (by decide)⟩
      | true =>
        cases hk : y.keep with
        | false => exact ⟨_, _, rfl, by simp only; omega, rfl, rfl, fun h => absurd h (by decide)⟩
        | true => exact ⟨_, _, rfl, by simp only; omega, rfl, rfl, fun _ => ⟨rfl, rfl, rfl⟩⟩

/-- the kinds of outcome of `set_filter` -/
theorem setFilter_cases (y : Sys) (name : Option Str) (env : List Str) (s : St) :
    (∃ code s', setFilter y name env s = .returned code s' ∧ s'.fds = s.fds ∧ s'.tok = s.tok ∧ s'.oldtok = s.oldtok ∧
      (y.fork1 ≠ .child → code ≠ PAM_SUCCESS ∧ (s.raw = false → s'.raw = false)) ∧ (code = PAM_SUCCESS → s'.filtered = true ∧ y.dup = true ∧ y.keep = true)) ∨
    (∃ st s', setFilter y name env s = .exited st s' ∧ s'.fds = s.fds ∧ s'.tok = none ∧ s'.oldtok = none ∧ (s.raw = false → s'.raw = false)) ∨
    (∃ p e s', setFilter y name env s = .started p e s' ∧ s'.tok = none ∧ s'.oldtok = none) ∨
    (∃ s', setFilter y name env s = .waiting s' ∧ s'.tok = none ∧ s'.oldtok = none) ∨
    setFilter y name env s = .gone := by
  have ab : PAM_ABORT ≠ PAM_SUCCESS := by decide
  have ae : PAM_AUTH_ERR ≠ PAM_SUCCESS := by decide
  have early : ∀ code, code ≠ PAM_SUCCESS → ∃ code' s', Out.returned code s = .returned code' s' ∧ s'.fds = s.fds ∧ s'.tok = s.tok ∧ s'.oldtok = s.oldtok ∧
      (y.fork1 ≠ .child → code' ≠ PAM_SUCCESS ∧ (s.raw = false → s'.raw = false)) ∧ (code' = PAM_SUCCESS → s'.filtered = true ∧ y.dup = true ∧ y.keep = true) :=
    fun code h => ⟨code, s, rfl, rfl, rfl, rfl, fun _ => ⟨h, id⟩, fun h2 => absurd h2 h⟩
  cases name with
  | none => exact Or.inl (early _ ab)
  | some n =>
    simp only [setFilter]
    by_cases h0 : n.head? ≠ some '/'
    · rw [if_pos h0]; exact Or.inl (early _ ab)
    rw [if_neg h0]
    by_cases h1 : y.tty = true ∧ ¬ y.master = true
    · rw [if_pos h1]; exact Or.inl (early _ ae)
    rw [if_neg h1]
    by_cases h2 : y.tty = true ∧ ¬ y.getattr = true
    · rw [if_pos h2]; exact Or.inl (early _ ab)
    rw [if_neg h2]
    by_cases h3 : y.tty = true ∧ ¬ y.setraw = true
    · rw [if_pos h3]; exact Or.inl (early _ ab)
    rw [if_neg h3]
    by_cases h4 : ¬ y.tty = true ∧ ¬ y.pair = true
    · rw [if_pos h4]; exact Or.inl (early _ ab)
    rw [if_neg h4]
    cases hf : y.fork1 with
    | failed =>
      left
      simp only
      refine ⟨_, _, rfl, ?_, ?_, ?_, ?_, ?_⟩
      · cases y.tty <;> simp
      · cases y.tty <;> simp
      · cases y.tty <;> simp
      · intro _
        refine ⟨ae, ?_⟩
        cases y.tty <;> simp
      · intro h; exact absurd h ae
    | child =>
      left
      simp only
      obtain ⟨code, s', e, g1, g2, g3, g4⟩ := childSide_state y (if y.tty = true then { s with raw := true, fds := s.fds + 1 } else { s with fds := s.fds + 2 })
        (by cases y.tty <;> simp)
      refine ⟨code, s', e, ?_, ?_, ?_, ?_, g4⟩
      · rw [g1]; cases y.tty <;> simp
      · rw [g2]; cases y.tty <;> simp
      · rw [g3]; cases y.tty <;> simp
      · intro h; exact absurd rfl h
    | parent =>
      right
      simp only [parentSide]
      have pe : ∀ b, (∃ st s', parentEnd y { (if y.tty = true then { s with raw := true, fds := s.fds + 1 } else { s with fds := s.fds + 2 } : St) with fds := if ¬ y.tty = true then (if y.tty = true then { s with raw := true, fds := s.fds + 1 } else { s with fds := s.fds + 2 } : St).fds - 1 else (if y.tty = true then { s with raw := true, fds := s.fds + 1 } else { s with fds := s.fds + 2 } : St).fds, tok := none, oldtok := none } b = .exited st s' ∧ s'.fds = s.fds ∧ s'.tok = none ∧ s'.oldtok = none ∧ (s.raw = false → s'.raw = false)) ∨
          (∃ s', parentEnd y { (if y.tty = true then { s with raw := true, fds := s.fds + 1 } else { s with fds := s.fds + 2 } : St) with fds := if ¬ y.tty = true then (if y.tty = true then { s with raw := true, fds := s.fds + 1 } else { s with fds := s.fds + 2 } : St).fds - 1 else (if y.tty = true then { s with raw := true, fds := s.fds + 1 } else { s with fds := s.fds + 2 } : St).fds, tok := none, oldtok := none } b = .waiting s' ∧ s'.tok = none ∧ s'.oldtok = none) := by
        intro b
        unfold parentEnd
        cases waits b y.events with
        | none => right; exact ⟨_, rfl, rfl, rfl⟩
        | some st =>
          left
          refine ⟨_, _, rfl, ?_, rfl, rfl, ?_⟩
          · cases y.tty <;> simp
          · cases y.tty <;> simp
      cases hf2 : y.fork2 with
      | failed =>
        rcases pe false with h | h
        · exact Or.inl h
        · exact Or.inr (Or.inr (Or.inl h))
      | parent =>
        rcases pe true with h | h
        · exact Or.inl h
        · exact Or.inr (Or.inr (Or.inl h))
      | child =>
        simp only
        split
        · exact Or.inr (Or.inr (Or.inr rfl))
        split
        · exact Or.inr (Or.inr (Or.inr rfl))
        split
        · exact Or.inr (Or.inl ⟨_, _, _, rfl, rfl, rfl⟩)
        · exact Or.inr (Or.inr (Or.inr rfl))

/-- **C163** Only the application goes on in the module's caller with success, with its input and output led through the filter and with its tokens. -/
theorem C163_success (y : Sys) (name : Option Str) (env : List Str) (s s' : St) (h : setFilter y name env s = .returned PAM_SUCCESS s') :
    y.fork1 = .child ∧ s'.filtered = true ∧ y.dup = true ∧ y.keep = true ∧ s'.tok = s.tok ∧ s'.oldtok = s.oldtok := by
  rcases setFilter_cases y name env s with ⟨code, s2, e, _, t1, t2, h1, h2⟩ | ⟨_, _, e, _⟩ | ⟨_, _, _, e, _⟩ | ⟨_, e, _⟩ | e
  · rw [h] at e
    injection e with e1 e2
    subst e1 e2
    refine ⟨?_, (h2 rfl).1, (h2 rfl).2.1, (h2 rfl).2.2, t1, t2⟩
    refine Decidable.byContradiction fun hn => ?_
    exact (h1 hn).1 rfl
  all_goals rw [h] at e; cases e

/-- **C163** The other two processes have no tokens: neither while waiting nor at the end nor when the filter is started. -/
theorem C163_tokens (y : Sys) (name : Option Str) (env : List Str) (s s' : St)
    (h : (∃ st, setFilter y name env s = .exited st s') ∨ setFilter y name env s = .waiting s' ∨ ∃ p e, setFilter y name env s = .started p e s') :
    s'.tok = none ∧ s'.oldtok = none := by
  rcases setFilter_cases y name env s with ⟨code, s2, e, _⟩ | ⟨_, s2, e, _, t1, t2, _⟩ | ⟨_, _, s2, e, t1, t2⟩ | ⟨s2, e, t1, t2⟩ | e <;>
    rcases h with ⟨_, h⟩ | h | ⟨_, _, h⟩ <;> rw [h] at e <;> first | cases e; done | (injection e; subst_vars; exact ⟨t1, t2⟩)

/-- **C163** The user's terminal is put back into its mode whenever the first process gives up or ends. -/
theorem C163_terminal (y : Sys) (name : Option Str) (env : List Str) (s s' : St) (hr : s.raw = false) (hf : y.fork1 ≠ .child)
    (h : (∃ st, setFilter y name env s = .exited st s') ∨ ∃ code, setFilter y name env s = .returned code s') : s'.raw = false := by
  rcases setFilter_cases y name env s with ⟨code, s2, e, _, _, _, k, _⟩ | ⟨_, s2, e, _, _, _, k⟩ | ⟨_, _, s2, e, t1, t2⟩ | ⟨s2, e, t1, t2⟩ | e <;>
    rcases h with ⟨_, h⟩ | ⟨_, h⟩ <;> rw [h] at e <;> first | cases e; done | (injection e; subst_vars; first | exact (k hf).2 hr | exact k hr)

/-- **C163** The module leaves no descriptor of its own open, be it in the application or in the first process. -/
theorem C163_descriptors (y : Sys) (name : Option Str) (env : List Str) (s s' : St)
    (h : (∃ st, setFilter y name env s = .exited st s') ∨ ∃ code, setFilter y name env s = .returned code s') : s'.fds = s.fds := by
  rcases setFilter_cases y name env s with ⟨code, s2, e, k, _⟩ | ⟨_, s2, e, k, _⟩ | ⟨_, _, s2, e, t1, t2⟩ | ⟨s2, e, t1, t2⟩ | e <;>
    rcases h with ⟨_, h⟩ | ⟨_, h⟩ <;> rw [h] at e <;> first | cases e; done | (injection e; subst_vars; exact k)

example : setFilter { exSys with tty := true, fork1 := .child } (some "/f".toList) [] { tok := some "pw".toList } =
    .returned 0 { raw := true, tok := some "pw".toList, filtered := true } := by decide +kernel
example : setFilter { exSys with tty := true, fork1 := .failed } (some "/f".toList) [] {} = .returned PAM_AUTH_ERR {} := by decide +kernel

end Pam.Filter
