import Verif.Faillock.Conc
import Verif.Faillock.Props
/-
C39: concurrent failures.
-/
namespace Pam.Faillock
open Pam Pam.Faillock.Spec

/-- the event a call amounts to -/
def Job.event (j : Job) (now : Nat) : Event :=
  match j.action with
  | .preauth => .ask now
  | .authsucc => .success now
  | .authfail => .fail now j.src

theorem alone_event (o : Opts) (job : Nat → Job) (f : File) (p : Nat × Nat) :
    alone o job f p = doEvent o f ((job p.1).event p.2) := by
  unfold alone Job.event
  cases h : (job p.1).action <;> rfl

theorem alone_fold (o : Opts) (job : Nat → Job) (l : List (Nat × Nat)) : ∀ f,
    l.foldl (alone o job) f = (l.map (fun p => (job p.1).event p.2)).foldl (doEvent o) f := by
  induction l with
  | nil => intro f; rfl
  | cons p ps ih => intro f; rw [List.foldl_cons, List.map_cons, List.foldl_cons, alone_event, ih]

/-- C39: when the tally file is there, any number of concurrent calls, however their steps are interleaved, leave the file
as it would be if those that came to their update had been made one after the other, each with the time it had read
from the clock; each gets the code it would have got.  (Partial: see the two counterexamples below.) -/
theorem C39_serial_partial (o : Opts) (job : Nat → Job) (h : List Event) (hfile : (fileAfter o h).isSome) (clock : Nat)
    (sched : List Turn) :
    let s := runFrom o job clock (fileAfter o h) sched
    ∃ order : List (Nat × Nat),
      s.file = fileAfter o (h ++ order.map (fun p => (job p.1).event p.2)) ∧
      (order.map (·.1)).Nodup ∧
      (∀ i, i ∈ order.map (·.1) ↔ ∃ k, s.pc i = .written k ∨ s.pc i = .done k) ∧
      (∀ p ∈ order, clock ≤ p.2 ∧ p.2 ≤ s.clock) ∧
      ∀ pre p post, order = pre ++ p :: post → ∀ k, s.pc p.1 = .done k →
        k = (act o .fine (job p.1).action p.2 (job p.1).src
          (fileAfter o (h ++ pre.map (fun q => (job q.1).event q.2)))).1 := by
  intro s
  obtain ⟨recs, hrecs⟩ := Option.isSome_iff_exists.mp hfile
  have I : SInv o job (fileAfter o h) clock s := by
    show SInv o job (fileAfter o h) clock (runFrom o job clock (fileAfter o h) sched)
    rw [hrecs]
    exact (SInv.init o job clock recs).run sched
  have hfold : ∀ l : List (Nat × Nat), l.foldl (alone o job) (fileAfter o h) =
      fileAfter o (h ++ l.map (fun p => (job p.1).event p.2)) := by
    intro l
    rw [alone_fold]
    unfold fileAfter
    rw [List.foldl_append]
  refine ⟨s.log, by rw [I.serial, hfold], I.once, ?_, I.logged, ?_⟩
  · intro i
    rw [I.members i]
    cases hp : s.pc i <;> simp [Pc.past]
  · intro pre p post hl k hk
    have := I.codes pre p post hl
    rw [hk, hfold] at this
    exact Option.some.inj this

/-! ## failures within one second -/

/-- no time passes -/
def NoTick (sched : List Turn) : Prop := ∀ t ∈ sched, ∃ i, t = .go i

theorem move_clock (o : Opts) (job : Nat → Job) (i : Nat) (s : Sys) : (move o job i s).clock = s.clock := by
  unfold move
  split
  · rfl
  · split
    · rfl
    · split <;> rfl
  · split <;> rfl
  · rfl
  · rfl
  · rfl
  · split <;> rfl
  · rfl
  · rfl
  · rfl

theorem noTick_clock (o : Opts) (job : Nat → Job) (sched : List Turn) : NoTick sched → ∀ s : Sys,
    (sched.foldl (turn o job) s).clock = s.clock := by
  induction sched with
  | nil => intro _ s; rfl
  | cons t ts ih =>
    intro h s
    rw [List.foldl_cons, ih (fun t ht => h t (by simp [ht]))]
    obtain ⟨i, rfl⟩ := h t (by simp)
    exact move_clock ..

theorem latest_replicate (n t : Nat) (h : 0 < n) : latest (List.replicate n t) = t := by
  apply Nat.le_antisymm
  · apply latest_le
    intro x hx
    rw [(List.mem_replicate.mp hx).2]; exact Nat.le_refl _
  · exact le_latest (List.mem_replicate.mpr ⟨by omega, rfl⟩)

theorem recent_replicate (o : Opts) (n t : Nat) (hi : 0 < o.failInterval) : recent o (List.replicate n t) = n := by
  by_cases hn : n = 0
  · subst hn; rfl
  · unfold recent
    rw [latest_replicate n t (by omega), List.filter_eq_self.mpr, List.length_replicate]
    intro x hx
    rw [(List.mem_replicate.mp hx).2]
    simpa using hi

/-- failures at one time count until the account is locked -/
theorem counted_burst (o : Opts) (hx : ¬ Exempt o) (hd : 0 < o.deny) (hi : 0 < o.failInterval) (t : Nat) (es : List Event)
    (hes : ∀ e ∈ es, ∃ src, e = .fail t src) : ∀ k, k ≤ o.deny →
    es.foldl (after o) (List.replicate k t) = List.replicate (min (k + es.length) o.deny) t := by
  induction es with
  | nil => intro k hk; rw [List.foldl_nil, List.length_nil, Nat.add_zero, Nat.min_eq_left hk]
  | cons e es ih =>
    intro k hk
    obtain ⟨src, rfl⟩ := hes e (by simp)
    rw [List.foldl_cons]
    have hT : TooMany o (List.replicate k t) ↔ k = o.deny := by
      unfold TooMany
      rw [recent_replicate o k t hi]
      omega
    by_cases hk' : k = o.deny
    · have hL : Locked o (List.replicate k t) t := by
        refine ⟨hx, hT.mpr hk', ?_⟩
        rintro ⟨-, h2⟩
        rw [latest_replicate k t (by omega)] at h2
        omega
      have : after o (List.replicate k t) (.fail t src) = List.replicate k t := by
        simp only [after]; rw [if_pos hL]
      rw [this, ih (fun e he => hes e (by simp [he])) k hk]
      congr 1
      rw [List.length_cons]; omega
    · have hT' : ¬ TooMany o (List.replicate k t) := fun h => hk' (hT.mp h)
      have : after o (List.replicate k t) (.fail t src) = List.replicate (k + 1) t := by
        simp only [after]
        rw [if_neg (fun h => hT' h.2.1), if_neg (fun h => hT' h.2)]
        rfl
      rw [this, ih (fun e he => hes e (by simp [he])) (k + 1) (by omega)]
      congr 1
      rw [List.length_cons]; omega

theorem forward_append (a b : List Event) : ∀ last, Forward last a → Forward (lastTime last a) b → Forward last (a ++ b) := by
  induction a with
  | nil => intro last _ h; exact h
  | cons e es ih =>
    intro last h1 h2
    rw [List.cons_append, Forward]
    rw [Forward] at h1
    rw [lastTime] at h2
    cases ht : e.time with
    | none => rw [ht] at h1 h2; exact ih last h1 h2
    | some t =>
      rw [ht] at h1 h2
      exact ⟨h1.1, h1.2.1, h1.2.2.1, ih t h1.2.2.2 h2⟩

theorem forward_burst (t : Nat) (h0 : 0 < t) (hb : t < 2 ^ 63) (es : List Event) (hes : ∀ e ∈ es, ∃ src, e = .fail t src) :
    ∀ last, last ≤ t → Forward last es := by
  induction es with
  | nil => intro _ _; trivial
  | cons e es ih =>
    intro last hl
    obtain ⟨src, rfl⟩ := hes e (by simp)
    exact ⟨hl, h0, hb, ih (fun e he => hes e (by simp [he])) t (Nat.le_refl _)⟩

/-- C39: when the tally file is there and the account is clear, failed logins of concurrent processes within one second
are all counted: `deny` finished ones lock the account, for every schedule, and fewer than `deny` under way do not. -/
theorem C39_burst_partial (o : Opts) (hx : ¬ Exempt o) (hd0 : 0 < o.deny) (hd : o.deny ≤ 1024) (hi : 0 < o.failInterval)
    (hu : o.unlockTime < 2 ^ 32) (hr : o.rootUnlockTime < 2 ^ 32) (job : Nat → Job) (hjob : ∀ i, (job i).action = .authfail)
    (h : List Event) (hf : Forward 0 h) (hfile : (fileAfter o h).isSome) (hclear : counted o h = []) (t : Nat)
    (ht : lastTime 0 h ≤ t) (h0 : 0 < t) (hb : t < 2 ^ 63) (sched : List Turn) (hsched : NoTick sched) (ids : List Nat)
    (hids : ids.Nodup) (now : Nat) (a : Action) (src : Kind × Str) :
    let s := runFrom o job t (fileAfter o h) sched
    ((∀ i ∈ ids, ∃ k, s.pc i = .done k) → o.deny ≤ ids.length →
      ((act o .fine a now src s.file).1 = PAM_AUTH_ERR ↔ (unlockAfter o = 0 ∨ now ≤ t + unlockAfter o))) ∧
    ((∀ i, i ∉ ids → s.pc i = .start) → ids.length < o.deny → (act o .fine a now src s.file).1 ≠ PAM_AUTH_ERR) := by
  intro s
  obtain ⟨order, h1, h2, h3, h4, -⟩ := C39_serial_partial o job h hfile t sched
  have hclock : s.clock = t := noTick_clock o job sched hsched _
  have hes : ∀ e ∈ order.map (fun p => (job p.1).event p.2), ∃ src, e = .fail t src := by
    intro e he
    obtain ⟨p, hp, rfl⟩ := List.mem_map.mp he
    have := h4 p hp
    have e1 : p.2 = t := Nat.le_antisymm (by rw [← hclock]; exact this.2) this.1
    exact ⟨(job p.1).src, by unfold Job.event; rw [hjob p.1, e1]⟩
  have hfw : Forward 0 (h ++ order.map (fun p => (job p.1).event p.2)) :=
    forward_append _ _ 0 hf (forward_burst t h0 hb _ hes _ ht)
  have hcount : counted o (h ++ order.map (fun p => (job p.1).event p.2)) = List.replicate (min order.length o.deny) t := by
    have hc : h.foldl (after o) [] = [] := hclear
    unfold counted
    rw [List.foldl_append, hc]
    have := counted_burst o hx hd0 hi t _ hes 0 (Nat.zero_le _)
    rw [List.length_map, Nat.zero_add] at this
    exact this
  have hmain := (C38_lockout_partial o hd hu hr _ hfw now a src).1
  rw [hcount] at hmain
  rw [show s.file = _ from h1]
  constructor
  · intro hdone hn
    rw [hmain]
    have hlen : ids.length ≤ order.length := by
      have hsub : ∀ i ∈ ids, i ∈ order.map (·.1) := by
        intro i hi'
        obtain ⟨k, hk⟩ := hdone i hi'
        exact (h3 i).mpr ⟨k, Or.inr hk⟩
      have := List.Nodup.length_le_of_subset hids hsub
      rwa [List.length_map] at this
    rw [Nat.min_eq_right (by omega)]
    unfold Locked TooMany Over
    rw [recent_replicate o _ t hi, latest_replicate _ t hd0]
    constructor
    · rintro ⟨-, -, h5⟩
      by_cases hz : unlockAfter o = 0
      · exact Or.inl hz
      · exact Or.inr (Nat.le_of_not_lt (fun hc => h5 ⟨hz, hc⟩))
    · intro h5
      refine ⟨hx, ⟨by omega, Nat.le_refl _⟩, ?_⟩
      rintro ⟨h6, h7⟩
      rcases h5 with h5 | h5
      · exact h6 h5
      · omega
  · intro hrest hn
    have hlen : order.length ≤ ids.length := by
      have hsub : ∀ i ∈ order.map (·.1), i ∈ ids := by
        intro i hi'
        by_cases hin : i ∈ ids
        · exact hin
        · obtain ⟨k, hk⟩ := (h3 i).mp hi'
          rw [show s.pc i = _ from hrest i hin] at hk
          rcases hk with hk | hk <;> cases hk
      have := List.Nodup.length_le_of_subset h2 hsub
      rwa [List.length_map] at this
    rw [Ne, hmain]
    rintro ⟨-, h5, -⟩
    have h6 := h5.2
    rw [recent_replicate o _ t hi] at h6
    omega

/-- all processes record a failure -/
def exJobs : Nat → Job := fun _ => ⟨.authfail, (.tty, [])⟩

/-- C39 is false when the file is not there yet: two processes that both find none write one record between them. -/
theorem C39_missing_counterexample :
    let s := runFrom exOpts exJobs 1000 none
      [.go 0, .go 0, .go 1, .go 1, .go 0, .go 0, .go 0, .go 0, .go 1, .go 1, .go 1, .go 1]
    s.pc 0 = .done PAM_IGNORE ∧ s.pc 1 = .done PAM_IGNORE ∧ s.file = some [⟨.tty, [], true, 1000⟩] := by
  decide +kernel

/-- C39 is false when a process reads the clock, and another one, later, overtakes it: the earlier failure discards the
record of the later one, as one from the future. -/
theorem C39_overtaking_counterexample :
    let s := runFrom exOpts exJobs 1000 (some [])
      [.go 0, .tick 1, .go 1, .go 1, .go 1, .go 1, .go 1, .go 1, .go 0, .go 0, .go 0, .go 0, .go 0]
    s.pc 0 = .done PAM_IGNORE ∧ s.pc 1 = .done PAM_IGNORE ∧ s.file = some [⟨.tty, [], true, 1000⟩] := by
  decide +kernel

/-! The hypotheses can be met. -/

example : (fileAfter exOpts [.reset]).isSome = true ∧ counted exOpts [.reset] = [] := by decide +kernel
-- three processes in one second, two of them at once
example : (runFrom exOpts exJobs 1000 (some [])
    [.go 0, .go 0, .go 1, .go 0, .go 1, .go 1, .go 0, .go 1, .go 0, .go 0, .go 1, .go 1, .go 1, .go 1,
      .go 2, .go 2, .go 2, .go 2, .go 2, .go 2]).file =
    some [⟨.tty, [], true, 1000⟩, ⟨.tty, [], true, 1000⟩, ⟨.tty, [], true, 1000⟩] := by decide +kernel

end Pam.Faillock
