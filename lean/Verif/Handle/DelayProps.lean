import Verif.Handle.Delay
/-
C161: the delay differs from what was asked for by at most a half.
-/
namespace Pam.Delay
open Pam Pam.Handle

/-- a rounding as that of doubles, as far as it matters: it keeps the order, and halves of integers up to 2^53 are doubles -/
structure Rounds (rd : Rat → Rat) : Prop where
  mono : ∀ a b, a ≤ b → rd a ≤ rd b
  half : ∀ n : Nat, n ≤ 9007199254740992 → rd ((n : Rat) / 2) = (n : Rat) / 2
  neg : rd (-1 / 2) = -1 / 2

theorem Rounds.nat {rd : Rat → Rat} (h : Rounds rd) (n : Nat) (hn : n ≤ 4503599627370496) : rd (n : Rat) = n := by
  have := h.half (2 * n) (by omega)
  have e : ((2 * n : Nat) : Rat) / 2 = n := by push_cast; grind
  rw [e] at this
  exact this

theorem Rounds.le {rd : Rat → Rat} (h : Rounds rd) {a x : Rat} (ha : rd a = a) (hx : a ≤ x) : a ≤ rd x := by
  have := h.mono a x hx
  rw [ha] at this
  exact this

theorem Rounds.ge {rd : Rat → Rat} (h : Rounds rd) {a x : Rat} (ha : rd a = a) (hx : x ≤ a) : rd x ≤ a := by
  have := h.mono x a hx
  rw [ha] at this
  exact this

theorem gather_range {rd : Rat → Rat} (h : Rounds rd) (entropy : Nat → Option Nat) : ∀ (left i seed n : Nat), n + left * 999999 ≤ 2999997 →
    ∃ m : Nat, gather rd entropy left i seed (n : Rat) = m ∧ m ≤ n + left * 999999
  | 0, _, _, n, _ => ⟨n, rfl, by omega⟩
  | left + 1, i, seed, n, hn => by
    rw [gather]
    generalize hx : rand (entropy i) seed / 10 % 1000000 = x
    have hx1 : x ≤ 999999 := by omega
    have e : rd ((n : Rat) + (x : Rat)) = ((n + x : Nat) : Rat) := by
      rw [← h.nat (n + x) (by omega)]
      push_cast
      rfl
    rw [e]
    obtain ⟨m, h1, h2⟩ := gather_range h entropy left (i + 1) (rand (entropy i) seed) (n + x) (by omega)
    exact ⟨m, h1, by omega⟩

/-- **C161** The delay is between a half and one and a half of what was asked for, rounded down: whatever the random numbers are, for any rounding of doubles. -/
theorem C161_range (rd : Rat → Rat) (h : Rounds rd) (entropy : Nat → Option Nat) (seed base : Nat) (hb : base < 4294967296) :
    base / 2 ≤ compute rd entropy seed base ∧ compute rd entropy seed base ≤ base * 3 / 2 := by
  obtain ⟨m, h1, h2⟩ := gather_range h entropy 3 0 seed 0 (by decide)
  unfold compute
  simp only
  rw [show ((0 : Nat) : Rat) = 0 from rfl] at h1
  rw [h1]
  have hm0 : (0 : Rat) ≤ (m : Rat) := by exact_mod_cast Nat.zero_le m
  have hm1 : (m : Rat) ≤ 2999997 := by exact_mod_cast (by omega : m ≤ 2999997)
  have r0 : rd 0 = 0 := h.nat 0 (by decide)
  have r1 : rd 1 = 1 := h.nat 1 (by decide)
  have a0 : 0 ≤ rd ((m : Rat) / 3) := h.le r0 (by grind)
  have a1 : rd ((m : Rat) / 3) ≤ ((999999 : Nat) : Rat) := h.ge (h.nat 999999 (by decide)) (by push_cast; grind)
  rw [show ((999999 : Nat) : Rat) = 999999 from rfl] at a1
  generalize rd ((m : Rat) / 3) = a at *
  have b0 : 0 ≤ rd (a / 1000000) := h.le r0 (by grind)
  have b1 : rd (a / 1000000) ≤ 1 := h.ge r1 (by grind)
  generalize rd (a / 1000000) = b at *
  have c0 : -1 / 2 ≤ rd (b - 1 / 2) := h.le h.neg (by grind)
  have rh : rd (1 / 2) = 1 / 2 := h.half 1 (by decide)
  have c1 : rd (b - 1 / 2) ≤ 1 / 2 := h.ge rh (by grind)
  generalize rd (b - 1 / 2) = c at *
  have d0 : 1 / 2 ≤ rd (1 + c) := h.le rh (by grind)
  have r3 : rd (3 / 2) = 3 / 2 := h.half 3 (by decide)
  have d1 : rd (1 + c) ≤ 3 / 2 := h.ge r3 (by grind)
  generalize rd (1 + c) = d at *
  have hb0 : (0 : Rat) ≤ (base : Rat) := by exact_mod_cast Nat.zero_le base
  have hb1 : (base : Rat) ≤ 4294967296 := by exact_mod_cast Nat.le_of_lt hb
  have e0 : (base : Rat) / 2 ≤ rd ((base : Rat) * d) := by
    refine h.le (h.half base (by omega)) ?_
    have := Rat.mul_le_mul_of_nonneg_left d0 hb0
    grind
  have e1 : rd ((base : Rat) * d) ≤ ((base * 3 : Nat) : Rat) / 2 := by
    refine h.ge (h.half (base * 3) (by omega)) ?_
    have := Rat.mul_le_mul_of_nonneg_left d1 hb0
    push_cast
    grind
  push_cast at e1
  generalize rd ((base : Rat) * d) = e at *
  rw [if_neg (by grind)]
  have f0 : ((base / 2 : Nat) : Int) ≤ e.floor := by
    rw [Rat.le_floor_iff]
    generalize hq : base / 2 = q
    have : 2 * (q : Rat) ≤ (base : Rat) := by exact_mod_cast (by omega : 2 * q ≤ base)
    rw [Rat.intCast_natCast]
    grind
  have f1 : e.floor < ((base * 3 / 2 + 1 : Nat) : Int) := by
    rw [Rat.floor_lt_iff]
    generalize hq : base * 3 / 2 + 1 = q
    have : (base : Rat) * 3 < 2 * (q : Rat) := by exact_mod_cast (by omega : base * 3 < 2 * q)
    rw [Rat.intCast_natCast]
    grind
  omega

/-- exact arithmetic is such a rounding -/
theorem Rounds.exact : Rounds id := ⟨fun _ _ h => h, fun _ _ => rfl, rfl⟩

example : compute id (fun _ => none) 1700000000 2000000 = 1657064 := by decide +kernel
example : compute id (fun _ => some 4294967295) 0 3000000 = 2990187 := by decide +kernel
/-- both ends are taken -/
example : compute id (fun _ => some 0) 0 3000001 = 1500000 ∧ compute id (fun _ => some 9999999) 0 4294967295 = 6442446647 := by decide +kernel

/-- **C161** The application's function is called with at least a half of the largest delay asked for, at most one and a half, and never more than an unsigned number holds. -/
theorem C161_call (rd : Rat → Rat) (h : Rounds rd) (entropy : Nat → Option Nat) (seed : Nat) (p : Inner) (status : Int) (hb : p.delay < 4294967296) (fn : Nat) (hf : p.delayFn = some fn) :
    ∃ u, act (compute rd entropy seed) (awaitTimer p status).1 = .call fn status u ∧ p.delay / 2 ≤ u ∧ u ≤ p.delay * 3 / 2 ∧ u ≤ 4294967295 := by
  simp only [awaitTimer, hf, act]
  obtain ⟨h1, h2⟩ := C161_range rd h entropy seed p.delay hb
  refine ⟨_, rfl, ?_, ?_, ?_⟩ <;> split <;> omega

/-- **C161** Without a function the library sleeps itself, after a failure for which some delay was asked, as long; the microseconds given to the system are below a million. -/
theorem C161_sleep (rd : Rat → Rat) (h : Rounds rd) (entropy : Nat → Option Nat) (seed : Nat) (p : Inner) (status : Int) (hb : p.delay < 4294967296) (hf : p.delayFn = none)
    (hs : status ≠ 0) (hd : p.delaySet = true) (h2 : 2 ≤ p.delay) :
    ∃ sec usec, act (compute rd entropy seed) (awaitTimer p status).1 = .sleep sec usec ∧ usec < 1000000 ∧
      p.delay / 2 ≤ sec * 1000000 + usec ∧ sec * 1000000 + usec ≤ p.delay * 3 / 2 := by
  simp only [awaitTimer, hf, hd]
  rw [if_pos ⟨hs, trivial⟩]
  simp only [act]
  obtain ⟨h1, h2⟩ := C161_range rd h entropy seed p.delay hb
  rw [if_pos (by omega)]
  refine ⟨_, _, rfl, ?_, ?_, ?_⟩ <;> omega

/-- **C161** After a success, or when no delay was asked for, the library does not sleep. -/
theorem C161_none (delay : Nat → Nat) (p : Inner) (status : Int) (hf : p.delayFn = none) (hs : status = 0 ∨ p.delaySet = false) :
    act delay (awaitTimer p status).1 = .nothing := by
  simp only [awaitTimer, hf]
  rw [if_neg]
  · rfl
  · rintro ⟨h1, h2⟩
    rcases hs with hs | hs
    · exact h1 hs
    · rw [hs] at h2; cases h2

/-- **C161** Once waited for, a delay is forgotten: the next failure for which none is asked is not delayed. -/
theorem C161_once (delay : Nat → Nat) (p : Inner) (status status' : Int) (hf : p.delayFn = none) :
    act delay (awaitTimer (awaitTimer p status).2 status').1 = .nothing :=
  C161_none delay _ _ (by exact hf) (Or.inr rfl)

theorem asked_delay : ∀ (us : List Nat) (p : Inner), p.delaySet = true →
    (us.foldl (fun q v => (failDelay q v).2) p).delaySet = true ∧ (us.foldl (fun q v => (failDelay q v).2) p).delayFn = p.delayFn ∧
      (us.foldl (fun q v => (failDelay q v).2) p).delay = us.foldl max p.delay
  | [], _, h => ⟨h, rfl, rfl⟩
  | v :: us, p, h => by
    obtain ⟨h1, h2, h3⟩ := asked_delay us (failDelay p v).2 rfl
    refine ⟨h1, h2, ?_⟩
    simp only [List.foldl_cons]
    rw [h3]
    congr 1
    simp only [failDelay, h]
    grind

theorem foldl_max_lt (b : Nat) : ∀ (us : List Nat) (u : Nat), u < b → (∀ v ∈ us, v < b) → us.foldl max u < b
  | [], _, h, _ => h
  | v :: us, u, h, h' => foldl_max_lt b us (max u v) (by have := h' v (by simp); omega) (fun w hw => h' w (by simp [hw]))

theorem le_foldl_max : ∀ (us : List Nat) (u : Nat), u ≤ us.foldl max u
  | [], _ => Nat.le_refl _
  | v :: us, u => Nat.le_trans (Nat.le_max_left u v) (le_foldl_max us (max u v))

/-- **C161** From the requests to the sleep: modules ask for any number of delays, the first for two microseconds or more, and the operation fails; then the library sleeps for the largest of them, up to a half more or less. -/
theorem C161_requests (rd : Rat → Rat) (h : Rounds rd) (entropy : Nat → Option Nat) (seed : Nat) (p : Inner) (status : Int) (u : Nat) (us : List Nat)
    (hf : p.delayFn = none) (hn : p.delaySet = false) (hs : status ≠ 0) (hu : 2 ≤ u) (hb : ∀ v ∈ u :: us, v < 4294967296) :
    ∃ sec usec, act (compute rd entropy seed) (awaitTimer ((u :: us).foldl (fun q v => (failDelay q v).2) p) status).1 = .sleep sec usec ∧ usec < 1000000 ∧
      us.foldl max u / 2 ≤ sec * 1000000 + usec ∧ sec * 1000000 + usec ≤ us.foldl max u * 3 / 2 := by
  simp only [List.foldl_cons]
  have e : (failDelay p u).2.delay = u := by
    simp only [failDelay, hn]
    rw [if_pos (by simp only [Bool.false_eq_true, if_false]; omega)]
  obtain ⟨h1, h2, h3⟩ := asked_delay us (failDelay p u).2 rfl
  rw [e] at h3
  have := C161_sleep rd h entropy seed (us.foldl (fun q v => (failDelay q v).2) (failDelay p u).2) status
    (by rw [h3]; exact foldl_max_lt _ us u (hb u (by simp)) (fun v hv => hb v (by simp [hv])))
    (by rw [h2]; exact hf) hs h1 (by rw [h3]; have := le_foldl_max us u; omega)
  rw [h3] at this
  exact this

/-- three requests in a handle without a delay function -/
example : act (compute id (fun _ => none) 1700000000) (awaitTimer ([2000000, 5, 3000000].foldl (fun q v => (failDelay q v).2) { service := [], conv := 0 }) 7).1 = .sleep 2 485597 := by
  decide +kernel

end Pam.Delay
