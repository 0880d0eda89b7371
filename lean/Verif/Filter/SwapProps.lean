import Verif.Filter.Swap
/-
C164: the filter upperLOWER hands on what it reads, with the case of letters swapped.
-/
namespace Pam.Filter.Swap

namespace Spec

/-- the other case of a letter of ASCII -/
def other (b : Nat) : Nat :=
  if 'a'.toNat ≤ b ∧ b ≤ 'z'.toNat then b - 'a'.toNat + 'A'.toNat
  else if 'A'.toNat ≤ b ∧ b ≤ 'Z'.toNat then b - 'A'.toNat + 'a'.toNat
  else b

/-- the bytes that come in -/
def data : Rd → Bytes
  | .got b => b
  | _ => []

end Spec
open Spec

theorem swap_eq (b : Nat) : swap b = other b := by
  unfold swap other
  rw [show 'a'.toNat = 97 from rfl, show 'z'.toNat = 122 from rfl, show 'A'.toNat = 65 from rfl, show 'Z'.toNat = 90 from rfl]
  split
  · omega
  · split
    · omega
    · rfl

theorem transpose_take (len : Nat) : ∀ (bs : Bytes) (i : Nat), (transpose len i bs).take (len - i) = (bs.take (len - i)).map other
  | [], i => by simp [transpose]
  | b :: bs, i => by
    by_cases h : i < len
    · obtain ⟨k, hk⟩ : ∃ k, len - i = k + 1 := ⟨len - i - 1, by omega⟩
      have hk2 : len - (i + 1) = k := by omega
      have ih := transpose_take len bs (i + 1)
      rw [hk2] at ih
      rw [transpose, if_pos h, hk, List.take_succ_cons, List.take_succ_cons, List.map_cons, ih, swap_eq]
    · rw [show len - i = 0 from by omega]
      simp

theorem sent (buf b : Bytes) : (transpose b.length 0 (fill buf b)).take b.length = b.map other := by
  have := transpose_take b.length (fill buf b) 0
  rw [Nat.sub_zero] at this
  rw [this, fill, List.take_left']
  rfl

/-- **C164** What is handed on is the beginning of what was read, letters in the other case, in each of the three directions. -/
structure Passed (s : St) : Prop where
  err : s.toErr <+: s.readErr.map other
  out : s.toOut <+: s.readOut.map other
  app : s.toApp <+: s.readInp.map other

/-- all of it -/
structure All (s : St) : Prop where
  err : s.toErr = s.readErr.map other
  out : s.toOut = s.readOut.map other
  app : s.toApp = s.readInp.map other

theorem All.passed {s : St} (h : All s) : Passed s :=
  ⟨by rw [h.err]; exact List.prefix_refl _, by rw [h.out]; exact List.prefix_refl _, by rw [h.app]; exact List.prefix_refl _⟩

theorem send_spec (buf b : Bytes) (w : Option Nat) :
    (send (transpose b.length 0 (fill buf b)) b.length w).1 <+: b.map other ∧
      ((send (transpose b.length 0 (fill buf b)) b.length w).2 = true → (send (transpose b.length 0 (fill buf b)) b.length w).1 = b.map other) := by
  unfold send
  cases w with
  | none => simp only [sent]; exact ⟨List.prefix_refl _, fun _ => trivial⟩
  | some n =>
    simp only [sent]
    refine ⟨List.take_prefix _ _, fun h => ?_⟩
    rw [List.take_of_length_le]
    rw [List.length_map]
    exact of_decide_eq_true h

theorem prefix_step {a b c d : Bytes} (h : a = b.map other) (h2 : c <+: d.map other) : a ++ c <+: (b ++ d).map other := by
  rw [h, List.map_append]
  exact (List.prefix_append_right_inj _).mpr h2

theorem fromApp_spec (t : Turn) (s : St) (h : All s) : Passed (fromApp t s).1 ∧ ((fromApp t s).2 = true → All (fromApp t s).1) := by
  unfold fromApp
  split
  · exact ⟨h.passed, fun e => by cases e⟩
  · rename_i b _
    split
    · exact ⟨h.passed, fun e => by cases e⟩
    · obtain ⟨k1, k2⟩ := send_spec s.buf b t.werr
      refine ⟨⟨prefix_step h.err k1, h.passed.out, h.passed.app⟩, fun e => ⟨?_, h.out, h.app⟩⟩
      simp only
      rw [k2 e, h.err, List.map_append]
  · split
    · exact ⟨h.passed, fun e => by cases e⟩
    · rename_i b _
      split
      · exact ⟨h.passed, fun e => by cases e⟩
      · obtain ⟨k1, k2⟩ := send_spec s.buf b t.wout
        refine ⟨⟨h.passed.err, prefix_step h.out k1, h.passed.app⟩, fun e => ⟨h.err, ?_, h.app⟩⟩
        simp only
        rw [k2 e, h.out, List.map_append]
    · exact ⟨h.passed, fun _ => h⟩

theorem fromUser_spec (t : Turn) (s : St) (h : All s) : Passed (fromUser t s).1 ∧ ((fromUser t s).2 = true → All (fromUser t s).1) := by
  unfold fromUser
  split
  · exact ⟨h.passed, fun e => by cases e⟩
  · rename_i b _
    split
    · exact ⟨h.passed, fun e => by cases e⟩
    · obtain ⟨k1, k2⟩ := send_spec s.buf b t.winp
      refine ⟨⟨h.passed.err, h.passed.out, prefix_step h.app k1⟩, fun e => ⟨h.err, h.out, ?_⟩⟩
      simp only
      rw [k2 e, h.app, List.map_append]
  · exact ⟨h.passed, fun _ => h⟩

theorem loop_spec : ∀ (ts : List Turn) (s : St), All s → Passed (loop ts s).1 ∧ ((loop ts s).2 = true → All (loop ts s).1)
  | [], s, h => ⟨h.passed, fun _ => h⟩
  | t :: ts, s, h => by
    rw [loop]
    split
    · exact ⟨h.passed, fun e => by cases e⟩
    · have h1 := fromApp_spec t s h
      generalize fromApp t s = r at h1
      obtain ⟨s1, b1⟩ := r
      cases b1 with
      | false => exact ⟨h1.1, fun e => by cases e⟩
      | true =>
        have h2 := fromUser_spec t s1 (h1.2 rfl)
        simp only
        generalize fromUser t s1 = r at h2
        obtain ⟨s2, b2⟩ := r
        cases b2 with
        | false => exact ⟨h2.1, fun e => by cases e⟩
        | true => exact loop_spec ts s2 (h2.2 rfl)

/-- **C164** However the bytes come in, what the filter has handed on in each direction is always a beginning of what it has read there, with the case of the letters swapped. -/
theorem C164_prefix (ts : List Turn) : Passed (loop ts {}).1 := (loop_spec ts {} ⟨rfl, rfl, rfl⟩).1

/-- **C164** While it runs, it has handed on all it has read. -/
theorem C164_all (ts : List Turn) (h : (loop ts {}).2 = true) : All (loop ts {}).1 := (loop_spec ts {} ⟨rfl, rfl, rfl⟩).2 h

/-- **C164** Two such filters in a row change nothing. -/
theorem C164_twice (b : Bytes) : (b.map other).map other = b := by
  rw [List.map_map]
  conv => rhs; rw [← List.map_id b]
  refine List.map_congr_left fun x _ => ?_
  simp only [Function.comp, id]
  rw [← swap_eq, ← swap_eq]
  unfold swap
  grind

/-- a user types `Ab`, then `1`; the application answers `OK`, as output -/
def exTurns : List Turn := [⟨true, .idle, .idle, .got [65, 98], none, none, none⟩, ⟨true, .idle, .got [79, 75], .got [49], none, none, none⟩]

example : (loop exTurns {}).2 = true ∧ (loop exTurns {}).1.toApp = [97, 66, 49] ∧ (loop exTurns {}).1.toOut = [111, 107] := by decide +kernel
/-- the second write to the application stops short -/
example : (loop (exTurns ++ [⟨true, .idle, .idle, .got [67, 68], none, none, some 1⟩]) {}).2 = false ∧
    (loop (exTurns ++ [⟨true, .idle, .idle, .got [67, 68], none, none, some 1⟩]) {}).1.toApp = [97, 66, 49, 99] := by decide +kernel

/-- **C164** It runs on as long as the system calls succeed and neither side has ended. -/
theorem C164_runs (ts : List Turn) (s : St) (h : ∀ t ∈ ts, t.select = true ∧ t.werr = none ∧ t.wout = none ∧ t.winp = none ∧ ∀ r ∈ [t.err, t.out, t.inp], r = .idle ∨ ∃ b, b ≠ [] ∧ r = .got b) :
    (loop ts s).2 = true := by
  induction ts generalizing s with
  | nil => rfl
  | cons t ts ih =>
    obtain ⟨h1, h2, h3, h4, h5⟩ := h t (by simp)
    have e1 := h5 t.err (by simp)
    have e2 := h5 t.out (by simp)
    have e3 := h5 t.inp (by simp)
    have a : ∃ s1, fromApp t s = (s1, true) := by
      unfold fromApp
      rcases e1 with e1 | ⟨b, hb, e1⟩
      · rw [e1]
        simp only
        rcases e2 with e2 | ⟨b, hb, e2⟩
        · rw [e2]; exact ⟨_, rfl⟩
        · rw [e2]
          simp only
          rw [if_neg (by rwa [List.length_eq_zero_iff]), h3]
          exact ⟨_, rfl⟩
      · rw [e1]
        simp only
        rw [if_neg (by rwa [List.length_eq_zero_iff]), h2]
        exact ⟨_, rfl⟩
    obtain ⟨s1, a⟩ := a
    have u : ∃ s2, fromUser t s1 = (s2, true) := by
      unfold fromUser
      rcases e3 with e3 | ⟨b, hb, e3⟩
      · rw [e3]; exact ⟨_, rfl⟩
      · rw [e3]
        simp only
        rw [if_neg (by rwa [List.length_eq_zero_iff]), h4]
        exact ⟨_, rfl⟩
    obtain ⟨s2, u⟩ := u
    rw [loop, if_neg (by simp [h1]), a]
    simp only
    rw [u]
    exact ih s2 (fun t ht => h t (by simp [ht]))

theorem fromApp_read (t : Turn) (s s1 : St) (h : fromApp t s = (s1, true)) :
    s1.readInp = s.readInp ∧ s1.readErr = s.readErr ++ data t.err ∧ s1.readOut = s.readOut ++ (if t.err = .idle then data t.out else []) := by
  unfold fromApp at h
  split at h
  · cases h
  · rename_i b e
    split at h
    · cases h
    · injection h with h1 _
      subst h1
      rw [e]
      simp [data]
  · rename_i e
    rw [e]
    split at h
    · cases h
    · rename_i b e2
      split at h
      · cases h
      · injection h with h1 _
        subst h1
        rw [e2]
        simp [data]
    · rename_i e2
      injection h with h1 _
      subst h1
      rw [e2]
      simp [data]

theorem fromUser_read (t : Turn) (s s1 : St) (h : fromUser t s = (s1, true)) :
    s1.readInp = s.readInp ++ data t.inp ∧ s1.readErr = s.readErr ∧ s1.readOut = s.readOut := by
  unfold fromUser at h
  split at h
  · cases h
  · rename_i b e
    split at h
    · cases h
    · injection h with h1 _
      subst h1
      rw [e]
      simp [data]
  · rename_i e
    injection h with h1 _
    subst h1
    rw [e]
    simp [data]

theorem loop_read : ∀ (ts : List Turn) (s : St), (loop ts s).2 = true →
    (loop ts s).1.readInp = s.readInp ++ ts.flatMap (fun t => data t.inp) ∧ (loop ts s).1.readErr = s.readErr ++ ts.flatMap (fun t => data t.err) ∧
      (loop ts s).1.readOut = s.readOut ++ ts.flatMap (fun t => if t.err = .idle then data t.out else [])
  | [], s, _ => by simp [loop]
  | t :: ts, s, h => by
    rw [loop] at h ⊢
    by_cases hs : t.select = true
    · rw [if_neg (by simp [hs])] at h ⊢
      cases ha : fromApp t s with
      | mk s1 b1 =>
        rw [ha] at h
        cases b1 with
        | false => cases h
        | true =>
          simp only at h ⊢
          cases hu : fromUser t s1 with
          | mk s2 b2 =>
            rw [hu] at h
            cases b2 with
            | false => cases h
            | true =>
              simp only at h ⊢
              obtain ⟨i1, i2, i3⟩ := loop_read ts s2 h
              obtain ⟨a1, a2, a3⟩ := fromApp_read t s s1 ha
              obtain ⟨u1, u2, u3⟩ := fromUser_read t s1 s2 hu
              rw [i1, i2, i3, u1, u2, u3, a1, a2, a3]
              simp [List.flatMap_cons]
    · rw [if_pos hs] at h
      cases h

/-- **C164** From one end to the other: while the filter runs, the application has got the user's bytes of all turns with the case of the letters swapped, in their order; the user has got the application's in the same way (in a turn with errors of the application its output is not looked at and comes in a later one). -/
theorem C164_through (ts : List Turn) (h : (loop ts {}).2 = true) :
    (loop ts {}).1.toApp = (ts.flatMap (fun t => data t.inp)).map other ∧ (loop ts {}).1.toErr = (ts.flatMap (fun t => data t.err)).map other ∧
      (loop ts {}).1.toOut = (ts.flatMap (fun t => if t.err = .idle then data t.out else [])).map other := by
  obtain ⟨h1, h2, h3⟩ := C164_all ts h
  obtain ⟨r1, r2, r3⟩ := loop_read ts {} h
  rw [h1, h2, h3, r1, r2, r3]
  simp

end Pam.Filter.Swap
