import Verif.Pamc.Spec
/-
Lemmas about the model of libpamc.
-/
namespace Pam.Pamc
open Pam.Util (Ev Res sysRead sysWrite storeAt)
open Spec

theorem answers_append (a b : List Ev) : answers (a ++ b) = answers a + answers b := by
  simp [answers]

theorem sendAll_spec (p : Bytes) (size : Nat) (hp : size ≤ p.length) : ∀ (sched : List Ev) (offset : Nat),
    offset ≤ size →
    (sendAll p size offset sched = .wait ∧ answers sched < size - offset) ∨
    (Ev.err ∈ sched ∧ ∃ n es, n ≤ size ∧ sendAll p size offset sched = .ret (false, n, es)) ∨
    (∃ used es, sched = used ++ es ∧ answers used ≤ size - offset ∧
      sendAll p size offset sched = .ret (true, size, es)) := by
  intro sched
  induction sched with
  | nil =>
    intro offset ho
    rw [sendAll]
    by_cases h : offset < size
    · left
      simp [h, answers]
      omega
    · right; right
      rw [if_neg h]
      exact ⟨[], [], rfl, by simp [answers], by simp; omega⟩
  | cons e es ih =>
    intro offset ho
    rw [sendAll]
    by_cases h : offset < size
    · rw [if_pos h, if_neg (by omega)]
      cases e with
      | intr =>
        simp only [sysWrite]
        rcases ih offset ho with h1 | ⟨h1, h2⟩ | ⟨u, es', h1, h2, h3⟩
        · left; simpa [answers] using h1
        · right; left; exact ⟨by simp [h1], h2⟩
        · right; right
          exact ⟨.intr :: u, es', by simp [h1], by simpa [answers] using h2, h3⟩
      | err =>
        right; left
        simp only [sysWrite]
        exact ⟨by simp, offset, es, ho, rfl⟩
      | upto n =>
        simp only [sysWrite]
        have hk : (((p.drop offset).take (size - offset)).take (n + 1)).length = min (n + 1) (size - offset) := by
          simp only [List.length_take, List.length_drop]; omega
        rw [hk]
        rcases ih (offset + min (n + 1) (size - offset)) (by omega) with ⟨h1, h2⟩ | ⟨h1, h2⟩ | ⟨u, es', h1, h2, h3⟩
        · left
          refine ⟨h1, ?_⟩
          simp only [answers, List.filter_cons] at h2 ⊢
          rw [if_pos (by simp), List.length_cons]
          omega
        · right; left; exact ⟨by simp [h1], h2⟩
        · right; right
          refine ⟨.upto n :: u, es', by simp [h1], ?_, h3⟩
          simp only [answers, List.filter_cons] at h2 ⊢
          rw [if_pos (by simp), List.length_cons]
          omega
    · right; right
      rw [if_neg h]
      exact ⟨[], e :: es, rfl, by simp [answers], by simp; omega⟩

theorem recvAll_spec : ∀ (sched : List Ev) (pre buf stream : Bytes) (k : Nat), k ≤ buf.length →
    (recvAll (pre.length + k) (pre ++ buf) pre.length stream sched = .wait ∧ answers sched < k) ∨
    (Ev.err ∈ sched ∧ ∃ got rest es, recvAll (pre.length + k) (pre ++ buf) pre.length stream sched =
        .ret (.err, pre ++ got ++ buf.drop got.length, rest, es) ∧ got.length ≤ buf.length) ∨
    (k ≤ stream.length ∧ ∃ used es, sched = used ++ es ∧ answers used ≤ k ∧
      recvAll (pre.length + k) (pre ++ buf) pre.length stream sched =
        .ret (.ok, pre ++ stream.take k ++ buf.drop k, stream.drop k, es)) ∨
    (stream.length < k ∧ ∃ es,
      recvAll (pre.length + k) (pre ++ buf) pre.length stream sched =
        .ret (.eof, pre ++ stream ++ buf.drop stream.length, [], es)) := by
  intro sched
  induction sched with
  | nil =>
    intro pre buf stream k hk
    rw [recvAll]
    by_cases h0 : k = 0
    · right; right; left
      subst h0
      exact ⟨by simp, [], [], by simp, by simp [answers], by simp⟩
    · left
      rw [if_pos (by omega)]
      exact ⟨rfl, by simp [answers]; omega⟩
  | cons e es ih =>
    intro pre buf stream k hk
    rw [recvAll]
    by_cases h0 : k = 0
    · right; right; left
      subst h0
      exact ⟨by simp, [], e :: es, by simp, by simp [answers], by simp⟩
    · rw [if_pos (by omega)]
      cases e with
      | intr =>
        simp only [sysRead]
        rcases ih pre buf stream k hk with h | ⟨h1, h2⟩ | ⟨h1, u, es', h2, h3, h4⟩ | ⟨h1, h2⟩
        · left; simpa [answers] using h
        · right; left; exact ⟨by simp [h1], h2⟩
        · right; right; left
          exact ⟨h1, .intr :: u, es', by simp [h2], by simpa [answers] using h3, h4⟩
        · right; right; right; exact ⟨h1, h2⟩
      | err =>
        right; left
        simp only [sysRead]
        exact ⟨by simp, [], stream, es, by simp, by simp⟩
      | upto n =>
        simp only [sysRead]
        rw [show pre.length + k - pre.length = k by omega]
        generalize hj : min k (n + 1) = j
        have hst : storeAt (pre ++ buf) pre.length (stream.take j) =
            some (pre ++ stream.take j ++ buf.drop (stream.take j).length) := by
          rw [storeAt, if_pos (by simp only [List.length_append, List.length_take]; omega)]
          rw [List.take_left' rfl]
          simp
        rw [hst]
        simp only
        by_cases hz : (stream.take j).length = 0
        · rw [if_neg (fun h => h hz)]
          have hs : stream = [] := by
            rw [List.length_take] at hz
            exact List.eq_nil_of_length_eq_zero (by omega)
          subst hs
          right; right; right
          exact ⟨by simp; omega, es, by simp⟩
        · rw [if_pos hz]
          rw [List.length_take] at hz
          by_cases hl : j ≤ stream.length
          · have hjl : (stream.take j).length = j := by rw [List.length_take]; omega
            rw [hjl]
            have hpre : pre.length + j = (pre ++ stream.take j).length := by simp; omega
            have hw : pre.length + k = (pre ++ stream.take j).length + (k - j) := by rw [← hpre]; omega
            rw [hw, hpre]
            rcases ih (pre ++ stream.take j) (buf.drop j) (stream.drop j) (k - j) (by simp; omega) with
              ⟨h1, h2⟩ | ⟨h1, got, rest, es', h2, h3⟩ | ⟨h1, u, es', h2, h3, h4⟩ | ⟨h1, es', h2⟩
            · left
              refine ⟨h1, ?_⟩
              simp only [answers, List.filter_cons] at h2 ⊢
              rw [if_pos (by simp), List.length_cons]
              omega
            · right; left
              refine ⟨by simp [h1], stream.take j ++ got, rest, es', ?_, ?_⟩
              · rw [h2]; simp [hjl]
              · simp at h3; rw [List.length_append, hjl]; omega
            · right; right; left
              refine ⟨by simp at h1; omega, .upto n :: u, es', by simp [h2], ?_, ?_⟩
              · simp only [answers, List.filter_cons] at h3 ⊢
                rw [if_pos (by simp), List.length_cons]
                omega
              · rw [h4]
                have : stream.take j ++ (stream.drop j).take (k - j) = stream.take k := by
                  rw [← List.take_add, show j + (k - j) = k by omega]
                rw [List.append_assoc pre, this, List.drop_drop, List.drop_drop, show j + (k - j) = k by omega]
            · right; right; right
              refine ⟨by simp at h1; omega, es', ?_⟩
              rw [h2]
              have e1 : stream.take j ++ stream.drop j = stream := List.take_append_drop _ _
              rw [List.append_assoc pre, e1, List.drop_drop, List.length_drop, show j + (stream.length - j) = stream.length by omega]
          · have hall : stream.take j = stream := List.take_of_length_le (by omega)
            have hnil : stream.drop j = [] := List.drop_eq_nil_of_le (by omega)
            rw [hall, hnil]
            have hpre : pre.length + stream.length = (pre ++ stream).length := by simp
            have hw : pre.length + k = (pre ++ stream).length + (k - stream.length) := by rw [← hpre]; omega
            rw [hw, hpre]
            rcases ih (pre ++ stream) (buf.drop stream.length) [] (k - stream.length) (by simp; omega) with
              ⟨h1, h2⟩ | ⟨h1, got, rest, es', h2, h3⟩ | ⟨h1, u, es', h2, h3, h4⟩ | ⟨h1, es', h2⟩
            · left
              refine ⟨h1, ?_⟩
              simp only [answers, List.filter_cons] at h2 ⊢
              rw [if_pos (by simp), List.length_cons]
              omega
            · right; left
              refine ⟨by simp [h1], stream ++ got, rest, es', ?_, ?_⟩
              · rw [h2]; simp
              · simp at h3; rw [List.length_append]; omega
            · simp at h1; omega
            · right; right; right
              refine ⟨by omega, es', ?_⟩
              rw [h2]; simp

theorem header_be32 (n : Nat) (c : UInt8) : header n c = be32 n ++ [c] := by
  simp only [header, be32, List.cons_append, List.nil_append, Nat.reducePow]
  have h : ∀ m : Nat, (m % 256).toUInt8 = UInt8.ofNat m := by
    intro m
    show UInt8.ofNat (m % 256) = UInt8.ofNat m
    apply UInt8.toNat_inj.mp
    simp
  rw [h, h, h, h]

theorem bpSize_be32 (n : Nat) (rest : Bytes) (h : n < 2 ^ 32) : bpSize (be32 n ++ rest) = some n := by
  simp only [be32, List.cons_append, List.nil_append, bpSize, UInt8.toNat_ofNat', Option.some.injEq]
  omega

theorem overruns_sound (old : Option Bytes) (hs : ∀ p, old = some p → Sound p) : overruns old = false := by
  cases old with
  | none => rfl
  | some p =>
    obtain ⟨n, hn, hl, _⟩ := hs p rfl
    simp [overruns, hn]
    exact hl

theorem renew_ok (old : Option Bytes) (hs : ∀ p, old = some p → Sound p) (c : UInt8) (size : Nat)
    (hc : c ≠ 0) (h1 : 4 ≤ size) (h2 : size + 1 < 2 ^ 32) :
    renew (some old) c size true = .ret (some (be32 size ++ [c] ++ List.replicate (size - 4) 0)) := by
  unfold renew
  simp only [overruns_sound old hs, Bool.false_eq_true, if_false, hc, Bool.not_true]
  rw [Nat.mod_eq_of_lt (by omega), header_be32, storeAt, if_pos (by simp [be32]; omega)]
  simp [be32]
  omega

theorem renew_none (old : Option Bytes) (hs : ∀ p, old = some p → Sound p) (size : Nat) (mem : Bool) :
    renew (some old) 0 size mem = .ret none := by
  unfold renew
  simp only [overruns_sound old hs, Bool.false_eq_true, if_false, if_true]

/-- with an old prompt that is sound the macro is undefined only for impossible sizes, and what it
makes is sound -/
theorem renew_cases (old : Option Bytes) (hs : ∀ p, old = some p → Sound p) (c : UInt8) (size : Nat)
    (mem : Bool) (hlt : size < 2 ^ 32) :
    (renew (some old) c size mem = .ub ∧ (size < 4 ∨ size = 2 ^ 32 - 1)) ∨
    (renew (some old) c size mem = .exit ∧ mem = false) ∨
    (c = 0 ∧ renew (some old) c size mem = .ret none) ∨
    (c ≠ 0 ∧ renew (some old) c size mem = .ret (some (be32 size ++ [c] ++ List.replicate (size - 4) 0)) ∧
      4 ≤ size ∧ size + 1 < 2 ^ 32) := by
  by_cases hc : c = 0
  · subst hc
    right; right; left
    exact ⟨rfl, renew_none old hs size mem⟩
  · cases mem with
    | false =>
      right; left
      refine ⟨?_, rfl⟩
      unfold renew
      simp only [overruns_sound old hs, Bool.false_eq_true, if_false, hc, Bool.not_false, if_true]
    | true =>
      by_cases hb : 4 ≤ size ∧ size + 1 < 2 ^ 32
      · right; right; right
        exact ⟨hc, renew_ok old hs c size hc hb.1 hb.2, hb⟩
      · have hno : size < 4 ∨ size = 2 ^ 32 - 1 := by omega
        left
        refine ⟨?_, hno⟩
        unfold renew
        simp only [overruns_sound old hs, Bool.false_eq_true, if_false, hc, Bool.not_true]
        have hl : (1 + size) % 2 ^ 32 < 5 := by
          rcases hno with h | h
          · rw [Nat.mod_eq_of_lt (by omega)]; omega
          · subst h; decide
        rw [storeAt, if_neg]
        rw [header_be32]
        simp only [be32, List.length_replicate, List.length_append, List.length_cons, List.length_nil]
        omega

theorem sound_be32 (n : Nat) (c : UInt8) (h : n + 1 < 2 ^ 32) (rest : Bytes) (hr : n ≤ 5 + rest.length) :
    Sound (be32 n ++ [c] ++ rest) := by
  refine ⟨n, ?_, ?_, ?_⟩
  · rw [List.append_assoc, bpSize_be32 _ _ (by omega)]
  · simp [be32]; omega
  · simp [be32]

end Pam.Pamc
