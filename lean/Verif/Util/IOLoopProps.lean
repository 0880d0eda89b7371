import Verif.Util.IOLoop
/-
Property theorems C30: complete transfers.
-/
namespace Pam.Util

/-- number of answers of the kernel that are not EINTR -/
def answers (sched : List Ev) : Nat := (sched.filter (fun e => decide (e ≠ .intr))).length

theorem readFully_spec : ∀ (sched : List Ev) (pre buf stream : List Char) (count : Nat), count ≤ buf.length →
    (readFully (pre ++ buf) pre.length stream count sched = .wait ∧ answers sched ≤ stream.length) ∨
    (Ev.err ∈ sched ∧ ∃ got rest, readFully (pre ++ buf) pre.length stream count sched =
        .ret (-1, pre ++ got ++ buf.drop got.length, rest) ∧ stream = got ++ rest ∧ got.length ≤ count) ∨
    readFully (pre ++ buf) pre.length stream count sched =
      .ret (((pre.length + (stream.take count).length : Nat) : Int),
        pre ++ stream.take count ++ buf.drop (stream.take count).length, stream.drop count) := by
  intro sched
  induction sched with
  | nil =>
    intro pre buf stream count hc
    rw [readFully]
    by_cases h0 : count = 0
    · right; right
      subst h0
      simp
    · left
      simp [h0, answers]
  | cons e es ih =>
    intro pre buf stream count hc
    rw [readFully]
    by_cases h0 : count = 0
    · right; right
      subst h0
      simp
    · rw [if_neg h0]
      cases e with
      | intr =>
        simp only [sysRead]
        rcases ih pre buf stream count hc with h | ⟨h1, h2⟩ | h
        · left; simpa [answers] using h
        · right; left; exact ⟨by simp [h1], h2⟩
        · right; right; exact h
      | err =>
        right; left
        simp only [sysRead]
        exact ⟨by simp, [], stream, by simp, rfl, by simp⟩
      | upto n =>
        simp only [sysRead]
        generalize hk : min count (n + 1) = k
        have hst : storeAt (pre ++ buf) pre.length (stream.take k) =
            some (pre ++ stream.take k ++ buf.drop (stream.take k).length) := by
          rw [storeAt, if_pos (by simp only [List.length_append, List.length_take]; omega)]
          rw [List.take_left' rfl]
          simp
        rw [hst]
        simp only
        by_cases hz : (stream.take k).length = 0
        · rw [if_pos hz]
          right; right
          have hs : stream = [] := by
            rw [List.length_take] at hz
            exact List.eq_nil_of_length_eq_zero (by omega)
          subst hs
          simp
        · rw [if_neg hz]
          have hkl : (stream.take k).length ≤ k := by rw [List.length_take]; omega
          have hpre : pre.length + (stream.take k).length = (pre ++ stream.take k).length := by simp
          have hmin : stream.take k = stream.take (stream.take k).length := by
            rw [List.length_take]
            rcases Nat.le_total k stream.length with h | h
            · rw [Nat.min_eq_left h]
            · rw [Nat.min_eq_right h, List.take_of_length_le h, List.take_of_length_le (Nat.le_refl _)]
          have hsplit : stream = stream.take k ++ stream.drop k := (List.take_append_drop k stream).symm
          have hc2 : count - (stream.take k).length ≤ (buf.drop (stream.take k).length).length := by
            rw [List.length_drop]; omega
          have htk : (stream.drop k).take (count - (stream.take k).length) = (stream.take count).drop k ∧
              (stream.drop k).drop (count - (stream.take k).length) = stream.drop count := by
            by_cases hl : k ≤ stream.length
            · have : (stream.take k).length = k := by rw [List.length_take]; omega
              rw [this]
              constructor
              · rw [List.drop_take]
              · rw [List.drop_drop, show k + (count - k) = count by omega]
            · have h1 : stream.drop k = [] := List.drop_eq_nil_of_le (by omega)
              rw [h1]
              constructor
              · simp; omega
              · simp; omega
          have hall : stream.take k ++ (stream.take count).drop k = stream.take count := by
            rw [show stream.take k = (stream.take count).take k by rw [List.take_take, Nat.min_eq_left (by omega)]]
            exact List.take_append_drop _ _
          rw [hpre]
          rcases ih (pre ++ stream.take k) (buf.drop (stream.take k).length) (stream.drop k)
            (count - (stream.take k).length) hc2 with ⟨h1, h2⟩ | ⟨h1, got, rest, h2, h3, h4⟩ | h
          · left
            refine ⟨h1, ?_⟩
            simp only [answers, List.length_drop, List.filter_cons] at h2 ⊢
            rw [if_pos (by simp), List.length_cons]
            rw [List.length_take] at hz
            omega
          · right; left
            refine ⟨by simp [h1], stream.take k ++ got, rest, ?_, ?_, ?_⟩
            · rw [h2]; simp
            · rw [List.append_assoc, ← h3, List.take_append_drop]
            · rw [List.length_append]; omega
          · right; right
            rw [h, htk.1, htk.2]
            have e1 : (pre ++ stream.take k).length + ((stream.take count).drop k).length =
                pre.length + (stream.take count).length := by
              have := congrArg List.length hall
              rw [List.length_append] at this
              rw [List.length_append]
              omega
            have e2 : ((buf.drop (stream.take k).length).drop ((stream.take count).drop k).length) =
                buf.drop (stream.take count).length := by
              rw [List.drop_drop, ← List.length_append, hall]
            rw [e1, e2, List.append_assoc pre, hall]

/-- C30 (read): for every stream, buffer and schedule of short reads and EINTR, once the kernel has
answered more reads than there are bytes the call has returned: the first `count` bytes (or all, if
the stream ends earlier) are at the start of the buffer, the rest of the buffer and of the stream
is untouched, and the value is their number. -/
theorem C30_read_complete (buf stream : List Char) (count : Nat) (sched : List Ev)
    (hbuf : count ≤ buf.length) (hok : Ev.err ∉ sched) :
    (modRead buf count stream sched = .wait ∧ answers sched ≤ stream.length) ∨
    modRead buf count stream sched =
      .ret ((min count stream.length : Nat), stream.take count ++ buf.drop (min count stream.length),
        stream.drop count) := by
  rw [modRead, if_neg (by omega), Int.toNat_natCast]
  rcases readFully_spec sched [] buf stream count hbuf with h | ⟨h, _⟩ | h
  · exact Or.inl h
  · exact absurd h hok
  · right
    simpa using h

/-- C30 (read, errors): whatever the kernel answers, the call writes inside the buffer; it returns
-1 only after a read error, and a negative count is refused. -/
theorem C30_read_error (buf stream : List Char) (count : Int) (sched : List Ev) (hbuf : count ≤ buf.length) :
    modRead buf count stream sched ≠ .ub ∧
    ∀ buf' rest, modRead buf count stream sched = .ret (-1, buf', rest) → count < 0 ∨ Ev.err ∈ sched := by
  rw [modRead]
  by_cases hc : count < 0
  · rw [if_pos hc]
    exact ⟨by simp, fun _ _ _ => Or.inl hc⟩
  · rw [if_neg hc]
    rcases readFully_spec sched [] buf stream count.toNat (by omega) with ⟨h, _⟩ | ⟨h, got, rest, h2, _⟩ | h
    · rw [List.nil_append, List.length_nil] at h
      rw [h]; exact ⟨by simp, fun _ _ h => by cases h⟩
    · rw [List.nil_append, List.length_nil] at h2
      rw [h2]; exact ⟨by simp, fun _ _ _ => Or.inr h⟩
    · rw [List.nil_append, List.length_nil] at h
      rw [h]
      refine ⟨by simp, fun _ _ h => ?_⟩
      injection h with h
      injection h with h _
      omega

theorem writeFully_spec : ∀ (sched : List Ev) (buf out : List Char) (offset count : Nat),
    offset + count ≤ buf.length →
    (writeFully buf offset out count sched = .wait ∧ answers sched < count) ∨
    (Ev.err ∈ sched ∧ ∃ k, k ≤ count ∧
      writeFully buf offset out count sched = .ret (-1, out ++ (buf.drop offset).take k)) ∨
    writeFully buf offset out count sched =
      .ret (((offset + count : Nat) : Int), out ++ (buf.drop offset).take count) := by
  intro sched
  induction sched with
  | nil =>
    intro buf out offset count hc
    rw [writeFully]
    by_cases h0 : count = 0
    · right; right; subst h0; simp
    · left; simp [h0, answers]; omega
  | cons e es ih =>
    intro buf out offset count hc
    rw [writeFully]
    by_cases h0 : count = 0
    · right; right; subst h0; simp
    · rw [if_neg h0, if_neg (by omega)]
      cases e with
      | intr =>
        simp only [sysWrite]
        rcases ih buf out offset count hc with h | ⟨h1, h2⟩ | h
        · left; simpa [answers] using h
        · right; left; exact ⟨by simp [h1], h2⟩
        · right; right; exact h
      | err =>
        right; left
        simp only [sysWrite]
        exact ⟨by simp, 0, by omega, by simp⟩
      | upto n =>
        simp only [sysWrite]
        generalize hd : buf.drop offset = d
        have hdl : count ≤ d.length := by rw [← hd, List.length_drop]; omega
        have hk : ((d.take count).take (n + 1)).length = min (n + 1) count := by
          simp only [List.length_take]; omega
        rw [if_neg (by omega), hk]
        have ht : (d.take count).take (n + 1) = d.take (min (n + 1) count) := by rw [List.take_take]
        rw [ht]
        generalize hm : min (n + 1) count = m
        have hdd : buf.drop (offset + m) = d.drop m := by rw [← hd, List.drop_drop]
        have happ : ∀ k, d.take m ++ (d.drop m).take k = d.take (m + k) := fun k => by
          rw [List.take_add]
        rcases ih buf (out ++ d.take m) (offset + m) (count - m) (by omega) with ⟨h1, h2⟩ | ⟨h1, k, hk, h2⟩ | h
        · left
          refine ⟨h1, ?_⟩
          simp only [answers, List.filter_cons] at h2 ⊢
          rw [if_pos (by simp), List.length_cons]
          omega
        · right; left
          refine ⟨by simp [h1], m + k, by omega, ?_⟩
          rw [h2, hdd, List.append_assoc, happ]
        · right; right
          rw [h, hdd, List.append_assoc, happ, show offset + m + (count - m) = offset + count by omega,
            show m + (count - m) = count by omega]

/-- C30 (write): for every schedule of short writes and EINTR, the call has returned once the kernel has
answered `count` writes; then exactly the first `count` bytes of the buffer have been written, in
order and once. -/
theorem C30_write_complete (buf : List Char) (count : Nat) (sched : List Ev)
    (hbuf : count ≤ buf.length) (hok : Ev.err ∉ sched) :
    (modWrite buf count sched = .wait ∧ answers sched < count) ∨
    modWrite buf count sched = .ret ((count : Int), buf.take count) := by
  rw [modWrite, if_neg (by omega), Int.toNat_natCast]
  rcases writeFully_spec sched buf [] 0 count (by omega) with h | ⟨h, _⟩ | h
  · exact Or.inl h
  · exact absurd h hok
  · right; simpa using h

/-- C30 (write, errors): the call reads inside the buffer; -1 means a negative count or a failed
write, and what was written before is a prefix of the buffer. -/
theorem C30_write_error (buf : List Char) (count : Int) (sched : List Ev) (hbuf : count ≤ buf.length) :
    modWrite buf count sched ≠ .ub ∧
    ∀ out, modWrite buf count sched = .ret (-1, out) → (count < 0 ∨ Ev.err ∈ sched) ∧ out <+: buf := by
  rw [modWrite]
  by_cases hc : count < 0
  · rw [if_pos hc]
    refine ⟨by simp, fun out h => ⟨Or.inl hc, ?_⟩⟩
    injection h with h
    injection h with _ h
    rw [← h]; exact List.nil_prefix
  · rw [if_neg hc]
    rcases writeFully_spec sched buf [] 0 count.toNat (by omega) with ⟨h, _⟩ | ⟨h, k, _, h2⟩ | h
    · rw [h]; exact ⟨by simp, fun _ h => by cases h⟩
    · rw [h2]
      refine ⟨by simp, fun out h3 => ⟨Or.inr h, ?_⟩⟩
      injection h3 with h3
      injection h3 with _ h3
      rw [← h3]
      simpa using List.take_prefix k buf
    · rw [h]
      refine ⟨by simp, fun _ h => ?_⟩
      injection h with h
      injection h with h _
      omega

example : modRead "........".toList 5 "abcdefg".toList [.upto 1, .intr, .upto 0, .upto 9] =
      .ret (5, "abcde...".toList, "fg".toList) ∧
    modRead "........".toList 5 "abc".toList [.upto 1, .intr, .upto 0, .upto 9] =
      .ret (3, "abc.....".toList, []) ∧
    modWrite "abcdef".toList 5 [.upto 1, .intr, .upto 0, .upto 9] = .ret (5, "abcde".toList) ∧
    modWrite "abcdef".toList 5 [.upto 1, .err] = .ret (-1, "ab".toList) := by
  decide

end Pam.Util
