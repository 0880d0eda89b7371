import Verif.Util.InlineLemmas
/-
Property theorems C28 (constant-time comparison) and C29 (passwords from a pipe).  Vocabulary:
InlineSpec.lean.
-/
namespace Pam.Util
open Spec

/-- C28: for all strings, whatever memory follows them, pam_consttime_streq reads only inside the
two strings, returns true exactly if they are equal, and makes as many iterations as the user's
string has bytes (with its NUL), whatever the secret is. -/
theorem C28_consttime_streq (u s um sm : List Char) (hu : InMemory u um) (hs : InMemory s sm) :
    consttimeStreq um sm = some (decide (u = s), u.length + 1) := by
  obtain ⟨h1, x, rfl⟩ := hu
  obtain ⟨h2, y, rfl⟩ := hs
  rw [consttimeStreq, streqLoop_spec id (fun _ => Iff.rfl) x y u s 0 0 h1 h2]
  simp

/-- C28: the same for the case-insensitive comparison -/
theorem C28_consttime_strcaseeq (u s um sm : List Char) (hu : InMemory u um) (hs : InMemory s sm) :
    consttimeStrcaseeq um sm = some (decide (u.map lower = s.map lower), u.length + 1) := by
  obtain ⟨h1, x, rfl⟩ := hu
  obtain ⟨h2, y, rfl⟩ := hs
  rw [consttimeStrcaseeq, streqLoop_spec lower lower_nul x y u s 0 0 h1 h2]
  simp

example : InMemory "secret".toList "secret\x00junk".toList ∧
    consttimeStreq "secret\x00junk".toList "secret\x00".toList = some (true, 7) ∧
    consttimeStreq "sec\x00".toList "secret\x00".toList = some (false, 4) ∧
    consttimeStrcaseeq "SeCreT\x00junk".toList "secret\x00".toList = some (true, 7) :=
  ⟨⟨by decide, "junk".toList, by decide⟩, by decide, by decide, by decide⟩

/-- C29: for every stream, every schedule of short reads, EINTR and errors, and every number of
passwords up to the number of 513-byte buffers given: the call stays inside the buffers; if it
returns, its value is the number of passwords in the bytes it consumed (at most `n`, up to the
first that is longer than 512), slot `j` then holds the `j`-th password, and no other byte of the
stream is left in any slot. -/
theorem C29_passwords (old : List (List Char)) (n : Nat) (hsize : ∀ o ∈ old, o.length = 513)
    (hn : n ≤ old.length) (stream : List Char) (sched : List Ev) :
    readPasswords old n stream sched = .wait ∨
    ∃ got rest k slots, readPasswords old n stream sched = .ret ((k, slots), rest) ∧
      stream = got ++ rest ∧ k = (received 512 n got).length ∧ slots.length = old.length ∧
      ∀ (j : Nat) (o : List Char), old[j]? = some o → ∃ b, slots[j]? = some b ∧
        (∀ p, (received 512 n got)[j]? = some p → Holds o p b) ∧
        ((received 512 n got).length ≤ j → OnlyWiped o b) := by
  rcases readLoop_spec hsize hn sched ⟨old, 0, 0, n⟩ [] stream (start_inv hsize hn) with h | ⟨got, rest, r, h1, h2, h3, _⟩
  · exact Or.inl h.1
  · exact Or.inr ⟨got, rest, r.1, r.2, h1, h2, h3.1, h3.2.1, h3.2.2⟩

/-- C29 (chunking does not matter): unless a read fails, the number and contents of the passwords are
those of the whole stream, however the stream is split and however often reads are interrupted.
The call returns as soon as the kernel has answered more reads than the stream has bytes. -/
theorem C29_independent_of_chunking (old : List (List Char)) (n : Nat) (hsize : ∀ o ∈ old, o.length = 513)
    (hn : n ≤ old.length) (stream : List Char) (sched : List Ev) (hok : Ev.err ∉ sched) :
    (readPasswords old n stream sched = .wait ∧
      (sched.filter (fun e => decide (e ≠ .intr))).length ≤ stream.length) ∨
    ∃ slots rest, readPasswords old n stream sched = .ret (((received 512 n stream).length, slots), rest) ∧
      ∀ (j : Nat) (p o : List Char), (received 512 n stream)[j]? = some p → old[j]? = some o →
        ∃ b, slots[j]? = some b ∧ Holds o p b := by
  rcases readLoop_spec hsize hn sched ⟨old, 0, 0, n⟩ [] stream (start_inv hsize hn) with h | ⟨got, rest, r, h1, h2, h3, h4⟩
  · exact Or.inl h
  · right
    have h5 := h4 hok
    rw [List.nil_append, List.nil_append] at h5
    have h6 := h3.1
    have h7 := h3.2.2
    rw [List.nil_append, h5] at h6 h7
    refine ⟨r.2, rest, ?_, ?_⟩
    · have h1' := h1
      rw [← h6]; exact h1'
    · intro j p o hj ho
      obtain ⟨b, hb, hc, _⟩ := h7 j o ho
      exact ⟨b, hb, hc p hj⟩

/-- the value returned and the first five bytes of each slot -/
private def view : Out ((Nat × List (List Char)) × List Char) → Option (Nat × List (List Char))
  | .ret ((k, s), _) => some (k, s.map (·.take 5))
  | _ => none

/-- the hypotheses are met, and two ways of splitting the same stream give the same passwords -/
example :
    let old := [List.replicate 513 'x', List.replicate 513 'y']
    (∀ o ∈ old, o.length = 513) ∧
    received 512 2 "old\x00new\x00".toList = ["old".toList, "new".toList] ∧
    view (readPasswords old 2 "old\x00new\x00".toList [.upto 100]) =
      some (2, ["old\x00\x00".toList, "new\x00y".toList]) ∧
    view (readPasswords old 2 "old\x00new\x00".toList [.upto 1, .intr, .upto 0, .upto 2, .upto 5]) =
      some (2, ["old\x00\x00".toList, "new\x00y".toList]) := by
  decide +kernel

end Pam.Util
