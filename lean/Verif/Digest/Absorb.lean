import Verif.Digest.Sha1Spec
/-
Taking in a message block by block.
-/
namespace Pam.Digest
open Spec

theorem absorb_short {S : Type} (c : S → List Byte → S) (s : S) {m : List Byte} (h : m.length < 64) : absorb c s m = s := by
  rw [absorb, if_pos h]

theorem absorb_block {S : Type} (c : S → List Byte → S) (s : S) {b m : List Byte} (h : b.length = 64) : absorb c s (b ++ m) = absorb c (c s b) m := by
  rw [absorb, if_neg (by rw [List.length_append]; omega), List.take_append_of_le_length (by omega), List.drop_append_of_le_length (by omega),
    List.take_of_length_le (by omega), List.drop_of_length_le (by omega), List.nil_append]

theorem absorb_append {S : Type} (c : S → List Byte → S) : ∀ (n : Nat) (s : S) (a b : List Byte), a.length = 64 * n → absorb c s (a ++ b) = absorb c (absorb c s a) b
  | 0, s, a, b, h => by
    have : a = [] := List.eq_nil_of_length_eq_zero (by omega)
    subst this
    rw [absorb_short c s (m := []) (by decide)]
    rfl
  | n + 1, s, a, b, h => by
    have ha : a = a.take 64 ++ a.drop 64 := (List.take_append_drop 64 a).symm
    have hl : (a.take 64).length = 64 := by rw [List.length_take]; omega
    rw [ha, List.append_assoc, absorb_block c s hl, absorb_block c s hl, absorb_append c n _ (a.drop 64) b (by rw [List.length_drop]; omega)]

/-- the bytes of the message that do not fill a block -/
def tail (m : List Byte) : List Byte := m.drop (64 * (m.length / 64))

theorem tail_length (m : List Byte) : (tail m).length = m.length % 64 := by
  unfold tail; rw [List.length_drop]; omega

theorem tail_append {S : Type} (c : S → List Byte → S) (s : S) (m x : List Byte) : absorb c s (m ++ x) = absorb c (absorb c s m) (tail m ++ x) := by
  have hm : m = m.take (64 * (m.length / 64)) ++ tail m := (List.take_append_drop _ m).symm
  have hl : (m.take (64 * (m.length / 64))).length = 64 * (m.length / 64) := by rw [List.length_take]; omega
  have h1 : absorb c s m = absorb c s (m.take (64 * (m.length / 64))) := by
    conv => lhs; rw [hm]
    rw [absorb_append c _ s _ _ hl, absorb_short c _ (by rw [tail_length]; omega)]
  rw [h1]
  conv => lhs; rw [hm, List.append_assoc]
  rw [absorb_append c _ s _ _ hl]

theorem tail_of_append (m x : List Byte) (h : (tail m ++ x).length < 64) : tail (m ++ x) = tail m ++ x := by
  have hl := tail_length m
  rw [List.length_append, hl] at h
  unfold tail
  have : (m ++ x).length / 64 = m.length / 64 := by rw [List.length_append]; omega
  rw [this, List.drop_append_of_le_length (by omega)]

theorem tail_of_full (m x : List Byte) (h : (tail m ++ x).length = 64) : tail (m ++ x) = [] := by
  have hl := tail_length m
  rw [List.length_append, hl] at h
  apply List.eq_nil_of_length_eq_zero
  rw [tail_length, List.length_append]
  omega

end Pam.Digest
