import Verif.Digest.Md5
import Verif.Digest.Md5Spec
import Verif.Digest.Sha1Block
/-
`MD5Transform` is the compression function of the specification.
-/
namespace Pam.Digest.Md5
open Pam.Digest Spec

theorem F1_eq (x y z : Word) : F1 x y z = (x &&& y) ||| (~~~x &&& z) := by
  unfold F1
  ext i hi
  simp only [BitVec.getElem_or, BitVec.getElem_and, BitVec.getElem_xor, BitVec.getElem_not]
  cases x[i] <;> cases y[i] <;> cases z[i] <;> rfl

theorem F2_eq (x y z : Word) : F2 x y z = (x &&& z) ||| (y &&& ~~~z) := by
  unfold F2 F1
  ext i hi
  simp only [BitVec.getElem_or, BitVec.getElem_and, BitVec.getElem_xor, BitVec.getElem_not]
  cases x[i] <;> cases y[i] <;> cases z[i] <;> rfl

theorem word_eq (block : List Byte) (i : Nat) : word block i = Md5.X block i := by
  unfold word Md5.X
  have : ∀ a b c d : Byte, le32 a b c d = be32 d c b a := fun _ _ _ _ => rfl
  rw [this, Sha1.be32_eq]
  congr 1
  simp only [Nat.add_zero]
  omega

theorem rot_eq (w : Word) (s : Nat) (h : s < 32) : w <<< s ||| w >>> (32 - s) = w.rotateLeft s := Sha1.RL_eq w s h

/-- the registers -/
def toState (s : Buf) : Md5.State := (s.a, s.b, s.c, s.d)

/-- what operation `t` needs -/
def Good (f : Word → Word → Word → Word) (t : Nat) (p : Nat × Word × Nat) : Prop :=
  (∀ x y z, f x y z = Md5.f t x y z) ∧ p.1 = Md5.index t ∧ p.2.1 = Md5.T.getD t 0 ∧ p.2.2 = Md5.shift t ∧ p.2.2 < 32

theorem step_eq {f : Word → Word → Word → Word} {t : Nat} {p : Nat × Word × Nat} (h : Good f t p) (block : List Byte) (w x y z : Word) :
    step f w x y z (word block p.1 + p.2.1) p.2.2 =
      x + (w + Md5.f t x y z + Md5.X block (Md5.index t) + Md5.T.getD t 0).rotateLeft (Md5.shift t) := by
  obtain ⟨h1, h2, h3, h4, h5⟩ := h
  unfold step
  dsimp only
  rw [rot_eq _ _ h5, h1, word_eq, h2, h3, h4, BitVec.add_comm _ x]
  congr 2
  simp only [BitVec.add_assoc]

theorem quad_eq {block : List Byte} {s0 : Md5.State} {t : Nat} {s : Buf} (hs : toState s = Md5.operations block s0 t) (f : Word → Word → Word → Word)
    (p0 p1 p2 p3 : Nat × Word × Nat) (h0 : Good f t p0) (h1 : Good f (t + 1) p1) (h2 : Good f (t + 2) p2) (h3 : Good f (t + 3) p3) :
    toState (quad f block s p0 p1 p2 p3) = Md5.operations block s0 (t + 4) := by
  have e1 : Md5.operations block s0 (t + 1) = (s.d, step f s.a s.b s.c s.d (word block p0.1 + p0.2.1) p0.2.2, s.b, s.c) := by
    unfold Md5.operations
    rw [← hs, step_eq h0]
    rfl
  unfold toState quad
  dsimp only
  generalize step f s.a s.b s.c s.d (word block p0.1 + p0.2.1) p0.2.2 = a at *
  have e2 : Md5.operations block s0 (t + 2) = (s.c, step f s.d a s.b s.c (word block p1.1 + p1.2.1) p1.2.2, a, s.b) := by
    unfold Md5.operations
    rw [e1, step_eq h1]
  generalize step f s.d a s.b s.c (word block p1.1 + p1.2.1) p1.2.2 = d at *
  have e3 : Md5.operations block s0 (t + 3) = (s.b, step f s.c d a s.b (word block p2.1 + p2.2.1) p2.2.2, d, a) := by
    unfold Md5.operations
    rw [e2, step_eq h2]
  generalize step f s.c d a s.b (word block p2.1 + p2.2.1) p2.2.2 = c at *
  have e4 : Md5.operations block s0 (t + 4) = (a, step f s.b c d a (word block p3.1 + p3.2.1) p3.2.2, c, d) := by
    unfold Md5.operations
    rw [e3, step_eq h3]
  rw [e4]

theorem good1 {t : Nat} {p : Nat × Word × Nat} (ht : t < 16) (h : p = (Md5.index t, Md5.T.getD t 0, Md5.shift t) ∧ Md5.shift t < 32) : Good F1 t p := by
  obtain ⟨rfl, h⟩ := h
  exact ⟨fun x y z => by rw [F1_eq]; unfold Md5.f; rw [if_pos ht], rfl, rfl, rfl, h⟩

theorem good2 {t : Nat} {p : Nat × Word × Nat} (hl : 16 ≤ t) (ht : t < 32) (h : p = (Md5.index t, Md5.T.getD t 0, Md5.shift t) ∧ Md5.shift t < 32) : Good F2 t p := by
  obtain ⟨rfl, h⟩ := h
  exact ⟨fun x y z => by rw [F2_eq]; unfold Md5.f; rw [if_neg (by omega), if_pos ht], rfl, rfl, rfl, h⟩

theorem good3 {t : Nat} {p : Nat × Word × Nat} (hl : 32 ≤ t) (ht : t < 48) (h : p = (Md5.index t, Md5.T.getD t 0, Md5.shift t) ∧ Md5.shift t < 32) : Good F3 t p := by
  obtain ⟨rfl, h⟩ := h
  exact ⟨fun x y z => by unfold Md5.f F3; rw [if_neg (by omega), if_neg (by omega), if_pos ht], rfl, rfl, rfl, h⟩

theorem good4 {t : Nat} {p : Nat × Word × Nat} (hl : 48 ≤ t) (h : p = (Md5.index t, Md5.T.getD t 0, Md5.shift t) ∧ Md5.shift t < 32) : Good F4 t p := by
  obtain ⟨rfl, h⟩ := h
  exact ⟨fun x y z => by unfold Md5.f F4; rw [if_neg (by omega), if_neg (by omega), if_neg (by omega)], rfl, rfl, rfl, h⟩

theorem steps_eq (block : List Byte) (s : Buf) : toState (steps block s) = Md5.operations block (toState s) 64 := by
  have h0 : toState s = Md5.operations block (toState s) 0 := rfl
  unfold steps
  dsimp only
  iterate 4
    refine quad_eq ?_ F4 _ _ _ _ (good4 (by decide) (by decide +kernel)) (good4 (by decide) (by decide +kernel)) (good4 (by decide) (by decide +kernel)) (good4 (by decide) (by decide +kernel))
  iterate 4
    refine quad_eq ?_ F3 _ _ _ _ (good3 (by decide) (by decide) (by decide +kernel)) (good3 (by decide) (by decide) (by decide +kernel))
      (good3 (by decide) (by decide) (by decide +kernel)) (good3 (by decide) (by decide) (by decide +kernel))
  iterate 4
    refine quad_eq ?_ F2 _ _ _ _ (good2 (by decide) (by decide) (by decide +kernel)) (good2 (by decide) (by decide) (by decide +kernel))
      (good2 (by decide) (by decide) (by decide +kernel)) (good2 (by decide) (by decide) (by decide +kernel))
  iterate 4
    refine quad_eq ?_ F1 _ _ _ _ (good1 (by decide) (by decide +kernel)) (good1 (by decide) (by decide +kernel)) (good1 (by decide) (by decide +kernel)) (good1 (by decide) (by decide +kernel))
  exact h0

theorem transform_eq (s : Buf) (block : List Byte) : toState (transform s block) = Md5.compress (toState s) block := by
  unfold Md5.compress
  rw [← steps_eq]
  rfl

end Pam.Digest.Md5
