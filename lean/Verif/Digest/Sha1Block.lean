import Verif.Digest.Sha1
import Verif.Digest.Absorb
/-
`sha1_process` is the compression function of the specification.
-/
namespace Pam.Digest.Sha1
open Pam.Digest Spec

theorem RL_eq (x : Word) (s : Nat) (h : s < 32) : RL x s = x.rotateLeft s := by
  unfold RL BitVec.rotateLeft BitVec.rotateLeftAux
  rw [Nat.mod_eq_of_lt h]

theorem F_eq (x y z : Word) : F x y z = (x &&& y) ^^^ (~~~x &&& z) := by
  unfold F
  ext i hi
  simp only [BitVec.getElem_or, BitVec.getElem_and, BitVec.getElem_xor, BitVec.getElem_not]
  cases x[i] <;> cases y[i] <;> cases z[i] <;> rfl

theorem H_eq (x y z : Word) : H x y z = (x &&& y) ^^^ (x &&& z) ^^^ (y &&& z) := by
  unfold H
  ext i hi
  simp only [BitVec.getElem_or, BitVec.getElem_and, BitVec.getElem_xor]
  cases x[i] <;> cases y[i] <;> cases z[i] <;> rfl

theorem be32_toNat (a b c d : Byte) : (be32 a b c d).toNat = a.toNat * 256 ^ 3 + b.toNat * 256 ^ 2 + c.toNat * 256 + d.toNat := by
  unfold be32
  have key : ∀ {w : Nat} (x : BitVec w) (y : Byte), (x ++ y).toNat = x.toNat * 256 + y.toNat := by
    intro w x y
    rw [BitVec.toNat_append, ← Nat.shiftLeft_add_eq_or_of_lt y.isLt, Nat.shiftLeft_eq]
  rw [key, key, key]
  omega

theorem be32_eq (a b c d : Byte) : be32 a b c d = BitVec.ofNat 32 (a.toNat * 256 ^ 3 + b.toNat * 256 ^ 2 + c.toNat * 256 + d.toNat) := by
  rw [← be32_toNat, BitVec.ofNat_toNat, BitVec.setWidth_eq]

theorem beWords_get : ∀ (bs : List Byte) (t : Nat), 4 * t + 4 ≤ bs.length → (beWords bs).getD t 0 = Sha1.word bs t
  | a :: b :: c :: d :: r, 0, _ => be32_eq a b c d
  | a :: b :: c :: d :: r, t + 1, h => by
    have ih := beWords_get r t (by simp only [List.length_cons] at h; omega)
    unfold beWords
    rw [List.getD_cons_succ, ih]
    unfold Sha1.word
    have : ∀ i, (a :: b :: c :: d :: r).getD (4 * (t + 1) + i) 0 = r.getD (4 * t + i) 0 := by
      intro i
      rw [show 4 * (t + 1) + i = (4 * t + i) + 1 + 1 + 1 + 1 by omega]
      simp only [List.getD_cons_succ]
    simp only [this]
  | [], t, h => by simp at h
  | [_], t, h => by simp at h
  | [_, _], t, h => by simp at h
  | [_, _, _], t, h => by simp at h

theorem beWords_length : ∀ (n : Nat) (bs : List Byte), bs.length = 4 * n → (beWords bs).length = n
  | 0, bs, h => by
    have : bs = [] := List.eq_nil_of_length_eq_zero (by omega)
    subst this; rfl
  | n + 1, a :: b :: c :: d :: r, h => by
    unfold beWords
    rw [List.length_cons, beWords_length n r (by simp only [List.length_cons] at h; omega)]
  | n + 1, [], h => by simp at h
  | n + 1, [_], h => by simp at h; omega
  | n + 1, [_, _], h => by simp at h; omega
  | n + 1, [_, _, _], h => by simp at h; omega

/-- the words computed so far -/
def Sched (block : List Byte) (n : Nat) (data : List Word) : Prop := data.length = n ∧ ∀ i < n, get data i = Sha1.W block i

theorem sched_step {block : List Byte} {n : Nat} {data : List Word} (h : Sched block n data) (hn : 16 ≤ n) :
    Sched block (n + 1) (data ++ [RL (get data (n - 3) ^^^ get data (n - 8) ^^^ get data (n - 14) ^^^ get data (n - 16)) 1]) := by
  refine ⟨by rw [List.length_append, h.1]; rfl, fun i hi => ?_⟩
  unfold get
  by_cases hin : i < n
  · rw [List.getD_eq_getElem?_getD, List.getElem?_append_left (by rw [h.1]; exact hin), ← List.getD_eq_getElem?_getD]
    exact h.2 i hin
  · have : i = n := by omega
    subst this
    rw [List.getD_eq_getElem?_getD, List.getElem?_append_right (by rw [h.1]; exact Nat.le_refl _), h.1, Nat.sub_self]
    show RL _ 1 = _
    rw [Sha1.W, if_neg (by omega), RL_eq _ _ (by decide)]
    have e := h.2
    unfold get at e
    rw [e _ (by omega), e _ (by omega), e _ (by omega), e _ (by omega)]

theorem schedule_eq {block : List Byte} (hb : block.length = 64) : ∀ i < 80, get (schedule block) i = Sha1.W block i := by
  have key : ∀ (k n : Nat) (data : List Word), Sched block n data → 16 ≤ n →
      Sched block (n + k) ((List.range' n k).foldl (fun data i => data ++ [RL (get data (i - 3) ^^^ get data (i - 8) ^^^ get data (i - 14) ^^^ get data (i - 16)) 1]) data) := by
    intro k
    induction k with
    | zero => intro n data h _; exact h
    | succ k ih =>
      intro n data h hn
      rw [List.range'_succ, List.foldl_cons, show n + (k + 1) = (n + 1) + k by omega]
      exact ih (n + 1) _ (sched_step h hn) (by omega)
  refine (key 64 16 (beWords block) ⟨beWords_length 16 block hb, fun i hi => ?_⟩ (by decide)).2
  rw [Sha1.W, if_pos hi]
  exact beWords_get block i (by omega)

/-- the working variables -/
def toHash (s : Sum) : Sha1.Hash := (s.a, s.b, s.c, s.d, s.e)

theorem round_eq {block : List Byte} {h : Sha1.Hash} {t : Nat} {s : Sum} (hs : toHash s = Sha1.rounds block h t) (f : Word → Word → Word → Word) (n i : Word)
    (hf : ∀ x y z, f x y z = Sha1.f t x y z) (hn : n = Sha1.K t) (hi : i = Sha1.W block t) : toHash (round f n s i) = Sha1.rounds block h (t + 1) := by
  unfold Sha1.rounds
  rw [← hs]
  unfold toHash round
  dsimp only
  rw [hf, hn, hi, RL_eq _ _ (by decide), RL_eq _ _ (by decide), BitVec.add_assoc _ (Sha1.W block t), BitVec.add_comm (Sha1.W block t), ← BitVec.add_assoc]

theorem twenty_eq {block : List Byte} {h : Sha1.Hash} {data : List Word} (f : Word → Word → Word → Word) (n : Word) (hd : ∀ i < 80, get data i = Sha1.W block i) :
    ∀ (k lo : Nat) (s : Sum), lo + k ≤ 80 → (∀ t, lo ≤ t → t < lo + k → (∀ x y z, f x y z = Sha1.f t x y z) ∧ n = Sha1.K t) →
      toHash s = Sha1.rounds block h lo → toHash ((List.range' lo k).foldl (fun s i => round f n s (get data i)) s) = Sha1.rounds block h (lo + k)
  | 0, lo, s, _, _, hs => hs
  | k + 1, lo, s, hk, ht, hs => by
    rw [List.range'_succ, List.foldl_cons, show lo + (k + 1) = (lo + 1) + k by omega]
    refine twenty_eq f n hd k (lo + 1) _ (by omega) (fun t h1 h2 => ht t (by omega) (by omega)) ?_
    exact round_eq hs f n _ (ht lo (Nat.le_refl _) (by omega)).1 (ht lo (Nat.le_refl _) (by omega)).2 (hd lo (by omega))

theorem process_eq (s : Sum) {block : List Byte} (hb : block.length = 64) : toHash (process s block) = Sha1.compress (toHash s) block := by
  have hd := schedule_eq hb
  have h0 : toHash s = Sha1.rounds block (toHash s) 0 := rfl
  have h1 := twenty_eq F 0x5a827999 hd 20 0 s (by decide) (by
    intro t _ h
    refine ⟨fun x y z => ?_, ?_⟩
    · rw [F_eq]; unfold Sha1.f; rw [if_pos (by omega)]
    · unfold Sha1.K; rw [if_pos (by omega)]) h0
  have h2 := twenty_eq G 0x6ed9eba1 hd 20 20 _ (by decide) (by
    intro t h h'
    refine ⟨fun x y z => ?_, ?_⟩
    · unfold Sha1.f G; rw [if_neg (by omega), if_pos (by omega)]
    · unfold Sha1.K; rw [if_neg (by omega), if_pos (by omega)]) h1
  have h3 := twenty_eq H 0x8f1bbcdc hd 20 40 _ (by decide) (by
    intro t h h'
    refine ⟨fun x y z => ?_, ?_⟩
    · rw [H_eq]; unfold Sha1.f; rw [if_neg (by omega), if_neg (by omega), if_pos (by omega)]
    · unfold Sha1.K; rw [if_neg (by omega), if_neg (by omega), if_pos (by omega)]) h2
  have h4 := twenty_eq G 0xca62c1d6 hd 20 60 _ (by decide) (by
    intro t h h'
    refine ⟨fun x y z => ?_, ?_⟩
    · unfold Sha1.f G; rw [if_neg (by omega), if_neg (by omega), if_neg (by omega)]
    · unfold Sha1.K; rw [if_neg (by omega), if_neg (by omega), if_neg (by omega)]) h3
  unfold Sha1.compress
  rw [← h4]
  rfl

end Pam.Digest.Sha1
