import Verif.Namespace.Lists
/-
C193: the lists of pam_namespace are freed once.
-/
namespace Pam.Namespace.Lists
open Pam

namespace Spec

/-- every list that was made is freed, once, or the handle has it; and nothing else is freed or in the handle -/
def Once (s : Own) : Prop :=
  ∀ n, (s.freed ++ (s.poly.getD none).toList ++ (s.prot.getD none).toList).count n = if n < s.next then 1 else 0

end Spec

/-- as in the specification, and `loc` are lists that only the functions know -/
def Inv (loc : List Nat) (s : Own) : Prop :=
  ∀ n, loc.count n + (s.poly.getD none).toList.count n + (s.prot.getD none).toList.count n + s.freed.count n = if n < s.next then 1 else 0

theorem inv_iff (s : Own) : Inv [] s ↔ Spec.Once s := by
  unfold Inv Spec.Once
  constructor
  · intro h n
    have := h n
    rw [← this, List.count_append, List.count_append, List.count_nil]
    omega
  · intro h n
    have := h n
    rw [← this, List.count_append, List.count_append, List.count_nil]
    omega

theorem free_inv {l : Option Nat} {loc : List Nat} {s : Own} (h : Inv (l.toList ++ loc) s) : Inv loc (s.free l) := by
  intro n
  have := h n
  rw [List.count_append] at this
  show loc.count n + (s.poly.getD none).toList.count n + (s.prot.getD none).toList.count n + (l.toList ++ s.freed).count n = if n < s.next then 1 else 0
  rw [← this, List.count_append]
  omega

theorem make_inv {b : Bool} {loc : List Nat} {s : Own} (h : Inv loc s) : Inv ((make b s).1.toList ++ loc) (make b s).2 := by
  unfold make
  cases b with
  | false => exact h
  | true =>
    rw [if_pos rfl]
    intro n
    have := h n
    show ([s.next] ++ loc).count n + (s.poly.getD none).toList.count n + (s.prot.getD none).toList.count n + s.freed.count n = if n < s.next + 1 then 1 else 0
    rw [List.count_append, List.count_singleton]
    by_cases e : s.next = n
    · subst e
      rw [if_neg (by omega)] at this
      rw [if_pos (by simp), if_pos (by omega)]
      omega
    · rw [if_neg (by simpa using e)]
      by_cases hl : n < s.next
      · rw [if_pos hl] at this
        rw [if_pos (by omega)]
        omega
      · rw [if_neg hl] at this
        rw [if_neg (by omega)]
        omega

theorem setPoly_inv {mem : Bool} {v : Option Nat} {loc : List Nat} {s : Own} (h : Inv (v.toList ++ loc) s) :
    ((setPoly mem v s).1 = true ∧ Inv loc (setPoly mem v s).2) ∨ ((setPoly mem v s).1 = false ∧ (setPoly mem v s).2 = s) := by
  unfold setPoly
  cases hp : s.poly with
  | some old =>
    left
    refine ⟨rfl, fun n => ?_⟩
    have := h n
    rw [List.count_append, hp] at this
    dsimp only [Option.getD_some] at this
    show loc.count n + v.toList.count n + (s.prot.getD none).toList.count n + (old.toList ++ s.freed).count n = if n < s.next then 1 else 0
    rw [← this, List.count_append]
    omega
  | none =>
    dsimp only
    cases mem with
    | false => exact Or.inr ⟨rfl, rfl⟩
    | true =>
      left
      refine ⟨rfl, fun n => ?_⟩
      have := h n
      rw [List.count_append, hp] at this
      dsimp only [Option.getD_none, Option.toList_none] at this
      rw [List.count_nil] at this
      show loc.count n + v.toList.count n + (s.prot.getD none).toList.count n + s.freed.count n = if n < s.next then 1 else 0
      rw [← this]
      omega

theorem setProt_inv {mem : Bool} {v : Option Nat} {loc : List Nat} {s : Own} (h : Inv (v.toList ++ loc) s) :
    ((setProt mem v s).1 = true ∧ Inv loc (setProt mem v s).2) ∨ ((setProt mem v s).1 = false ∧ (setProt mem v s).2 = s) := by
  unfold setProt
  cases hp : s.prot with
  | some old =>
    left
    refine ⟨rfl, fun n => ?_⟩
    have := h n
    rw [List.count_append, hp] at this
    dsimp only [Option.getD_some] at this
    show loc.count n + (s.poly.getD none).toList.count n + v.toList.count n + (old.toList ++ s.freed).count n = if n < s.next then 1 else 0
    rw [← this, List.count_append]
    omega
  | none =>
    dsimp only
    cases mem with
    | false => exact Or.inr ⟨rfl, rfl⟩
    | true =>
      left
      refine ⟨rfl, fun n => ?_⟩
      have := h n
      rw [List.count_append, hp] at this
      dsimp only [Option.getD_none, Option.toList_none] at this
      rw [List.count_nil] at this
      show loc.count n + (s.poly.getD none).toList.count n + v.toList.count n + s.freed.count n = if n < s.next then 1 else 0
      rw [← this]
      omega

theorem setProt_none {mem : Bool} {loc : List Nat} {s : Own} (h : Inv loc s) : Inv loc (setProt mem none s).2 := by
  rcases setProt_inv (mem := mem) (v := none) (loc := loc) (s := s) h with ⟨-, h1⟩ | ⟨-, h1⟩
  · exact h1
  · rw [h1]; exact h

theorem setPoly_none {mem : Bool} {loc : List Nat} {s : Own} (h : Inv loc s) : Inv loc (setPoly mem none s).2 := by
  rcases setPoly_inv (mem := mem) (v := none) (loc := loc) (s := s) h with ⟨-, h1⟩ | ⟨-, h1⟩
  · exact h1
  · rw [h1]; exact h

theorem setup_inv {o : Course} {l : Nat} {s : Own} (h : Inv [l] s) :
    ((setupLists o l s).1 = PAM_SUCCESS → Inv [] (setupLists o l s).2) ∧ ((setupLists o l s).1 ≠ PAM_SUCCESS → Inv [l] (setupLists o l s).2) := by
  unfold setupLists
  split
  · exact ⟨fun _ => free_inv (l := some l) h, fun e => absurd rfl e⟩
  · split
    · exact ⟨fun e => absurd e (show (PAM_SESSION_ERR : Int) ≠ PAM_SUCCESS by decide), fun _ => h⟩
    · have h1 := make_inv (b := o.protects) h
      dsimp only
      generalize (make o.protects s).1 = p at h1
      generalize (make o.protects s).2 = s1 at h1
      split
      · rename_i hl
        exact ⟨fun e => absurd e hl, fun _ => free_inv h1⟩
      · have h2 := setProt_inv (mem := o.mem1) h1
        generalize setProt o.mem1 p s1 = q at h2
        obtain ⟨r, s2⟩ := q
        rcases h2 with ⟨rfl, h2⟩ | ⟨rfl, h2⟩
        · dsimp only at h2 ⊢
          have h3 := setPoly_inv (mem := o.mem2) (v := some l) (loc := []) h2
          generalize setPoly o.mem2 (some l) s2 = q at h3
          obtain ⟨r, s3⟩ := q
          rcases h3 with ⟨rfl, h3⟩ | ⟨rfl, h3⟩
          · exact ⟨fun _ => h3, fun e => absurd rfl e⟩
          · dsimp only at h3 ⊢
            subst h3
            exact ⟨fun e => absurd e (by decide), fun _ => setProt_none h2⟩
        · dsimp only at h2 ⊢
          subst h2
          exact ⟨fun e => absurd e (by decide), fun _ => free_inv h1⟩

theorem open_inv {o : Course} {s : Own} (h : Inv [] s) : Inv [] (openLists o s).2 := by
  unfold openLists
  split
  · exact h
  · have h1 := make_inv (b := o.entries) h
    dsimp only
    generalize (make o.entries s).1 = l at h1
    generalize (make o.entries s).2 = s1 at h1
    split
    · exact free_inv h1
    · cases l with
      | none => exact h1
      | some l =>
        dsimp only
        have h2 := setup_inv (o := o) h1
        split
        · rename_i hc
          exact free_inv (l := some l) (h2.2 hc)
        · rename_i hc
          exact h2.1 (Decidable.not_not.mp hc)

theorem close_inv {u : Bool} {c : Int} {m1 m2 : Bool} {s : Own} (h : Inv [] s) : Inv [] (closeLists u c m1 m2 s).2 := by
  unfold closeLists
  split
  · exact setProt_none (setPoly_none h)
  · split
    · exact h
    · split
      · exact h
      · exact h
      · exact setProt_none (setPoly_none h)

theorem run_inv : ∀ (cs : List Call) (s : Own), Inv [] s → Inv [] (runCalls cs s)
  | [], _, h => h
  | .opens _ :: r, _, h => run_inv r _ (open_inv h)
  | .closes .. :: r, _, h => run_inv r _ (close_inv h)

theorem start_inv : Inv [] {} := fun n => by
  show 0 = if n < 0 then 1 else 0
  rw [if_neg (by omega)]

/-- C193: after any calls that open and close sessions, whatever fails in them, each list that was made was freed once or belongs to the handle, and not both. -/
theorem C193_once (cs : List Call) : Spec.Once (runCalls cs {}) := (inv_iff _).mp (run_inv cs _ start_inv)

/-- C193: at the end of the transaction each list that was ever made has been freed, and none twice. -/
theorem C193_end (cs : List Call) : (endLists (runCalls cs {})).freed.Nodup ∧ ∀ n, n ∈ (endLists (runCalls cs {})).freed ↔ n < (runCalls cs {}).next := by
  have h := run_inv cs _ start_inv
  generalize runCalls cs {} = s at h
  have hc : ∀ n, (endLists s).freed.count n = if n < s.next then 1 else 0 := by
    intro n
    have := h n
    rw [List.count_nil] at this
    show ((s.prot.getD none).toList ++ ((s.poly.getD none).toList ++ s.freed)).count n = _
    rw [← this, List.count_append, List.count_append]
    omega
  refine ⟨List.nodup_iff_count.mpr fun n => ?_, fun n => ?_⟩
  · rw [hc]
    split <;> omega
  · rw [← List.count_pos_iff, hc]
    split
    · exact ⟨fun _ => by assumption, fun _ => by omega⟩
    · exact ⟨fun e => by omega, fun e => by contradiction⟩

/-- C193: a session that fails leaves no list of its own behind: all that were made in the call have been freed. -/
theorem C193_failure (cs : List Call) (o : Course) (hf : (openLists o (runCalls cs {})).1 ≠ PAM_SUCCESS) (n : Nat) (h1 : (runCalls cs {}).next ≤ n)
    (h2 : n < (openLists o (runCalls cs {})).2.next) : n ∈ (openLists o (runCalls cs {})).2.freed := by
  have h := run_inv cs _ start_inv
  generalize runCalls cs {} = s at h hf h1 h2
  -- nothing new is in the handle
  have key : ∀ x, ((openLists o s).2.poly = some (some x) ∨ (openLists o s).2.prot = some (some x)) → s.poly = some (some x) ∨ s.prot = some (some x) := by
    revert hf
    clear h1 h2 h
    unfold openLists
    split
    · intro _ x hx; exact hx
    · have hm : (make o.entries s).2.poly = s.poly ∧ (make o.entries s).2.prot = s.prot := by unfold make; split <;> exact ⟨rfl, rfl⟩
      dsimp only
      generalize (make o.entries s).1 = l
      generalize (make o.entries s).2 = s1 at hm
      split
      · intro _ x hx
        rw [← hm.1, ← hm.2]; exact hx
      · cases l with
        | none => intro hf; exact absurd rfl hf
        | some l =>
          dsimp only
          split
          · intro hf x hx
            have hx : (setupLists o l s1).2.poly = some (some x) ∨ (setupLists o l s1).2.prot = some (some x) := hx
            rw [← hm.1, ← hm.2]
            revert hf hx
            unfold setupLists
            split
            · intro hf; exact absurd rfl hf
            · split
              · intro _ hx; exact hx
              · have hm : (make o.protects s1).2.poly = s1.poly ∧ (make o.protects s1).2.prot = s1.prot := by unfold make; split <;> exact ⟨rfl, rfl⟩
                dsimp only
                generalize (make o.protects s1).1 = p
                generalize (make o.protects s1).2 = s2 at hm
                rw [← hm.1, ← hm.2]
                split
                · intro _ hx; exact hx
                · have h1 : ((setProt o.mem1 p s2).1 = true ∧ (setProt o.mem1 p s2).2.poly = s2.poly) ∨ ((setProt o.mem1 p s2).1 = false ∧ (setProt o.mem1 p s2).2 = s2) := by
                    unfold setProt
                    cases s2.prot with
                    | some old => exact Or.inl ⟨rfl, rfl⟩
                    | none =>
                      cases o.mem1 with
                      | true => exact Or.inl ⟨rfl, rfl⟩
                      | false => exact Or.inr ⟨rfl, rfl⟩
                  have h1' : (setProt o.mem1 p s2).1 = true → (setProt o.mem1 p s2).2.prot = some p := by
                    unfold setProt
                    cases s2.prot with
                    | some old => exact fun _ => rfl
                    | none =>
                      cases o.mem1 with
                      | true => exact fun _ => rfl
                      | false => intro e; cases e
                  generalize setProt o.mem1 p s2 = q at h1 h1'
                  obtain ⟨r, s3⟩ := q
                  rcases h1 with ⟨rfl, h1⟩ | ⟨rfl, h1⟩
                  · dsimp only at h1 h1' ⊢
                    have h2 : ((setPoly o.mem2 (some l) s3).1 = true) ∨ ((setPoly o.mem2 (some l) s3).1 = false ∧ (setPoly o.mem2 (some l) s3).2 = s3) := by
                      unfold setPoly
                      cases s3.poly with
                      | some old => exact Or.inl rfl
                      | none =>
                        cases o.mem2 with
                        | true => exact Or.inl rfl
                        | false => exact Or.inr ⟨rfl, rfl⟩
                    generalize setPoly o.mem2 (some l) s3 = q at h2
                    obtain ⟨r, s4⟩ := q
                    rcases h2 with rfl | ⟨rfl, h2⟩
                    · intro hf; exact absurd rfl hf
                    · dsimp only at h2 ⊢
                      subst h2
                      intro _ hx
                      have h3 := h1' rfl
                      unfold setProt at hx
                      rw [h3] at hx
                      rcases hx with hx | hx
                      · exact Or.inl (by rw [← h1]; exact hx)
                      · cases hx
                  · dsimp only at h1 ⊢
                    subst h1
                    intro _ hx
                    exact hx
          · intro hf
            rename_i hn
            exact absurd hf hn
  have h' := open_inv (o := o) h n
  rw [if_pos h2, List.count_nil] at h'
  have hs := h n
  rw [if_neg (by omega), List.count_nil] at hs
  have none_poly : (((openLists o s).2.poly.getD none).toList.count n) = 0 := by
    cases hp : (openLists o s).2.poly with
    | none => rfl
    | some v =>
      cases v with
      | none => rfl
      | some x =>
        show [x].count n = 0
        refine List.count_eq_zero.mpr fun hm => ?_
        rw [List.mem_singleton] at hm
        subst hm
        rcases key n (Or.inl hp) with e | e <;>
        · rw [e] at hs
          simp at hs
  have none_prot : (((openLists o s).2.prot.getD none).toList.count n) = 0 := by
    cases hp : (openLists o s).2.prot with
    | none => rfl
    | some v =>
      cases v with
      | none => rfl
      | some x =>
        show [x].count n = 0
        refine List.count_eq_zero.mpr fun hm => ?_
        rw [List.mem_singleton] at hm
        subst hm
        rcases key n (Or.inr hp) with e | e <;>
        · rw [e] at hs
          simp at hs
  exact List.count_pos_iff.mp (by omega)

/-- a session that is set up, one for which there is no memory, and one that fails -/
def exOk : Course := ⟨0, true, 0, true, true, true, 0, true, true, true⟩
def exMem : Course := { exOk with mem2 := false }
def exLoop : Course := { exOk with loop := PAM_SESSION_ERR }

/-- witness for C193: calls that fail and calls that do not -/
example : (openLists exOk {}).1 = PAM_SUCCESS ∧ (openLists exMem {}).1 = PAM_SYSTEM_ERR ∧ (openLists exLoop {}).1 = PAM_SESSION_ERR ∧
    (openLists exMem {}).2.next = 2 ∧
    runCalls [.opens exOk, .opens exLoop, .opens exOk, .closes false 0 true true] {} = ⟨6, [5, 4, 0, 1, 2, 3], some none, some none⟩ := by
  decide +kernel

end Pam.Namespace.Lists
