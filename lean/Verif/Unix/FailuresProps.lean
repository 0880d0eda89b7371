import Verif.Unix.Failures
/-
C199: what pam_unix writes to the log about failures.
-/
namespace Pam.Unix.Failures
open Pam

namespace Spec

/-- the failures of a user in a row, at the end of the attempts -/
def row (n : Str) (as : List Attempt) : Nat := as.foldl (fun k a => if a.name = n then (if a.rv = 0 then 0 else k + 1) else k) 0

/-- the last attempt for a user -/
def lastOf (n : Str) (as : List Attempt) : Option Attempt := (as.filter (·.name = n)).getLast?

/-- there is memory -/
def Memory (a : Attempt) : Prop := a.memName = true ∧ a.memRec = true ∧ a.memEntry = true

/-- what is to be written at the end about a user: how many failures there were after the first -/
def summary (n : Str) (as : List Attempt) : List Line :=
  match lastOf n as with
  | none => []
  | some a => if row n as ≥ 2 then .more (row n as - 1) a.who :: (if row n as > 3 then [.ignoring (row n as)] else []) else []

end Spec

open Spec

/-- the record that there should be -/
def want (n : Str) (as : List Attempt) : Option Rec :=
  match lastOf n as with
  | none => none
  | some a => if row n as = 0 then none else some ⟨a.who, row n as⟩

/-- the data are right -/
structure Inv (as : List Attempt) (d : Data) : Prop where
  nodup : (d.map (·.1)).Nodup
  get : ∀ n, getData n d = want n as
  known : ∀ n, row n as ≠ 0 → n ∈ d.map (·.1)

theorem row_snoc (n : Str) (as : List Attempt) (a : Attempt) : row n (as ++ [a]) = if a.name = n then (if a.rv = 0 then 0 else row n as + 1) else row n as := by
  unfold row; rw [List.foldl_append]; rfl

theorem last_snoc (n : Str) (as : List Attempt) (a : Attempt) : lastOf n (as ++ [a]) = if a.name = n then some a else lastOf n as := by
  unfold lastOf
  rw [List.filter_append]
  by_cases h : a.name = n
  · rw [if_pos h, List.filter_cons_of_pos (by simpa using h)]; simp
  · rw [if_neg h, List.filter_cons_of_neg (by simpa using h)]; simp

theorem want_snoc (n : Str) (as : List Attempt) (a : Attempt) :
    want n (as ++ [a]) = if a.name = n then (if a.rv = 0 then none else some ⟨a.who, row n as + 1⟩) else want n as := by
  unfold want
  rw [last_snoc, row_snoc]
  by_cases h : a.name = n
  · rw [if_pos h, if_pos h, if_pos h]
    by_cases h0 : a.rv = 0
    · simp [h0]
    · simp [h0]
  · rw [if_neg h, if_neg h, if_neg h]

theorem row_last (n : Str) (as : List Attempt) (h : row n as ≠ 0) : ∃ a, lastOf n as = some a := by
  cases hl : lastOf n as with
  | some a => exact ⟨a, rfl⟩
  | none =>
    exfalso; apply h
    unfold lastOf at hl
    rw [List.getLast?_eq_none_iff, List.filter_eq_nil_iff] at hl
    unfold row
    have : ∀ (l : List Attempt) (k : Nat), (∀ a ∈ l, ¬ decide (a.name = n) = true) →
        l.foldl (fun k a => if a.name = n then (if a.rv = 0 then 0 else k + 1) else k) k = k := by
      intro l
      induction l with
      | nil => intros; rfl
      | cons a l ih =>
        intro k hh
        rw [List.foldl_cons, if_neg (by have := hh a (List.mem_cons_self ..); simpa using this)]
        exact ih k (fun b hb => hh b (List.mem_cons_of_mem _ hb))
    exact this as 0 hl

theorem replace_none {n : Str} {r : Option Rec} : ∀ {d : Data}, replaceData n r d = none → n ∉ d.map (·.1)
  | [], _ => by simp
  | (k, old) :: d, h => by
    rw [replaceData] at h
    split at h
    · cases h
    · rename_i hk
      have := replace_none (Option.map_eq_none_iff.mp h)
      simp only [List.map_cons, List.mem_cons, not_or]
      exact ⟨fun e => hk e.symm, this⟩

theorem replace_some {n : Str} {r : Option Rec} : ∀ {d d' : Data} {l : List Line}, replaceData n r d = some (d', l) →
    d'.map (·.1) = d.map (·.1) ∧ n ∈ d.map (·.1) ∧ l = [] ∧ ∀ m, getData m d' = if m = n then r else getData m d
  | [], _, _, h => by cases h
  | (k, old) :: d, d', l, h => by
    rw [replaceData] at h
    split at h
    · rename_i hk
      cases h
      refine ⟨rfl, by simp [hk], by cases old <;> rfl, ?_⟩
      intro m
      rw [getData, getData, hk]
      by_cases e : m = n
      · rw [if_pos e.symm, if_pos e]
      · rw [if_neg (fun e' => e e'.symm), if_neg e, if_neg (fun e' => e e'.symm)]
    · rename_i hk
      obtain ⟨⟨d2, l2⟩, hx, he⟩ := Option.map_eq_some_iff.mp h
      cases he
      obtain ⟨h1, h2, h3, h4⟩ := replace_some hx
      refine ⟨by simp only [List.map_cons, h1], List.mem_cons_of_mem _ h2, h3, ?_⟩
      intro m
      rw [getData, getData, h4]
      by_cases e : k = m
      · rw [if_pos e, if_pos e, if_neg (by rw [← e]; exact hk)]
      · rw [if_neg e, if_neg e]

theorem set_ok (n : Str) (r : Option Rec) (d : Data) (hd : (d.map (·.1)).Nodup) : (setData true n r d).2 = [] ∧ ((setData true n r d).1.map (·.1)).Nodup ∧
    (∀ m, getData m (setData true n r d).1 = if m = n then r else getData m d) ∧ (∀ m, m = n ∨ m ∈ d.map (·.1) → m ∈ (setData true n r d).1.map (·.1)) := by
  unfold setData
  cases h : replaceData n r d with
  | some x =>
    obtain ⟨d', l⟩ := x
    obtain ⟨h1, h2, h3, h4⟩ := replace_some h
    refine ⟨h3, by rw [h1]; exact hd, h4, ?_⟩
    intro m hm
    simp only
    rw [h1]
    rcases hm with rfl | hm
    · exact h2
    · exact hm
  | none =>
    refine ⟨rfl, ?_, ?_, ?_⟩
    · simp only [if_true, List.map_cons, List.nodup_cons]
      exact ⟨replace_none h, hd⟩
    · intro m
      simp only [if_true, getData]
      by_cases e : m = n
      · rw [if_pos e.symm, if_pos e]
      · rw [if_neg (fun e' => e e'.symm), if_neg e]
    · intro m hm
      simp only [if_true, List.map_cons, List.mem_cons]
      exact hm

/-- an attempt: the data stay right, and what it answers and writes -/
theorem attempt_ok {as : List Attempt} {d : Data} (h : Inv as d) (a : Attempt) (hm : Memory a) :
    Inv (as ++ [a]) (attempt a d).2.1 ∧ (attempt a d).1 = (if a.rv ≠ 0 ∧ row a.name as + 1 ≥ 3 then PAM_MAXTRIES else a.rv) ∧
    (attempt a d).2.2 = if a.rv ≠ 0 ∧ row a.name as = 0 then [.failure a.who] else [] := by
  obtain ⟨m1, m2, m3⟩ := hm
  have next : ∀ r, (r = if a.rv = 0 then none else some ⟨a.who, row a.name as + 1⟩) → Inv (as ++ [a]) (setData true a.name r d).1 := by
    intro r hr
    obtain ⟨_, s2, s3, s4⟩ := set_ok a.name r d h.nodup
    refine ⟨s2, ?_, ?_⟩
    · intro n
      rw [s3, want_snoc]
      by_cases e : n = a.name
      · subst e; rw [if_pos rfl, if_pos rfl, hr]
      · rw [if_neg e, if_neg (fun e' => e e'.symm)]; exact h.get n
    · intro n hn
      apply s4
      rw [row_snoc] at hn
      by_cases e : a.name = n
      · exact .inl e.symm
      · rw [if_neg e] at hn; exact .inr (h.known n hn)
  have hl := fun r => (set_ok a.name r d h.nodup).1
  unfold attempt
  rw [m1, m2, m3]
  by_cases h0 : a.rv = 0
  · rw [if_pos (show a.rv = PAM_SUCCESS from h0), if_pos rfl, if_neg (fun hh => hh.1 h0), if_neg (fun hh => hh.1 h0)]
    exact ⟨next none (by rw [if_pos h0]), rfl, hl none⟩
  · rw [if_neg (show ¬ a.rv = PAM_SUCCESS from h0), if_pos rfl, if_pos rfl, h.get]
    by_cases hr : row a.name as = 0
    · have hw : want a.name as = none := by unfold want; split <;> simp [hr]
      rw [hw]
      simp only
      refine ⟨next _ (by rw [if_neg h0, hr]), ?_, ?_⟩
      · rw [if_neg (by omega)]
      · rw [if_pos ⟨h0, hr⟩, hl]
    · obtain ⟨b, hb⟩ := row_last _ _ hr
      have hw : want a.name as = some ⟨b.who, row a.name as⟩ := by unfold want; rw [hb]; simp [hr]
      rw [hw]
      simp only
      refine ⟨next _ (by rw [if_neg h0]), ?_, ?_⟩
      · unfold MAX_RETRIES
        by_cases h3 : row a.name as + 1 ≥ 3
        · rw [if_pos h3, if_pos ⟨h0, h3⟩]
        · rw [if_neg h3, if_neg (fun hh => h3 hh.2)]
      · rw [if_neg (fun hh => hr hh.2)]; exact hl _

theorem attempts_ok : ∀ (as pre : List Attempt) (d : Data), Inv pre d → (∀ a ∈ as, Memory a) → Inv (pre ++ as) (attempts as d).2 ∧
    ∀ i (hi : i < as.length), (attempts as d).1[i]? = some
      (if as[i].rv ≠ 0 ∧ row as[i].name (pre ++ as.take i) + 1 ≥ 3 then PAM_MAXTRIES else as[i].rv,
       if as[i].rv ≠ 0 ∧ row as[i].name (pre ++ as.take i) = 0 then [.failure as[i].who] else [])
  | [], pre, d, h, _ => ⟨by simpa [attempts] using h, fun i hi => absurd hi (Nat.not_lt_zero _)⟩
  | a :: as, pre, d, h, hm => by
    obtain ⟨h1, h2, h3⟩ := attempt_ok h a (hm a (List.mem_cons_self ..))
    obtain ⟨i1, i2⟩ := attempts_ok as (pre ++ [a]) _ h1 (fun b hb => hm b (List.mem_cons_of_mem _ hb))
    rw [attempts]
    refine ⟨by simpa using i1, ?_⟩
    intro i hi
    cases i with
    | zero => simp only [List.getElem?_cons_zero, List.getElem_cons_zero, List.take_zero, List.append_nil]; rw [← h2, ← h3]
    | succ i =>
      have := i2 i (by simpa using hi)
      simp only [List.getElem?_cons_succ, List.getElem_cons_succ, List.take_succ_cons]
      rw [this, show pre ++ [a] ++ as.take i = pre ++ a :: as.take i by simp]; rfl

theorem start_inv : Inv [] [] := ⟨List.nodup_nil, fun _ => rfl, fun _ h => absurd rfl h⟩

/-- C199.  In any sequence of attempts for any users, a failure is written to the log at once exactly if it is the first of its user, or the first after a success.  (The codes are
    those of C75.) -/
theorem C199_first (as : List Attempt) (hm : ∀ a ∈ as, Memory a) (i : Nat) (hi : i < as.length) :
    (attempts as []).1[i]? = some (if as[i].rv ≠ 0 ∧ row as[i].name (as.take i) ≥ 2 then PAM_MAXTRIES else as[i].rv,
      if as[i].rv ≠ 0 ∧ row as[i].name (as.take i) = 0 then [.failure as[i].who] else []) := by
  have := (attempts_ok as [] [] start_inv hm).2 i hi
  rw [this]
  simp only [List.nil_append]
  congr 3
  exact propext ⟨fun h => ⟨h.1, by omega⟩, fun h => ⟨h.1, by omega⟩⟩

theorem cleanup_want (n : Str) (as : List Attempt) : cleanup false false (want n as) = summary n as := by
  unfold want summary
  cases lastOf n as with
  | none => rfl
  | some a =>
    simp only
    by_cases h : row n as = 0
    · rw [if_pos h, if_neg (by omega)]; rfl
    · rw [if_neg h]
      unfold cleanup
      simp only [Bool.not_false, Bool.and_self, if_true, MAX_RETRIES]
      by_cases h2 : row n as ≥ 2
      · rw [if_pos (show row n as > 1 by omega), if_pos h2]; rfl
      · rw [if_neg (show ¬ row n as > 1 by omega), if_neg h2]

theorem finish_get : ∀ (d : Data), (d.map (·.1)).Nodup → finish false d = (d.map (·.1)).flatMap (fun n => cleanup false false (getData n d))
  | [], _ => rfl
  | (k, r) :: d, h => by
    rw [List.map_cons, List.nodup_cons] at h
    have ih := finish_get d h.2
    unfold finish at ih ⊢
    rw [List.flatMap_cons, ih, List.map_cons, List.flatMap_cons]
    congr 1
    · rw [getData, if_pos rfl]
    · rw [List.flatMap_def, List.flatMap_def]
      congr 1
      apply List.map_congr_left
      intro n hn
      rw [getData, if_neg (by rintro rfl; exact h.1 hn)]

/-- C199.  When the handle is ended, the log gets one summary for each user, with the number of failures after the one that was written at once. -/
theorem C199_end (as : List Attempt) (hm : ∀ a ∈ as, Memory a) : ∃ names : List Str, names.Nodup ∧ (∀ n, row n as ≠ 0 → n ∈ names) ∧
    finish false (attempts as []).2 = names.flatMap (fun n => summary n as) := by
  have hi : Inv as (attempts as []).2 := by simpa using (attempts_ok as [] [] start_inv hm).1
  refine ⟨(attempts as []).2.map (·.1), hi.nodup, hi.known, ?_⟩
  rw [finish_get _ hi.nodup]
  congr 1
  funext n
  rw [hi.get, cleanup_want]

/-- C199.  With PAM_DATA_SILENT nothing is written at the end. -/
theorem C199_silent (d : Data) : finish true d = [] := by
  unfold finish
  rw [List.flatMap_eq_nil_iff]
  intro x _
  cases x.2 <;> rfl

/-- an attempt by ann -/
def ann (rv : Int) : Attempt := ⟨"ann".toList, ⟨"ann".toList, "tty".toList, 0, 0⟩, rv, true, true, true⟩

/-- all that is written -/
def written (as : List Attempt) : List Line := ((attempts as []).1.flatMap (·.2)) ++ finish false (attempts as []).2

/-- C199, that every failure is reported, is false: after a success, the failures between the first and the success are reported nowhere.  Three failures leave one line. -/
theorem C199_forgotten_counterexample : written [ann 7, ann 7, ann 7, ann 0] = [.failure (ann 7).who] := by decide +kernel

/-- C199: without memory for the entry, failures do not add up.  Four failures are four first ones, and PAM_MAXTRIES is never the answer. -/
theorem C199_uncounted_counterexample : (attempts (List.replicate 4 { ann 7 with memEntry := false }) []).1.map (·.1) = [7, 7, 7, 7] ∧
    written (List.replicate 4 { ann 7 with memEntry := false }) = List.replicate 4 (.failure (ann 7).who) := by
  constructor <;> decide +kernel

/-! The hypotheses are met. -/

example : ∀ a ∈ [ann 7, ann 7], Memory a := by intro a ha; simp at ha; subst ha; exact ⟨rfl, rfl, rfl⟩
example : written [ann 7, ann 7, ann 7, ann 7] = [.failure (ann 7).who, .more 3 (ann 7).who, .ignoring 4] := by decide +kernel
example : row "ann".toList [ann 7, ann 0, ann 7, ann 7] = 2 := by decide +kernel

end Pam.Unix.Failures
