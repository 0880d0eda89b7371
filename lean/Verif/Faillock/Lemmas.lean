import Verif.Faillock.Spec
/- Lemmas on the tally. -/
namespace Pam.Faillock
open Pam Pam.Faillock.Spec

/-- the times of the valid records -/
def vt (recs : List Rec) : List Nat := (recs.filter (·.valid)).map (·.time)

theorem vt_nil : vt [] = [] := rfl
theorem vt_cons_valid {r : Rec} (h : r.valid = true) (rs : List Rec) : vt (r :: rs) = r.time :: vt rs := by
  simp [vt, h]
theorem vt_cons_invalid {r : Rec} (h : r.valid = false) (rs : List Rec) : vt (r :: rs) = vt rs := by
  simp [vt, h]
theorem vt_append (a b : List Rec) : vt (a ++ b) = vt a ++ vt b := by simp [vt]

theorem mem_vt {recs : List Rec} {t : Nat} : t ∈ vt recs ↔ ∃ r ∈ recs, r.valid = true ∧ r.time = t := by
  simp [vt, and_assoc]

theorem vt_length_le (recs : List Rec) : (vt recs).length ≤ recs.length := by
  unfold vt; rw [List.length_map]; exact List.length_filter_le _ _

theorem sub64_of_le {a b : Nat} (h : b ≤ a) (ha : a < 2 ^ 64) : sub64 a b = a - b := by
  unfold sub64; omega

theorem add64_small {a b : Nat} (h : a + b < 2 ^ 64) : add64 a b = a + b := by unfold add64; omega

/-! ## the latest time -/

theorem latest_cons (t : Nat) (ts : List Nat) : latest (t :: ts) = max t (latest ts) := rfl

theorem le_latest {t : Nat} : {ts : List Nat} → t ∈ ts → t ≤ latest ts
  | u :: us, h => by
    rw [latest_cons]
    rcases List.mem_cons.mp h with rfl | h
    · exact Nat.le_max_left ..
    · exact Nat.le_trans (le_latest h) (Nat.le_max_right ..)

theorem latest_mem : {ts : List Nat} → ts ≠ [] → latest ts ∈ ts
  | [t], _ => by simp [latest]
  | t :: u :: us, _ => by
    rw [latest_cons]
    have := latest_mem (ts := u :: us) (by simp)
    by_cases h : latest (u :: us) ≤ t
    · rw [Nat.max_eq_left h]; simp
    · rw [Nat.max_eq_right (by omega)]; exact List.mem_cons_of_mem _ this

theorem latest_le {ts : List Nat} {n : Nat} (h : ∀ t ∈ ts, t ≤ n) : latest ts ≤ n := by
  cases ts with
  | nil => exact Nat.zero_le _
  | cons t us => exact h _ (latest_mem (by simp))

theorem latest_eq {a b : List Nat} (h1 : ∀ t ∈ a, t ∈ b) (h2 : latest b ∈ a) : latest a = latest b := by
  apply Nat.le_antisymm
  · exact latest_le (fun t ht => le_latest (h1 t ht))
  · exact le_latest h2

theorem latestTime_eq (recs : List Rec) : ∀ acc, latestTime acc recs = max acc (latest (vt recs)) := by
  induction recs with
  | nil => intro acc; simp [latestTime, vt, latest]
  | cons r rs ih =>
    intro acc
    rw [latestTime, ih]
    cases hv : r.valid
    · rw [vt_cons_invalid hv]; simp
    · rw [vt_cons_valid hv, latest_cons]
      simp only [Bool.true_and, decide_eq_true_eq]
      split <;> omega

theorem countFailures_eq (o : Opts) (l : Nat) (recs : List Rec) :
    ∀ acc, countFailures o l acc recs = acc + ((vt recs).filter (fun t => sub64 l t < o.failInterval)).length := by
  induction recs with
  | nil => intro acc; simp [countFailures, vt]
  | cons r rs ih =>
    intro acc
    rw [countFailures, ih]
    cases hv : r.valid
    · rw [vt_cons_invalid hv]; simp
    · rw [vt_cons_valid hv, List.filter_cons]
      simp only [Bool.true_and, decide_eq_true_eq]
      split
      · rw [List.length_cons]; omega
      · rfl

/-! ## the oldest record -/

theorem findOldest_spec (rs : List Rec) : ∀ (pre : List Rec) (oldtime oldest : Nat),
    (∀ r ∈ pre ++ rs, 0 < r.time) →
    ((pre = [] ∧ oldtime = 0) ∨
      (oldtime ≠ 0 ∧ ∃ r, pre[oldest]? = some r ∧ r.time = oldtime ∧ ∀ s ∈ pre, oldtime ≤ s.time)) →
    pre ++ rs ≠ [] →
    ∃ r, (pre ++ rs)[findOldest pre.length oldtime oldest rs]? = some r ∧ ∀ s ∈ pre ++ rs, r.time ≤ s.time := by
  induction rs with
  | nil =>
    intro pre oldtime oldest hp h hne
    rw [findOldest]
    rcases h with ⟨rfl, -⟩ | ⟨-, r, h1, h2, h3⟩
    · exact absurd rfl hne
    · rw [List.append_nil]; exact ⟨r, h1, by rw [h2]; exact h3⟩
  | cons r rs ih =>
    intro pre oldtime oldest hp h hne
    rw [findOldest]
    have e : pre ++ r :: rs = (pre ++ [r]) ++ rs := by simp
    have hl : pre.length + 1 = (pre ++ [r]).length := by simp
    have hr : 0 < r.time := hp r (by simp)
    rw [e, hl]
    rw [e] at hp
    split
    · rename_i hc
      apply ih _ _ _ hp _ (by simp)
      right
      refine ⟨by omega, r, by simp, rfl, ?_⟩
      intro s hs
      rcases h with ⟨rfl, -⟩ | ⟨h0, r', h1, h2, h3⟩
      · simp at hs; subst hs; exact Nat.le_refl _
      · rcases List.mem_append.mp hs with hs | hs
        · have := h3 s hs; omega
        · simp at hs; subst hs; exact Nat.le_refl _
    · rename_i hc
      have h0 : oldtime ≠ 0 := fun e => hc (Or.inl e)
      have h0' : oldtime ≤ r.time := Nat.not_lt.mp (fun e => hc (Or.inr e))
      apply ih _ _ _ hp _ (by simp)
      rcases h with ⟨-, h⟩ | ⟨-, r', h1, h2, h3⟩
      · exact absurd h h0
      · right
        refine ⟨h0, r', ?_, h2, ?_⟩
        · have hlt : oldest < pre.length := by
            rcases Nat.lt_or_ge oldest pre.length with h | h
            · exact h
            · rw [List.getElem?_eq_none h] at h1; cases h1
          rw [List.getElem?_append_left hlt]; exact h1
        · intro s hs
          rcases List.mem_append.mp hs with hs | hs
          · exact h3 s hs
          · simp at hs; subst hs; exact h0'

theorem oldest_spec {recs : List Rec} (hp : ∀ r ∈ recs, 0 < r.time) (hne : recs ≠ []) :
    ∃ r, recs[findOldest 0 0 0 recs]? = some r ∧ ∀ s ∈ recs, r.time ≤ s.time := by
  have := findOldest_spec recs [] 0 0 (by simpa using hp) (Or.inl ⟨rfl, rfl⟩) (by simpa using hne)
  simpa using this

/-! ## a new record -/

theorem vt_set {new : Rec} (hn : new.valid = true) : ∀ (l : List Rec) (k : Nat) (r : Rec), l[k]? = some r →
    r.valid = false → (vt (l.set k new)).Perm (new.time :: vt l) := by
  intro l
  induction l with
  | nil => intro k r h; simp at h
  | cons a l ih =>
    intro k r h hr
    cases k with
    | zero =>
      simp at h; subst h
      rw [List.set_cons_zero, vt_cons_valid hn, vt_cons_invalid hr]
    | succ k =>
      rw [List.getElem?_cons_succ] at h
      rw [List.set_cons_succ]
      cases ha : a.valid
      · rw [vt_cons_invalid ha, vt_cons_invalid ha]; exact ih k r h hr
      · rw [vt_cons_valid ha, vt_cons_valid ha]
        exact ((ih k r h hr).cons a.time).trans (List.Perm.swap ..)

theorem place_vt {recs : List Rec} {k : Nat} {new : Rec} (hn : new.valid = true) :
    (vt (place recs k new)).Perm (new.time :: vt recs) := by
  have happ : (vt (recs ++ [new])).Perm (new.time :: vt recs) := by
    rw [vt_append, vt_cons_valid hn, vt_nil]
    exact List.perm_append_comm
  unfold place
  split
  · exact happ
  · split
    · exact happ
    · rename_i r h hr
      exact vt_set hn recs k r h (by simpa using hr)

theorem mem_place {recs : List Rec} {k : Nat} {new r : Rec} (h : r ∈ place recs k new) : r ∈ recs ∨ r = new := by
  unfold place at h
  split at h
  · rw [List.mem_append, List.mem_singleton] at h; exact h
  · split at h
    · rw [List.mem_append, List.mem_singleton] at h; exact h
    · exact List.mem_or_eq_of_mem_set h

theorem invalidate_time (o : Opts) (now : Nat) (u : Bool) (r : Rec) : (invalidate o now u r).time = r.time := by
  unfold invalidate; split <;> rfl

theorem vt_invalidate (o : Opts) (now : Nat) (recs : List Rec) :
    vt (recs.map (invalidate o now false)) = (vt recs).filter (fun t => sub64 now t < o.failInterval) := by
  induction recs with
  | nil => rfl
  | cons r rs ih =>
    rw [List.map_cons]
    cases hv : r.valid
    · have : (invalidate o now false r).valid = false := by unfold invalidate; split <;> simp [hv]
      rw [vt_cons_invalid this, vt_cons_invalid hv, ih]
    · by_cases hc : sub64 now r.time < o.failInterval
      · have : invalidate o now false r = r := by
          unfold invalidate; rw [if_neg]; simp; exact hc
        rw [this, vt_cons_valid hv, vt_cons_valid hv, ih, List.filter_cons, if_pos (by simpa using hc)]
      · have : (invalidate o now false r).valid = false := by
          unfold invalidate; rw [if_pos]; simp; omega
        rw [vt_cons_invalid this, vt_cons_valid hv, ih, List.filter_cons, if_neg (by simpa using hc)]

theorem vt_invalidate_all (o : Opts) (now : Nat) (recs : List Rec) : vt (recs.map (invalidate o now true)) = [] := by
  induction recs with
  | nil => rfl
  | cons r rs ih =>
    rw [List.map_cons, vt_cons_invalid (by simp [invalidate]), ih]

end Pam.Faillock
