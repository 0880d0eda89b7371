import Verif.Handle.PEnvLemmas
namespace Pam.Handle
open Spec

set_option linter.unusedSimpArgs false

def lookupV (vs : List (Str × Str)) (n : Str) : Option Str := (vs.find? (fun p => p.1 == n)).map Prod.snd

theorem valueAfter_snoc (n : Str) (h : List Done) (d : Done) :
    valueAfter n (h ++ [d]) = if d.1.name = some n then (if Sets d then d.1.value else none) else valueAfter n h := by
  unfold valueAfter
  rw [List.reverse_append, List.reverse_singleton, List.singleton_append, List.find?_cons]
  by_cases hd : d.1.name = some n
  · simp [hd]
  · have : (d.1.name == some n) = false := by simpa using hd
    simp only [this, if_neg hd]

theorem order_snoc (h : List Done) (d : Done) :
    order (h ++ [d]) = (match d.1.name with
      | none => order h
      | some n => if Sets d then (if n ∈ order h then order h else order h ++ [n]) else (order h).filter (· ≠ n)) := by
  unfold order
  rw [List.foldl_append]; rfl

structure Hist (h : List Done) (vs : List (Str × Str)) : Prop where
  ord : vs.map Prod.fst = order h
  val : ∀ n, lookupV vs n = valueAfter n h

theorem lookupV_none {vs n} : lookupV vs n = none ↔ n ∉ vs.map Prod.fst := by
  unfold lookupV
  rw [Option.map_eq_none_iff, List.find?_eq_none]
  simp only [beq_iff_eq, List.mem_map, not_exists, not_and]

theorem lookupV_append (a b : List (Str × Str)) (n : Str) : lookupV (a ++ b) n = (lookupV a n).or (lookupV b n) := by
  unfold lookupV
  rw [List.find?_append]
  cases a.find? (fun p => p.1 == n) <;> simp

theorem lookupV_filter (vs : List (Str × Str)) (n m : Str) :
    lookupV (vs.filter (fun p => p.1 ≠ n)) m = if m = n then none else lookupV vs m := by
  induction vs with
  | nil => simp [lookupV]
  | cons p ps ih =>
    rw [List.filter_cons]
    unfold lookupV at *
    by_cases h1 : p.1 = n <;> by_cases h2 : p.1 = m <;> simp_all [List.find?_cons]

theorem lookupV_replace (vs : List (Str × Str)) (n v m : Str) (hn : n ∈ vs.map Prod.fst) :
    lookupV (vs.map (fun p => if p.1 = n then (n, v) else p)) m = if m = n then some v else lookupV vs m := by
  induction vs with
  | nil => simp at hn
  | cons p ps ih =>
    rw [List.map_cons]
    by_cases h1 : p.1 = n
    · rw [if_pos h1]
      by_cases h2 : m = n
      · subst h2; simp [lookupV]
      · rw [if_neg h2]
        have hpm : ¬ p.1 = m := fun h => h2 (by rw [← h, h1])
        have h2' : ¬ n = m := fun h => h2 h.symm
        by_cases h3 : n ∈ ps.map Prod.fst
        · have := ih h3
          rw [if_neg h2] at this
          unfold lookupV at *
          have b1 : (n == m) = false := by simpa using h2'
          have b2 : (p.1 == m) = false := by simpa using hpm
          rw [List.find?_cons, List.find?_cons]
          simp only [b1, b2]
          exact this
        · have : ps.map (fun p => if p.1 = n then (n, v) else p) = ps := by
            conv => rhs; rw [← List.map_id ps]
            apply List.map_congr_left
            intro q hq
            rw [if_neg]; rfl
            intro h; exact h3 (List.mem_map.2 ⟨q, hq, h⟩)
          rw [this]
          unfold lookupV
          simp [List.find?_cons, h2', hpm]
    · rw [if_neg h1]
      have hps : n ∈ ps.map Prod.fst := by
        simp only [List.map_cons, List.mem_cons] at hn
        exact hn.resolve_left (fun h => h1 h.symm)
      have := ih hps
      unfold lookupV at *
      by_cases h2 : p.1 = m
      · have hmn : ¬ m = n := fun h => h1 (by rw [h2, h])
        simp [List.find?_cons, h2, hmn]
      · have b2 : (p.1 == m) = false := by simpa using h2
        rw [List.find?_cons, List.find?_cons]
        simp only [b2]
        exact this

theorem hist_step {h vs} (hh : Hist h vs) (room : Bool) (c : Put) :
    Hist (h ++ [(c, (putVars room vs c).1)]) (putVars room vs c).2 := by
  have hmem : ∀ n, n ∈ vs.map Prod.fst ↔ n ∈ order h := by rw [hh.ord]; simp
  have hunset : ∀ n, n ∉ vs.map Prod.fst → valueAfter n h = none := by
    intro n hn; rw [← hh.val, lookupV_none]; exact hn
  have hfst : ∀ n : Str, (vs.filter (fun p => p.1 ≠ n)).map Prod.fst = (order h).filter (· ≠ n) := by
    intro n
    rw [← hh.ord, List.filter_map]; rfl
  have hnof : ∀ n : Str, n ∉ vs.map Prod.fst → (order h).filter (· ≠ n) = order h := by
    intro n hn
    rw [List.filter_eq_self]
    intro a ha
    simp only [ne_eq, decide_not, Bool.not_eq_true', decide_eq_false_iff_not]
    rintro rfl; exact hn ((hmem _).2 ha)
  cases hname : c.name with
  | none =>
    have e2 : (putVars room vs c).2 = vs := by simp [putVars, hname]
    rw [e2]
    refine ⟨?_, fun n => ?_⟩
    · rw [order_snoc]; simp only [hname]; exact hh.ord
    · rw [valueAfter_snoc]; simp only [hname]; simpa using hh.val n
  | some n =>
    cases hv : c.value with
    | some v =>
      by_cases hin : n ∈ vs.map Prod.fst
      · cases hok : c.ok2 with
        | true =>
          have e : putVars room vs c = (PAM_SUCCESS, vs.map (fun p => if p.1 = n then (n, v) else p)) := by
            simp only [putVars, hname, hv, if_pos hin, hok, if_true]
          rw [e]
          have hs : Sets (c, PAM_SUCCESS) = true := by simp [Sets, hv]
          refine ⟨?_, fun m => ?_⟩
          · rw [order_snoc]; simp only [hname, hs, if_true, if_pos ((hmem n).1 hin)]
            rw [← hh.ord, List.map_map]
            apply List.map_congr_left
            intro p _
            simp only [Function.comp]
            split
            · next h => exact h.symm
            · rfl
          · rw [valueAfter_snoc, lookupV_replace _ _ _ _ hin]
            simp only [hname, Option.some.injEq, hs, if_true, hv, hh.val]
            by_cases hmn : m = n
            · simp [hmn]
            · simp [hmn, show ¬ n = m from fun h => hmn h.symm]
        | false =>
          have e : putVars room vs c = (PAM_BUF_ERR, vs.filter (fun p => p.1 ≠ n)) := by
            simp only [putVars, hname, hv, if_pos hin, hok, Bool.false_eq_true, if_false]
          rw [e]
          have hs : Sets (c, PAM_BUF_ERR) = false := by simp [Sets, PAM_BUF_ERR, PAM_SUCCESS]
          refine ⟨?_, fun m => ?_⟩
          · rw [order_snoc]; simp only [hname, hs, Bool.false_eq_true, if_false]; exact hfst n
          · rw [valueAfter_snoc, lookupV_filter]
            simp only [hname, Option.some.injEq, hs, Bool.false_eq_true, if_false, hh.val]
            by_cases hmn : m = n
            · simp [hmn]
            · simp [hmn, show ¬ n = m from fun h => hmn h.symm]
      · by_cases hok : c.ok2 ∧ (c.ok1 ∨ room)
        · have e : putVars room vs c = (PAM_SUCCESS, vs ++ [(n, v)]) := by
            simp only [putVars, hname, hv, if_neg hin, if_pos hok]
          rw [e]
          have hs : Sets (c, PAM_SUCCESS) = true := by simp [Sets, hv]
          refine ⟨?_, fun m => ?_⟩
          · rw [order_snoc]; simp only [hname, hs, if_true, if_neg (fun h => hin ((hmem n).2 h))]
            simp [hh.ord]
          · rw [valueAfter_snoc, lookupV_append]
            simp only [hname, Option.some.injEq, hs, if_true, hv]
            by_cases hmn : n = m
            · subst hmn; rw [lookupV_none.2 hin]; simp [lookupV]
            · rw [if_neg hmn, ← hh.val]
              have b : (n == m) = false := by simpa using hmn
              simp [lookupV, b]
        · have e : putVars room vs c = (PAM_BUF_ERR, vs) := by
            simp only [putVars, hname, hv, if_neg hin, if_neg hok]
          rw [e]
          have hs : Sets (c, PAM_BUF_ERR) = false := by simp [Sets, PAM_BUF_ERR, PAM_SUCCESS]
          refine ⟨?_, fun m => ?_⟩
          · rw [order_snoc]; simp only [hname, hs, Bool.false_eq_true, if_false, hnof n hin, hh.ord]
          · rw [valueAfter_snoc]
            simp only [hname, Option.some.injEq, hs, Bool.false_eq_true, if_false, hh.val]
            by_cases hmn : n = m
            · subst hmn; simp [hunset n hin]
            · simp [hmn]
    | none =>
      have hs : ∀ k, Sets (c, k) = false := by intro k; simp [Sets, hv]
      by_cases hin : n ∈ vs.map Prod.fst
      · have e : putVars room vs c = (PAM_SUCCESS, vs.filter (fun p => p.1 ≠ n)) := by
          simp only [putVars, hname, hv, if_pos hin]
        rw [e]
        refine ⟨?_, fun m => ?_⟩
        · rw [order_snoc]; simp only [hname, hs, Bool.false_eq_true, if_false]; exact hfst n
        · rw [valueAfter_snoc, lookupV_filter]
          simp only [hname, Option.some.injEq, hs, Bool.false_eq_true, if_false, hh.val]
          by_cases hmn : m = n
          · simp [hmn]
          · simp [hmn, show ¬ n = m from fun h => hmn h.symm]
      · have e : putVars room vs c = (PAM_BAD_ITEM, vs) := by
          simp only [putVars, hname, hv, if_neg hin]
        rw [e]
        refine ⟨?_, fun m => ?_⟩
        · rw [order_snoc]; simp only [hname, hs, Bool.false_eq_true, if_false, hnof n hin, hh.ord]
        · rw [valueAfter_snoc]
          simp only [hname, Option.some.injEq, hs, Bool.false_eq_true, if_false, hh.val]
          by_cases hmn : n = m
          · subst hmn; simp [hunset n hin]
          · simp [hmn]

theorem go_spec (cs : List Put) : ∀ (h : List Done) (e : PEnv) (vs : List (Str × Str)), Rep e vs → GoodVars vs → Hist h vs →
    ∃ h' e' vs', runPuts.go cs h e = some (h ++ h', e') ∧ h'.map Prod.fst = cs ∧ Rep e' vs' ∧ GoodVars vs' ∧ Hist (h ++ h') vs' := by
  induction cs with
  | nil => intro h e vs h1 h2 h3; exact ⟨[], e, vs, by simp [runPuts.go], rfl, h1, h2, by simpa using h3⟩
  | cons c cs ih =>
    intro h e vs h1 h2 h3
    obtain ⟨e1, p1, p2, p3⟩ := putenv_spec h1 h2 c
    obtain ⟨h', e', vs', q1, q2, q3, q4, q5⟩ := ih _ e1 _ p2 p3 (hist_step h3 _ c)
    refine ⟨(c, (putVars (decide (e.requested < e.slots.length)) vs c).1) :: h', e', vs', ?_, ?_, q3, q4, ?_⟩
    · rw [runPuts.go, p1]
      simp only
      rw [q1]; simp
    · simp [q2]
    · simpa using q5

theorem runPuts_spec (cs : List Put) :
    ∃ h e vs, runPuts cs = some (h, e) ∧ h.map Prod.fst = cs ∧ Rep e vs ∧ GoodVars vs ∧ Hist h vs := by
  obtain ⟨h, e, vs, h1, h2, h3, h4, h5⟩ := go_spec cs [] .make [] make_rep good_nil
    ⟨rfl, by intro n; simp [lookupV, valueAfter]⟩
  exact ⟨h, e, vs, by simpa [runPuts] using h1, h2, h3, h4, by simpa using h5⟩

theorem lookupV_split (pre post : List (Str × Str)) (n v : Str) (h : n ∉ pre.map Prod.fst) :
    lookupV (pre ++ (n, v) :: post) n = some v := by
  rw [lookupV_append, lookupV_none.2 h]; simp [lookupV]

theorem getenv_rep {e vs} (h : Rep e vs) (hg : GoodVars vs) (n : Str) (hn : '=' ∉ n) :
    e.getenv (some n) = some (lookupV vs n) := by
  unfold PEnv.getenv
  rcases search_spec h hg n hn with ⟨pre, v, post, hv, h1, h2, h3⟩ | ⟨h1, h3⟩
  · simp only [h3]
    have hi : pre.length < vs.length := by rw [hv]; simp
    have ha := rep_at h pre.length hi
    have : vs[pre.length] = (n, v) := by
      have : vs[pre.length]? = some (n, v) := by rw [hv]; simp
      rw [List.getElem?_eq_getElem hi] at this; simpa using this
    rw [ha, this, hv, lookupV_split pre post n v h1]
    simp only [text]
    rw [Nat.add_comm, ← List.drop_drop]; simp
  · rw [lookupV_none.2 h1]
    simp only [h3]

theorem filterMap_range_rep {e vs} (h : Rep e vs) : (List.range vs.length).filterMap e.at? = vs.map text := by
  have key : ∀ k ≤ vs.length, (List.range k).filterMap e.at? = (vs.take k).map text := by
    intro k
    induction k with
    | zero => simp
    | succ k ih =>
      intro hk
      rw [List.range_succ, List.filterMap_append, ih (by omega), List.take_add_one, List.map_append]
      congr 1
      simp [rep_at h k (by omega), List.getElem?_eq_getElem (show k < vs.length by omega)]
  simpa using key vs.length (Nat.le_refl _)

theorem getenvlist_rep {e vs} (h : Rep e vs) (ok : Nat → Bool) :
    e.getenvlist ok = some (if ∀ i ≤ vs.length, ok i = true then some (vs.map text) else none) := by
  obtain ⟨rest, hs⟩ := h.slots
  have hl : e.slots.length = vs.length + 1 + rest.length := by rw [hs]; simp; omega
  have hr : e.requested - 1 = vs.length := by rw [h.req]; rfl
  have hat : ∀ i < vs.length, (e.at? i).isSome = true := fun i hi => by rw [rep_at h i hi]; rfl
  unfold PEnv.getenvlist PEnv.copy
  rw [hr, if_neg (by rw [h.req]; omega), if_pos (by
    rw [List.all_eq_true]; intro i hi; rw [List.mem_range] at hi
    have : i < e.slots.length := by omega
    rw [List.getElem?_eq_getElem this]; rfl)]
  rw [if_neg (by
    rw [List.any_eq_true]
    rintro ⟨i, hi, hx⟩
    rw [List.mem_range] at hi
    rw [rep_at h i hi] at hx; cases hx), if_neg (by rw [h.req]; omega)]
  have hall : (List.range vs.length).all (fun i => (e.at? i).isSome) = true := by
    rw [List.all_eq_true]; intro i hi; exact hat i (List.mem_range.1 hi)
  rw [if_pos hall, filterMap_range_rep h]
  by_cases h0 : ok 0 = true
  · rw [if_pos h0]
    by_cases h1 : (List.range vs.length).all (fun i => ok (i + 1)) = true
    · rw [if_pos h1, if_pos]
      intro i hi
      rw [List.all_eq_true] at h1
      cases i with
      | zero => exact h0
      | succ i => exact h1 i (List.mem_range.2 (by omega))
    · rw [if_neg h1, if_neg]
      intro hx
      apply h1
      rw [List.all_eq_true]
      intro i hi
      exact hx (i + 1) (by have := List.mem_range.1 hi; omega)
  · rw [if_neg h0, if_neg]
    intro hx; exact h0 (hx 0 (by omega))

end Pam.Handle
