import Verif.Faillock.Lemmas
/- The records of the tally and the failures that count. -/
namespace Pam.Faillock
open Pam Pam.Faillock.Spec

/-- the records hold the recent ones of the failures `F`, up to the time `last` -/
structure Inv (o : Opts) (recs : List Rec) (F : List Nat) (last : Nat) : Prop where
  times : ∀ r ∈ recs, 0 < r.time ∧ r.time ≤ last
  fails : ∀ t ∈ F, t ≤ last
  perm : (vt recs).Perm (F.filter (fun t => latest F - t < o.failInterval))
  older : ∀ r ∈ recs, ∀ s ∈ recs, r.valid = false → s.valid = true → r.time < s.time
  none : F = [] → recs = []
  len : recs.length ≤ o.deny
  bound : last < 2 ^ 63

/-- options under which accounts can be locked at all -/
structure Live (o : Opts) : Prop where
  deny : 0 < o.deny
  deny_le : o.deny ≤ maxRecords
  interval : 0 < o.failInterval
  unlock : o.unlockTime < 2 ^ 32
  rootUnlock : o.rootUnlockTime < 2 ^ 32
  exempt : ¬ Exempt o

theorem Inv.start (o : Opts) (last : Nat) (h : last < 2 ^ 63) : Inv o [] [] last :=
  ⟨by simp, by simp, by simp [vt], by simp, by simp, by simp, h⟩

theorem Inv.mono {o : Opts} {recs : List Rec} {F : List Nat} {last last' : Nat} (i : Inv o recs F last) (h : last ≤ last')
    (h' : last' < 2 ^ 63) : Inv o recs F last' :=
  ⟨fun r hr => ⟨(i.times r hr).1, Nat.le_trans (i.times r hr).2 h⟩, fun t ht => Nat.le_trans (i.fails t ht) h, i.perm, i.older,
    i.none, i.len, h'⟩

theorem Inv.nil {o : Opts} (hl : Live o) {F : List Nat} {last : Nat} (i : Inv o [] F last) : F = [] := by
  cases F with
  | nil => rfl
  | cons t ts =>
    exfalso
    have h1 : latest (t :: ts) ∈ (t :: ts).filter (fun x => latest (t :: ts) - x < o.failInterval) := by
      rw [List.mem_filter]
      refine ⟨latest_mem (by simp), ?_⟩
      simp only [Nat.sub_self, decide_eq_true_eq]
      exact hl.interval
    have := i.perm.symm.subset h1
    simp [vt] at this

theorem Inv.latest_vt {o : Opts} (hl : Live o) {recs : List Rec} {F : List Nat} {last : Nat} (i : Inv o recs F last) :
    latest (vt recs) = latest F := by
  by_cases hF : F = []
  · rw [i.none hF, hF]; rfl
  · apply latest_eq
    · intro t ht
      exact (List.mem_filter.mp (i.perm.subset ht)).1
    · apply i.perm.symm.subset
      rw [List.mem_filter]
      refine ⟨latest_mem hF, ?_⟩
      simp only [Nat.sub_self, decide_eq_true_eq]
      exact hl.interval

theorem filter_congr' {p q : Nat → Bool} : {l : List Nat} → (∀ t ∈ l, p t = q t) → l.filter p = l.filter q
  | [], _ => rfl
  | t :: ts, h => by
    rw [List.filter_cons, List.filter_cons, h t (by simp), filter_congr' (fun x hx => h x (by simp [hx]))]

theorem Inv.count {o : Opts} (hl : Live o) {recs : List Rec} {F : List Nat} {last : Nat} (i : Inv o recs F last) :
    countFailures o (latestTime 0 recs) 0 recs = recent o F := by
  rw [countFailures_eq, latestTime_eq, Nat.zero_max, i.latest_vt hl, Nat.zero_add]
  have hlt : latest F < 2 ^ 64 := by
    have := latest_le i.fails
    have := i.bound
    omega
  have e : (vt recs).filter (fun t => sub64 (latest F) t < o.failInterval) =
      (vt recs).filter (fun t => latest F - t < o.failInterval) := by
    apply filter_congr'
    intro t ht
    have : t ≤ latest F := le_latest (List.mem_filter.mp (i.perm.subset ht)).1
    rw [sub64_of_le this hlt]
  rw [e, (i.perm.filter _).length_eq, List.filter_filter]
  unfold recent
  simp

theorem Inv.judge {o : Opts} (hl : Live o) {recs : List Rec} {F : List Nat} {last : Nat} (i : Inv o recs F last) (now : Nat) :
    judge o now recs =
      if Locked o F now then ⟨PAM_AUTH_ERR, recs, true, false⟩
      else ⟨PAM_SUCCESS, recs, true, decide (TooMany o F)⟩ := by
  unfold Faillock.judge
  rw [if_neg (by have := hl.exempt; unfold Exempt at this; simpa using this)]
  simp only
  rw [i.count hl]
  have hlt : latest F < 2 ^ 63 := by
    have := latest_le i.fails
    have := i.bound
    omega
  have hexp : expired o (latestTime 0 recs) now = true ↔ Over o F now := by
    unfold expired Over unlockAfter
    rw [latestTime_eq, Nat.zero_max, i.latest_vt hl]
    have h1 := hl.unlock
    have h2 := hl.rootUnlock
    rw [add64_small (by omega), add64_small (by omega)]
    cases o.isAdmin <;> simp
  by_cases hT : TooMany o F
  · rw [if_pos (show o.deny ≠ 0 ∧ o.deny ≤ recent o F from hT)]
    by_cases hO : Over o F now
    · rw [if_pos (hexp.mpr hO), if_neg (fun h => h.2.2 hO)]; simp [hT]
    · rw [if_neg (fun h => hO (hexp.mp h)), if_pos ⟨hl.exempt, hT, hO⟩]
  · rw [if_neg (show ¬ (o.deny ≠ 0 ∧ o.deny ≤ recent o F) from hT), if_neg (fun h => hT h.2.1)]; simp [hT]

/-- Recording a failure when the account is not locked. -/
theorem Inv.add {o : Opts} (hl : Live o) {recs : List Rec} {F : List Nat} {last : Nat} (i : Inv o recs F last) {now : Nat}
    (h1 : last ≤ now) (h0 : 0 < now) (h2 : now < 2 ^ 63) (src : Kind × Str)
    (hover : TooMany o F → Over o F now) :
    Inv o (addFailure o now (decide (TooMany o F)) src recs) (if TooMany o F then [now] else now :: F) now := by
  have htime : ∀ r ∈ recs, 0 < r.time ∧ r.time ≤ now := fun r hr => ⟨(i.times r hr).1, Nat.le_trans (i.times r hr).2 h1⟩
  have hsub : ∀ t ≤ now, sub64 now t = now - t := fun t ht => sub64_of_le ht (by omega)
  -- the records with the old ones marked
  let inv := recs.map (invalidate o now (decide (TooMany o F)))
  have hinvmem : ∀ r ∈ inv, ∃ s ∈ recs, r = invalidate o now (decide (TooMany o F)) s := by
    intro r hr
    obtain ⟨s, hs, rfl⟩ := List.mem_map.mp hr
    exact ⟨s, hs, rfl⟩
  have hinvtime : ∀ r ∈ inv, 0 < r.time ∧ r.time ≤ now := by
    intro r hr
    obtain ⟨s, hs, rfl⟩ := hinvmem r hr
    rw [invalidate_time]; exact htime s hs
  have holder : ∀ r ∈ inv, ∀ s ∈ inv, r.valid = false → s.valid = true → r.time < s.time := by
    intro r hr s hs hv1 hv2
    obtain ⟨r', hr', rfl⟩ := hinvmem r hr
    obtain ⟨s', hs', rfl⟩ := hinvmem s hs
    rw [invalidate_time, invalidate_time]
    unfold invalidate at hv1 hv2
    split at hv2
    · cases hv2
    · rename_i hc2
      simp only [Bool.or_eq_true, decide_eq_true_eq, not_or] at hc2
      rw [hsub _ (htime s' hs').2] at hc2
      split at hv1
      · rename_i hc1
        simp only [Bool.or_eq_true, decide_eq_true_eq] at hc1
        rw [hsub _ (htime r' hr').2] at hc1
        rcases hc1 with hc1 | hc1
        · exact absurd hc1 hc2.1
        · have := hc2.2; omega
      · exact i.older r' hr' s' hs' hv1 hv2
  -- invalid ones are strictly in the past
  have hpast : ∀ r ∈ inv, r.valid = false → r.time < now := by
    intro r hr hv
    obtain ⟨r', hr', rfl⟩ := hinvmem r hr
    rw [invalidate_time]
    by_cases hval : r'.valid = true
    · unfold invalidate at hv
      split at hv
      · rename_i hc
        simp only [Bool.or_eq_true, decide_eq_true_eq] at hc
        rw [hsub _ (htime r' hr').2] at hc
        rcases hc with hT | hc
        · have hO := hover hT
          have h3 : r'.time ≤ latest F := by
            rw [← i.latest_vt hl]
            exact le_latest (mem_vt.mpr ⟨r', hr', hval, rfl⟩)
          have := hO.2
          omega
        · have := hl.interval
          have := htime r' hr'
          omega
      · rw [hval] at hv; cases hv
    · have hF : F ≠ [] := by
        rintro rfl
        have := i.none rfl
        rw [this] at hr'; cases hr'
      have hm : latest F ∈ vt recs := by
        apply i.perm.symm.subset
        rw [List.mem_filter]
        refine ⟨latest_mem hF, ?_⟩
        simp only [Nat.sub_self, decide_eq_true_eq]
        exact hl.interval
      obtain ⟨s, hs, hs1, hs2⟩ := mem_vt.mp hm
      have := i.older r' hr' s hs (by simpa using hval) hs1
      have := (htime s hs).2
      omega
  have hvt : (vt inv).Perm ((if TooMany o F then [] else F).filter (fun t => now - t < o.failInterval)) := by
    by_cases hT : TooMany o F
    · rw [if_pos hT]
      show (vt (recs.map (invalidate o now (decide (TooMany o F))))).Perm _
      rw [decide_eq_true hT, vt_invalidate_all]
      simp
    · rw [if_neg hT]
      show (vt (recs.map (invalidate o now (decide (TooMany o F))))).Perm _
      rw [decide_eq_false hT, vt_invalidate]
      have e : (vt recs).filter (fun t => sub64 now t < o.failInterval) =
          (vt recs).filter (fun t => now - t < o.failInterval) := by
        apply filter_congr'
        intro t ht
        obtain ⟨r, hr, -, rfl⟩ := mem_vt.mp ht
        rw [hsub _ (htime r hr).2]
      rw [e]
      refine (i.perm.filter _).trans ?_
      rw [List.filter_filter]
      rw [filter_congr' (q := fun t => decide (now - t < o.failInterval))]
      intro t ht
      have hle : latest F ≤ now := Nat.le_trans (latest_le i.fails) h1
      by_cases hc : now - t < o.failInterval
      · have : latest F - t < o.failInterval := by omega
        simp [hc, this]
      · simp [hc]
  have hF' : (if TooMany o F then [now] else now :: F) = now :: (if TooMany o F then [] else F) := by split <;> rfl
  have hfails : ∀ t ∈ (if TooMany o F then [] else F), t ≤ now := by
    intro t ht
    split at ht
    · cases ht
    · exact Nat.le_trans (i.fails t ht) h1
  have hlatest : latest (now :: (if TooMany o F then [] else F)) = now := by
    rw [latest_cons]
    exact Nat.max_eq_left (latest_le hfails)
  rw [hF']
  constructor
  · intro r hr
    rcases mem_place hr with hr | rfl
    · exact hinvtime r hr
    · exact ⟨h0, Nat.le_refl _⟩
  · intro t ht
    rcases List.mem_cons.mp ht with rfl | ht
    · exact Nat.le_refl _
    · exact hfails t ht
  · rw [hlatest, List.filter_cons, if_pos (by simp only [Nat.sub_self, decide_eq_true_eq]; exact hl.interval)]
    exact (place_vt rfl).trans (hvt.cons now)
  · intro r hr s hs hv1 hv2
    rcases mem_place hr with hr | rfl
    · rcases mem_place hs with hs | rfl
      · exact holder r hr s hs hv1 hv2
      · exact hpast r hr hv1
    · cases hv1
  · intro h; cases h
  · -- the length
    have hlen : inv.length = recs.length := List.length_map ..
    have happ : (∀ r ∈ inv, r.valid = true) → (inv ++ [(⟨src.1, src.2, true, now⟩ : Rec)]).length ≤ o.deny := by
      intro hall
      have e1 : inv.length = (vt inv).length := by
        unfold vt
        rw [List.filter_eq_self.mpr hall]; simp only [List.length_map]
      rw [List.length_append, List.length_singleton, e1, hvt.length_eq]
      by_cases hT : TooMany o F
      · rw [if_pos hT]; have := hl.deny; simp only [List.filter_nil, List.length_nil]; omega
      · rw [if_neg hT]
        have h3 : ¬ o.deny ≤ recent o F := fun h => hT ⟨by have := hl.deny; omega, h⟩
        have h4 : (F.filter (fun t => now - t < o.failInterval)).length ≤ recent o F := by
          unfold recent
          rw [← List.countP_eq_length_filter, ← List.countP_eq_length_filter]
          apply List.countP_mono_left
          intro t ht hc
          have hle : latest F ≤ now := Nat.le_trans (latest_le i.fails) h1
          simp only [decide_eq_true_eq] at hc ⊢
          omega
        omega
    show (place inv _ _).length ≤ _
    unfold place
    by_cases hne : recs = []
    · have hnil : inv = [] := by show recs.map _ = []; rw [hne]; rfl
      rw [hnil] at happ ⊢
      exact happ (by simp)
    · obtain ⟨r, hr1, hr2⟩ := oldest_spec (fun r hr => (htime r hr).1) hne
      have hr3 : inv[findOldest 0 0 0 recs]? = some (invalidate o now (decide (TooMany o F)) r) := by
        show (recs.map _)[_]? = _
        rw [List.getElem?_map, hr1]; rfl
      rw [hr3]
      simp only
      split
      · rename_i hv
        apply happ
        intro s hs
        cases hsv : s.valid
        · exfalso
          have hrm : invalidate o now (decide (TooMany o F)) r ∈ inv := List.mem_of_getElem? hr3
          have := holder s hs _ hrm hsv hv
          obtain ⟨s', hs', rfl⟩ := hinvmem s hs
          rw [invalidate_time, invalidate_time] at this
          have := hr2 s' hs'
          omega
        · rfl
      · rw [List.length_set, hlen]; exact i.len
  · exact h2

/-! ## histories -/

theorem readTally_self {recs : List Rec} (h : recs.length ≤ maxRecords) : readTally recs = recs := List.take_of_length_le h

theorem checkTally_file {o : Opts} {recs : List Rec} (h : recs.length ≤ maxRecords) (now : Nat) :
    checkTally o .fine now (some recs) = judge o now recs := by
  show judge o now (readTally recs) = _
  rw [readTally_self h]

theorem judge_recs (o : Opts) (now : Nat) (recs : List Rec) :
    (judge o now recs).recs = recs ∧ (judge o now recs).opened = true := by
  unfold judge
  split
  · exact ⟨rfl, rfl⟩
  · simp only
    split
    · split <;> exact ⟨rfl, rfl⟩
    · exact ⟨rfl, rfl⟩

theorem not_tooMany_nil {o : Opts} (hl : Live o) : ¬ TooMany o [] := by
  intro h
  have := h.2
  have := hl.deny
  simp only [recent, List.filter_nil, List.length_nil] at *
  omega

theorem act_none_fail (o : Opts) (now : Nat) (src : Kind × Str) :
    (act o .fine .authfail now src none) =
      (PAM_IGNORE, some (updateTally .fine (addFailure o now false src []) [])) := rfl

/-- One event. -/
theorem Inv.event {o : Opts} (hl : Live o) {file : File} {F : List Nat} {last : Nat} (i : Inv o (file.getD []) F last)
    (e : Event) (he : ∀ t, e.time = some t → last ≤ t ∧ 0 < t ∧ t < 2 ^ 63) :
    Inv o ((doEvent o file e).getD []) (after o F e) (e.time.getD last) := by
  have hcheck : ∀ recs, file = some recs → ∀ now, checkTally o .fine now file =
      if Locked o F now then ⟨PAM_AUTH_ERR, recs, true, false⟩
      else ⟨PAM_SUCCESS, recs, true, decide (TooMany o F)⟩ := by
    rintro recs rfl now
    rw [checkTally_file (recs := recs) (Nat.le_trans i.len hl.deny_le)]
    exact i.judge hl now
  have hclear : ∀ t, t < 2 ^ 63 → Inv o [] [] t := Inv.start o
  cases e with
  | fail t src =>
    obtain ⟨h1, h0, h2⟩ := he t rfl
    simp only [doEvent, after, Event.time, Option.getD_some]
    cases file with
    | none =>
      have hF : F = [] := i.nil hl
      subst hF
      rw [act_none_fail]
      have hL : ¬ Locked o [] t := fun h => not_tooMany_nil hl h.2.1
      have hT := not_tooMany_nil hl
      rw [if_neg hL, if_neg (fun h => hT h.2)]
      have := i.add hl h1 h0 h2 src (fun h => absurd h hT)
      rw [if_neg hT, decide_eq_false hT] at this
      have h3 : (addFailure o t false src []).length ≤ maxRecords := Nat.le_trans this.len hl.deny_le
      have h4 : updateTally .fine (addFailure o t false src []) [] = addFailure o t false src [] := by
        unfold updateTally IO.fine
        simp only
        rw [Nat.sub_eq_zero_of_le h3, List.drop_zero]
      rw [h4]
      exact this
    | some recs =>
      simp only [act]
      rw [hcheck recs rfl t]
      by_cases hL : Locked o F t
      · rw [if_pos hL, if_pos hL]
        rw [if_neg (show ¬ PAM_AUTH_ERR = PAM_SUCCESS by decide)]
        exact i.mono h1 h2
      · rw [if_neg hL, if_neg hL]
        simp only [if_true, writeTally, Option.map_some, Option.getD_some]
        have hov : TooMany o F → Over o F t := by
          intro hT
          by_cases hO : Over o F t
          · exact hO
          · exact absurd ⟨hl.exempt, hT, hO⟩ hL
        have := i.add hl h1 h0 h2 src hov
        have e1 : (¬ Exempt o ∧ TooMany o F) ↔ TooMany o F := ⟨fun h => h.2, fun h => ⟨hl.exempt, h⟩⟩
        have e2 : (if ¬ Exempt o ∧ TooMany o F then [t] else t :: F) = (if TooMany o F then [t] else t :: F) := by
          by_cases hT : TooMany o F
          · rw [if_pos (e1.mpr hT), if_pos hT]
          · rw [if_neg (fun h => hT h.2), if_neg hT]
        rw [e2]
        simp only [Option.getD_some] at this
        have h3 : (addFailure o t (decide (TooMany o F)) src recs).length ≤ maxRecords := Nat.le_trans this.len hl.deny_le
        have h4 : updateTally .fine (addFailure o t (decide (TooMany o F)) src recs) recs =
            addFailure o t (decide (TooMany o F)) src recs := by
          unfold updateTally IO.fine
          simp only
          rw [Nat.sub_eq_zero_of_le h3, List.drop_zero]
        rw [h4]
        exact this
  | success t =>
    obtain ⟨h1, h0, h2⟩ := he t rfl
    simp only [doEvent, after, Event.time, Option.getD_some]
    cases file with
    | none =>
      have hF : F = [] := i.nil hl
      subst hF
      have hL : ¬ Locked o [] t := fun h => not_tooMany_nil hl h.2.1
      rw [if_neg hL]
      exact hclear t h2
    | some recs =>
      simp only [act]
      rw [hcheck recs rfl t]
      by_cases hL : Locked o F t
      · rw [if_pos hL, if_pos hL]
        rw [if_neg (show ¬ PAM_AUTH_ERR = PAM_SUCCESS by decide)]
        exact i.mono h1 h2
      · rw [if_neg hL, if_neg hL]
        exact hclear t h2
  | account t =>
    obtain ⟨h1, h0, h2⟩ := he t rfl
    simp only [doEvent, after, Event.time, Option.getD_some]
    cases file with
    | none => exact hclear t h2
    | some recs =>
      have : (checkTally o .fine t (some recs)).opened = true := by
        rw [checkTally_file (recs := recs) (Nat.le_trans i.len hl.deny_le)]; exact (judge_recs ..).2
      simp only [acctMgmt, Bool.not_true, Bool.false_eq_true, if_false, if_true, this]
      exact hclear t h2
  | reset => exact hclear last i.bound
  | ask t =>
    obtain ⟨h1, h0, h2⟩ := he t rfl
    exact i.mono h1 h2

theorem Inv.history {o : Opts} (hl : Live o) (h : List Event) : ∀ {file : File} {F : List Nat} {last : Nat},
    Inv o (file.getD []) F last → Forward last h →
    Inv o ((h.foldl (doEvent o) file).getD []) (h.foldl (after o) F) (lastTime last h) := by
  induction h with
  | nil => intro file F last i _; exact i
  | cons e es ih =>
    intro file F last i hf
    rw [List.foldl_cons, List.foldl_cons, lastTime]
    have he : ∀ t, e.time = some t → last ≤ t ∧ 0 < t ∧ t < 2 ^ 63 := by
      intro t ht
      rw [Forward, ht] at hf
      exact ⟨hf.1, hf.2.1, hf.2.2.1⟩
    refine ih (i.event hl e he) ?_
    rw [Forward] at hf
    cases ht : e.time with
    | none => rw [ht] at hf; exact hf
    | some t => rw [ht] at hf; exact hf.2.2.2

/-! ## options under which nothing is ever locked -/

theorem judge_dead {o : Opts} (h : o.deny = 0 ∨ o.failInterval = 0 ∨ Exempt o) (now : Nat) (recs : List Rec) :
    (judge o now recs).code = PAM_SUCCESS := by
  unfold judge
  split
  · rfl
  · rename_i hE
    simp only
    split
    · rename_i hc
      exfalso
      rcases h with h | h | h
      · exact hc.1 h
      · rw [countFailures_eq, h] at hc
        simp only [Nat.not_lt_zero, decide_false, Nat.zero_add] at hc
        have := hc.2
        have e : ((vt recs).filter (fun _ => false)).length = 0 := by simp
        rw [e] at this
        omega
      · apply hE; rw [h.1, h.2]; rfl
    · rfl

theorem not_locked_dead {o : Opts} (h : o.deny = 0 ∨ o.failInterval = 0 ∨ Exempt o) (F : List Nat) (now : Nat) :
    ¬ Locked o F now := by
  rintro ⟨h1, h2, -⟩
  rcases h with h | h | h
  · exact h2.1 h
  · have := h2.2
    have h3 := h2.1
    unfold recent at this
    rw [h] at this
    simp only [Nat.not_lt_zero, decide_false] at this
    have e : (F.filter (fun _ => false)).length = 0 := by simp
    rw [e] at this
    omega
  · exact h1 h

end Pam.Faillock
