import Verif.Limits.Lemmas
/-
What a table of entries makes of the limits, and of a session.
-/
namespace Pam.Limits
open Pam Pam.Limits.Spec
open Pam.Access hiding Entry

theorem store_soft {k : Src} {r : Res} {b : Bool} {v : Int × Nat} {pl : Pl} :
    if (pl.srcSoft r).rank < k.rank then store k (.rlimit r) (true, b) v pl = pl
    else (store k (.rlimit r) (true, b) v pl).srcSoft r = k ∧ (store k (.rlimit r) (true, b) v pl).cur r = v.2 := by
  unfold store storeSoft
  simp only [if_true]
  by_cases h : (pl.srcSoft r).rank < k.rank
  · rw [if_pos h]
    simp only [h, if_true]
  · rw [if_neg h]
    simp only [h, if_false]
    unfold storeHard
    cases b
    · exact ⟨set_eq _ _ _, set_eq _ _ _⟩
    · simp only [if_true]
      split <;> exact ⟨set_eq _ _ _, set_eq _ _ _⟩

/-- the hard half of an entry that is not stopped by the soft half -/
theorem store_hard {k : Src} {r : Res} {b : Bool} {v : Int × Nat} {pl : Pl} (hb : b = true → ¬ (pl.srcSoft r).rank < k.rank) :
    if (pl.srcHard r).rank < k.rank then (store k (.rlimit r) (b, true) v pl).srcHard r = pl.srcHard r ∧
      (store k (.rlimit r) (b, true) v pl).max r = pl.max r
    else (store k (.rlimit r) (b, true) v pl).srcHard r = k ∧ (store k (.rlimit r) (b, true) v pl).max r = v.2 := by
  unfold store storeSoft storeHard
  cases b
  · simp only [Bool.false_eq_true, if_true, if_false]
    by_cases h : (pl.srcHard r).rank < k.rank
    · rw [if_pos h, if_pos h]; exact ⟨rfl, rfl⟩
    · rw [if_neg h, if_neg h]; exact ⟨set_eq _ _ _, set_eq _ _ _⟩
  · simp only [if_true, hb rfl, if_false]
    by_cases h : (pl.srcHard r).rank < k.rank
    · rw [if_pos h, if_pos h]; exact ⟨rfl, rfl⟩
    · rw [if_neg h, if_neg h]; exact ⟨set_eq _ _ _, set_eq _ _ _⟩

theorem store_onlyhard {k : Src} {r : Res} {v : Int × Nat} {pl : Pl} :
    (store k (.rlimit r) (false, true) v pl).srcSoft r = pl.srcSoft r ∧ (store k (.rlimit r) (false, true) v pl).cur r = pl.cur r := by
  unfold store storeSoft storeHard
  simp only [Bool.false_eq_true, if_true, if_false]
  split <;> exact ⟨rfl, rfl⟩

theorem store_onlysoft {k : Src} {r : Res} {v : Int × Nat} {pl : Pl} :
    (store k (.rlimit r) (true, false) v pl).srcHard r = pl.srcHard r ∧ (store k (.rlimit r) (true, false) v pl).max r = pl.max r := by
  unfold store storeSoft storeHard
  simp only [Bool.false_eq_true, if_true, if_false]
  by_cases h : (pl.srcSoft r).rank < k.rank
  · simp only [h, if_true, and_self]
  · simp only [h, if_false, and_self]

theorem four_soft {pl pl' : Pl} {r : Res} (h : four pl r = four pl' r) : pl.srcSoft r = pl'.srcSoft r ∧ pl.cur r = pl'.cur r := by
  unfold four at h
  simp only [Prod.mk.injEq] at h
  exact ⟨h.2.2.1, h.1⟩

theorem four_hard {pl pl' : Pl} {r : Res} (h : four pl r = four pl' r) : pl.srcHard r = pl'.srcHard r ∧ pl.max r = pl'.max r := by
  unfold four at h
  simp only [Prod.mk.injEq] at h
  exact ⟨h.2.2.2, h.2.1⟩

theorem type_none {r : Res} {s : Str} {ty : Bool × Bool} (h : typeOf (.rlimit r) s = some ty) : ty.1 = true ∨ ty.2 = true := by
  unfold typeOf at h
  split at h
  · cases h; exact Or.inl rfl
  split at h
  · cases h; exact Or.inr rfl
  split at h
  · cases h; exact Or.inl rfl
  rw [if_neg (by rintro (h | h | h) <;> cases h)] at h
  cases h

/-- the soft limit after a table -/
theorem fold_soft (sys : Sys) (u : User) (r : Res) (es : List Entry)
    (hv : ∀ e ∈ es, ∀ k, SetsSoft sys u r e k → ∃ n, Means sys r e.value n) (pl : Pl) :
    (∃ e k, Wins (SetsSoft sys u r) es e k ∧ k.rank ≤ (pl.srcSoft r).rank ∧ (es.foldl (apply sys u) pl).srcSoft r = k ∧
      Means sys r e.value ((es.foldl (apply sys u) pl).cur r)) ∨
    ((∀ e ∈ es, ∀ k, SetsSoft sys u r e k → (pl.srcSoft r).rank < k.rank) ∧ (es.foldl (apply sys u) pl).srcSoft r = pl.srcSoft r ∧
      (es.foldl (apply sys u) pl).cur r = pl.cur r) := by
  refine fold_wins (SetsSoft sys u r) (fun e n => Means sys r e.value n) (fun pl => pl.srcSoft r) (fun pl => pl.cur r) (apply sys u)
    (fun _ => True) (fun _ => True) (fun _ _ _ _ => trivial) ?_ ?_ ?_ es pl (fun _ _ => trivial) trivial hv
  · intro e k k' h h'
    obtain ⟨b, h⟩ := setsSoft_iff.mp h
    obtain ⟨b', h'⟩ := setsSoft_iff.mp h'
    exact (sets_uniq h h').1
  · intro pl e k n _ _ h hm
    obtain ⟨b, h⟩ := setsSoft_iff.mp h
    obtain ⟨v, h1, h2⟩ := value_means hm
    rw [apply_sets h h1]
    have := store_soft (k := k) (r := r) (b := b) (v := scale sys.nrOpen (.rlimit r) v) (pl := pl)
    split
    · rename_i hlt
      rw [if_pos hlt] at this
      rw [this]
      exact ⟨rfl, rfl⟩
    · rename_i hlt
      rw [if_neg hlt] at this
      rw [h2] at this
      exact this
  · intro pl e _ _ hn
    by_cases h : ∃ k ty v, Sets sys u r e k ty ∧ readValue (.rlimit r) e.value = some v
    · obtain ⟨k, ⟨a, b⟩, v, h, h1⟩ := h
      cases a with
      | true => exact absurd (setsSoft_iff.mpr ⟨b, h⟩) (hn k)
      | false =>
        have hb : b = true := (type_none h.2.1).resolve_left (by simp)
        subst hb
        rw [apply_sets h h1]
        exact store_onlyhard
    · exact four_soft (apply_not (fun k ty v h1 h2 => h ⟨k, ty, v, h1, h2⟩))

/-- the hard limit after a table, if soft entries are not mixed with those for both -/
theorem fold_hard (sys : Sys) (u : User) (r : Res) (es : List Entry) (hmix : Unmixed sys u r es)
    (hv : ∀ e ∈ es, ∀ k, SetsHard sys u r e k → ∃ n, Means sys r e.value n) (pl : Pl) (hpl : (pl.srcHard r).rank ≤ (pl.srcSoft r).rank) :
    (∃ e k, Wins (SetsHard sys u r) es e k ∧ k.rank ≤ (pl.srcHard r).rank ∧ (es.foldl (apply sys u) pl).srcHard r = k ∧
      Means sys r e.value ((es.foldl (apply sys u) pl).max r)) ∨
    ((∀ e ∈ es, ∀ k, SetsHard sys u r e k → (pl.srcHard r).rank < k.rank) ∧ (es.foldl (apply sys u) pl).srcHard r = pl.srcHard r ∧
      (es.foldl (apply sys u) pl).max r = pl.max r) := by
  have huniq : ∀ e k k', SetsHard sys u r e k → SetsHard sys u r e k' → k = k' := by
    intro e k k' h h'
    obtain ⟨b, h⟩ := setsHard_iff.mp h
    obtain ⟨b', h'⟩ := setsHard_iff.mp h'
    exact (sets_uniq h h').1
  have hnot : ∀ (pl : Pl) (e : Entry), (∀ k, ¬ SetsHard sys u r e k) →
      (apply sys u pl e).srcHard r = pl.srcHard r ∧ (apply sys u pl e).max r = pl.max r := by
    intro pl e hn
    by_cases h : ∃ k ty v, Sets sys u r e k ty ∧ readValue (.rlimit r) e.value = some v
    · obtain ⟨k, ⟨a, b⟩, v, h, h1⟩ := h
      cases b with
      | true => exact absurd (setsHard_iff.mpr ⟨a, h⟩) (hn k)
      | false =>
        have ha : a = true := (type_none h.2.1).resolve_right (by simp)
        subst ha
        rw [apply_sets h h1]
        exact store_onlysoft
    · exact four_hard (apply_not (fun k ty v h1 h2 => h ⟨k, ty, v, h1, h2⟩))
  have dash : typeOf (.rlimit r) "-".toList = some (true, true) := by
    unfold typeOf
    rw [if_neg (by decide), if_neg (by decide), if_pos rfl]
  have soft : typeOf (.rlimit r) "soft".toList = some (true, false) := by
    unfold typeOf
    rw [if_pos rfl]
  rcases hmix with hmix | hmix
  · -- no entry for the soft limit alone
    refine fold_wins (SetsHard sys u r) (fun e n => Means sys r e.value n) (fun pl => pl.srcHard r) (fun pl => pl.max r) (apply sys u)
      (fun pl => (pl.srcHard r).rank ≤ (pl.srcSoft r).rank) (fun e => ∀ k, ¬ Sets sys u r e k (true, false))
      ?_ huniq ?_ (fun pl e _ _ hn => hnot pl e hn) es pl ?_ hpl hv
    · intro pl e hP hI
      by_cases h : ∃ k ty v, Sets sys u r e k ty ∧ readValue (.rlimit r) e.value = some v
      · obtain ⟨k, ⟨a, b⟩, v, h, h1⟩ := h
        rw [apply_sets h h1]
        cases b with
        | false =>
          have ha : a = true := (type_none h.2.1).resolve_right (by simp)
          subst ha
          exact absurd h (hP k)
        | true =>
          cases a with
          | false =>
            have s := store_onlyhard (k := k) (r := r) (v := scale sys.nrOpen (.rlimit r) v) (pl := pl)
            have t := store_hard (k := k) (r := r) (b := false) (v := scale sys.nrOpen (.rlimit r) v) (pl := pl) (by simp)
            rw [s.1]
            split at t
            · rw [t.1]; exact hI
            · rw [t.1]; omega
          | true =>
            have s := store_soft (k := k) (r := r) (b := true) (v := scale sys.nrOpen (.rlimit r) v) (pl := pl)
            by_cases hlt : (pl.srcSoft r).rank < k.rank
            · rw [if_pos hlt] at s
              rw [s]; exact hI
            · rw [if_neg hlt] at s
              have t := store_hard (k := k) (r := r) (b := true) (v := scale sys.nrOpen (.rlimit r) v) (pl := pl) (fun _ => hlt)
              rw [s.1]
              split at t
              · rw [t.1]; omega
              · rw [t.1]; omega
      · have := four_soft (apply_not (pl := pl) (fun k ty v h1 h2 => h ⟨k, ty, v, h1, h2⟩))
        have h' := four_hard (apply_not (pl := pl) (fun k ty v h1 h2 => h ⟨k, ty, v, h1, h2⟩))
        rw [this.1, h'.1]; exact hI
    · intro pl e k n hP hI h hm
      obtain ⟨a, h⟩ := setsHard_iff.mp h
      obtain ⟨v, h1, h2⟩ := value_means hm
      rw [apply_sets h h1]
      by_cases hlt : a = true ∧ (pl.srcSoft r).rank < k.rank
      · obtain ⟨ha, hlt⟩ := hlt
        subst ha
        have s := store_soft (k := k) (r := r) (b := true) (v := scale sys.nrOpen (.rlimit r) v) (pl := pl)
        rw [if_pos hlt] at s
        rw [s, if_pos (by omega)]
        exact ⟨rfl, rfl⟩
      · have t := store_hard (k := k) (r := r) (b := a) (v := scale sys.nrOpen (.rlimit r) v) (pl := pl) (fun ha hh => hlt ⟨ha, hh⟩)
        rw [h2] at t
        exact t
    · intro e he k hs
      refine hmix e he k (setsSoft_iff.mpr ⟨_, hs⟩) ?_
      have := hs.2.1
      rcases type_soft.mp ⟨false, this⟩ with h | h
      · exact h
      · rw [h, dash] at this
        cases this
  · refine fold_wins (SetsHard sys u r) (fun e n => Means sys r e.value n) (fun pl => pl.srcHard r) (fun pl => pl.max r) (apply sys u)
      (fun _ => True) (fun e => ∀ k, ¬ Sets sys u r e k (true, true))
      (fun _ _ _ _ => trivial) huniq ?_ (fun pl e _ _ hn => hnot pl e hn) es pl ?_ trivial hv
    · intro pl e k n hP _ h hm
      obtain ⟨a, h⟩ := setsHard_iff.mp h
      obtain ⟨v, h1, h2⟩ := value_means hm
      rw [apply_sets h h1]
      have ha : a = false := by
        cases a
        · rfl
        · exact absurd h (hP k)
      subst ha
      have t := store_hard (k := k) (r := r) (b := false) (v := scale sys.nrOpen (.rlimit r) v) (pl := pl) (by simp)
      rw [h2] at t
      exact t
    · intro e he k hs
      refine hmix e he k (setsSoft_iff.mpr ⟨_, hs⟩) ?_
      have := hs.2.1
      rcases type_soft.mp ⟨true, this⟩ with h | h
      · rw [h, soft] at this
        cases this
      · exact h

/-- has a limit of the resource been set? -/
theorem fold_touched (sys : Sys) (u : User) (r : Res) : ∀ (es : List Entry),
    (∀ e ∈ es, ∀ k, SetsSoft sys u r e k ∨ SetsHard sys u r e k → ∃ n, Means sys r e.value n) → ∀ (pl : Pl),
    (((es.foldl (apply sys u) pl).srcSoft r = .none ∧ (es.foldl (apply sys u) pl).srcHard r = .none) ↔
      (pl.srcSoft r = .none ∧ pl.srcHard r = .none) ∧ ∀ e ∈ es, ∀ k, k.rank < 6 → ¬ (SetsSoft sys u r e k ∨ SetsHard sys u r e k)) := by
  intro es
  induction es with
  | nil =>
    intro _ pl
    exact ⟨fun h => ⟨h, fun e he => by (cases he)⟩, fun h => h.1⟩
  | cons x es ih =>
    intro hv pl
    rw [List.foldl_cons, ih (fun e he => hv e (by simp [he]))]
    have rank6 : ∀ k : Src, ¬ (6 : Nat) < k.rank := by intro k; cases k <;> decide
    have rankn : ∀ k : Src, k.rank < 6 → k ≠ .none := by intro k; cases k <;> decide
    have step : ((apply sys u pl x).srcSoft r = .none ∧ (apply sys u pl x).srcHard r = .none) ↔
        (pl.srcSoft r = .none ∧ pl.srcHard r = .none) ∧ ∀ k, k.rank < 6 → ¬ (SetsSoft sys u r x k ∨ SetsHard sys u r x k) := by
      by_cases h : ∃ k ty v, Sets sys u r x k ty ∧ readValue (.rlimit r) x.value = some v
      · obtain ⟨k, ⟨a, b⟩, v, h, h1⟩ := h
        rw [apply_sets h h1]
        have hk : SetsSoft sys u r x k ∨ SetsHard sys u r x k := by
          cases a with
          | true => exact Or.inl (setsSoft_iff.mpr ⟨b, h⟩)
          | false =>
            have hb : b = true := (type_none h.2.1).resolve_left (by simp)
            subst hb
            exact Or.inr (setsHard_iff.mpr ⟨_, h⟩)
        have hkn : k.rank < 6 := by
          have := h.2.2.1.2
          unfold sourceOf at this
          repeat' split at this
          all_goals first | (cases this; decide) | cases this
        have hall : ¬ ((pl.srcSoft r = .none ∧ pl.srcHard r = .none) ∧
            ∀ k, k.rank < 6 → ¬ (SetsSoft sys u r x k ∨ SetsHard sys u r x k)) := fun hh => hh.2 k hkn hk
        refine ⟨fun hh => ?_, fun hh => absurd hh hall⟩
        exfalso
        obtain ⟨ha, hb⟩ := hh
        have hsoft := store_soft (k := k) (r := r) (b := b) (v := scale sys.nrOpen (.rlimit r) v) (pl := pl)
        cases a with
        | true =>
          split at hsoft
          · rename_i hlt
            rw [hsoft] at ha
            rw [ha] at hlt
            exact rank6 k hlt
          · rw [hsoft.1] at ha
            exact rankn k hkn ha
        | false =>
          have hb' : b = true := (type_none h.2.1).resolve_left (by simp)
          subst hb'
          have t := store_hard (k := k) (r := r) (b := false) (v := scale sys.nrOpen (.rlimit r) v) (pl := pl) (by simp)
          split at t
          · rename_i hlt
            rw [t.1] at hb
            rw [hb] at hlt
            exact rank6 k hlt
          · rw [t.1] at hb
            exact rankn k hkn hb
      · have hs := four_soft (apply_not (pl := pl) (fun k ty v h1 h2 => h ⟨k, ty, v, h1, h2⟩))
        have hh := four_hard (apply_not (pl := pl) (fun k ty v h1 h2 => h ⟨k, ty, v, h1, h2⟩))
        rw [hs.1, hh.1]
        refine ⟨fun hp => ⟨hp, fun k _ hk => ?_⟩, fun hp => hp.1⟩
        obtain ⟨n, hn⟩ := hv x (by simp) k hk
        obtain ⟨v, h1, _⟩ := value_means hn
        rcases hk with hk | hk
        · obtain ⟨b, hk⟩ := setsSoft_iff.mp hk
          exact h ⟨k, _, v, hk, h1⟩
        · obtain ⟨b, hk⟩ := setsHard_iff.mp hk
          exact h ⟨k, _, v, hk, h1⟩
    rw [step]
    constructor
    · rintro ⟨⟨h1, h2⟩, h3⟩
      refine ⟨h1, fun e he => ?_⟩
      rcases List.mem_cons.mp he with rfl | he
      · exact h2
      · exact h3 e he
    · rintro ⟨h1, h2⟩
      exact ⟨⟨h1, h2 x (by simp)⟩, fun e he => h2 e (by simp [he])⟩

theorem stands_rank {sys : Sys} {u : User} {d : Str} {k : Src} (h : Stands sys u d k) : k.rank < 5 := by
  have := h.2
  unfold sourceOf at this
  repeat' split at this
  all_goals first | (cases this; decide) | cases this

/-! ## files -/

theorem parseFiles_reads {sys : Sys} {u : User} {open_ : Str → Except Errno (List Str)} {fs lines : List Str} (h : Reads open_ fs lines) :
    ∀ pl, parseFiles sys u open_ pl fs = match parseLines sys u pl lines with
      | none => .ignore
      | some pl => .ok pl := by
  induction h with
  | nil => intro pl; rfl
  | file h _ ih =>
    intro pl
    rw [parseFiles, h, parseLines_append]
    unfold parseFile
    simp only
    cases parseLines sys u pl _ with
    | none => rfl
    | some pl => exact ih pl
  | missing h _ ih =>
    intro pl
    rw [parseFiles, h]
    exact ih pl

theorem session_lines {sys : Sys} {c : Call} {argv : List Str} {u : User} {prio : Int} {lines : List Str} (hc : Ready c u prio)
    (hl : ReadsAll c (parseArgs argv) lines) :
    openSession sys c argv = match parseLines sys u (initLimits c (parseArgs argv).setAll prio) lines with
      | none => (PAM_SUCCESS, [])
      | some pl =>
        (if (setupLimits sys u c.works (parseArgs argv).early c.utmp pl).1 then PAM_SUCCESS else PAM_PERM_DENIED,
          (setupLimits sys u c.works (parseArgs argv).early c.utmp pl).2) := by
  obtain ⟨name, h1, h2, h3, h4⟩ := hc
  unfold openSession
  simp only [h1, h2, h3, h4, Bool.false_eq_true, if_false]
  unfold ReadsAll at hl
  cases hf : (parseArgs argv).conf with
  | some f =>
    rw [hf] at hl
    simp only at hl
    simp only [Option.getD_some, hl, parseFile, Option.isSome_some, if_true]
    cases parseLines sys u (initLimits c (parseArgs argv).setAll prio) lines <;> rfl
  | none =>
    rw [hf] at hl
    simp only at hl
    have := parseFiles_reads (sys := sys) (u := u) hl (initLimits c (parseArgs argv).setAll prio)
    rw [parseFiles] at this
    simp only [Option.getD_none, Option.isSome_none, Bool.false_eq_true, if_false]
    revert this
    cases parseFile sys u false (c.open_ c.default) (initLimits c (parseArgs argv).setAll prio) with
    | ok pl =>
      simp only
      intro this
      rw [this]
      cases parseLines sys u (initLimits c (parseArgs argv).setAll prio) lines <;> rfl
    | ignore =>
      simp only
      intro this
      revert this
      cases parseLines sys u (initLimits c (parseArgs argv).setAll prio) lines with
      | none => intro _; rfl
      | some _ => intro h; cases h
    | error =>
      simp only
      intro this
      revert this
      cases parseLines sys u (initLimits c (parseArgs argv).setAll prio) lines with
      | none => intro h; cases h
      | some _ => intro h; cases h

theorem res_all (r : Res) : r ∈ Res.all := by cases r <;> decide

theorem mem_effects {sys : Sys} {u : User} {works : Effect → Bool} {early : Bool} {utmp : List Utmp} {pl : Pl} {r : Res} {cur max : Nat} :
    Effect.setrlimit r cur max ∈ (setupLimits sys u works early utmp pl).2 ↔
      pl.supported r = true ∧ ¬ (pl.srcSoft r = .none ∧ pl.srcHard r = .none) ∧ cur = min (pl.cur r) (pl.max r) ∧ max = pl.max r := by
  have e : Effect.setrlimit r cur max ∈ (setupLimits sys u works early utmp pl).2 ↔ Effect.setrlimit r cur max ∈ rlimits pl := by
    unfold setupLimits
    simp only [List.mem_append, List.mem_singleton]
    constructor
    · rintro ((h | h) | h)
      · exact h
      · cases h
      · split at h
        · simp at h
        · cases h
    · exact fun h => Or.inl (Or.inl h)
  rw [e]
  unfold rlimits
  simp only [List.mem_map, List.mem_filter, Effect.setrlimit.injEq]
  constructor
  · rintro ⟨a, ⟨_, h1⟩, rfl, rfl, rfl⟩
    simp only [Bool.and_eq_true, Bool.not_eq_true', Bool.and_eq_false_iff, decide_eq_false_iff_not] at h1
    refine ⟨h1.1, fun h => h1.2.elim (fun h' => h' h.1) (fun h' => h' h.2), ?_, rfl⟩
    split <;> omega
  · rintro ⟨h1, h2, h3, h4⟩
    refine ⟨r, ⟨res_all r, ?_⟩, rfl, ?_, h4.symm⟩
    · simp only [Bool.and_eq_true, Bool.not_eq_true', Bool.and_eq_false_iff, decide_eq_false_iff_not]
      refine ⟨h1, ?_⟩
      by_cases hs : pl.srcSoft r = .none
      · exact Or.inr (fun h => h2 ⟨hs, h⟩)
      · exact Or.inl hs
    · rw [h3]
      split <;> omega

theorem apply_supported (sys : Sys) (u : User) (pl : Pl) (e : Entry) : (apply sys u pl e).supported = pl.supported := by
  have hf : ∀ it pl, (flag it pl).supported = pl.supported := by intro it pl; cases it <;> rfl
  have hg : ∀ (pl : Pl) (p : Prop) [Decidable p] (g : Option Str), (if p then { pl with loginGroup := g } else pl).supported = pl.supported := by
    intro pl p _ g; split <;> rfl
  have hs : ∀ src it ty v (pl : Pl), (store src it ty v pl).supported = pl.supported := by
    intro src it ty v pl
    unfold store
    cases it with
    | rlimit r =>
      simp only
      unfold storeSoft storeHard
      by_cases h1 : ty.1 = true
      · by_cases h2 : (pl.srcSoft r).rank < src.rank
        · simp only [h1, h2, if_true]
        · simp only [h1, h2, if_true, if_false]
          split
          · split <;> rfl
          · rfl
      · simp only [h1, if_false, Bool.false_eq_true]
        split
        · split <;> rfl
        · rfl
    | maxlogins => simp only; split <;> rfl
    | maxsyslogins => simp only; split <;> rfl
    | priority => rfl
    | nonewprivs => rfl
  unfold apply
  split
  · rfl
  split
  · rfl
  unfold processLimit
  split
  · exact hg _ _ _
  · simp only
    split
    · rw [hf, hg]
    · split
      · rw [hf, hg]
      · split
        · rw [hf, hg]
        · rw [hs, hf, hg]

theorem fold_supported (sys : Sys) (u : User) : ∀ (es : List Entry) (pl : Pl), (es.foldl (apply sys u) pl).supported = pl.supported
  | [], _ => rfl
  | e :: es, pl => by rw [List.foldl_cons, fold_supported sys u es, apply_supported]

end Pam.Limits
