import Verif.Limits.Fold
/-
C42: which entry of limits.conf counts.
-/
namespace Pam.Limits
open Pam Pam.Limits.Spec
open Pam.Access hiding Entry

/-! ## an example -/

/-- a line with single blanks -/
def mkLine (d t i v : String) : Str := (d ++ " " ++ t ++ " " ++ i ++ " " ++ v ++ "\n").toList

theorem mkLine_entry {d t i v : String}
    (h : (∀ c, d.toList.head? = some c → isSpace c = false) ∧ Field d.toList ∧ Field t.toList ∧ Field i.toList ∧ Field v.toList) :
    IsEntry (mkLine d t i v) ⟨d.toList, t.toList.map lower, i.toList.map lower, v.toList.map lower⟩ := by
  obtain ⟨h0, h1, h2, h3, h4⟩ := h
  refine ⟨[], d.toList, [' '], t.toList, [' '], i.toList, [' '], v.toList, [], ['\n'], ?_, fun c hc => by (cases hc), h0, h1, h2, h3, ?_,
    by decide, by decide, by decide, ?_, ?_, ?_, fun c hc => by (cases hc), Or.inr (Or.inr rfl), rfl⟩
  · simp [mkLine]
  · refine ⟨fun c hc => (h4.2 c hc).2.2, ?_, ?_⟩
    · cases hv : v.toList with
      | nil => exact absurd hv h4.1
      | cons a s => exact ⟨a, rfl, (h4.2 a (by rw [hv]; simp)).1, (h4.2 a (by rw [hv]; simp)).2.1⟩
    · refine ⟨_, List.getLast?_eq_some_getLast h4.1, ?_⟩
      have := h4.2 _ (List.getLast_mem h4.1)
      exact ⟨this.1, this.2.1⟩
  all_goals
    intro c hc
    have : c = ' ' := by simpa using hc
    exact Or.inl this

theorem field_of {s : String} (h : s.toList.all (fun c => c ≠ ' ' ∧ c ≠ '\t' ∧ c ≠ '#' ∧ c ≠ '\n' ∧ c ≠ NUL) = true)
    (hne : s.toList ≠ []) : Field s.toList := ⟨hne, fun c hc => by simpa using List.all_eq_true.mp h c hc⟩

/-- somebody in the group staff -/
def exUser : User := ⟨"alice".toList, 1000, 100⟩

def exSys : Sys where
  inGroup := fun n g => n == "alice".toList && g == "staff".toList
  inGid := fun n g => n == "alice".toList && g == 50
  groupName := fun _ => "staff".toList
  nrOpen := some 1048576

def exLines : List Str :=
  [mkLine "*" "soft" "nofile" "512", mkLine "alice" "soft" "nofile" "1024", mkLine "@staff" "hard" "nofile" "4096", mkLine "*" "hard" "nofile" "8192",
    "# nothing\n".toList]

def exEntries : List Entry :=
  [⟨"*".toList, "soft".toList, "nofile".toList, "512".toList⟩, ⟨"alice".toList, "soft".toList, "nofile".toList, "1024".toList⟩,
    ⟨"@staff".toList, "hard".toList, "nofile".toList, "4096".toList⟩, ⟨"*".toList, "hard".toList, "nofile".toList, "8192".toList⟩]

def exConf : Str := "/etc/security/limits.conf".toList

def exCallOf (lines : List Str) : Call where
  user := some exUser.name
  pw := fun n => if n = exUser.name then some exUser else none
  getrlimit := fun _ => some (100, 200)
  rlimitFails := false
  priority := some 0
  kernel := fun _ => none
  default := exConf
  open_ := fun f => if f = exConf then .ok lines else .error .enoent
  etcDir := []
  vendorDir := []
  works := fun _ => true
  utmp := []

theorem ex_ready (lines : List Str) : Ready (exCallOf lines) exUser 0 :=
  ⟨exUser.name, rfl, (if_pos rfl : (if exUser.name = exUser.name then some exUser else none) = some exUser), rfl, rfl⟩

theorem ex_dir : limitsDir [] [] = [] := by
  unfold limitsDir accessDir
  simp

theorem ex_reads (lines : List Str) : ReadsAll (exCallOf lines) (parseArgs []) lines := by
  show Reads _ (_ :: limitsDir [] []) _
  rw [ex_dir]
  have := Reads.file (open_ := (exCallOf lines).open_) (f := exConf) (ls := lines)
    (if_pos rfl : (if exConf = exConf then Except.ok lines else .error .enoent) = .ok lines) Reads.nil
  rwa [List.append_nil] at this

theorem ex_table : Table exSys exUser exLines exEntries := by
  refine .entry (mkLine_entry ?_) (.entry (mkLine_entry ?_) (.entry (mkLine_entry ?_) (.entry (mkLine_entry ?_) (.skip ?_ .nil))))
  case refine_5 => exact ⟨[], "# nothing\n".toList, rfl, fun c hc => by (cases hc), Or.inr (by decide)⟩
  all_goals
    refine ⟨?_, field_of (by decide) (by decide), field_of (by decide) (by decide), field_of (by decide) (by decide),
      field_of (by decide) (by decide)⟩
    intro c hc
    cases hc
    decide

theorem ex_stands : Stands exSys exUser "alice".toList .user := ⟨by decide, by decide⟩

example : SetsSoft exSys exUser .nofile exEntries[1] .user ∧ SetsHard exSys exUser .nofile exEntries[2] .group ∧
    SetsHard exSys exUser .nofile exEntries[3] .default ∧ Means exSys .nofile "1024".toList 1024 :=
  ⟨⟨rfl, Or.inl rfl, ⟨by decide, by decide⟩, by decide, by decide⟩, ⟨rfl, Or.inl rfl, ⟨by decide, by decide⟩, by decide, by decide⟩,
    ⟨rfl, Or.inl rfl, ⟨by decide, by decide⟩, by decide, by decide⟩, by
      unfold Means
      rw [if_neg (by decide)]
      exact Or.inr ⟨1024, ⟨by decide, by decide, by decide⟩, by decide⟩⟩

/-! ## C42 -/

/-- **C42** The soft limit is that of the last of the most specific entries about it, or stays; so is the hard limit (missing: entries for
the soft limit alone together with entries for both).  The limits are set exactly if there is an entry, or set_all found one. -/
theorem C42_limits_partial (sys : Sys) (c : Call) (argv : List Str) (u : User) (prio : Int) (lines : List Str) (es : List Entry)
    (hc : Ready c u prio) (hl : ReadsAll c (parseArgs argv) lines) (ht : Table sys u lines es) (r : Res) (l : Nat × Nat)
    (hr : c.getrlimit r = some l)
    (hv : ∀ e ∈ es, ∀ k, SetsSoft sys u r e k ∨ SetsHard sys u r e k → ∃ n, Means sys r e.value n) :
    ∃ soft hard, Settles (SetsSoft sys u r) (Means sys r) es (before c (parseArgs argv) r l).1 soft ∧
      (Unmixed sys u r es → Settles (SetsHard sys u r) (Means sys r) es (before c (parseArgs argv) r l).2 hard) ∧
      ∀ cur max, Effect.setrlimit r cur max ∈ (openSession sys c argv).2 ↔
        ((∃ e ∈ es, ∃ k, SetsSoft sys u r e k ∨ SetsHard sys u r e k) ∨ ((parseArgs argv).setAll = true ∧ (c.kernel r).isSome = true)) ∧
        cur = min soft hard ∧ max = hard := by
  let init := initLimits c (parseArgs argv).setAll prio
  have hsup : init.supported r = true := by
    show (c.getrlimit r).isSome = true
    rw [hr]; rfl
  have hcur : init.cur r = (before c (parseArgs argv) r l).1 := by
    show (if (parseArgs argv).setAll = true ∧ (c.kernel r).isSome = true then ((c.kernel r).getD (0, 0)).1 else ((c.getrlimit r).getD (0, 0)).1) = _
    unfold before
    rw [hr]
    cases c.kernel r <;> cases (parseArgs argv).setAll <;> rfl
  have hmax : init.max r = (before c (parseArgs argv) r l).2 := by
    show (if (parseArgs argv).setAll = true ∧ (c.kernel r).isSome = true then ((c.kernel r).getD (0, 0)).2 else ((c.getrlimit r).getD (0, 0)).2) = _
    unfold before
    rw [hr]
    cases c.kernel r <;> cases (parseArgs argv).setAll <;> rfl
  have hsrc : init.srcSoft r = init.srcHard r := rfl
  have hsrc5 : init.srcSoft r = .kernel ∨ init.srcSoft r = .none := by
    show (if (parseArgs argv).setAll = true ∧ (c.kernel r).isSome = true then Src.kernel else if (c.getrlimit r).isSome = true then .none else .user) = _ ∨
      (if (parseArgs argv).setAll = true ∧ (c.kernel r).isSome = true then Src.kernel else if (c.getrlimit r).isSome = true then .none else .user) = _
    rw [hr]
    split
    · exact Or.inl rfl
    · exact Or.inr rfl
  have hnone : init.srcSoft r = .none ↔ ¬ ((parseArgs argv).setAll = true ∧ (c.kernel r).isSome = true) := by
    show (if (parseArgs argv).setAll = true ∧ (c.kernel r).isSome = true then Src.kernel else if (c.getrlimit r).isSome = true then .none else .user) = _ ↔ _
    rw [hr]
    split
    · rename_i h
      exact ⟨fun h' => by (cases h'), fun h' => absurd h h'⟩
    · rename_i h
      exact ⟨fun _ => h, fun _ => rfl⟩
  have hge : 5 ≤ (init.srcSoft r).rank := by
    rcases hsrc5 with h | h <;> (rw [h]; decide)
  have hs := fold_soft sys u r es (fun e he k h => hv e he k (Or.inl h)) init
  refine ⟨(es.foldl (apply sys u) init).cur r, (es.foldl (apply sys u) init).max r, ?_, ?_, ?_⟩
  · rcases hs with ⟨e, k, h1, _, _, h2⟩ | ⟨h1, _, h2⟩
    · exact Or.inl ⟨e, k, h1, h2⟩
    · refine Or.inr ⟨fun e he k hk => ?_, by rw [h2, hcur]⟩
      have a := h1 e he k hk
      have b := stands_rank hk.2.2.1
      omega
  · intro hm
    have hh := fold_hard sys u r es hm (fun e he k h => hv e he k (Or.inr h)) init (by rw [hsrc]; exact Nat.le_refl _)
    rcases hh with ⟨e, k, h1, _, _, h2⟩ | ⟨h1, _, h2⟩
    · exact Or.inl ⟨e, k, h1, h2⟩
    · refine Or.inr ⟨fun e he k hk => ?_, by rw [h2, hmax]⟩
      have a := h1 e he k hk
      have b := stands_rank hk.2.2.1
      rw [← hsrc] at a
      omega
  · intro cur max
    rw [session_lines hc hl, table_fold ht]
    simp only
    rw [mem_effects, fold_supported]
    have ht' := fold_touched sys u r es hv init
    rw [ht']
    constructor
    · rintro ⟨_, h2, h3, h4⟩
      refine ⟨?_, h3, h4⟩
      by_cases h : ∃ e ∈ es, ∃ k, SetsSoft sys u r e k ∨ SetsHard sys u r e k
      · exact Or.inl h
      · right
        have hn : ¬ (init.srcSoft r = .none) := fun h0 => h2 ⟨⟨h0, by rw [← hsrc]; exact h0⟩, fun e he k _ hk => h ⟨e, he, k, hk⟩⟩
        exact Decidable.of_not_not (fun h => hn (hnone.mpr h))
    · rintro ⟨h1, h2, h3⟩
      refine ⟨hsup, ?_, h2, h3⟩
      rintro ⟨⟨h4, _⟩, h5⟩
      rcases h1 with ⟨e, he, k, hk⟩ | h1
      · refine h5 e he k ?_ hk
        have : k.rank < 5 := hk.elim (fun h => stands_rank h.2.2.1) (fun h => stands_rank h.2.2.1)
        omega
      · exact hnone.mp h4 h1

example : Ready (exCallOf exLines) exUser 0 ∧ ReadsAll (exCallOf exLines) (parseArgs []) exLines ∧ Table exSys exUser exLines exEntries ∧
    (exCallOf exLines).getrlimit .nofile = some (100, 200) := ⟨ex_ready _, ex_reads _, ex_table, rfl⟩

/-- The hard limit of an entry for both limits is lost if a more specific entry has set the soft limit alone: no entry but the second is
about the hard limit, and yet it stays. -/
theorem C42_hard_counterexample : ∃ (sys : Sys) (u : User) (lines : List Str) (es : List Entry) (c : Call),
    Ready c u 0 ∧ ReadsAll c (parseArgs []) lines ∧ Table sys u lines es ∧ c.getrlimit .nofile = some (100, 200) ∧
    (∃ e, Wins (SetsHard sys u .nofile) es e .group ∧ Means sys .nofile e.value 300) ∧
    ∀ cur max, Effect.setrlimit .nofile cur max ∈ (openSession sys c []).2 → max = 200 := by
  refine ⟨exSys, exUser, [mkLine "alice" "soft" "nofile" "150", mkLine "@staff" "-" "nofile" "300"],
    [⟨"alice".toList, "soft".toList, "nofile".toList, "150".toList⟩, ⟨"@staff".toList, "-".toList, "nofile".toList, "300".toList⟩],
    exCallOf _, ex_ready _, ex_reads _, ?_, rfl, ?_, ?_⟩
  · refine .entry (mkLine_entry ?_) (.entry (mkLine_entry ?_) .nil)
    all_goals
      refine ⟨?_, field_of (by decide) (by decide), field_of (by decide) (by decide), field_of (by decide) (by decide),
        field_of (by decide) (by decide)⟩
      intro c hc
      cases hc
      decide
  · refine ⟨⟨"@staff".toList, "-".toList, "nofile".toList, "300".toList⟩, ⟨[⟨"alice".toList, "soft".toList, "nofile".toList, "150".toList⟩], [], rfl,
      ⟨rfl, Or.inr rfl, ⟨by decide, by decide⟩, by decide, by decide⟩, ?_, fun x hx => by (cases hx)⟩, ?_⟩
    · intro x hx k hk
      have : x = ⟨"alice".toList, "soft".toList, "nofile".toList, "150".toList⟩ := by simpa using hx
      rw [this] at hk
      rcases hk.2.1 with h | h <;> exact absurd h (by decide)
    · unfold Means
      rw [if_neg (by decide)]
      exact Or.inr ⟨300, ⟨by decide, by decide, by decide⟩, by decide⟩
  · intro cur max h
    have hl := session_lines (sys := exSys) (ex_ready [mkLine "alice" "soft" "nofile" "150", mkLine "@staff" "-" "nofile" "300"])
      (ex_reads [mkLine "alice" "soft" "nofile" "150", mkLine "@staff" "-" "nofile" "300"])
    rw [hl] at h
    revert h
    cases hp : parseLines exSys exUser _ _ with
    | none => intro h; cases h
    | some pl =>
      simp only
      rw [mem_effects]
      rintro ⟨_, _, _, h⟩
      have : (parseLines exSys exUser (initLimits (exCallOf [mkLine "alice" "soft" "nofile" "150", mkLine "@staff" "-" "nofile" "300"])
          (parseArgs []).setAll 0) [mkLine "alice" "soft" "nofile" "150", mkLine "@staff" "-" "nofile" "300"]).map (fun pl => pl.max .nofile) = some 200 := by
        decide +kernel
      rw [hp] at this
      rw [h]
      exact Option.some.inj this

/-- **C42** Whatever the files say, no soft limit above the hard limit is ever set. -/
theorem C42_ordered (sys : Sys) (c : Call) (argv : List Str) (r : Res) (cur max : Nat)
    (h : Effect.setrlimit r cur max ∈ (openSession sys c argv).2) : cur ≤ max := by
  have key : ∀ u early pl, Effect.setrlimit r cur max ∈ (setupLimits sys u c.works early c.utmp pl).2 → cur ≤ max := by
    intro u early pl h
    obtain ⟨_, _, h1, h2⟩ := mem_effects.mp h
    omega
  unfold openSession at h
  simp only at h
  repeat' split at h
  all_goals first | (cases h; done) | (simp only at h; exact key _ _ _ h)

example : Effect.setrlimit .nofile 1024 4096 ∈ (openSession exSys (exCallOf exLines) []).2 := by
  rw [session_lines (ex_ready _) (ex_reads _)]
  decide +kernel

end Pam.Limits
