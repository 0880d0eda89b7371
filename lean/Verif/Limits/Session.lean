import Verif.Limits.Domains
/-
C61 to C63: answers of open_session, logins, priority and nonewprivs.  And that no number of C42 overflows.
-/
namespace Pam.Limits
open Pam Pam.Limits.Spec
open Pam.Access hiding Entry

/-! ## numbers stay in range (C42) -/

/-- all limits are numbers of 64 bits -/
def Bounded (pl : Pl) : Prop := ∀ r, pl.cur r ≤ INF ∧ pl.max r ≤ INF

theorem ulong_le (v : Int) : ulong v ≤ INF := by
  unfold ulong INF
  split
  · split <;> omega
  · omega

theorem times_le (v n : Nat) (h : v ≤ INF) (hn : 0 < n) : times v n ≤ INF := by
  unfold times
  split
  · split
    · exact Nat.le_refl _
    · rename_i h'
      have h1 : v < INF / n := by omega
      have h2 := (Nat.lt_div_iff_mul_lt hn).mp h1
      omega
  · exact h

theorem readValue_le {it : Item} {s : Str} {v : Int × Nat} (h : readValue it s = some v) : v.2 ≤ INF := by
  unfold readValue at h
  by_cases h1 : it = .nonewprivs
  · rw [if_pos h1] at h
    by_cases h2 : s = "0".toList
    · rw [if_pos h2] at h; cases h; exact Nat.zero_le _
    rw [if_neg h2] at h
    by_cases h3 : s = "1".toList
    · rw [if_pos h3] at h; cases h; exact Nat.zero_le _
    rw [if_neg h3] at h; cases h; exact Nat.zero_le _
  rw [if_neg h1] at h
  split at h
  · cases h; exact Nat.le_refl _
  split at h
  · simp only at h
    split at h
    · cases h
    · cases h; exact Nat.zero_le _
  · simp only at h
    split at h
    · cases h
    · cases h; exact ulong_le _

theorem scale_le {nr : Option Nat} (hnr : ∀ n, nr = some n → n ≤ INF) (it : Item) (v : Int × Nat) (h : v.2 ≤ INF) : (scale nr it v).2 ≤ INF := by
  cases it with
  | rlimit r =>
    cases r with
    | nice =>
      unfold scale
      simp only
      have : INF = 2 ^ 64 - 1 := rfl
      repeat' split
      all_goals omega
    | nofile =>
      unfold scale
      simp only
      split
      · cases nr with
        | none => exact Nat.le_refl _
        | some n => exact hnr n rfl
      · exact h
    | cpu => exact times_le _ 60 h (by decide)
    | fsize => exact times_le _ 1024 h (by decide)
    | data => exact times_le _ 1024 h (by decide)
    | stack => exact times_le _ 1024 h (by decide)
    | core => exact times_le _ 1024 h (by decide)
    | rss => exact times_le _ 1024 h (by decide)
    | memlock => exact times_le _ 1024 h (by decide)
    | as => exact times_le _ 1024 h (by decide)
    | nproc => exact h
    | locks => exact h
    | sigpending => exact h
    | msgqueue => exact h
    | rtprio => exact h
    | rttime => exact h
  | maxlogins => exact h
  | maxsyslogins => exact h
  | priority => exact h
  | nonewprivs => exact h

theorem set_le {f : Res → Nat} {r : Res} {v : Nat} (hf : ∀ r, f r ≤ INF) (hv : v ≤ INF) : ∀ x, set f r v x ≤ INF := by
  intro x
  unfold set
  split
  · exact hv
  · exact hf x

theorem store_bounded {src : Src} {it : Item} {ty : Bool × Bool} {v : Int × Nat} {pl : Pl} (hv : v.2 ≤ INF) (h : Bounded pl) :
    Bounded (store src it ty v pl) := by
  unfold store
  cases it with
  | rlimit r =>
    simp only
    unfold storeSoft storeHard
    by_cases h1 : ty.1 = true
    · by_cases h2 : (pl.srcSoft r).rank < src.rank
      · simp only [h1, h2, if_true]; exact h
      · simp only [h1, h2, if_true, if_false]
        split
        · split
          · exact fun x => ⟨set_le (fun x => (h x).1) hv x, (h x).2⟩
          · exact fun x => ⟨set_le (fun x => (h x).1) hv x, set_le (fun x => (h x).2) hv x⟩
        · exact fun x => ⟨set_le (fun x => (h x).1) hv x, (h x).2⟩
    · simp only [h1, if_false, Bool.false_eq_true]
      split
      · split
        · exact h
        · exact fun x => ⟨(h x).1, set_le (fun x => (h x).2) hv x⟩
      · exact h
  | maxlogins => simp only; split <;> exact h
  | maxsyslogins => simp only; split <;> exact h
  | priority => exact h
  | nonewprivs => exact h

theorem process_bounded {nr : Option Nat} (hnr : ∀ n, nr = some n → n ≤ INF) {src : Src} {t i v : Str} {pl : Pl} (h : Bounded pl) :
    Bounded (processLimit nr src t i v pl) := by
  have hf : ∀ it, Bounded (flag it pl) := by intro it; cases it <;> exact h
  unfold processLimit
  split
  · exact h
  · simp only
    split
    · exact hf _
    · split
      · exact hf _
      · rename_i hv
        split
        · exact hf _
        · exact store_bounded (scale_le hnr _ _ (readValue_le hv)) (hf _)

theorem oneLine_bounded {sys : Sys} (hnr : ∀ n, sys.nrOpen = some n → n ≤ INF) {u : User} {pl pl' : Pl} {l : Str} (h : Bounded pl)
    (he : oneLine sys u pl l = some pl') : Bounded pl' := by
  unfold oneLine at he
  split at he
  · cases he; exact h
  · simp only at he
    split at he
    · cases he; exact h
    · split at he
      · split at he
        · cases he; exact h
        · cases he
          refine process_bounded hnr ?_
          split <;> exact h
      · split at he
        · split at he
          · cases he
          · cases he; exact h
        · cases he; exact h
      · cases he; exact h

theorem parseLines_bounded {sys : Sys} (hnr : ∀ n, sys.nrOpen = some n → n ≤ INF) {u : User} : ∀ {ls : List Str} {pl pl' : Pl}, Bounded pl →
    parseLines sys u pl ls = some pl' → Bounded pl'
  | [], pl, pl', h, he => by cases he; exact h
  | l :: ls, pl, pl', h, he => by
    rw [parseLines] at he
    cases ho : oneLine sys u pl l with
    | none => rw [ho] at he; cases he
    | some p =>
      rw [ho] at he
      exact parseLines_bounded hnr (oneLine_bounded hnr h ho) he

theorem parseFile_bounded {sys : Sys} (hnr : ∀ n, sys.nrOpen = some n → n ≤ INF) {u : User} {b : Bool} {f : Except Errno (List Str)} {pl pl' : Pl}
    (h : Bounded pl) (he : parseFile sys u b f pl = .ok pl') : Bounded pl' := by
  unfold parseFile at he
  split at he
  · split at he
    · cases he
    · cases he; exact h
  · cases he
  · split at he
    · cases he
    · cases he
      rename_i hp
      exact parseLines_bounded hnr h hp

theorem parseFiles_bounded {sys : Sys} (hnr : ∀ n, sys.nrOpen = some n → n ≤ INF) {u : User} {o : Str → Except Errno (List Str)} :
    ∀ {fs : List Str} {pl pl' : Pl}, Bounded pl → parseFiles sys u o pl fs = .ok pl' → Bounded pl'
  | [], pl, pl', h, he => by cases he; exact h
  | f :: fs, pl, pl', h, he => by
    rw [parseFiles] at he
    split at he
    · rename_i hp
      exact parseFiles_bounded hnr (parseFile_bounded hnr h hp) he
    · rename_i hn
      exact absurd he (hn _)

/-- **C42** Whatever numbers and units the files hold, the limits that are set are numbers of 64 bits: scaling never wraps around. -/
theorem C42_range (sys : Sys) (c : Call) (argv : List Str) (hnr : ∀ n, sys.nrOpen = some n → n ≤ INF)
    (hg : ∀ r l, c.getrlimit r = some l → l.1 ≤ INF ∧ l.2 ≤ INF) (hk : ∀ r l, c.kernel r = some l → l.1 ≤ INF ∧ l.2 ≤ INF)
    (r : Res) (cur max : Nat) (h : Effect.setrlimit r cur max ∈ (openSession sys c argv).2) : cur ≤ INF ∧ max ≤ INF := by
  have key : ∀ u early pl, Bounded pl → Effect.setrlimit r cur max ∈ (setupLimits sys u c.works early c.utmp pl).2 → cur ≤ INF ∧ max ≤ INF := by
    intro u early pl hb h
    obtain ⟨_, _, h1, h2⟩ := mem_effects.mp h
    have := hb r
    omega
  have hinit : ∀ b p, Bounded (initLimits c b p) := by
    intro b p r
    have e1 : ((c.getrlimit r).getD (0, 0)).1 ≤ INF ∧ ((c.getrlimit r).getD (0, 0)).2 ≤ INF := by
      cases hgr : c.getrlimit r with
      | none => exact ⟨Nat.zero_le _, Nat.zero_le _⟩
      | some l => exact hg r l hgr
    have e2 : ((c.kernel r).getD (0, 0)).1 ≤ INF ∧ ((c.kernel r).getD (0, 0)).2 ≤ INF := by
      cases hgr : c.kernel r with
      | none => exact ⟨Nat.zero_le _, Nat.zero_le _⟩
      | some l => exact hk r l hgr
    unfold initLimits
    constructor
    · simp only; split
      · exact e2.1
      · exact e1.1
    · simp only; split
      · exact e2.2
      · exact e1.2
  unfold openSession at h
  simp only at h
  split at h
  · cases h
  split at h
  · cases h
  split at h
  · cases h
  split at h
  · cases h
  · cases h
  · rename_i hp
    simp only at h
    refine key _ _ _ ?_ h
    split at hp
    · rename_i hf
      have hb := parseFile_bounded hnr (hinit _ _) hf
      split at hp
      · cases hp; exact hb
      · exact parseFiles_bounded hnr hb hp
    · rename_i hn
      exact absurd hp (hn _)

example : Effect.setrlimit .cpu (1000 * 60) INF ∈ (openSession exSys
    (exCallOf [mkLine "alice" "soft" "cpu" "1000", mkLine "alice" "hard" "cpu" "307445734561825861"]) []).2 := by
  rw [session_lines (ex_ready _) (ex_reads _)]
  decide +kernel

/-! ## C61 -/

/-- **C61** If a line says that there are no limits for the user, nothing is set at all and the session is allowed, whatever
stands before or behind the line, in this file or another. -/
theorem C61_free (sys : Sys) (c : Call) (argv : List Str) (u : User) (prio : Int) (pre post : List Str) (l d : Str) (es : List Entry)
    (hc : Ready c u prio) (hl : ReadsAll c (parseArgs argv) (pre ++ l :: post)) (ht : Table sys u pre es) (hn : IsNoLimit l d)
    (hx : Exempts sys u d) : openSession sys c argv = (PAM_SUCCESS, []) := by
  rw [session_lines hc hl, parseLines_append, table_fold ht]
  simp only [Option.bind_some]
  rw [parseLines, oneLine_exempt hn hx]

example : IsNoLimit "@staff - # no limits\n".toList "@staff".toList ∧ Exempts exSys exUser "@staff".toList :=
  ⟨⟨[], " ".toList, " ".toList, "# no limits\n".toList, by decide, fun c hc => by (cases hc), fun c hc => by (cases hc; decide),
    ⟨by decide, by decide⟩, by decide, fun c hc => Or.inl (by simpa using hc), fun c hc => Or.inl (by simpa using hc), Or.inr (Or.inl (by decide))⟩,
    ⟨by decide, by decide⟩⟩

/-- **C61** Without a user, or with one that is not known, with limits that cannot be asked for, or with a file that cannot be read, the session
is refused and nothing is set; only the default file and files of the directories may be missing. -/
theorem C61_failures (sys : Sys) (c : Call) (argv : List Str) :
    (c.user = none → openSession sys c argv = (PAM_SESSION_ERR, [])) ∧
    (∀ n, c.user = some n → c.pw n = none → openSession sys c argv = (PAM_USER_UNKNOWN, [])) ∧
    (∀ n u, c.user = some n → c.pw n = some u → c.rlimitFails = true ∨ c.priority = none → openSession sys c argv = (PAM_ABORT, [])) ∧
    (∀ u prio f, Ready c u prio → (parseArgs argv).conf = some f → (∀ ls, c.open_ f ≠ .ok ls) → openSession sys c argv = (PAM_SERVICE_ERR, [])) ∧
    (∀ u prio fs f fs' lines es, Ready c u prio → (parseArgs argv).conf = none → c.default :: limitsDir c.etcDir c.vendorDir = fs ++ f :: fs' →
      Reads c.open_ fs lines → Table sys u lines es → c.open_ f = .error .other → openSession sys c argv = (PAM_SERVICE_ERR, [])) := by
  refine ⟨?_, ?_, ?_, ?_, ?_⟩
  · intro h
    unfold openSession
    simp only [h]
  · intro n h h'
    unfold openSession
    simp only [h, h']
  · intro n u h h' hf
    have : (if c.rlimitFails = true then none else c.priority) = none := by
      rcases hf with hf | hf
      · rw [if_pos hf]
      · rw [hf]; split <;> rfl
    unfold openSession
    simp only [h, h', this]
  · rintro u prio f ⟨n, h1, h2, h3, h4⟩ hf ho
    unfold openSession
    simp only [h1, h2, h3, h4, Bool.false_eq_true, if_false, hf, Option.getD_some, Option.isSome_some, parseFile, if_true]
    cases he : c.open_ f with
    | ok ls => exact absurd he (ho ls)
    | error e => cases e <;> rfl
  · rintro u prio fs f fs' lines es ⟨n, h1, h2, h3, h4⟩ hf hfs hr ht ho
    have all : ∀ pl, parseFiles sys u c.open_ pl (fs ++ f :: fs') = .error := by
      have hp := parseFiles_reads (sys := sys) (u := u) hr
      have app : ∀ (fs : List Str) pl pl', parseFiles sys u c.open_ pl fs = .ok pl' →
          parseFiles sys u c.open_ pl (fs ++ f :: fs') = parseFiles sys u c.open_ pl' (f :: fs') := by
        intro fs
        induction fs with
        | nil => intro pl pl' h; cases h; rfl
        | cons x fs ih =>
          intro pl pl' h
          rw [parseFiles] at h
          rw [List.cons_append, parseFiles]
          cases hx : parseFile sys u false (c.open_ x) pl with
          | ok p => rw [hx] at h; exact ih p pl' h
          | ignore => rw [hx] at h; cases h
          | error => rw [hx] at h; cases h
      intro pl
      have := hp pl
      rw [table_fold ht] at this
      rw [app fs pl _ this, parseFiles, ho]
      rfl
    have hx := all (initLimits c (parseArgs argv).setAll prio)
    rw [← hfs, parseFiles] at hx
    unfold openSession
    simp only [h1, h2, h3, h4, Bool.false_eq_true, if_false, hf, Option.getD_none, Option.isSome_none]
    revert hx
    cases parseFile sys u false (c.open_ c.default) (initLimits c (parseArgs argv).setAll prio) with
    | ok pl => simp only; intro hx; rw [hx]
    | ignore => intro hx; cases hx
    | error => intro _; rfl

example : Ready (exCallOf exLines) exUser 0 ∧ (parseArgs ["conf=/x".toList]).conf = some "/x".toList ∧
    (exCallOf exLines).open_ "/x".toList = .error .enoent := ⟨ex_ready _, by decide, by
      show (if "/x".toList = exConf then Except.ok exLines else Except.error Errno.enoent) = _
      rw [if_neg (by decide)]⟩

/-- **C61** The arguments: conf= names the file, utmp_early and set_all are flags; debug, noaudit and anything unknown change
nothing; the last conf= counts. -/
theorem C61_arguments (pre : List Str) (w : Str) :
    parseArgs (pre ++ [w]) =
      { conf := if "conf=".toList.isPrefixOf w = true then some (w.drop 5) else (parseArgs pre).conf
        early := (parseArgs pre).early || decide (w = "utmp_early".toList)
        setAll := (parseArgs pre).setAll || decide (w = "set_all".toList) } := by
  unfold parseArgs
  rw [List.foldl_append, List.foldl_cons, List.foldl_nil]
  generalize List.foldl _ _ pre = a
  obtain ⟨cf, e, s⟩ := a
  simp only
  by_cases h1 : w = "debug".toList
  · rw [if_pos h1, h1]
    simp
  rw [if_neg h1]
  by_cases h2 : "conf=".toList.isPrefixOf w = true
  · rw [if_pos h2, if_pos h2]
    have n1 : w ≠ "utmp_early".toList := fun e => by rw [e] at h2; exact absurd h2 (by decide)
    have n2 : w ≠ "set_all".toList := fun e => by rw [e] at h2; exact absurd h2 (by decide)
    rw [decide_eq_false n1, decide_eq_false n2, Bool.or_false, Bool.or_false]
  rw [if_neg h2, if_neg h2]
  by_cases h3 : w = "utmp_early".toList
  · have n2 : w ≠ "set_all".toList := fun e => by rw [e] at h3; exact absurd h3 (by decide)
    rw [if_pos h3, decide_eq_true h3, decide_eq_false n2, Bool.or_true, Bool.or_false]
  rw [if_neg h3, decide_eq_false h3, Bool.or_false]
  by_cases h4 : w = "noaudit".toList
  · have n2 : w ≠ "set_all".toList := fun e => by rw [e] at h4; exact absurd h4 (by decide)
    rw [if_pos h4, decide_eq_false n2, Bool.or_false]
  rw [if_neg h4]
  by_cases h5 : w = "set_all".toList
  · rw [if_pos h5, decide_eq_true h5, Bool.or_true]
  · rw [if_neg h5, decide_eq_false h5, Bool.or_false]

/-! ## one entry, apart from the resources -/

theorem apply_none {sys : Sys} {u : User} {pl : Pl} {e : Entry} (h : ∀ k, ¬ Stands sys u e.domain k) : apply sys u pl e = pl := by
  unfold apply
  by_cases he : parseRange e.domain = .err
  · rw [if_pos he]
  rw [if_neg he]
  cases hs : sourceOf sys u e.domain (parseRange e.domain) with
  | none => rfl
  | some k => exact absurd ⟨he, hs⟩ (h k)

theorem apply_some {sys : Sys} {u : User} {pl : Pl} {e : Entry} {k : Src} (h : Stands sys u e.domain k) :
    apply sys u pl e = processLimit sys.nrOpen k e.type e.item e.value
      (if k = .allgroup then { pl with loginGroup := some (groupOf sys e.domain (parseRange e.domain)) } else pl) := by
  unfold apply
  rw [if_neg h.1]
  simp only [h.2]

theorem stands_uniq {sys : Sys} {u : User} {d : Str} {k k' : Src} (h : Stands sys u d k) (h' : Stands sys u d k') : k = k' := by
  have := h.2
  rw [h'.2] at this
  exact (Option.some.inj this).symm

theorem itemOf_name {s : Str} {it : Item} (h : itemOf s = some it) : (s, it) ∈ names := by
  unfold itemOf at h
  rw [Option.map_eq_some_iff] at h
  obtain ⟨n, h1, h2⟩ := h
  have h3 := List.find?_some h1
  have h4 := List.mem_of_find?_eq_some h1
  have e : n.1 = s := by simpa using h3
  rw [← e, ← h2]
  exact h4

theorem names_other : ∀ n ∈ names, (n.2 = .maxlogins → n.1 = "maxlogins".toList) ∧ (n.2 = .maxsyslogins → n.1 = "maxsyslogins".toList) ∧
    (n.2 = .priority → n.1 = "priority".toList) ∧ (n.2 = .nonewprivs → n.1 = "nonewprivs".toList) := by decide

/-- the fields that do not belong to a resource -/
def rest (pl : Pl) : Int × Src × Bool × Int × Int × Option Str :=
  (pl.loginLimit, pl.loginDef, pl.sysFlag, pl.priority, pl.nonewprivs, pl.loginGroup)

theorem rest_rlimit {src : Src} {r : Res} {ty : Bool × Bool} {v : Int × Nat} {pl : Pl} : rest (store src (.rlimit r) ty v pl) = rest pl := by
  unfold store storeSoft storeHard
  simp only
  by_cases h1 : ty.1 = true
  · by_cases h2 : (pl.srcSoft r).rank < src.rank
    · simp only [h1, h2, if_true]
    · simp only [h1, h2, if_true, if_false]
      split
      · split <;> rfl
      · rfl
  · simp only [h1, if_false, Bool.false_eq_true]
    split
    · split <;> rfl
    · rfl

/-- an entry for a resource, or for nothing, leaves the rest -/
theorem process_rest {nr : Option Nat} {k : Src} {t i v : Str} {pl : Pl}
    (h : ∀ it, itemOf i = some it → ∃ r, it = .rlimit r) : rest (processLimit nr k t i v pl) = rest pl := by
  unfold processLimit
  split
  · rfl
  · rename_i it hi
    obtain ⟨r, rfl⟩ := h it hi
    simp only [flag]
    split
    · rfl
    · split
      · rfl
      · split
        · rfl
        · exact rest_rlimit

/-! ## C63 -/

theorem itemOf_priority : itemOf "priority".toList = some .priority := by decide
theorem itemOf_nonewprivs : itemOf "nonewprivs".toList = some .nonewprivs := by decide
theorem itemOf_maxlogins : itemOf "maxlogins".toList = some .maxlogins := by decide
theorem itemOf_maxsyslogins : itemOf "maxsyslogins".toList = some .maxsyslogins := by decide

/-- a fold in which each entry that matters replaces the value -/
theorem fold_last {σ β : Type} (rel : Entry → Prop) (get : σ → β) (step : σ → Entry → σ) (val : Entry → β → Prop)
    (hrel : ∀ s e, rel e → val e (get (step s e))) (hnot : ∀ s e, ¬ rel e → get (step s e) = get s) :
    ∀ (es : List Entry) (s : σ), (∃ e, Last rel es e ∧ val e (get (es.foldl step s))) ∨
      ((∀ e ∈ es, ¬ rel e) ∧ get (es.foldl step s) = get s) := by
  intro es
  induction es with
  | nil => intro s; exact Or.inr ⟨fun e h => by (cases h), rfl⟩
  | cons x es ih =>
    intro s
    rw [List.foldl_cons]
    rcases ih (step s x) with ⟨e, ⟨pre, post, rfl, h1, h2⟩, h3⟩ | ⟨h1, h2⟩
    · exact Or.inl ⟨e, ⟨x :: pre, post, rfl, h1, h2⟩, h3⟩
    · by_cases hx : rel x
      · left
        refine ⟨x, ⟨[], es, rfl, hx, h1⟩, ?_⟩
        rw [h2]
        exact hrel s x hx
      · right
        refine ⟨?_, by rw [h2, hnot s x hx]⟩
        intro e he
        rcases List.mem_cons.mp he with rfl | he
        · exact hx
        · exact h1 e he

theorem priority_other {k : Src} {it : Item} {ty : Bool × Bool} {v : Int × Nat} {pl : Pl} (h : it ≠ .priority) :
    (store k it ty v pl).priority = pl.priority := by
  cases it with
  | rlimit r => exact congrArg (fun x => x.2.2.2.1) (rest_rlimit (src := k) (r := r) (ty := ty) (v := v) (pl := pl))
  | maxlogins => unfold store; simp only; split <;> rfl
  | maxsyslogins => unfold store; simp only; split <;> rfl
  | priority => exact absurd rfl h
  | nonewprivs => rfl

theorem nnp_other {k : Src} {it : Item} {ty : Bool × Bool} {v : Int × Nat} {pl : Pl} (h : it ≠ .nonewprivs) :
    (store k it ty v pl).nonewprivs = pl.nonewprivs := by
  cases it with
  | rlimit r => exact congrArg (fun x => x.2.2.2.2.1) (rest_rlimit (src := k) (r := r) (ty := ty) (v := v) (pl := pl))
  | maxlogins => unfold store; simp only; split <;> rfl
  | maxsyslogins => unfold store; simp only; split <;> rfl
  | priority => rfl
  | nonewprivs => exact absurd rfl h

theorem flag_keeps (it : Item) (pl : Pl) : (flag it pl).priority = pl.priority ∧ (flag it pl).nonewprivs = pl.nonewprivs ∧
    (flag it pl).loginLimit = pl.loginLimit ∧ (flag it pl).loginDef = pl.loginDef ∧ (flag it pl).loginGroup = pl.loginGroup := by
  cases it <;> exact ⟨rfl, rfl, rfl, rfl, rfl⟩

theorem group_keeps (pl : Pl) (p : Prop) [Decidable p] (g : Option Str) :
    (if p then { pl with loginGroup := g } else pl).priority = pl.priority ∧
    (if p then { pl with loginGroup := g } else pl).nonewprivs = pl.nonewprivs ∧
    (if p then { pl with loginGroup := g } else pl).loginLimit = pl.loginLimit ∧
    (if p then { pl with loginGroup := g } else pl).loginDef = pl.loginDef ∧
    (if p then { pl with loginGroup := g } else pl).sysFlag = pl.sysFlag := by split <;> exact ⟨rfl, rfl, rfl, rfl, rfl⟩

theorem type_priority {s : Str} : (∃ ty, typeOf .priority s = some ty) ↔ s = "soft".toList ∨ s = "hard".toList ∨ s = "-".toList := by
  unfold typeOf
  by_cases h1 : s = "soft".toList
  · rw [if_pos h1]; exact ⟨fun _ => Or.inl h1, fun _ => ⟨_, rfl⟩⟩
  rw [if_neg h1]
  by_cases h2 : s = "hard".toList
  · rw [if_pos h2]; exact ⟨fun _ => Or.inr (Or.inl h2), fun _ => ⟨_, rfl⟩⟩
  rw [if_neg h2]
  by_cases h3 : s = "-".toList
  · rw [if_pos h3]; exact ⟨fun _ => Or.inr (Or.inr h3), fun _ => ⟨_, rfl⟩⟩
  rw [if_neg h3, if_neg (by rintro (h | h | h) <;> cases h)]
  exact ⟨fun ⟨b, h⟩ => by (cases h), fun h => (h.elim h1 (fun h => h.elim h2 h3)).elim⟩

/-- the values of the entries for the priority are numbers -/
def PriorityOk (sys : Sys) (u : User) (es : List Entry) : Prop :=
  ∀ e ∈ es, e.item = "priority".toList → (∃ k, Stands sys u e.domain k) → ∃ v, Signed (Digits 10) e.value v

theorem toInt_long (v : Int) : toInt (long v) = max (-(2 ^ 31)) (min (2 ^ 31 - 1) v) := by
  unfold toInt long
  simp only
  repeat' split
  all_goals omega

theorem read_priority {s : Str} {v : Int} (h : Signed (Digits 10) s v) : readValue .priority s = some (max (-(2 ^ 31)) (min (2 ^ 31 - 1) v), 0) := by
  obtain ⟨e1, e2⟩ := strtoInt_signed10 h
  unfold readValue
  rw [if_neg (by decide), if_neg (fun h => h.1 rfl), if_pos (Or.inl rfl)]
  simp only [e1]
  rw [if_neg (fun h => e2 h.2.symm), toInt_long]

/-- entries that are not numbers are out of the way -/
theorem fold_priority (sys : Sys) (u : User) (es : List Entry) (hok : PriorityOk sys u es) (pl : Pl) :
    (∃ e, Last (SetsPriority sys u) es e ∧ ∃ v, Signed (Digits 10) e.value v ∧
      (es.foldl (apply sys u) pl).priority = max (-(2 ^ 31)) (min (2 ^ 31 - 1) v)) ∨
    ((∀ e ∈ es, ¬ SetsPriority sys u e) ∧ (es.foldl (apply sys u) pl).priority = pl.priority) := by
  have hrel : ∀ (pl : Pl) e, SetsPriority sys u e → ∃ v, Signed (Digits 10) e.value v ∧
      (apply sys u pl e).priority = max (-(2 ^ 31)) (min (2 ^ 31 - 1) v) := by
    rintro pl e ⟨h1, h2, ⟨k, h3, h4, h5⟩, v, h6⟩
    obtain ⟨ty, h2⟩ := type_priority.mpr h2
    refine ⟨v, h6, ?_⟩
    rw [apply_some h3, if_neg h5]
    unfold processLimit
    simp only [h1, itemOf_priority, h2, read_priority h6]
    rw [if_neg (fun h => h.1.elim h4 h5)]
    rfl
  have hnot : ∀ (pl : Pl) e, (e.item = "priority".toList → (∃ k, Stands sys u e.domain k) → ∃ v, Signed (Digits 10) e.value v) →
      ¬ SetsPriority sys u e → (apply sys u pl e).priority = pl.priority := by
    intro pl e hv hn
    by_cases hs : ∃ k, Stands sys u e.domain k
    · obtain ⟨k, hs⟩ := hs
      rw [apply_some hs]
      unfold processLimit
      split
      · exact (group_keeps _ _ _).1
      · rename_i it hi
        simp only
        split
        · exact ((flag_keeps _ _).1).trans (group_keeps _ _ _).1
        · rename_i ty ht
          split
          · exact ((flag_keeps _ _).1).trans (group_keeps _ _ _).1
          · rename_i v hr
            split
            · exact ((flag_keeps _ _).1).trans (group_keeps _ _ _).1
            · rename_i hk
              by_cases hp : it = .priority
              · subst hp
                exfalso
                have hname : e.item = "priority".toList := (names_other _ (itemOf_name hi)).2.2.1 rfl
                refine hn ⟨hname, type_priority.mp ⟨ty, ht⟩, ⟨k, hs, fun e => hk ⟨Or.inl e, by decide⟩, fun e => hk ⟨Or.inr e, by decide⟩⟩, hv hname ⟨k, hs⟩⟩
              · exact (priority_other hp).trans (((flag_keeps _ _).1).trans (group_keeps _ _ _).1)
    · rw [apply_none (fun k h => hs ⟨k, h⟩)]
  -- the values matter only for entries of the table
  induction es generalizing pl with
  | nil => exact Or.inr ⟨fun e h => by (cases h), rfl⟩
  | cons x es ih =>
    rw [List.foldl_cons]
    have hok' : PriorityOk sys u es := fun e he => hok e (by simp [he])
    rcases ih hok' (apply sys u pl x) with ⟨e, ⟨pre, post, rfl, h1, h2⟩, h3⟩ | ⟨h1, h2⟩
    · exact Or.inl ⟨e, ⟨x :: pre, post, rfl, h1, h2⟩, h3⟩
    · by_cases hx : SetsPriority sys u x
      · left
        refine ⟨x, ⟨[], es, rfl, hx, h1⟩, ?_⟩
        rw [h2]
        exact hrel pl x hx
      · right
        refine ⟨?_, by rw [h2, hnot pl x (hok x (by simp)) hx]⟩
        intro e he
        rcases List.mem_cons.mp he with rfl | he
        · exact hx
        · exact h1 e he

/-- **C63** The priority set is that of the last entry about it (in the range of int), or that of the process; how specific an entry is
does not matter. -/
theorem C63_priority (sys : Sys) (c : Call) (argv : List Str) (u : User) (prio : Int) (lines : List Str) (es : List Entry)
    (hc : Ready c u prio) (hl : ReadsAll c (parseArgs argv) lines) (ht : Table sys u lines es) (hok : PriorityOk sys u es) :
    ∃ p, (∀ q, Effect.setpriority q ∈ (openSession sys c argv).2 ↔ q = p) ∧
      ((∃ e, Last (SetsPriority sys u) es e ∧ ∃ v, Signed (Digits 10) e.value v ∧ p = max (-(2 ^ 31)) (min (2 ^ 31 - 1) v)) ∨
        ((∀ e ∈ es, ¬ SetsPriority sys u e) ∧ p = prio)) := by
  refine ⟨(es.foldl (apply sys u) (initLimits c (parseArgs argv).setAll prio)).priority, ?_,
    fold_priority sys u es hok (initLimits c (parseArgs argv).setAll prio)⟩
  intro q
  rw [session_lines hc hl, table_fold ht]
  simp only
  unfold setupLimits
  simp only [List.mem_append, List.mem_singleton]
  constructor
  · rintro ((h | h) | h)
    · unfold rlimits at h
      simp at h
    · cases h; rfl
    · split at h
      · simp at h
      · cases h
  · rintro rfl
    exact Or.inl (Or.inr rfl)

example : PriorityOk exSys exUser exEntries ∧
    SetsPriority exSys exUser ⟨"@staff".toList, "-".toList, "priority".toList, "-5".toList⟩ :=
  ⟨by
    intro e he h
    simp only [exEntries, List.mem_cons, List.not_mem_nil, or_false] at he
    rcases he with e | e | e | e <;> (subst e; exact absurd h (by decide)),
   ⟨rfl, Or.inr (Or.inr rfl), ⟨.group, ⟨by decide, by decide⟩, by decide, by decide⟩,
    -5, [], "5".toList, 5, fun c hc => by (cases hc), ⟨by decide, by decide, by decide⟩, Or.inr (Or.inr ⟨by decide, by decide⟩)⟩⟩

theorem type_nnp (s : Str) : ∃ ty, typeOf .nonewprivs s = some ty := by
  unfold typeOf
  split
  · exact ⟨_, rfl⟩
  split
  · exact ⟨_, rfl⟩
  split
  · exact ⟨_, rfl⟩
  rw [if_pos (Or.inr (Or.inr rfl))]
  exact ⟨_, rfl⟩

theorem read_nnp (s : Str) : readValue .nonewprivs s = some (if s = "1".toList then 1 else 0, 0) := by
  unfold readValue
  rw [if_pos rfl]
  by_cases h : s = "0".toList
  · rw [if_pos h, if_neg (by rw [h]; decide)]
  · rw [if_neg h]
    by_cases h' : s = "1".toList
    · rw [if_pos h', if_pos h']
    · rw [if_neg h', if_neg h']

/-- **C63** The process loses the right to gain privileges exactly if the last entry about it has the value 1. -/
theorem C63_nonewprivs (sys : Sys) (c : Call) (argv : List Str) (u : User) (prio : Int) (lines : List Str) (es : List Entry)
    (hc : Ready c u prio) (hl : ReadsAll c (parseArgs argv) lines) (ht : Table sys u lines es) :
    Effect.noNewPrivs ∈ (openSession sys c argv).2 ↔ ∃ e, Last (SetsNoNewPrivs sys u) es e ∧ e.value = "1".toList := by
  have hrel : ∀ (pl : Pl) e, SetsNoNewPrivs sys u e → (apply sys u pl e).nonewprivs = if e.value = "1".toList then 1 else 0 := by
    rintro pl e ⟨h1, k, h3, h4, h5⟩
    obtain ⟨ty, h2⟩ := type_nnp e.type
    rw [apply_some h3, if_neg h5]
    unfold processLimit
    simp only [h1, itemOf_nonewprivs, h2, read_nnp]
    rw [if_neg (fun h => h.1.elim h4 h5)]
    rfl
  have hnot : ∀ (pl : Pl) e, ¬ SetsNoNewPrivs sys u e → (apply sys u pl e).nonewprivs = pl.nonewprivs := by
    intro pl e hn
    by_cases hs : ∃ k, Stands sys u e.domain k
    · obtain ⟨k, hs⟩ := hs
      rw [apply_some hs]
      unfold processLimit
      split
      · exact (group_keeps _ _ _).2.1
      · rename_i it hi
        simp only
        split
        · exact ((flag_keeps _ _).2.1).trans (group_keeps _ _ _).2.1
        · split
          · exact ((flag_keeps _ _).2.1).trans (group_keeps _ _ _).2.1
          · split
            · exact ((flag_keeps _ _).2.1).trans (group_keeps _ _ _).2.1
            · rename_i hk
              by_cases hp : it = .nonewprivs
              · subst hp
                exfalso
                exact hn ⟨(names_other _ (itemOf_name hi)).2.2.2 rfl, k, hs, fun e => hk ⟨Or.inl e, by decide⟩, fun e => hk ⟨Or.inr e, by decide⟩⟩
              · exact (nnp_other hp).trans (((flag_keeps _ _).2.1).trans (group_keeps _ _ _).2.1)
    · rw [apply_none (fun k h => hs ⟨k, h⟩)]
  have hf := fold_last (SetsNoNewPrivs sys u) (fun pl => pl.nonewprivs) (apply sys u) (fun e b => b = if e.value = "1".toList then 1 else 0)
    hrel hnot es (initLimits c (parseArgs argv).setAll prio)
  have hmem : Effect.noNewPrivs ∈ (openSession sys c argv).2 ↔
      (es.foldl (apply sys u) (initLimits c (parseArgs argv).setAll prio)).nonewprivs ≠ 0 := by
    rw [session_lines hc hl, table_fold ht]
    simp only
    unfold setupLimits
    simp only [List.mem_append, List.mem_singleton]
    constructor
    · rintro ((h | h) | h)
      · unfold rlimits at h
        simp at h
      · cases h
      · split at h
        · assumption
        · cases h
    · intro h
      right
      rw [if_pos h]
      simp
  rw [hmem]
  rcases hf with ⟨e, h1, h2⟩ | ⟨h1, h2⟩
  · rw [h2]
    have uniq : ∀ e', Last (SetsNoNewPrivs sys u) es e' → e' = e := by
      rintro e' ⟨pre', post', h', r', n'⟩
      obtain ⟨pre, post, h, r, n⟩ := h1
      rw [h] at h'
      rcases List.append_eq_append_iff.mp h' with ⟨a, ha, hb⟩ | ⟨a, ha, hb⟩
      · cases a with
        | nil => cases hb; rfl
        | cons x a => cases hb; exact absurd r' (n _ (by simp))
      · cases a with
        | nil => cases hb; rfl
        | cons x a => cases hb; exact absurd r (n' _ (by simp))
    constructor
    · intro h
      by_cases hv : e.value = "1".toList
      · exact ⟨e, h1, hv⟩
      · rw [if_neg hv] at h; exact absurd rfl h
    · rintro ⟨e', h', hv⟩
      rw [uniq e' h'] at hv
      rw [if_pos hv]
      decide
  · rw [h2]
    constructor
    · intro h; exact absurd rfl h
    · rintro ⟨e, ⟨pre, post, rfl, h, _⟩, _⟩
      exact absurd h (h1 e (by simp))

example : Effect.noNewPrivs ∈ (openSession exSys (exCallOf [mkLine "alice" "-" "nonewprivs" "0", mkLine "*" "x" "nonewprivs" "1"]) []).2 := by
  rw [session_lines (ex_ready _) (ex_reads _)]
  decide +kernel

end Pam.Limits
