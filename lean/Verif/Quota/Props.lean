import Verif.Quota.Lemmas
/-
C146 to C148: pam_setquota.
-/
namespace Pam.Quota
open Pam Pam.Small
open Spec

/-! ### C146: the users -/

theorem setOn_uid {w : World} {argv : List Str} {o : Int} {uid : Nat} {dev : Str} {r : Request} (h : (setOn w argv o uid dev).2 = some r) :
    r.uid = uid ∧ r.device = dev := by
  unfold setOn at h
  split at h
  · cases h
  · split at h
    · split at h
      · cases h
      · split at h
        · cases h
        · cases h; exact ⟨rfl, rfl⟩
    · cases h

theorem setOn_success {w : World} {argv : List Str} {o : Int} {uid : Nat} {dev : Str} (h : (setOn w argv o uid dev).1 = PAM_SUCCESS) :
    (setOn w argv o uid dev).2 ≠ none := by
  unfold setOn at h ⊢
  split at h
  · cases h
  · split at h
    · split at h
      · cases h
      · split at h
        · cases h
        · split
          · rintro ⟨⟩
          · next hn => exact absurd (by assumption) hn
    · cases h

/-- C146: a quota is set only for the user of the session, and only if their id is at least the start of the range and at most its end; an end below the start is no
end, and neither is one for a range that starts with 0.  For users outside nothing is done, with success.  Missing: an end for ranges that start with 0. -/
theorem C146_range_partial (w : World) (argv : List Str) :
    ((w.user = none ∨ w.user = some [] ∨ (∃ u, w.user = some u ∧ w.pw u = none)) → openSession w argv = (PAM_USER_UNKNOWN, none)) ∧
    (∀ u uid home a b, w.user = some u → u ≠ [] → w.pw u = some (uid, home) → Start w argv a → Stop argv b →
      ((uid < a ∨ (0 < a ∧ a ≤ b ∧ b < uid)) → openSession w argv = (PAM_SUCCESS, none)) ∧
      (∀ r, (openSession w argv).2 = some r → r.uid = uid ∧ a ≤ uid ∧ (uid ≤ b ∨ b < a ∨ a = 0)) ∧
      (openSession w argv = (PAM_SUCCESS, none) → uid < a ∨ (0 < a ∧ a ≤ b ∧ b < uid))) := by
  constructor
  · intro h
    unfold openSession
    dsimp only
    rcases h with h | h | ⟨u, h, h'⟩
    · rw [h]
    · rw [h]; rfl
    · rw [h]
      dsimp only
      rw [h']
      split <;> rfl
  · intro u uid home a b hu hne hpw ha hb
    have e1 : (params w argv).start = a := start_unique (start_spec w argv) ha
    have e2 : (params w argv).stop = b := chosen_unique (stop_spec w argv) hb
    have hout : outside (params w argv) uid ↔ (uid < a ∨ (0 < a ∧ a ≤ b ∧ b < uid)) := by
      unfold outside
      rw [e1, e2]
      omega
    have e : openSession w argv = if outside (params w argv) uid then (PAM_SUCCESS, none)
        else match w.mounts with
          | none => (PAM_PERM_DENIED, none)
          | some mounts =>
            match device (params w argv).fs home mounts with
            | none => (PAM_PERM_DENIED, none)
            | some dev => setOn w argv (params w argv).overwrite uid dev := by
      unfold openSession
      dsimp only
      rw [hu]
      dsimp only
      rw [if_neg hne, hpw]
      rfl
    refine ⟨?_, ?_, ?_⟩
    · intro h
      rw [e, if_pos (hout.mpr h)]
    · intro r hr
      rw [e] at hr
      by_cases ho : outside (params w argv) uid
      · rw [if_pos ho] at hr; cases hr
      · rw [if_neg ho] at hr
        rw [hout] at ho
        split at hr
        · cases hr
        · split at hr
          · cases hr
          · exact ⟨(setOn_uid hr).1, by omega, by omega⟩
    · intro h
      rw [e] at h
      by_cases ho : outside (params w argv) uid
      · exact hout.mp ho
      · rw [if_neg ho] at h
        exfalso
        split at h
        · cases h
        · split at h
          · cases h
          · exact setOn_success (by rw [h]) (by rw [h])

/-! ### C147: the device -/

theorem fsFold (f : Str) : ∀ (mounts : List Mount) (st : Option Str),
    ((∀ m ∈ mounts, m.dir ≠ f ∧ m.fsname ≠ f) → mounts.foldl (fsStep f) st = st) ∧
    (∀ m, LastMount mounts f m → mounts.foldl (fsStep f) st = some m.fsname)
  | [], st => ⟨fun _ => rfl, by rintro m ⟨pre, post, h, _⟩; cases pre <;> cases h⟩
  | x :: mounts, st => by
    rw [List.foldl_cons]
    obtain ⟨h1, h2⟩ := fsFold f mounts (fsStep f st x)
    constructor
    · intro h
      rw [h1 (fun m hm => h m (List.mem_cons_of_mem _ hm))]
      have := h x List.mem_cons_self
      unfold fsStep
      exact if_neg (fun h => h.elim this.1 this.2)
    · rintro m ⟨pre, post, h, hm, hp⟩
      cases pre with
      | nil =>
        cases h
        rw [h1 hp]
        unfold fsStep
        exact if_pos hm
      | cons y pre =>
        cases h
        exact h2 m ⟨pre, post, rfl, hm, hp⟩

theorem bare_spec (d : Str) : Bare d (bare d) := by
  refine ⟨(d.reverse.takeWhile (· = '/')).reverse, ?_, ?_, ?_⟩
  · unfold bare
    rw [← List.reverse_append, List.takeWhile_append_dropWhile, List.reverse_reverse]
  · intro c hc
    rw [List.mem_reverse] at hc
    have := List.all_takeWhile (p := fun c : Char => decide (c = '/')) (l := d.reverse)
    rw [List.all_eq_true] at this
    simpa using this c hc
  · unfold bare
    rw [List.getLast?_reverse]
    intro h
    have := List.head?_dropWhile_not (fun c : Char => decide (c = '/')) d.reverse
    rw [h] at this
    simp at this

theorem bare_unique {dir d d' : Str} (h : Bare dir d) (h' : Bare dir d') : d = d' := by
  have key : ∀ {e : Str}, Bare dir e → bare dir = e := by
    rintro e ⟨sl, rfl, h1, h2⟩
    unfold bare
    rw [List.reverse_append, List.dropWhile_append_of_pos (by intro c hc; simpa using h1 c (List.mem_reverse.mp hc))]
    cases hr : e.reverse with
    | nil => rw [List.reverse_eq_nil_iff] at hr; rw [hr]; rfl
    | cons c r =>
      have hc : e.getLast? = some c := by rw [← List.head?_reverse, hr]; rfl
      rw [List.dropWhile_cons_of_neg (by simp; rintro rfl; exact h2 hc), ← hr, List.reverse_reverse]
  rw [← key h, key h']

/-- the mounted directory is above the home directory -/
def Above (home : Str) (m : Mount) : Prop := ∃ r, home = bare m.dir ++ '/' :: r

theorem homeStep_eq {home : Str} {st : Option Str × Nat} {m : Mount} (hm : m.dir.head? = some '/') :
    (Above home m ∧ (st.2 < (bare m.dir).length ∨ (bare m.dir).length = 0) → homeStep home st m = (some m.fsname, (bare m.dir).length)) ∧
    (¬ (Above home m ∧ (st.2 < (bare m.dir).length ∨ (bare m.dir).length = 0)) → homeStep home st m = st) := by
  unfold homeStep
  dsimp only
  constructor
  · rintro ⟨⟨r, hr⟩, h⟩
    rw [if_pos (h.imp id (fun h => ⟨h, hm⟩)), skipPrefix_some.mpr hr]
    rfl
  · intro h
    by_cases hc : st.2 < (bare m.dir).length ∨ (bare m.dir).length = 0 ∧ m.dir.head? = some '/'
    · rw [if_pos hc]
      cases hs : skipPrefix home (bare m.dir) with
      | none => rfl
      | some s =>
        dsimp only
        by_cases h0 : s.head? = some '/'
        · exfalso
          apply h
          refine ⟨?_, hc.imp id (·.1)⟩
          cases s with
          | nil => cases h0
          | cons c r =>
            have : c = '/' := Option.some.inj h0
            subst this
            exact ⟨r, skipPrefix_some.mp hs⟩
        · rw [if_neg h0]
    · rw [if_neg hc]

theorem homeFold {home : Str} {mounts : List Mount} (hp : Plain mounts home) : ∀ (pre post : List Mount), mounts = pre ++ post →
    (((∀ x ∈ pre, ¬ Above home x) ∧ pre.foldl (homeStep home) (none, 0) = (none, 0)) ∨
     (∃ m ∈ pre, Above home m ∧ pre.foldl (homeStep home) (none, 0) = (some m.fsname, (bare m.dir).length) ∧
        ∀ x ∈ pre, Above home x → (bare x.dir).length ≤ (bare m.dir).length)) := by
  have main : ∀ n (pre post : List Mount), pre.length = n → mounts = pre ++ post →
    (((∀ x ∈ pre, ¬ Above home x) ∧ pre.foldl (homeStep home) (none, 0) = (none, 0)) ∨
     (∃ m ∈ pre, Above home m ∧ pre.foldl (homeStep home) (none, 0) = (some m.fsname, (bare m.dir).length) ∧
        ∀ x ∈ pre, Above home x → (bare x.dir).length ≤ (bare m.dir).length)) := by
    intro n
    induction n with
    | zero =>
      intro pre post hl he
      have : pre = [] := List.length_eq_zero_iff.mp hl
      subst this
      exact Or.inl ⟨(by intro x hx; cases hx), rfl⟩
    | succ n ih =>
      intro pre post hl he
      rcases List.eq_nil_or_concat pre with rfl | ⟨pre', m, rfl⟩
      · cases hl
      · rw [List.concat_eq_append] at hl he ⊢
        have hl' : pre'.length = n := by simpa using hl
        have he' : mounts = pre' ++ m :: post := by rw [he]; simp
        have hm : m ∈ mounts := by rw [he']; simp
        obtain ⟨s1, s2⟩ := homeStep_eq (home := home) (st := pre'.foldl (homeStep home) (none, 0)) (hp.absolute m hm)
        rw [List.foldl_append, List.foldl_cons, List.foldl_nil]
        rcases ih pre' (m :: post) hl' he' with ⟨h1, h2⟩ | ⟨k, hk, hka, h2, h3⟩
        · rw [h2] at s1 s2 ⊢
          by_cases ha : Above home m
          · right
            refine ⟨m, by simp, ha, s1 ⟨ha, by dsimp only; omega⟩, ?_⟩
            intro x hx hxa
            rcases List.mem_append.mp hx with hx | hx
            · exact absurd hxa (h1 x hx)
            · rw [List.mem_singleton] at hx; subst hx; exact Nat.le_refl _
          · left
            refine ⟨?_, s2 (fun h => ha h.1)⟩
            intro x hx
            rcases List.mem_append.mp hx with hx | hx
            · exact h1 x hx
            · rw [List.mem_singleton] at hx; subst hx; exact ha
        · right
          rw [h2] at s1 s2 ⊢
          dsimp only at s1 s2
          by_cases hc : Above home m ∧ ((bare k.dir).length < (bare m.dir).length ∨ (bare m.dir).length = 0)
          · refine ⟨m, by simp, hc.1, s1 hc, ?_⟩
            intro x hx hxa
            rcases List.mem_append.mp hx with hx | hx
            · rcases hc.2 with h | h
              · exact Nat.le_trans (h3 x hx hxa) (Nat.le_of_lt h)
              · have hb : Bare m.dir [] := by have := bare_spec m.dir; rwa [List.length_eq_zero_iff.mp h] at this
                have := hp.rootfirst pre' m post he' hb x hx
                rw [bare_unique (bare_spec x.dir) this]
                exact Nat.zero_le _
            · rw [List.mem_singleton] at hx; subst hx; exact Nat.le_refl _
          · refine ⟨k, by simp [hk], hka, s2 hc, ?_⟩
            intro x hx hxa
            rcases List.mem_append.mp hx with hx | hx
            · exact h3 x hx hxa
            · rw [List.mem_singleton] at hx
              subst hx
              apply Nat.le_of_not_lt
              intro hlt
              exact hc ⟨hxa, Or.inl hlt⟩
  intro pre post he
  exact main _ pre post rfl he

/-- C147, fs=: with fs= the quota is that of the device of the last mount of that name; without such a mount the session is denied, and nothing is changed. -/
theorem C147_fs (w : World) (argv : List Str) (v f : Str) (mounts : List Mount) (hl : Last "fs=" argv v) (hf : FsName v f) (hm : w.mounts = some mounts) :
    (∀ m r, LastMount mounts f m → (openSession w argv).2 = some r → r.device = m.fsname) ∧
    ((∀ m ∈ mounts, m.dir ≠ f ∧ m.fsname ≠ f) → (openSession w argv).2 = none ∧
      ∀ u uid home a b, w.user = some u → u ≠ [] → w.pw u = some (uid, home) → Start w argv a → Stop argv b → a ≤ uid → (uid ≤ b ∨ b < a) →
        openSession w argv = (PAM_PERM_DENIED, none)) := by
  have hfs := (fs_spec w argv).2 v f hl hf
  obtain ⟨g1, g2⟩ := fsFold f mounts none
  constructor
  · intro m r hlm hr
    unfold openSession at hr
    dsimp only at hr
    split at hr
    · cases hr
    · split at hr
      · cases hr
      · split at hr
        · cases hr
        · split at hr
          · cases hr
          · rw [hm, hfs] at hr
            dsimp only [device] at hr
            rw [g2 m hlm] at hr
            exact (setOn_uid hr).2
  · intro hno
    constructor
    · unfold openSession
      dsimp only
      split
      · rfl
      · split
        · rfl
        · split
          · rfl
          · split
            · rfl
            · rw [hm, hfs]
              dsimp only [device]
              rw [g1 hno]
    · intro u uid home a b hu hne hpw ha hb h1 h2
      have e1 : (params w argv).start = a := start_unique (start_spec w argv) ha
      have e2 : (params w argv).stop = b := chosen_unique (stop_spec w argv) hb
      unfold openSession
      dsimp only
      rw [hu]
      dsimp only
      rw [if_neg hne, hpw]
      dsimp only
      rw [if_neg (by unfold outside; rw [e1, e2]; omega), hm, hfs]
      dsimp only [device]
      rw [g1 hno]

theorem home_device {mounts : List Mount} {home : Str} {m : Mount} (hp : Plain mounts home) (hon : On mounts home m) :
    (mounts.foldl (homeStep home) (none, 0)).1 = some m.fsname := by
  obtain ⟨hmem, ⟨d, hd, hh⟩, hmax⟩ := hon
  have hab : Above home m := by
    rcases hh with rfl | ⟨q, hq⟩
    · exact absurd hd (hp.nothome m hmem)
    · exact ⟨q, by rw [bare_unique (bare_spec m.dir) hd]; exact hq⟩
  rcases homeFold hp mounts [] (by simp) with ⟨h1, _⟩ | ⟨k, hk, ⟨q, hq⟩, h2, h3⟩
  · exact absurd hab (h1 m hmem)
  · rw [h2]
    have l1 := h3 m hmem hab
    have l2 := hmax k hk ⟨_, bare_spec k.dir, Or.inr ⟨q, hq⟩⟩ _ _ (bare_spec m.dir) (bare_spec k.dir)
    obtain ⟨q', hq'⟩ := hab
    have e : bare m.dir = bare k.dir := by
      have := hq'.symm.trans hq
      exact (List.append_inj this (by omega)).1
    have : m = k := hp.distinct m hmem k hk (bare m.dir) (bare_spec _) (by rw [e]; exact bare_spec _)
    rw [this]

/-- C147, the home directory: without fs= the quota is that of the device the home directory is on.  Missing: mounts that hide others, a home directory that is itself
a mount, and a root that is mounted again after others. -/
theorem C147_home_partial (w : World) (argv : List Str) (u : Str) (uid : Nat) (home : Str) (mounts : List Mount) (m : Mount) (r : Request)
    (hu : w.user = some u) (hpw : w.pw u = some (uid, home)) (hf : Without "fs=" argv) (hm : w.mounts = some mounts)
    (hp : Plain mounts home) (hon : On mounts home m) (hr : (openSession w argv).2 = some r) : r.device = m.fsname := by
  have hfs := (fs_spec w argv).1 hf
  have hdev := home_device hp hon
  unfold openSession at hr
  dsimp only at hr
  rw [hu] at hr
  dsimp only at hr
  split at hr
  · cases hr
  · rw [hpw] at hr
    dsimp only at hr
    split at hr
    · cases hr
    · rw [hm, hfs] at hr
      dsimp only [device] at hr
      rw [hdev] at hr
      exact (setOn_uid hr).2

/-! ### C148: the limits -/

/-- the fields of `Parse` that one argument sets -/
theorem limit_other (p : Parse) (a : Str) :
    (¬ "bhardlimit=".toList <+: a → ((limitArg p a).q.bhard, (limitArg p a).bhard) = (p.q.bhard, p.bhard)) ∧
    (¬ "bsoftlimit=".toList <+: a → ((limitArg p a).q.bsoft, (limitArg p a).bsoft) = (p.q.bsoft, p.bsoft)) ∧
    (¬ "ihardlimit=".toList <+: a → ((limitArg p a).q.ihard, (limitArg p a).ihard) = (p.q.ihard, p.ihard)) ∧
    (¬ "isoftlimit=".toList <+: a → ((limitArg p a).q.isoft, (limitArg p a).isoft) = (p.q.isoft, p.isoft)) ∧
    (¬ "btime=".toList <+: a → ((limitArg p a).q.btime, (limitArg p a).v.btime) = (p.q.btime, p.v.btime)) ∧
    (¬ "itime=".toList <+: a → ((limitArg p a).q.itime, (limitArg p a).v.itime) = (p.q.itime, p.v.itime)) := by
  unfold limitArg
  cases h1 : skipPrefix a "bhardlimit=".toList with
  | some s => exact ⟨fun h => absurd ⟨s, (skipPrefix_some.mp h1).symm⟩ h, fun _ => rfl, fun _ => rfl, fun _ => rfl, fun _ => rfl, fun _ => rfl⟩
  | none =>
  dsimp only
  cases h2 : skipPrefix a "bsoftlimit=".toList with
  | some s => exact ⟨fun _ => rfl, fun h => absurd ⟨s, (skipPrefix_some.mp h2).symm⟩ h, fun _ => rfl, fun _ => rfl, fun _ => rfl, fun _ => rfl⟩
  | none =>
  dsimp only
  cases h3 : skipPrefix a "ihardlimit=".toList with
  | some s => exact ⟨fun _ => rfl, fun _ => rfl, fun h => absurd ⟨s, (skipPrefix_some.mp h3).symm⟩ h, fun _ => rfl, fun _ => rfl, fun _ => rfl⟩
  | none =>
  dsimp only
  cases h4 : skipPrefix a "isoftlimit=".toList with
  | some s => exact ⟨fun _ => rfl, fun _ => rfl, fun _ => rfl, fun h => absurd ⟨s, (skipPrefix_some.mp h4).symm⟩ h, fun _ => rfl, fun _ => rfl⟩
  | none =>
  dsimp only
  cases h5 : skipPrefix a "btime=".toList with
  | some s => exact ⟨fun _ => rfl, fun _ => rfl, fun _ => rfl, fun _ => rfl, fun h => absurd ⟨s, (skipPrefix_some.mp h5).symm⟩ h, fun _ => rfl⟩
  | none =>
  dsimp only
  cases h6 : skipPrefix a "itime=".toList with
  | some s => exact ⟨fun _ => rfl, fun _ => rfl, fun _ => rfl, fun _ => rfl, fun _ => rfl, fun h => absurd ⟨s, (skipPrefix_some.mp h6).symm⟩ h⟩
  | none => exact ⟨fun _ => rfl, fun _ => rfl, fun _ => rfl, fun _ => rfl, fun _ => rfl, fun _ => rfl⟩

theorem limit_own (p : Parse) (v : Str) :
    (((limitArg p ("bhardlimit=".toList ++ v)).q.bhard, (limitArg p ("bhardlimit=".toList ++ v)).bhard) = (dqbNum v, true)) ∧
    (((limitArg p ("bsoftlimit=".toList ++ v)).q.bsoft, (limitArg p ("bsoftlimit=".toList ++ v)).bsoft) = (dqbNum v, true)) ∧
    (((limitArg p ("ihardlimit=".toList ++ v)).q.ihard, (limitArg p ("ihardlimit=".toList ++ v)).ihard) = (dqbNum v, true)) ∧
    (((limitArg p ("isoftlimit=".toList ++ v)).q.isoft, (limitArg p ("isoftlimit=".toList ++ v)).isoft) = (dqbNum v, true)) ∧
    (((limitArg p ("btime=".toList ++ v)).q.btime, (limitArg p ("btime=".toList ++ v)).v.btime) = (dqbNum v, true)) ∧
    (((limitArg p ("itime=".toList ++ v)).q.itime, (limitArg p ("itime=".toList ++ v)).v.itime) = (dqbNum v, true)) :=
  ⟨rfl, rfl, rfl, rfl, rfl, rfl⟩

theorem limit_valid (p : Parse) (a : Str) (h : p.v.blimits = (p.bhard || p.bsoft) ∧ p.v.ilimits = (p.ihard || p.isoft)) :
    (limitArg p a).v.blimits = ((limitArg p a).bhard || (limitArg p a).bsoft) ∧ (limitArg p a).v.ilimits = ((limitArg p a).ihard || (limitArg p a).isoft) := by
  unfold limitArg
  split
  · exact ⟨(by simp), h.2⟩
  · split
    · exact ⟨(by simp), h.2⟩
    · split
      · exact ⟨h.1, (by simp)⟩
      · split
        · exact ⟨h.1, (by simp)⟩
        · split
          · exact h
          · split
            · exact h
            · exact h

theorem valid_fold : ∀ (argv : List Str) (p : Parse), (p.v.blimits = (p.bhard || p.bsoft) ∧ p.v.ilimits = (p.ihard || p.isoft)) →
    (argv.foldl limitArg p).v.blimits = ((argv.foldl limitArg p).bhard || (argv.foldl limitArg p).bsoft) ∧
    (argv.foldl limitArg p).v.ilimits = ((argv.foldl limitArg p).ihard || (argv.foldl limitArg p).isoft)
  | [], _, h => h
  | a :: argv, p, h => valid_fold argv _ (limit_valid p a h)

/-- one limit after the loop: the number, and whether it was given -/
theorem limit_fold {k : String} {get : Parse → Nat × Bool} (ho : ∀ p a, ¬ k.toList <+: a → get (limitArg p a) = get p)
    (hw : ∀ p v, get (limitArg p (k.toList ++ v)) = (dqbNum v, true)) (argv : List Str) (p : Parse) (hp : (get p).2 = false) :
    Limit k argv (get p).1 (get (argv.foldl limitArg p)).1 ∧ ((get (argv.foldl limitArg p)).2 = false ↔ Without k argv) := by
  obtain ⟨h1, h2⟩ := foldl_last limitArg get k ho argv p
  rcases last_or_without k argv with h | ⟨v, h⟩
  · rw [h1 h]
    exact ⟨Or.inr ⟨h, rfl⟩, ⟨fun _ => h, fun _ => hp⟩⟩
  · obtain ⟨pre, _, e⟩ := h2 v h
    rw [e, hw]
    exact ⟨Or.inl ⟨v, h, dqbNum_spec v⟩, ⟨(fun h' => by cases h'), fun h' => absurd h (without_last h')⟩⟩

theorem parse_spec (argv : List Str) (q : Quota) :
    (Half argv → parseDqblk argv q = none) ∧
    (¬ Half argv → ∃ nq v, parseDqblk argv q = some (nq, v) ∧ Changed argv q nq ∧ (v = {} ↔ NoLimits argv) ∧
      ∀ dev uid, (Request.mk dev uid nq v).apply q = nq) := by
  have f1 := limit_fold (k := "bhardlimit=") (get := fun p => (p.q.bhard, p.bhard)) (fun p a h => (limit_other p a).1 h) (fun p v => (limit_own p v).1) argv { q := q } rfl
  have f2 := limit_fold (k := "bsoftlimit=") (get := fun p => (p.q.bsoft, p.bsoft)) (fun p a h => (limit_other p a).2.1 h) (fun p v => (limit_own p v).2.1) argv { q := q } rfl
  have f3 := limit_fold (k := "ihardlimit=") (get := fun p => (p.q.ihard, p.ihard)) (fun p a h => (limit_other p a).2.2.1 h) (fun p v => (limit_own p v).2.2.1) argv { q := q } rfl
  have f4 := limit_fold (k := "isoftlimit=") (get := fun p => (p.q.isoft, p.isoft)) (fun p a h => (limit_other p a).2.2.2.1 h) (fun p v => (limit_own p v).2.2.2.1) argv { q := q } rfl
  have f5 := limit_fold (k := "btime=") (get := fun p => (p.q.btime, p.v.btime)) (fun p a h => (limit_other p a).2.2.2.2.1 h) (fun p v => (limit_own p v).2.2.2.2.1) argv { q := q } rfl
  have f6 := limit_fold (k := "itime=") (get := fun p => (p.q.itime, p.v.itime)) (fun p a h => (limit_other p a).2.2.2.2.2 h) (fun p v => (limit_own p v).2.2.2.2.2) argv { q := q } rfl
  obtain ⟨fv1, fv2⟩ := valid_fold argv { q := q } ⟨rfl, rfl⟩
  unfold parseDqblk
  dsimp only at f1 f2 f3 f4 f5 f6 ⊢
  generalize argv.foldl limitArg { q := q } = P at f1 f2 f3 f4 f5 f6 fv1 fv2 ⊢
  have hhalf : Half argv ↔ ¬ (P.bhard = P.bsoft ∧ P.ihard = P.isoft) := by
    unfold Half
    rw [← f1.2, ← f2.2, ← f3.2, ← f4.2]
    cases P.bhard <;> cases P.bsoft <;> cases P.ihard <;> cases P.isoft <;> decide
  constructor
  · intro h; exact if_neg (hhalf.mp h)
  · intro h
    have h' : P.bhard = P.bsoft ∧ P.ihard = P.isoft := Classical.not_not.mp (fun h' => h (hhalf.mpr h'))
    refine ⟨P.q, P.v, if_pos h', ⟨f1.1, f2.1, f3.1, f4.1, f5.1, f6.1⟩, ?_, ?_⟩
    · unfold NoLimits
      simp only [List.mem_cons, List.not_mem_nil, or_false, forall_eq_or_imp, forall_eq]
      rw [← f1.2, ← f2.2, ← f3.2, ← f4.2, ← f5.2, ← f6.2]
      obtain ⟨Q, ⟨v1, v2, v3, v4⟩, b1, b2, b3, b4⟩ := P
      dsimp only at fv1 fv2 ⊢
      subst fv1 fv2
      cases b1 <;> cases b2 <;> cases b3 <;> cases b4 <;> cases v3 <;> cases v4 <;> decide
    · intro dev uid
      have keep : ∀ {k : String} {old new : Nat} {g : Bool}, Limit k argv old new → (g = false ↔ Without k argv) → g = false → new = old := by
        intro k old new g hl hg h0
        rcases hl with ⟨v, hl, _⟩ | ⟨_, e⟩
        · exact absurd hl (without_last (hg.mp h0))
        · exact e
      have e1 := keep f1.1 f1.2
      have e2 := keep f2.1 f2.2
      have e3 := keep f3.1 f3.2
      have e4 := keep f4.1 f4.2
      have e5 := keep f5.1 f5.2
      have e6 := keep f6.1 f6.2
      unfold Request.apply
      dsimp only
      obtain ⟨⟨q1, q2, q3, q4, q5, q6⟩, ⟨v1, v2, v3, v4⟩, b1, b2, b3, b4⟩ := P
      dsimp only at e1 e2 e3 e4 e5 e6 fv1 fv2 h' ⊢
      obtain ⟨h1, h2⟩ := h'
      subst fv1 fv2 h1 h2
      congr 1
      · cases b1
        · exact (e1 rfl).symm
        · rfl
      · cases b1
        · exact (e2 rfl).symm
        · rfl
      · cases b3
        · exact (e3 rfl).symm
        · rfl
      · cases b3
        · exact (e4 rfl).symm
        · rfl
      · cases v3
        · exact (e5 rfl).symm
        · rfl
      · cases v4
        · exact (e6 rfl).symm
        · rfl

/-- C148: a change replaces the limits as the last arguments for them say (anything that is no number is 0) and leaves all others; it is asked for only if no limit is
set before, or with overwrite=1. -/
theorem C148_limits (w : World) (argv : List Str) (r : Request) (h : (openSession w argv).2 = some r) :
    ∃ q, w.read r.device r.uid = some q ∧ (Unset q ∨ Overwrite argv) ∧ ¬ Half argv ∧ ¬ NoLimits argv ∧ Changed argv q (r.apply q) ∧
      (openSession w argv).1 = if w.setOk = true then PAM_SUCCESS else PAM_PERM_DENIED := by
  have main : ∀ uid dev, (setOn w argv (params w argv).overwrite uid dev).2 = some r →
      ∃ q, w.read r.device r.uid = some q ∧ (Unset q ∨ Overwrite argv) ∧ ¬ Half argv ∧ ¬ NoLimits argv ∧ Changed argv q (r.apply q) ∧
      (setOn w argv (params w argv).overwrite uid dev).1 = if w.setOk = true then PAM_SUCCESS else PAM_PERM_DENIED := by
    intro uid dev h
    obtain ⟨e1, e2⟩ := setOn_uid h
    unfold setOn at h ⊢
    cases hq : w.read dev uid with
    | none => rw [hq] at h; cases h
    | some q =>
      rw [hq] at h
      dsimp only at h ⊢
      by_cases hc : (q.bsoft = 0 ∧ q.bhard = 0 ∧ q.isoft = 0 ∧ q.ihard = 0) ∨ (params w argv).overwrite = 1
      · rw [if_pos hc] at h ⊢
        by_cases hh : Half argv
        · rw [(parse_spec argv q).1 hh] at h; cases h
        · obtain ⟨nq, v, hp, hch, hno, happ⟩ := (parse_spec argv q).2 hh
          rw [hp] at h ⊢
          dsimp only at h ⊢
          by_cases hv : v = {}
          · rw [if_pos hv] at h; cases h
          · rw [if_neg hv] at h ⊢
            have hr : r = ⟨dev, uid, nq, v⟩ := (Option.some.inj h).symm
            refine ⟨q, by rw [e1, e2]; exact hq, ?_, hh, fun h => hv (hno.mpr h), ?_, rfl⟩
            · rw [overwrite_spec] at hc
              exact hc.imp (fun h => ⟨h.2.1, h.1, h.2.2.2, h.2.2.1⟩) id
            · rw [hr, happ]; exact hch
      · rw [if_neg hc] at h; cases h
  unfold openSession at h ⊢
  dsimp only at h ⊢
  cases hu : w.user with
  | none => rw [hu] at h; cases h
  | some u =>
    rw [hu] at h
    dsimp only at h ⊢
    by_cases hne : u = []
    · rw [if_pos hne] at h; cases h
    · rw [if_neg hne] at h ⊢
      cases hpw : w.pw u with
      | none => rw [hpw] at h; cases h
      | some p =>
        rw [hpw] at h
        dsimp only at h ⊢
        by_cases ho : outside (params w argv) p.1
        · rw [if_pos ho] at h; cases h
        · rw [if_neg ho] at h ⊢
          cases hm : w.mounts with
          | none => rw [hm] at h; cases h
          | some mounts =>
            rw [hm] at h
            dsimp only at h ⊢
            cases hd : device (params w argv).fs p.2 mounts with
            | none => rw [hd] at h; cases h
            | some dev =>
              rw [hd] at h
              exact main p.1 dev h

open Classical in
/-- C148, the result: for a user in the range, and a file system that is named by fs= and mounted, or that the home directory is on -/
theorem C148_result (w : World) (argv : List Str) (u : Str) (uid : Nat) (home : Str) (a b : Nat) (mounts : List Mount) (m : Mount)
    (hu : w.user = some u) (hne : u ≠ []) (hpw : w.pw u = some (uid, home)) (ha : Start w argv a) (hb : Stop argv b) (h1 : a ≤ uid) (h2 : uid ≤ b ∨ b < a)
    (hm : w.mounts = some mounts)
    (hd : (∃ v f, Last "fs=" argv v ∧ FsName v f ∧ LastMount mounts f m) ∨ (Without "fs=" argv ∧ Plain mounts home ∧ On mounts home m)) :
    (w.read m.fsname uid = none → openSession w argv = (PAM_PERM_DENIED, none)) ∧
    (∀ q, w.read m.fsname uid = some q →
      (¬ Unset q → ¬ Overwrite argv → openSession w argv = (PAM_IGNORE, none)) ∧
      ((Unset q ∨ Overwrite argv) →
        (Half argv → openSession w argv = (PAM_PERM_DENIED, none)) ∧
        (NoLimits argv → openSession w argv = (PAM_IGNORE, none)) ∧
        (¬ Half argv → ¬ NoLimits argv → ∃ r, openSession w argv = (if w.setOk = true then PAM_SUCCESS else PAM_PERM_DENIED, some r) ∧ r.device = m.fsname ∧ r.uid = uid))) := by
  have e1 : (params w argv).start = a := start_unique (start_spec w argv) ha
  have e2 : (params w argv).stop = b := chosen_unique (stop_spec w argv) hb
  have hdev : device (params w argv).fs home mounts = some m.fsname := by
    rcases hd with ⟨v, f, hl, hf, hlm⟩ | ⟨hf, hp, hon⟩
    · rw [(fs_spec w argv).2 v f hl hf]
      exact (fsFold f mounts none).2 m hlm
    · rw [(fs_spec w argv).1 hf]
      exact home_device hp hon
  have e : openSession w argv = setOn w argv (params w argv).overwrite uid m.fsname := by
    unfold openSession
    dsimp only
    rw [hu]
    dsimp only
    rw [if_neg hne, hpw]
    dsimp only
    rw [if_neg (by unfold outside; rw [e1, e2]; omega), hm]
    dsimp only
    rw [hdev]
  rw [e]
  unfold setOn
  constructor
  · intro h; rw [h]
  · intro q hq
    rw [hq]
    dsimp only
    constructor
    · intro hn ho
      rw [if_neg]
      rw [overwrite_spec]
      rintro (h | h)
      · exact hn ⟨h.2.1, h.1, h.2.2.2, h.2.2.1⟩
      · exact ho h
    · intro hc
      rw [if_pos (by rw [overwrite_spec]; exact hc.imp (fun h => ⟨h.2.1, h.1, h.2.2.2, h.2.2.1⟩) id)]
      refine ⟨fun h => by rw [(parse_spec argv q).1 h], ?_, ?_⟩
      · intro h
        have hh : ¬ Half argv := by
          unfold Half
          have k1 := h "bhardlimit=" (by simp)
          have k2 := h "bsoftlimit=" (by simp)
          have k3 := h "ihardlimit=" (by simp)
          have k4 := h "isoftlimit=" (by simp)
          simp [k1, k2, k3, k4]
        obtain ⟨nq, v', hp, _, hno, _⟩ := (parse_spec argv q).2 hh
        rw [hp]
        dsimp only
        rw [if_pos (hno.mpr h)]
      · intro hh hn
        obtain ⟨nq, v', hp, _, hno, _⟩ := (parse_spec argv q).2 hh
        rw [hp]
        dsimp only
        rw [if_neg (fun h => hn (hno.mp h))]
        exact ⟨_, rfl, rfl, rfl⟩

/-! ### examples, and where more does not hold -/

def q0 : Quota := ⟨0, 0, 0, 0, 0, 0⟩

def w0 : World where
  uidMin := some "1000".toList
  built := 500
  user := some "ann".toList
  pw := fun u => if u = "ann".toList then some (1001, "/home/ann".toList) else none
  mounts := some [⟨"/".toList, "/dev/root".toList⟩, ⟨"/home".toList, "/dev/home".toList⟩, ⟨"/tmp".toList, "tmpfs".toList⟩]
  read := fun _ _ => some q0
  setOk := true

example : openSession w0 ["bhardlimit=20000".toList, "bsoftlimit=19000".toList] =
    (PAM_SUCCESS, some ⟨"/dev/home".toList, 1001, ⟨20000, 19000, 0, 0, 0, 0⟩, { blimits := true }⟩) := by decide +kernel

example : (openSession w0 ["fs=/tmp/".toList, "btime=5".toList]).2 = some ⟨"tmpfs".toList, 1001, ⟨0, 0, 0, 0, 5, 0⟩, { btime := true }⟩ := by decide +kernel

example : FsName "/tmp/".toList "/tmp".toList := Or.inl ⟨rfl, by decide⟩

example : On [⟨"/".toList, "/dev/root".toList⟩, ⟨"/home".toList, "/dev/home".toList⟩] "/home/ann".toList ⟨"/home".toList, "/dev/home".toList⟩ := by
  refine ⟨by decide, ⟨"/home".toList, ⟨[], rfl, by simp, by decide⟩, Or.inr ⟨"ann".toList, rfl⟩⟩, ?_⟩
  intro x hx _ d d' hd hd'
  rcases List.mem_cons.mp hx with rfl | hx
  · rw [bare_unique hd' (bare_spec _)]; exact Nat.zero_le _
  · rw [List.mem_singleton] at hx
    subst hx
    rw [bare_unique hd hd']
    exact Nat.le_refl _

example : LastMount [⟨"/".toList, "/dev/root".toList⟩, ⟨"/tmp".toList, "tmpfs".toList⟩] "/tmp".toList ⟨"/tmp".toList, "tmpfs".toList⟩ :=
  ⟨[⟨"/".toList, "/dev/root".toList⟩], [], rfl, Or.inl rfl, by simp⟩

example : Plain [⟨"/".toList, "/dev/root".toList⟩, ⟨"/home".toList, "/dev/home".toList⟩] "/home/ann".toList where
  absolute := by decide
  distinct := by
    intro m hm m' hm' d h h'
    have e := (bare_unique (bare_spec _) h).trans (bare_unique (bare_spec _) h').symm
    revert e
    clear h h'
    revert m m'
    decide +kernel
  nothome := by
    intro m hm h
    have e := bare_unique (bare_spec _) h
    revert e
    clear h
    revert m
    decide +kernel
  rootfirst := by
    intro pre m post h hb
    match pre with
    | [] => intro x hx; cases hx
    | [y] =>
      cases h
      exact absurd (bare_unique (bare_spec _) hb) (by decide +kernel)
    | _ :: _ :: _ => simp at h

/-- C146: with startuid=0 the end of the range is not looked at. -/
theorem C146_zero_counterexample :
    Start w0 ["startuid=0".toList, "enduid=999".toList, "btime=1".toList] 0 ∧ Stop ["startuid=0".toList, "enduid=999".toList, "btime=1".toList] 999 ∧
    ∃ r, (openSession w0 ["startuid=0".toList, "enduid=999".toList, "btime=1".toList]).2 = some r ∧ r.uid = 1001 :=
  ⟨start_spec w0 ["startuid=0".toList, "enduid=999".toList, "btime=1".toList], stop_spec w0 ["startuid=0".toList, "enduid=999".toList, "btime=1".toList],
    ⟨"/dev/home".toList, 1001, ⟨0, 0, 0, 0, 1, 0⟩, { btime := true }⟩, by decide +kernel, rfl⟩

/-- C147: a home directory that is a mount of its own gets no quota there, but on the file system above. -/
theorem C147_own_counterexample : ∃ r,
    (openSession { w0 with mounts := some [⟨"/".toList, "/dev/root".toList⟩, ⟨"/home/ann".toList, "/dev/ann".toList⟩] } ["btime=1".toList]).2 = some r ∧
    r.device = "/dev/root".toList :=
  ⟨⟨"/dev/root".toList, 1001, ⟨0, 0, 0, 0, 1, 0⟩, { btime := true }⟩, by decide +kernel, rfl⟩

/-- C147: if the root is mounted once more at the end, the quota is set there. -/
theorem C147_root_counterexample : ∃ r,
    (openSession { w0 with mounts := some [⟨"/".toList, "rootfs".toList⟩, ⟨"/home".toList, "/dev/home".toList⟩, ⟨"/".toList, "/dev/root".toList⟩] } ["btime=1".toList]).2 = some r ∧
    r.device = "/dev/root".toList :=
  ⟨⟨"/dev/root".toList, 1001, ⟨0, 0, 0, 0, 1, 0⟩, { btime := true }⟩, by decide +kernel, rfl⟩

/-- C147: of two mounts on the same directory the hidden one is taken. -/
theorem C147_hidden_counterexample : ∃ r,
    (openSession { w0 with mounts := some [⟨"/".toList, "/dev/root".toList⟩, ⟨"/home".toList, "/dev/old".toList⟩, ⟨"/home".toList, "/dev/new".toList⟩] } ["btime=1".toList]).2 = some r ∧
    r.device = "/dev/old".toList :=
  ⟨⟨"/dev/old".toList, 1001, ⟨0, 0, 0, 0, 1, 0⟩, { btime := true }⟩, by decide +kernel, rfl⟩

/-- C148: a limit with a unit is no limit at all. -/
theorem C148_unit_counterexample :
    openSession w0 ["bhardlimit=20G".toList, "bsoftlimit=19G".toList] =
      (PAM_SUCCESS, some ⟨"/dev/home".toList, 1001, ⟨0, 0, 0, 0, 0, 0⟩, { blimits := true }⟩) := by decide +kernel

end Pam.Quota
