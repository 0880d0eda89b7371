import Verif.Selinux.Spec
/-
C159: pam_selinux gives no other context than the default or one the policy allows.
C160: pam_selinux puts back what it changed.
-/
namespace Pam.Selinux
open Pam Pam.Small Spec

theorem answered_some {o : Option Str} {r : Str} : answered o = some r ↔ o = some r ∧ r ≠ [] := by
  rcases o with _ | (_ | ⟨c, t⟩)
  · simp [answered]
  · simp only [answered]; constructor
    · nofun
    · rintro ⟨h, h2⟩; cases h; exact absurd rfl h2
  · simp only [answered]; constructor
    · intro h; cases h; exact ⟨rfl, nofun⟩
    · exact fun h => h.1

theorem answered_none {o : Option Str} : answered o = none ↔ Nothing o := by
  rcases o with _ | (_ | ⟨c, t⟩) <;> simp [answered, Nothing]

theorem setRole_some {p : Policy} {c x : Ctx} {r t : Str} : setRole p c r t = some x ↔
    p.roleOk r = true ∧ p.typeOk t = true ∧ x = { c with role := r, type := t } := by
  unfold setRole
  cases p.roleOk r <;> cases p.typeOk t <;> simp [eq_comm]

theorem setRange_some {p : Policy} {c x : Ctx} {l : Option Str} : setRange p c l = some x ↔ p.rangeOk l = true ∧ x = { c with range := l } := by
  unfold setRange
  cases p.rangeOk l <;> simp [eq_comm]

theorem currentRange_some {p : Policy} {l : Option Str} : currentRange p = some l ↔ ∃ my m, p.getcon = some my ∧ p.contextNew my = some m ∧ l = m.range := by
  unfold currentRange
  cases hg : p.getcon with
  | none => simp
  | some my =>
    cases hn : p.contextNew my with
    | none => simp [hn]
    | some m => simp [hn, eq_comm]

theorem askLevel_some {p : Policy} {ask : Nat → Option Str} {current : Bool} {c x : Ctx} {i j : Nat} (h : askLevel p ask current c i = some (x, j)) :
    x.user = c.user ∧ x.role = c.role ∧ x.type = c.type ∧
    (x.range = c.range ∨ (p.mls = true ∧ ((∃ l, ask i = some l ∧ x.range = some l) ∨ ∃ my m, p.getcon = some my ∧ p.contextNew my = some m ∧ x.range = m.range))) := by
  unfold askLevel at h
  cases hm : p.mls with
  | false => rw [hm] at h; simp only [if_true] at h; cases h; exact ⟨rfl, rfl, rfl, Or.inl rfl⟩
  | true =>
    rw [hm] at h
    simp only [Bool.true_eq_false, if_false] at h
    cases current with
    | true =>
      simp only [if_true] at h
      cases hc : currentRange p with
      | none => rw [hc] at h; cases h
      | some r =>
        rw [hc] at h
        simp only [Option.map_eq_some_iff] at h
        obtain ⟨y, hy, e⟩ := h
        cases e
        obtain ⟨-, rfl⟩ := setRange_some.mp hy
        obtain ⟨my, m, h1, h2, rfl⟩ := currentRange_some.mp hc
        exact ⟨rfl, rfl, rfl, Or.inr ⟨rfl, Or.inr ⟨my, m, h1, h2, rfl⟩⟩⟩
    | false =>
      simp only [Bool.false_eq_true, if_false] at h
      cases ha : answered (ask i) with
      | none => rw [ha] at h; cases h; exact ⟨rfl, rfl, rfl, Or.inl rfl⟩
      | some l =>
        rw [ha] at h
        simp only [Option.map_eq_some_iff] at h
        obtain ⟨y, hy, e⟩ := h
        cases e
        obtain ⟨-, rfl⟩ := setRange_some.mp hy
        exact ⟨rfl, rfl, rfl, Or.inr ⟨rfl, Or.inl ⟨l, (answered_some.mp ha).1, rfl⟩⟩⟩

theorem yes_iff {o : Option Str} : yes o = true ↔ Yes o := by
  rcases o with _ | (_ | ⟨c, t⟩)
  · simp [yes, Yes]
  · simp [yes, Yes]
  · simp only [yes, Yes, Bool.or_eq_true, beq_iff_eq]
    constructor
    · rintro (rfl | rfl)
      · exact ⟨t, Or.inl rfl⟩
      · exact ⟨t, Or.inr rfl⟩
    · rintro ⟨t', h | h⟩ <;> cases h
      · exact Or.inl rfl
      · exact Or.inr rfl

/-- **C159** Who does not begin the first answer with y or Y gets the default context, and is asked nothing else. -/
theorem C159_no (p : Policy) (default : Str) (current : Bool) (ask : Nat → Option Str) (n : Nat) (h : ¬ Yes (ask 0)) :
    configContext p default current ask (n + 1) 0 = some (some default, []) := by
  rw [configContext]
  have : yes (ask 0) = false := by
    cases hy : yes (ask 0) with
    | false => rfl
    | true => exact absurd (yes_iff.mp hy) h
  rw [if_pos this]

/-- **C159** What a user who is asked can get: the default context, if the first question is not answered with yes; otherwise a context made from the default with the role and
level of the answers.  Whatever they answer, and however often they are asked. -/
theorem C159_asked (p : Policy) (default : Str) (current : Bool) (ask : Nat → Option Str) (n i : Nat) (new : Str) (sent : List Rec)
    (h : configContext p default current ask n i = some (some new, sent)) :
    (new = default ∧ ∃ j, ¬ Yes (ask j)) ∨
    ∃ j, Made p (fun r => ask (j + 1) = some r ∧ r ≠ []) (fun l => ask (j + 2) = some l) default new := by
  induction n generalizing i sent with
  | zero => cases h
  | succ n ih =>
    rw [configContext] at h
    by_cases hy : yes (ask i) = false
    · rw [if_pos hy] at h; cases h; exact Or.inl ⟨rfl, i, fun h2 => by rw [yes_iff.mpr h2] at hy; cases hy⟩
    rw [if_neg hy] at h
    cases hd : p.contextNew default with
    | none => rw [hd] at h; cases h
    | some d =>
      rw [hd] at h
      simp only at h
      have key : ∀ c : Ctx, c.user = d.user → c.range = d.range →
          ((c.role = d.role ∧ c.type = d.type) ∨ ((ask (i + 1) = some c.role ∧ c.role ≠ []) ∧ p.defaultType c.role = some c.type)) →
          (match askLevel p ask current c (i + 2) with
            | none => some (none, [⟨false, some default, none⟩])
            | some (c, j) =>
              if p.valid (p.contextStr c) then
                if p.mls ∧ p.contains default (p.contextStr c) = false then some (none, [⟨false, some default, some (p.contextStr c)⟩])
                else some (some (p.contextStr c), [])
              else (configContext p default current ask n j).map (fun r => (r.1, ⟨false, some default, some (p.contextStr c)⟩ :: r.2))) = some (some new, sent) →
          (new = default ∧ ∃ j, ¬ Yes (ask j)) ∨
          ∃ j, Made p (fun r => ask (j + 1) = some r ∧ r ≠ []) (fun l => ask (j + 2) = some l) default new := by
        intro c hu hr hrole h
        cases hl : askLevel p ask current c (i + 2) with
        | none => rw [hl] at h; cases h
        | some x =>
          obtain ⟨x, j⟩ := x
          rw [hl] at h
          simp only at h
          obtain ⟨e1, e2, e3, e4⟩ := askLevel_some hl
          split at h
          · rename_i hv
            split at h
            · cases h
            · rename_i hm
              cases h
              refine Or.inr ⟨i, ⟨⟨d, x, hd, rfl, e1.trans hu, ?_, ?_⟩, hv, ?_⟩⟩
              · rw [e2, e3]; exact hrole
              · rw [← hr]; exact e4
              · intro hmls
                cases hc : p.contains default (p.contextStr x) with
                | true => rfl
                | false => exact absurd ⟨hmls, hc⟩ hm
          · rw [Option.map_eq_some_iff] at h
            obtain ⟨⟨r1, r2⟩, hr1, e⟩ := h
            cases e
            exact ih _ _ hr1
      cases ha : askRole p (ask (i + 1)) d with
      | none => rw [ha] at h; exact ih _ _ h
      | some o =>
        rw [ha] at h
        cases o with
        | none => cases h
        | some c =>
          unfold askRole at ha
          cases hans : answered (ask (i + 1)) with
          | none => rw [hans] at ha; cases ha; exact key d rfl rfl (Or.inl ⟨rfl, rfl⟩) h
          | some r =>
            rw [hans] at ha
            simp only at ha
            cases ht : p.defaultType r with
            | none => rw [ht] at ha; cases ha
            | some t =>
              rw [ht] at ha
              have hs := Option.some.inj ha
              obtain ⟨-, -, rfl⟩ := setRole_some.mp hs
              exact key { d with role := r, type := t } rfl rfl (Or.inr ⟨answered_some.mp hans, ht⟩) h

/-- what is sent about a choice are refusals -/
theorem C159_asked_records (p : Policy) (default : Str) (current : Bool) (ask : Nat → Option Str) (n i : Nat) (new : Option Str) (sent : List Rec)
    (h : configContext p default current ask n i = some (new, sent)) :
    (∀ r ∈ sent, r.ok = false ∧ r.default = some default) ∧ (new = none → sent ≠ []) := by
  induction n generalizing i sent with
  | zero => cases h
  | succ n ih =>
    rw [configContext] at h
    by_cases hy : yes (ask i) = false
    · rw [if_pos hy] at h; cases h; exact ⟨nofun, nofun⟩
    rw [if_neg hy] at h
    have one : ∀ s, (∀ r ∈ [(⟨false, some default, s⟩ : Rec)], r.ok = false ∧ r.default = some default) ∧ (new = none → [(⟨false, some default, s⟩ : Rec)] ≠ []) := by
      intro s
      refine ⟨?_, fun _ => nofun⟩
      intro r hr
      rw [List.mem_singleton] at hr
      subst hr
      exact ⟨rfl, rfl⟩
    cases hd : p.contextNew default with
    | none => rw [hd] at h; cases h; exact one _
    | some d =>
      rw [hd] at h
      simp only at h
      generalize askRole p (ask (i + 1)) d = role at h
      rcases role with _ | (_ | c)
      · exact ih _ _ h
      · cases h; exact one _
      · simp only at h
        cases hl : askLevel p ask current c (i + 2) with
        | none => rw [hl] at h; cases h; exact one _
        | some x =>
          rw [hl] at h
          simp only at h
          split at h
          · split at h
            · cases h; exact one _
            · cases h; exact ⟨nofun, nofun⟩
          · rw [Option.map_eq_some_iff] at h
            obtain ⟨⟨r1, r2⟩, hr1, e⟩ := h
            cases e
            obtain ⟨i1, i2⟩ := ih _ _ hr1
            refine ⟨?_, fun _ => nofun⟩
            intro r hr
            rcases List.mem_cons.mp hr with rfl | hr
            · exact ⟨rfl, rfl⟩
            · exact i1 r hr

theorem envRole_some (p : Policy) (env : Str → Option Str) (params : Bool) (d c : Ctx) :
    envRole p env params d = some c ↔ RoleIs p env params d c ∧ c.user = d.user ∧ c.range = d.range := by
  unfold envRole RoleIs
  generalize "SELINUX_ROLE_REQUESTED".toList = R
  cases params with
  | false =>
    simp only [if_true, true_or, true_implies, Bool.false_eq_true, false_implies, implies_true, and_true, Option.some.injEq]
    constructor
    · rintro rfl; exact ⟨⟨rfl, rfl⟩, rfl, rfl⟩
    · rintro ⟨⟨h1, h2⟩, h3, h4⟩; cases c; cases d; simp only at *; subst h1 h2 h3 h4; rfl
  | true =>
    simp only [Bool.true_eq_false, if_false, false_or, true_implies]
    cases ha : answered (env R) with
    | none =>
      have hn := answered_none.mp ha
      simp only [Option.some.injEq]
      constructor
      · rintro rfl
        refine ⟨⟨fun _ => ⟨rfl, rfl⟩, ?_⟩, rfl, rfl⟩
        intro r hr hne
        rcases hn with e | e <;> rw [e] at hr <;> cases hr
        exact absurd rfl hne
      · rintro ⟨⟨h, -⟩, h3, h4⟩
        obtain ⟨h1, h2⟩ := h hn
        cases c; cases d; simp only at *; subst h1 h2 h3 h4; rfl
    | some r =>
      obtain ⟨he, hne⟩ := answered_some.mp ha
      have hnn : ¬ Nothing (env R) := by
        rintro (e | e) <;> rw [he] at e <;> cases e
        exact hne rfl
      simp only
      cases ht : p.defaultType r with
      | none =>
        simp only
        constructor
        · nofun
        · rintro ⟨⟨-, h⟩, -⟩
          have := (h r he hne).2.1
          rw [ht] at this; cases this
      | some t =>
        simp only
        rw [setRole_some]
        constructor
        · rintro ⟨h1, h2, rfl⟩
          refine ⟨⟨fun h => absurd h hnn, ?_⟩, rfl, rfl⟩
          intro r' hr' _
          rw [he] at hr'
          cases hr'
          exact ⟨rfl, ht, h1, h2⟩
        · rintro ⟨⟨-, h⟩, h3, h4⟩
          obtain ⟨h5, h6, h7, h8⟩ := h r he hne
          rw [ht] at h6
          cases h6
          refine ⟨h7, h8, ?_⟩
          cases c; cases d; simp only at *; subst h3 h4 h5; rfl

theorem level_some (p : Policy) (l : Option Str) (d c : Ctx) :
    (match answered l with | none => some d | some x => setRange p d (some x)) = some c ↔
    LevelIs p l d c ∧ c.user = d.user ∧ c.role = d.role ∧ c.type = d.type := by
  unfold LevelIs
  cases ha : answered l with
  | none =>
    have hn := answered_none.mp ha
    simp only [Option.some.injEq]
    constructor
    · rintro rfl
      refine ⟨⟨fun _ => rfl, ?_⟩, rfl, rfl, rfl⟩
      intro r hr hne
      rcases hn with e | e <;> rw [e] at hr <;> cases hr
      exact absurd rfl hne
    · rintro ⟨⟨h, -⟩, h2, h3, h4⟩
      have h1 := h hn
      cases c; cases d; simp only at *; subst h1 h2 h3 h4; rfl
  | some x =>
    obtain ⟨he, hne⟩ := answered_some.mp ha
    have hnn : ¬ Nothing l := by
      rintro (e | e) <;> rw [he] at e <;> cases e
      exact hne rfl
    simp only
    rw [setRange_some]
    constructor
    · rintro ⟨h1, rfl⟩
      refine ⟨⟨fun h => absurd h hnn, ?_⟩, rfl, rfl, rfl⟩
      intro y hy _
      rw [he] at hy
      cases hy
      exact ⟨rfl, h1⟩
    · rintro ⟨⟨-, h⟩, h2, h3, h4⟩
      obtain ⟨h5, h6⟩ := h x he hne
      refine ⟨h6, ?_⟩
      cases c; cases d; simp only at *; subst h2 h3 h4 h5; rfl

theorem cur_iff (env : Str → Option Str) (current : Bool) (V : Str) :
    useCurrent (env V) current = true ↔ (current = true ∨ ∃ t, env V = some ('1' :: t)) := by
  unfold useCurrent
  split
  · rename_i t he; simp only [true_iff]; exact Or.inr ⟨t, he⟩
  · rename_i hne
    constructor
    · exact Or.inl
    · rintro (h | ⟨t, h⟩)
      · exact h
      · exact absurd h (hne t)

theorem envLevel_some (p : Policy) (env : Str → Option Str) (current : Bool) (d c : Ctx) :
    envLevel p env current d = some c ↔ RangeIs p env current d c ∧ c.user = d.user ∧ c.role = d.role ∧ c.type = d.type := by
  unfold envLevel RangeIs Current
  generalize "SELINUX_USE_CURRENT_RANGE".toList = V
  generalize "SELINUX_LEVEL_REQUESTED".toList = L
  cases hm : p.mls with
  | false =>
    simp only [if_true, true_implies, Bool.false_eq_true, false_implies, and_true, Option.some.injEq]
    constructor
    · rintro rfl; exact ⟨rfl, rfl, rfl, rfl⟩
    · rintro ⟨h1, h2, h3, h4⟩; cases c; cases d; simp only at *; subst h1 h2 h3 h4; rfl
  | true =>
    simp only [Bool.true_eq_false, if_false, false_implies, true_implies, true_and]
    have hcur := cur_iff env current V
    generalize useCurrent (env V) current = cur at hcur ⊢
    rw [← hcur]
    cases cur with
    | false =>
      simp only [Bool.false_eq_true, if_false, not_false_iff, true_implies, false_implies, and_true]
      exact level_some p (env L) d c
    | true =>
      simp only [if_true, not_true, false_implies, true_implies, true_and]
      cases hc : currentRange p with
      | none =>
        simp only
        constructor
        · nofun
        · rintro ⟨⟨my, m, h1, h2, -⟩, -⟩
          have := currentRange_some.mpr ⟨my, m, h1, h2, rfl⟩
          rw [hc] at this
          cases this
      | some l =>
        obtain ⟨my, m, h1, h2, rfl⟩ := currentRange_some.mp hc
        simp only
        refine Iff.trans (level_some p m.range d c) ?_
        constructor
        · rintro ⟨h, h3⟩; exact ⟨⟨my, m, h1, h2, h⟩, h3⟩
        · rintro ⟨⟨my', m', h1', h2', h⟩, h3⟩
          rw [h1] at h1'
          cases h1'
          rw [h2] at h2'
          cases h2'
          exact ⟨h, h3⟩

/-- **C159** What the variables SELINUX_ROLE_REQUESTED, SELINUX_LEVEL_REQUESTED and SELINUX_USE_CURRENT_RANGE give: exactly the context with the user of the default, the
role that is asked for with its type, and the level that is asked for, and only if the policy finds it valid and within the default. -/
theorem C159_env (p : Policy) (default : Str) (params current : Bool) (env : Str → Option Str) (new : Str) :
    (contextFromEnv p default params current env).1 = some new ↔
    ∃ d c, p.contextNew default = some d ∧ new = p.contextStr c ∧ c.user = d.user ∧ RoleIs p env params d c ∧ RangeIs p env current d c ∧
      p.valid new = true ∧ (p.mls = true → p.contains default new = true) := by
  unfold contextFromEnv
  cases hd : p.contextNew default with
  | none => simp
  | some d =>
    simp only
    have hb : ∀ c, (envRole p env params d).bind (envLevel p env current) = some c ↔ c.user = d.user ∧ RoleIs p env params d c ∧ RangeIs p env current d c := by
      intro c
      rw [Option.bind_eq_some_iff]
      constructor
      · rintro ⟨b, h1, h2⟩
        obtain ⟨r1, r2, r3⟩ := (envRole_some p env params d b).mp h1
        obtain ⟨l1, l2, l3, l4⟩ := (envLevel_some p env current b c).mp h2
        refine ⟨l2.trans r2, ?_, ?_⟩
        · unfold RoleIs at *; rw [l3, l4]; exact r1
        · unfold RangeIs LevelIs at *; rw [← r3]; exact l1
      · rintro ⟨h1, h2, h3⟩
        refine ⟨{ c with range := d.range }, ?_, ?_⟩
        · rw [envRole_some]; exact ⟨h2, h1, rfl⟩
        · rw [envLevel_some]; exact ⟨h3, rfl, rfl, rfl⟩
    cases hc : (envRole p env params d).bind (envLevel p env current) with
    | none =>
      simp only
      constructor
      · nofun
      · rintro ⟨d', c, e, -, h1, h2, h3, -⟩
        cases e
        have := (hb c).mpr ⟨h1, h2, h3⟩
        rw [hc] at this
        cases this
    | some c =>
      simp only
      have huniq : ∀ c', c'.user = d.user ∧ RoleIs p env params d c' ∧ RangeIs p env current d c' → c' = c := by
        intro c' h
        have := (hb c').mpr h
        rw [hc] at this
        cases this
        rfl
      have hcc := (hb c).mp hc
      by_cases hv : p.valid (p.contextStr c) = false
      · rw [if_pos hv]
        constructor
        · nofun
        · rintro ⟨d', c', e, rfl, h1, h2, h3, h4, -⟩
          cases e
          rw [huniq c' ⟨h1, h2, h3⟩, hv] at h4
          cases h4
      rw [if_neg hv]
      by_cases hm : p.mls = true ∧ p.contains default (p.contextStr c) = false
      · rw [if_pos hm]
        constructor
        · nofun
        · rintro ⟨d', c', e, rfl, h1, h2, h3, h4, h5⟩
          cases e
          have := h5 hm.1
          rw [huniq c' ⟨h1, h2, h3⟩, hm.2] at this
          cases this
      rw [if_neg hm]
      constructor
      · intro e
        cases e
        refine ⟨d, c, rfl, rfl, hcc.1, hcc.2.1, hcc.2.2, by simpa using hv, ?_⟩
        intro h
        cases hcon : p.contains default (p.contextStr c) with
        | true => rfl
        | false => exact absurd ⟨h, hcon⟩ hm
      · rintro ⟨d', c', e, rfl, h1, h2, h3, -⟩
        cases e
        rw [huniq c' ⟨h1, h2, h3⟩]

/-- a refusal of what the variables ask for is sent to the audit system -/
theorem C159_env_records (p : Policy) (default : Str) (params current : Bool) (env : Str → Option Str) :
    ((contextFromEnv p default params current env).1 = none →
      ∃ s, (contextFromEnv p default params current env).2 = [⟨false, some default, s⟩]) ∧
    (∀ new, (contextFromEnv p default params current env).1 = some new → (contextFromEnv p default params current env).2 = []) := by
  unfold contextFromEnv
  cases p.contextNew default with
  | none => simp
  | some d =>
    simp only
    cases (envRole p env params d).bind (envLevel p env current) with
    | none => simp
    | some c =>
      simp only
      by_cases h1 : p.valid (p.contextStr c) = false
      · rw [if_pos h1]; simp
      rw [if_neg h1]
      by_cases h2 : p.mls = true ∧ p.contains default (p.contextStr c) = false
      · rw [if_pos h2]; simp
      · rw [if_neg h2]; simp

/-- **C159** Without the arguments select_context, env_params and use_current_range the context is the default. -/
theorem C159_default (w : World) (n : Nat) (a : Args) (default : Str) (h1 : a.select = false) (h2 : a.params = false) (h3 : a.current = false) :
    choose w n a default = some (some default, []) := by
  unfold choose; simp [h1, h2, h3]

/-- **C159** Whatever the arguments: the context is the default, or made from it. -/
theorem C159_choice (w : World) (n : Nat) (a : Args) (default new : Str) (sent : List Rec) (h : choose w n a default = some (some new, sent)) :
    new = default ∨ Made w.policy (fun r => (∃ i, w.ask i = some r) ∨ w.env "SELINUX_ROLE_REQUESTED".toList = some r)
      (fun l => (∃ i, w.ask i = some l) ∨ w.env "SELINUX_LEVEL_REQUESTED".toList = some l) default new := by
  unfold choose at h
  split at h
  · rcases C159_asked _ _ _ _ _ _ _ _ h with ⟨e, -⟩ | ⟨j, hm⟩
    · exact Or.inl e
    · obtain ⟨⟨d, c, h1, h2, h3, h4, h5⟩, h6, h7⟩ := hm
      refine Or.inr ⟨⟨d, c, h1, h2, h3, ?_, ?_⟩, h6, h7⟩
      · rcases h4 with h4 | ⟨⟨h4, -⟩, h4'⟩
        · exact Or.inl h4
        · exact Or.inr ⟨Or.inl ⟨_, h4⟩, h4'⟩
      · rcases h5 with h5 | ⟨hm, ⟨l, h5, h5'⟩ | h5⟩
        · exact Or.inl h5
        · exact Or.inr ⟨hm, Or.inl ⟨l, Or.inl ⟨_, h5⟩, h5'⟩⟩
        · exact Or.inr ⟨hm, Or.inr h5⟩
  · split at h
    · have h' : (contextFromEnv w.policy default a.params a.current w.env).1 = some new := by
        have := Option.some.inj h
        rw [this]
      obtain ⟨d, c, h1, h2, h3, h4, h5, h6, h7⟩ := (C159_env _ _ _ _ _ _).mp h'
      refine Or.inr ⟨⟨d, c, h1, h2, h3, ?_, ?_⟩, h6, h7⟩
      · unfold RoleIs at h4
        generalize "SELINUX_ROLE_REQUESTED".toList = R at h4 ⊢
        cases hp : a.params with
        | false => exact Or.inl (h4.1 (Or.inl hp))
        | true =>
          cases ha : answered (w.env R) with
          | none => exact Or.inl (h4.1 (Or.inr (answered_none.mp ha)))
          | some r =>
            obtain ⟨e, hne⟩ := answered_some.mp ha
            obtain ⟨k1, k2, -⟩ := h4.2 r hp e hne
            exact Or.inr ⟨Or.inr (by rw [k1]; exact e), by rw [k1]; exact k2⟩
      · unfold RangeIs at h5
        generalize "SELINUX_LEVEL_REQUESTED".toList = L at h5 ⊢
        cases hm : w.policy.mls with
        | false => exact Or.inl (h5.1 hm)
        | true =>
          by_cases hc : Current w.env a.current
          · obtain ⟨my, m, g1, g2, g3⟩ := h5.2.2 hm hc
            cases ha : answered m.range with
            | none => exact Or.inl (g3.1 (answered_none.mp ha))
            | some l =>
              obtain ⟨e, hne⟩ := answered_some.mp ha
              exact Or.inr ⟨rfl, Or.inr ⟨my, m, g1, g2, by rw [e]; exact (g3.2 l e hne).1⟩⟩
          · have g3 := h5.2.1 hm hc
            cases ha : answered (w.env L) with
            | none => exact Or.inl (g3.1 (answered_none.mp ha))
            | some l =>
              obtain ⟨e, hne⟩ := answered_some.mp ha
              exact Or.inr ⟨rfl, Or.inl ⟨l, Or.inr e, (g3.2 l e hne).1⟩⟩
    · cases h
      exact Or.inl rfl

end Pam.Selinux
