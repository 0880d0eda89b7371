import Verif.Handle.Mode
import Verif.Handle.PhaseSpec
/-
The invariant behind the theorems about passes.
-/
namespace Pam.Handle
open Pam.Config (Fn MType Tables Entry Sys)
open Pam.Dispatch (Former)
open Spec

set_option linter.unusedSimpArgs false

variable {W : Type}

theorem Spec.EachPass.nil (L) : EachPass L [] := by
  intro pre p post h; exact absurd h (by simp)

theorem Spec.EachPass.snoc {L : Option Pass → Pass → Prop} {ps : List Pass} {p : Pass} (h : EachPass L ps) (hp : L ps.getLast? p) :
    EachPass L (ps ++ [p]) := by
  intro pre q post heq
  rcases List.eq_nil_or_concat post with rfl | ⟨r, x, rfl⟩
  · have := List.append_inj' heq rfl
    rw [← this.1, ← (List.cons.inj this.2).1]; exact hp
  · rw [List.concat_eq_append, ← List.cons_append, ← List.append_assoc] at heq
    exact h pre q r (List.append_inj' heq rfl).1

theorem passes_snoc (h : List Event) (e : Event) : passes (h ++ [e]) = passes h ++ passes [e] := by
  unfold passes; rw [List.filterMap_append]

/-- modules do not add passes -/
theorem passes_modRel : ModRel (W := W) (fun m m' => passes m'.hist = passes m.hist) where
  ord := ⟨fun _ => rfl, fun _ _ _ h h' => h'.trans h⟩
  step := by
    intro cv op m _
    unfold step
    split
    · rw [passes_snoc]; simp [passes]
    · simp only; split <;> rfl
  world := fun _ _ => rfl
  args := fun _ _ => rfl

theorem load_more (lib : Lib W) (h : Handle W) :
    (load lib h).2.m.hist = h.m.hist ∧ (load lib h).2.former = h.former ∧ (load lib h).2.update = h.update ∧
    (h.loadFailed = true → (load lib h).2.loadFailed = true) ∧
    ((load lib h).1 = false → (load lib h).2.loadFailed = true) := by
  unfold load
  split
  · exact ⟨rfl, rfl, rfl, id, by simp⟩
  · split
    · exact ⟨rfl, rfl, rfl, fun _ => rfl, fun _ => rfl⟩
    · exact ⟨rfl, rfl, rfl, id, by simp⟩

/-- What a call of the dispatcher does to passes, suspended walk and phase. -/
theorem dispatch_cases {lib : Lib W} {fn : Fn} {flags : Nat} {h h' : Handle W} {code : Int}
    (hs : dispatch lib fn flags h = some (code, h')) (hc : h.inner.caller = .app) :
    (h'.update = h.update ∧ (h.loadFailed = true → h'.loadFailed = true)) ∧
    ((code = PAM_ABORT ∧ passes h'.m.hist = passes h.m.hist ∧ h'.former = h.former ∧
        (h'.loadFailed = true ∨ ∃ g f, h.former = some (g, f) ∧ g ≠ fn)) ∨
      ((∀ g f, h.former = some (g, f) → g = fn) ∧
        (∃ t, passes h'.m.hist = passes h.m.hist ++ [⟨fn, flags, h.former.isSome, code, t⟩]) ∧
        ((code = PAM_INCOMPLETE ∧ ∃ fm, h'.former = some (fn, fm)) ∨ h'.former = none))) := by
  unfold dispatch at hs
  rw [if_neg (by rw [hc]; decide)] at hs
  have hl := load_more lib h
  generalize load lib h = l at hs hl
  obtain ⟨ok, h1⟩ := l
  obtain ⟨l1, l2, l3, l4, l5⟩ := hl
  simp only at hs l1 l2 l3 l4 l5
  have hrun : ∀ f, runStack lib fn flags f h1 = some (code, h') →
      (h'.update = h.update ∧ (h.loadFailed = true → h'.loadFailed = true)) ∧
      (∃ t, passes h'.m.hist = passes h.m.hist ++ [⟨fn, flags, f.isSome, code, t⟩]) ∧
        ((code = PAM_INCOMPLETE ∧ ∃ fm, h'.former = some (fn, fm)) ∨ h'.former = none) := by
    intro f hr
    obtain ⟨m, t, r1, _, r3, _, r5, r6, r7⟩ := runStack_spec passes_modRel hr
    refine ⟨⟨by rw [r5, l3], fun hf => by rw [r6]; exact l4 hf⟩, ⟨t, ?_⟩, r7⟩
    rw [r3]
    show passes (m.hist ++ _) = _
    rw [passes_snoc, r1]
    show passes h1.m.hist ++ _ = _
    rw [l1]; rfl
  split at hs
  · next hok =>
    split at hs
    · next g f hf =>
      rw [l2] at hf
      split at hs
      · next hg =>
        subst hg
        obtain ⟨a, b, c⟩ := hrun _ hs
        refine ⟨a, Or.inr ⟨fun g' f' hh => ?_, ?_, c⟩⟩
        · rw [hf] at hh; exact (Prod.mk.inj (Option.some.inj hh)).1.symm
        · simpa [hf] using b
      · next hg =>
        simp only [Option.some.injEq, Prod.mk.injEq] at hs
        obtain ⟨rfl, rfl⟩ := hs
        exact ⟨⟨l3, l4⟩, Or.inl ⟨rfl, by rw [l1], l2, Or.inr ⟨g, f, hf, hg⟩⟩⟩
    · next hf =>
      rw [l2] at hf
      obtain ⟨a, b, c⟩ := hrun _ hs
      refine ⟨a, Or.inr ⟨fun g' f' hh => ?_, ?_, c⟩⟩
      · rw [hf] at hh; exact absurd hh (by simp)
      · simpa [hf] using b
  · next hok =>
    simp only [Option.some.injEq, Prod.mk.injEq] at hs
    obtain ⟨rfl, rfl⟩ := hs
    exact ⟨⟨l3, l4⟩, Or.inl ⟨rfl, by rw [l1], l2, Or.inl (l5 (by simpa using hok))⟩⟩

/-- the invariant, without hypotheses on loading -/
structure PhaseInv (h : Handle W) : Prop where
  checked : EachPass UpdateChecked (passes h.m.hist)
  same : EachPass ResumesSame (passes h.m.hist)
  susp : ∀ g f, h.former = some (g, f) → ∃ q, (passes h.m.hist).getLast? = some q ∧ q.fn = g ∧ q.code = PAM_INCOMPLETE ∧
    (g = .chauthtok → (IsPrelim q ∨ IsUpdate q)) ∧
    (g = .chauthtok → h.update = true → IsUpdate q)
  strong : h.loadFailed = false → EachPass TwoPhase (passes h.m.hist) ∧
    ∀ f q, h.former = some (.chauthtok, f) → (passes h.m.hist).getLast? = some q → h.update = false → IsPrelim q

/-- changes that do not matter -/
theorem PhaseInv.congr {h h' : Handle W} (hp : PhaseInv h) (h1 : passes h'.m.hist = passes h.m.hist)
    (h2 : h'.former = h.former) (h3 : h'.update = h.update) (h4 : h.loadFailed = true → h'.loadFailed = true) : PhaseInv h' := by
  obtain ⟨a, b, c, d⟩ := hp
  refine ⟨h1 ▸ a, h1 ▸ b, ?_, ?_⟩
  · rw [h1, h2, h3]; exact c
  · intro hl
    rw [h1, h2, h3]
    exact d (by
      cases hh : h.loadFailed with
      | false => rfl
      | true => rw [h4 hh] at hl; exact absurd hl (by simp))

/-- a dispatch of anything but a password change -/
theorem PhaseInv.dispatch {lib : Lib W} {fn : Fn} {flags : Nat} {h h' : Handle W} {code : Int}
    (hs : dispatch lib fn flags h = some (code, h')) (hc : h.inner.caller = .app) (hfn : fn ≠ .chauthtok)
    (hp : PhaseInv h) : PhaseInv h' := by
  obtain ⟨⟨hu, hl⟩, hcase⟩ := dispatch_cases hs hc
  rcases hcase with ⟨_, h1, h2, _⟩ | ⟨h1, ⟨t, h2⟩, h3⟩
  · exact hp.congr h1 h2 hu hl
  · have hleg : ∀ L : Option Pass → Pass → Prop, (∀ l p, p.fn ≠ .chauthtok → L l p) → EachPass L (passes h.m.hist) →
        EachPass L (passes h'.m.hist) := by
      intro L hL he
      rw [h2]; exact he.snoc (hL _ _ hfn)
    refine ⟨hleg _ (fun _ _ hne hx => absurd hx hne) hp.checked, ?_, ?_, ?_⟩
    · rw [h2]
      refine hp.same.snoc ?_
      intro hr
      simp only at hr
      obtain ⟨⟨g, f⟩, hg⟩ := Option.isSome_iff_exists.1 hr
      obtain ⟨q, q1, q2, q3, _⟩ := hp.susp g f hg
      exact ⟨q, q1, q2.trans (h1 g f hg), q3⟩
    · intro g f hg
      rcases h3 with ⟨hcd, fm, hfm⟩ | hn
      · rw [hfm] at hg
        obtain ⟨rfl, _⟩ := Prod.mk.inj (Option.some.inj hg)
        refine ⟨_, by rw [h2, List.getLast?_concat], rfl, hcd, fun hx => absurd hx hfn, fun hx => absurd hx hfn⟩
      · rw [hn] at hg; exact absurd hg (by simp)
    · intro hlf
      have hlf' : h.loadFailed = false := by
        cases hh : h.loadFailed with
        | false => rfl
        | true => rw [hl hh] at hlf; exact absurd hlf (by simp)
      refine ⟨hleg _ (fun _ _ hne hx => absurd hx hne) (hp.strong hlf').1, ?_⟩
      intro f q hf
      rcases h3 with ⟨_, fm, hfm⟩ | hn
      · rw [hfm] at hf
        exact absurd (Prod.mk.inj (Option.some.inj hf)).1 hfn
      · rw [hn] at hf; exact absurd hf (by simp)

theorem flags_prelim {flags : Nat} (h : flags.testBit 13 = false) (b : Bool) (c : Int) (t : List (Nat × Int)) :
    IsPrelim ⟨.chauthtok, flags ||| 2 ^ 14, b, c, t⟩ := by
  refine ⟨rfl, ?_, ?_⟩
  · simp only [Nat.testBit_or, Nat.testBit_two_pow]; simp
  · simp only [Nat.testBit_or, Nat.testBit_two_pow, h]; simp

theorem flags_update {flags : Nat} (h : flags.testBit 14 = false) (b : Bool) (c : Int) (t : List (Nat × Int)) :
    IsUpdate ⟨.chauthtok, flags ||| 2 ^ 13, b, c, t⟩ := by
  refine ⟨rfl, ?_, ?_⟩
  · simp only [Nat.testBit_or, Nat.testBit_two_pow]; simp
  · simp only [Nat.testBit_or, Nat.testBit_two_pow, h]; simp

theorem prelim_not_update {p : Pass} (h : IsPrelim p) : ¬ IsUpdate p := by
  intro h'; exact absurd (h.2.2.symm.trans h'.2.1) (by simp)

/-- the preliminary pass -/
theorem PhaseInv.prelim {lib : Lib W} {flags : Nat} {h h' : Handle W} {code : Int} (hf : flags.testBit 13 = false)
    (hs : Handle.dispatch lib .chauthtok (flags ||| 2 ^ 14) h = some (code, h')) (hc : h.inner.caller = .app)
    (hu : h.update = false) (hp : PhaseInv h) :
    PhaseInv h' ∧ h'.update = false ∧ (code = PAM_SUCCESS → h'.former = none ∧
      ∃ q, (passes h'.m.hist).getLast? = some q ∧ IsPrelim q ∧ q.code = PAM_SUCCESS) := by
  obtain ⟨⟨hu', hl⟩, hcase⟩ := dispatch_cases hs hc
  rw [hu] at hu'
  rcases hcase with ⟨hcd, h1, h2, _⟩ | ⟨h1, ⟨t, h2⟩, h3⟩
  · exact ⟨hp.congr h1 h2 (hu'.trans hu.symm) hl, hu', fun he => absurd (he.symm.trans hcd) (by decide)⟩
  · have hpre := flags_prelim hf h.former.isSome code t
    refine ⟨⟨?_, ?_, ?_, ?_⟩, hu', ?_⟩
    · rw [h2]; exact hp.checked.snoc (fun _ => Or.inl hpre)
    · rw [h2]
      refine hp.same.snoc ?_
      intro hr
      simp only at hr
      obtain ⟨⟨g, f⟩, hg⟩ := Option.isSome_iff_exists.1 hr
      obtain ⟨q, q1, q2, q3, _⟩ := hp.susp g f hg
      exact ⟨q, q1, q2.trans (h1 g f hg), q3⟩
    · intro g f hg
      rcases h3 with ⟨hcd, fm, hfm⟩ | hn
      · rw [hfm] at hg
        obtain ⟨rfl, _⟩ := Prod.mk.inj (Option.some.inj hg)
        exact ⟨_, by rw [h2, List.getLast?_concat], rfl, hcd, fun _ => Or.inl hpre, fun _ hx => absurd (hu'.symm.trans hx) (by simp)⟩
      · rw [hn] at hg; exact absurd hg (by simp)
    · intro hlf
      have hlf' : h.loadFailed = false := by
        cases hh : h.loadFailed with
        | false => rfl
        | true => rw [hl hh] at hlf; exact absurd hlf (by simp)
      obtain ⟨s1, s2⟩ := hp.strong hlf'
      refine ⟨?_, ?_⟩
      · rw [h2]
        refine s1.snoc (fun _ => ?_)
        cases hfm : h.former with
        | none => left; rw [hfm] at hpre; exact ⟨hpre, rfl⟩
        | some gf =>
          obtain ⟨g, f⟩ := gf
          have hg := h1 g f hfm
          subst hg
          obtain ⟨q, q1, q2, q3, _⟩ := hp.susp _ f hfm
          right; left
          rw [hfm] at hpre
          exact ⟨hpre, rfl, q, q1, s2 f q hfm q1 hu, q3⟩
      · intro f q _ hq _
        rw [h2, List.getLast?_concat, Option.some.injEq] at hq
        rw [← hq]; exact hpre
    · intro hcd
      refine ⟨?_, _, by rw [h2, List.getLast?_concat], hpre, hcd⟩
      rcases h3 with ⟨hci, _⟩ | hn
      · exact absurd (hcd.symm.trans hci) (by decide)
      · exact hn

/-- the updating pass, with `update` set just before -/
theorem PhaseInv.update {lib : Lib W} {flags : Nat} {h h' : Handle W} {code : Int} (hf : flags.testBit 14 = false)
    (hs : Handle.dispatch lib .chauthtok (flags ||| 2 ^ 13) { h with update := true } = some (code, h')) (hc : h.inner.caller = .app)
    (hp : PhaseInv h)
    (hok : (h.former = none ∧ ∃ q, (passes h.m.hist).getLast? = some q ∧ IsPrelim q ∧ q.code = PAM_SUCCESS) ∨
      (h.update = true ∧ h.former ≠ none)) :
    (PhaseInv h' ∧ (h'.former = none ∨ code = PAM_INCOMPLETE)) ∨
    (PhaseInv h ∧ passes h'.m.hist = passes h.m.hist ∧ h'.former = h.former ∧ code = PAM_ABORT ∧
      (h.loadFailed = true → h'.loadFailed = true) ∧ (h'.loadFailed = true ∨ ∃ g f, h.former = some (g, f) ∧ g ≠ .chauthtok)) := by
  obtain ⟨⟨hu', hl⟩, hcase⟩ := dispatch_cases hs hc
  simp only at hu' hl hcase
  rcases hcase with ⟨hcd, h1, h2, h3⟩ | ⟨h1, ⟨t, h2⟩, h3⟩
  · exact Or.inr ⟨hp, h1, h2, hcd, hl, h3⟩
  · left
    have hupd := flags_update hf h.former.isSome code t
    have hleg : (IsUpdate ⟨.chauthtok, flags ||| 2 ^ 13, h.former.isSome, code, t⟩ ∧ h.former.isSome = false ∧
          ∃ q, (passes h.m.hist).getLast? = some q ∧ IsPrelim q ∧ q.code = PAM_SUCCESS) ∨
        (IsUpdate ⟨.chauthtok, flags ||| 2 ^ 13, h.former.isSome, code, t⟩ ∧ h.former.isSome = true ∧
          ∃ q, (passes h.m.hist).getLast? = some q ∧ IsUpdate q ∧ q.code = PAM_INCOMPLETE) := by
      rcases hok with ⟨hn, hq⟩ | ⟨hup, hne⟩
      · left; exact ⟨hupd, by rw [hn]; rfl, hq⟩
      · right
        obtain ⟨⟨g, f⟩, hg⟩ := Option.ne_none_iff_exists'.1 hne
        have := h1 g f hg
        subst this
        obtain ⟨q, q1, _, q3, _, q5⟩ := hp.susp _ f hg
        exact ⟨hupd, by rw [hg]; rfl, q, q1, q5 rfl hup, q3⟩
    refine ⟨⟨?_, ?_, ?_, ?_⟩, ?_⟩
    · rw [h2]; exact hp.checked.snoc (fun _ => Or.inr hleg)
    · rw [h2]
      refine hp.same.snoc ?_
      intro hr
      simp only at hr
      obtain ⟨⟨g, f⟩, hg⟩ := Option.isSome_iff_exists.1 hr
      obtain ⟨q, q1, q2, q3, _⟩ := hp.susp g f hg
      exact ⟨q, q1, q2.trans (h1 g f hg), q3⟩
    · intro g f hg
      rcases h3 with ⟨hcd, fm, hfm⟩ | hn
      · rw [hfm] at hg
        obtain ⟨rfl, _⟩ := Prod.mk.inj (Option.some.inj hg)
        exact ⟨_, by rw [h2, List.getLast?_concat], rfl, hcd, fun _ => Or.inr hupd, fun _ _ => hupd⟩
      · rw [hn] at hg; exact absurd hg (by simp)
    · intro hlf
      have hlf' : h.loadFailed = false := by
        cases hh : h.loadFailed with
        | false => rfl
        | true => rw [hl hh] at hlf; exact absurd hlf (by simp)
      refine ⟨?_, fun f q _ _ hx => absurd (hu'.symm.trans hx) (by simp)⟩
      rw [h2]
      exact (hp.strong hlf').1.snoc (fun _ => Or.inr (Or.inr hleg))
    · rcases h3 with ⟨hcd, _⟩ | hn
      · exact Or.inr hcd
      · exact Or.inl hn

theorem begin_facts (b : Bool) (h : Handle W) :
    (begin b h).m.hist = h.m.hist ∧ (begin b h).former = h.former ∧ (begin b h).loadFailed = h.loadFailed ∧
    ((begin b h).update = h.update ∨ (h.former = none ∧ (begin b h).update = false)) ∧
    (h.former = none → b = true → (begin b h).update = false) := by
  unfold begin
  split
  · next hf =>
    refine ⟨rfl, rfl, rfl, ?_, ?_⟩
    · cases b
      · exact Or.inl rfl
      · exact Or.inr ⟨hf, rfl⟩
    · intro _ hb; subst hb; rfl
  · next hf => exact ⟨rfl, rfl, rfl, Or.inl rfl, fun h1 => absurd (h1.symm.trans hf) (by simp)⟩

theorem PhaseInv.begin {h : Handle W} (b : Bool) (hp : PhaseInv h) : PhaseInv (Handle.begin b h) := by
  obtain ⟨h1, h2, h3, h4, _⟩ := begin_facts b h
  rcases h4 with h4 | ⟨hn, _⟩
  · exact hp.congr (by rw [h1]) h2 h4 (fun h => by rw [h3]; exact h)
  · refine ⟨h1 ▸ hp.checked, h1 ▸ hp.same, ?_, ?_⟩
    · intro g f hg; rw [h2, hn] at hg; exact absurd hg (by simp)
    · intro hl
      rw [h3] at hl
      refine ⟨h1 ▸ (hp.strong hl).1, ?_⟩
      intro f q hg; rw [h2, hn] at hg; exact absurd hg (by simp)

theorem await_passes (s : Int) (h : Handle W) : passes (await s h).m.hist = passes h.m.hist := by
  show passes (h.m.hist ++ _) = _
  rw [passes_snoc]; simp [passes]

theorem PhaseInv.finish {c : Int} {x : Handle W} (hp : PhaseInv x) (hn : c ≠ PAM_INCOMPLETE → x.former = none ∨ x.update = false) :
    PhaseInv (chauthtokEnd (c, x)).2 := by
  unfold chauthtokEnd
  split
  · next hc =>
    have hpass : passes (await c { x.onInner sanitize with update := false }).m.hist = passes x.m.hist := by
      rw [await_passes]; rfl
    rcases hn hc with hn | hn
    · refine ⟨hpass ▸ hp.checked, hpass ▸ hp.same, ?_, ?_⟩
      · intro g f hg; exact absurd (hn.symm.trans hg) (by simp)
      · intro hl
        exact ⟨hpass ▸ (hp.strong hl).1, fun f q hg => absurd (hn.symm.trans hg) (by simp)⟩
    · exact hp.congr hpass rfl hn.symm (fun h => h)
  · exact hp

theorem PhaseInv.updatePass {lib : Lib W} {flags : Nat} {h h' : Handle W} {code : Int} (hf : flags.testBit 14 = false)
    (hs : Handle.updatePass lib flags h = some (code, h')) (hc : h.inner.caller = .app) (hp : PhaseInv h)
    (hok : (h.former = none ∧ ∃ q, (passes h.m.hist).getLast? = some q ∧ IsPrelim q ∧ q.code = PAM_SUCCESS) ∨
      (h.update = true ∧ h.former ≠ none)) : PhaseInv h' := by
  unfold Handle.updatePass at hs
  rw [Option.map_eq_some_iff] at hs
  obtain ⟨⟨c, x⟩, hd, hs⟩ := hs
  have hx : h' = (chauthtokEnd (c, x)).2 := by rw [hs]
  rw [hx]
  rcases hp.update hf hd hc hok with ⟨h1, h2⟩ | ⟨_, h1, h2, h3, h4, h5⟩
  · exact h1.finish (fun hci => Or.inl (h2.resolve_right hci))
  · subst h3
    have he : (chauthtokEnd (PAM_ABORT, x)).2 = await PAM_ABORT { x.onInner sanitize with update := false } := by
      unfold chauthtokEnd; rw [if_pos (show (PAM_ABORT : Int) ≠ PAM_INCOMPLETE by decide)]
    have hpass : passes (await PAM_ABORT { x.onInner sanitize with update := false }).m.hist = passes h.m.hist := by
      rw [await_passes]; exact h1
    rw [he]
    have hformer : (await PAM_ABORT { x.onInner sanitize with update := false }).former = h.former := h2
    refine ⟨hpass ▸ hp.checked, hpass ▸ hp.same, ?_, ?_⟩
    · intro g f hg
      rw [hformer] at hg
      rw [hpass]
      obtain ⟨q, q1, q2, q3, q4, _⟩ := hp.susp g f hg
      exact ⟨q, q1, q2, q3, q4, fun _ hx => absurd hx (by simp [await, Handle.onInner])⟩
    · intro hl
      have hl : x.loadFailed = false := hl
      have hlh : h.loadFailed = false := by
        cases hh : h.loadFailed with
        | false => rfl
        | true => rw [h4 hh] at hl; exact absurd hl (by simp)
      refine ⟨hpass ▸ (hp.strong hlh).1, ?_⟩
      intro f q hg
      rw [hformer] at hg
      rcases h5 with h5 | ⟨g', f', h5, hne⟩
      · rw [hl] at h5; exact absurd h5 (by simp)
      · rw [hg] at h5; exact absurd (Prod.mk.inj (Option.some.inj h5)).1.symm hne

theorem PhaseInv.run {lib : Lib W} {fn : Fn} {flags : Nat} {h h' : Handle W} {code : Int}
    (hs : Handle.run lib fn flags h = some (code, h')) (hc : h.inner.caller = .app) (hp : PhaseInv h) : PhaseInv h' := by
  have hb : ∀ b, (Handle.begin b h).inner.caller = .app := fun b => by rw [begin_caller]; exact hc
  unfold Handle.run at hs
  split at hs
  · simp only [Option.some.injEq, Prod.mk.injEq] at hs; rw [← hs.2]; exact hp
  · next hr =>
    split at hs
    · unfold authenticate at hs
      simp only [Option.map_eq_some_iff] at hs
      obtain ⟨⟨c, h1⟩, hd, hs⟩ := hs
      have h1p := (hp.begin false).dispatch hd (hb _) (by decide)
      split at hs
      · simp only [Prod.mk.injEq] at hs
        rw [← hs.2]
        exact h1p.congr (by rw [await_passes]; rfl) rfl rfl (fun h => h)
      · simp only [Prod.mk.injEq] at hs; rw [← hs.2]; exact h1p
    · exact hp.dispatch hs hc (by decide)
    · have hfl : flags.testBit 14 = false ∧ flags.testBit 13 = false := by
        simp only [refused] at hr
        split at hr
        · exact absurd hr (by simp)
        · split at hr
          · exact absurd hr (by simp)
          · next h1 => simpa [not_or] using h1
      unfold chauthtok at hs
      have hbi := hp.begin true
      obtain ⟨_, b2, _, _, b5⟩ := begin_facts true h
      split at hs
      · next hu =>
        refine hbi.updatePass hfl.1 hs (hb _) (Or.inr ⟨hu, fun hn => ?_⟩)
        rw [b5 (b2 ▸ hn) rfl] at hu; exact absurd hu (by simp)
      · next hu =>
        split at hs
        · exact absurd hs (by simp)
        · next c h1 hd =>
          obtain ⟨p1, p2, p3⟩ := hbi.prelim hfl.2 hd (hb _) (by simpa using hu)
          split at hs
          · next hcs => exact p1.updatePass hfl.1 hs (dispatch_caller hd (hb _)) (Or.inl (p3 hcs))
          · simp only [Option.some.injEq] at hs
            have := p1.finish (c := c) (fun _ => Or.inr p2)
            rw [hs] at this; exact this
    · refine hp.dispatch hs hc ?_
      rename_i hne
      intro hx; exact hne hx

theorem phase_reach {h : Handle W} (hr : Reach h) : PhaseInv h := by
  induction hr with
  | start lib service user conv w h hs =>
    unfold start at hs
    simp only at hs
    split at hs
    · next h1 he =>
      simp only [Option.some.injEq] at hs
      subst hs
      have := load_more lib { m := startM service user conv w, tables := {}, cells := fun _ _ _ => INVALID_RETVAL, grant := fun _ _ _ => false, former := none, update := false }
      unfold startM at this
      rw [he] at this
      obtain ⟨l1, l2, l3, _, _⟩ := this
      simp only at l1 l2 l3
      have hnil : passes h1.m.hist = [] := by rw [l1]; rfl
      refine ⟨hnil ▸ .nil _, hnil ▸ .nil _, ?_, fun _ => ⟨hnil ▸ .nil _, ?_⟩⟩
      · intro g f hg; rw [l2] at hg; exact absurd hg (by simp)
      · intro f q hg; rw [l2] at hg; exact absurd hg (by simp)
    · exact absurd hs (by simp)
  | step h h' lib a ans hr hs ih =>
    unfold Act.apply at hs
    split at hs
    · rw [Option.map_eq_some_iff] at hs
      obtain ⟨⟨c, h1⟩, hd, hs⟩ := hs
      simp only [Prod.mk.injEq] at hs
      rw [← hs.2]
      exact ih.run hd (reach_app hr)
    · exact absurd hs (by simp)
    · simp only [Option.some.injEq, Prod.mk.injEq] at hs
      rw [← hs.2]
      refine ih.congr ?_ rfl rfl (fun h => h)
      show passes (step lib.conv _ h.m).2.hist = _
      unfold step
      split
      · rw [passes_snoc]; simp [passes]
      · simp only; split <;> rfl
    · simp only [Option.some.injEq, Prod.mk.injEq] at hs
      rw [← hs.2]; exact ih.congr rfl rfl rfl (fun h => h)

end Pam.Handle
