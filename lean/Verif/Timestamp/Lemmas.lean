import Verif.Timestamp.Spec
import Verif.Digest.HmacLemmas
/-
Lemmas for the proofs about pam_timestamp.
-/
namespace Pam.Timestamp
open Pam Pam.Digest Spec

theorem checkStat_good (st : Stat) : checkStat (some st) = .good ↔ Safe st := by
  unfold checkStat Safe
  rcases st with ⟨k, u, g, l, m⟩
  cases k <;> cases l <;> simp <;> grind

theorem checkStat_some_bad (st : Stat) : checkStat (some st) ≠ .bad := by
  unfold checkStat; grind

theorem dirLoop_sound (lstat : Str → LRes) : ∀ (rest done : Str) (st : Option Stat), done.length + rest.length < 4096 → dirLoop lstat done st rest = .good →
    ∀ a b, rest = a ++ b → a ≠ [] → (b = [] ∨ a.getLast? = some slash) → (∃ st, lstat (done ++ a) = .ok st ∧ Safe st) ∨ lstat (done ++ a) = .noent := by
  intro rest
  induction rest with
  | nil => intro done st _ _ a b h ha; simp at h; exact absurd h.1 ha
  | cons c q ih =>
    intro done st hl h a b hab ha hb
    have hl' : (done ++ [c]).length + q.length < 4096 := by simp at hl ⊢; omega
    have hs : ¬ (done ++ [c]).length = 4096 := by simp at hl ⊢; omega
    have hd : ¬ done.length ≥ 4096 := by simp at hl; omega
    unfold dirLoop at h
    rw [if_neg hd] at h
    dsimp only at h
    cases a with
    | nil => exact absurd rfl ha
    | cons x a' =>
    have hx : c = x ∧ q = a' ++ b := by simpa using hab
    obtain ⟨hx, hq⟩ := hx
    subst hx
    have hcons : done ++ c :: a' = (done ++ [c]) ++ a' := by simp
    by_cases hc : c = slash ∨ q = []
    · rw [if_pos hc, if_neg hs] at h
      cases hls : lstat (done ++ [c]) with
      | error => rw [hls] at h; cases h
      | noent =>
        rw [hls] at h; dsimp only at h
        cases hcs : checkStat st with
        | bad => rw [hcs] at h; cases h
        | fail => rw [hcs] at h; cases h
        | good =>
          rw [hcs] at h; dsimp only at h
          by_cases ha' : a' = []
          · subst ha'; exact .inr hls
          · rw [hcons]
            exact ih _ _ hl' h a' b hq ha' (hb.imp id fun e => by rw [List.getLast?_cons_of_ne_nil ha'] at e; exact e)
      | ok st' =>
        rw [hls] at h; dsimp only at h
        cases hcs : checkStat (some st') with
        | bad => rw [hcs] at h; cases h
        | fail => rw [hcs] at h; cases h
        | good =>
          rw [hcs] at h; dsimp only at h
          by_cases ha' : a' = []
          · subst ha'; exact .inl ⟨st', hls, (checkStat_good _).1 hcs⟩
          · rw [hcons]
            exact ih _ _ hl' h a' b hq ha' (hb.imp id fun e => by rw [List.getLast?_cons_of_ne_nil ha'] at e; exact e)
    · rw [if_neg hc] at h
      have ha' : a' ≠ [] := by
        intro e; subst e
        apply hc
        rcases hb with rfl | hb
        · right; simpa using hq
        · left; simpa using hb
      rw [hcons]
      exact ih _ _ hl' h a' b hq ha' (hb.imp id fun e => by rw [List.getLast?_cons_of_ne_nil ha'] at e; exact e)

theorem dirLoop_complete (lstat : Str → LRes) : ∀ (rest done : Str) (s : Stat), Safe s → done.length + rest.length < 4096 →
    (∀ a b, rest = a ++ b → a ≠ [] → (b = [] ∨ a.getLast? = some slash) → (∃ st, lstat (done ++ a) = .ok st ∧ Safe st) ∨ lstat (done ++ a) = .noent) →
    dirLoop lstat done (some s) rest = .good := by
  intro rest
  induction rest with
  | nil => intro done s _ _ _; unfold dirLoop; rfl
  | cons c q ih =>
    intro done s hsafe hl h
    have hl' : (done ++ [c]).length + q.length < 4096 := by simp at hl ⊢; omega
    have hs : ¬ (done ++ [c]).length = 4096 := by simp at hl ⊢; omega
    have hd : ¬ done.length ≥ 4096 := by simp at hl; omega
    have hnext : ∀ a b, q = a ++ b → a ≠ [] → (b = [] ∨ a.getLast? = some slash) →
        (∃ st, lstat ((done ++ [c]) ++ a) = .ok st ∧ Safe st) ∨ lstat ((done ++ [c]) ++ a) = .noent := by
      intro a b hq ha hb
      have := h (c :: a) b (by simp [hq]) (by simp) (hb.imp id fun e => by rw [List.getLast?_cons_of_ne_nil ha]; exact e)
      simpa using this
    unfold dirLoop
    rw [if_neg hd]
    dsimp only
    by_cases hc : c = slash ∨ q = []
    · rw [if_pos hc, if_neg hs]
      have h1 := h [c] q (by simp) (by simp) (by rcases hc with h | h <;> simp [h])
      rcases h1 with ⟨st', hls, hsafe'⟩ | hls
      · rw [hls]; dsimp only; rw [(checkStat_good st').2 hsafe']; dsimp only
        exact ih _ _ hsafe' hl' hnext
      · rw [hls]; dsimp only; rw [(checkStat_good s).2 hsafe]; dsimp only
        exact ih _ _ hsafe hl' hnext
    · rw [if_neg hc]
      exact ih _ _ hsafe hl' hnext

theorem comp_iff (dir p : Str) : Component dir p ↔ ∃ b, dir = p ++ b ∧ p ≠ [] ∧ (b = [] ∨ p.getLast? = some slash) := by
  unfold Component
  constructor
  · rintro ⟨h, ⟨b, rfl⟩, hc⟩
    exact ⟨b, rfl, h, hc.imp (fun e => by simpa using e) id⟩
  · rintro ⟨b, rfl, h, hc⟩
    exact ⟨h, ⟨b, rfl⟩, hc.imp (fun e => by simp [e]) id⟩

/-- the check of the directory is right -/
theorem checkDir_sound {lstat : Str → LRes} {dir : Str} (hl : dir.length < 4096) (h : checkDirPerms lstat dir = .good) : SafeDir lstat dir := by
  unfold checkDirPerms at h
  have hne : dir.length ≠ 0 := by
    intro e; rw [if_pos e] at h; cases h
  rw [if_neg hne] at h
  refine ⟨fun e => hne (by simp [e]), fun p hp => ?_⟩
  obtain ⟨b, hd, hne, hb⟩ := (comp_iff dir p).1 hp
  simpa using dirLoop_sound lstat dir [] none (by simpa using hl) h p b hd hne hb

theorem checkDir_complete {lstat : Str → LRes} {dir : Str} (hl : dir.length < 4096) (habs : dir.head? = some slash)
    (hroot : ∃ st, lstat [slash] = .ok st) (h : SafeDir lstat dir) : checkDirPerms lstat dir = .good := by
  obtain ⟨hne, h⟩ := h
  unfold checkDirPerms
  rw [if_neg (by simpa using hne)]
  cases dir with
  | nil => exact absurd rfl hne
  | cons c q =>
  have hc : c = slash := by simpa using habs
  subst hc
  obtain ⟨st, hst⟩ := hroot
  have h1 := h [slash] ⟨by simp, ⟨q, rfl⟩, .inr rfl⟩
  rw [hst] at h1
  have hsafe : Safe st := by
    rcases h1 with ⟨s, e, hs⟩ | e
    · cases e; exact hs
    · cases e
  unfold dirLoop
  rw [if_neg (by simp)]
  dsimp only
  rw [if_pos (.inl rfl), if_neg (by simp)]
  rw [show ([] : Str) ++ [slash] = [slash] from rfl, hst]
  dsimp only
  rw [(checkStat_good st).2 hsafe]
  dsimp only
  refine dirLoop_complete lstat q [slash] st hsafe (by simp at hl ⊢; omega) fun a b hq ha hb => ?_
  refine h (slash :: a) ((comp_iff _ _).2 ⟨b, by simp [hq], by simp, hb.imp id fun e => ?_⟩)
  rw [List.getLast?_cons_of_ne_nil ha]; exact e

/-! ### names -/

theorem isPrefixOf_iff (a b : Str) : a.isPrefixOf b = true ↔ a <+: b := List.isPrefixOf_iff_prefix

theorem baseName_eq {d t : Str} (h : slash ∉ t) : baseName (d ++ slash :: t) = t := by
  unfold baseName
  rw [List.reverse_append, List.reverse_cons, List.append_assoc, List.takeWhile_append_of_pos (by
    intro x hx; simp at hx ⊢; rintro rfl; exact h hx)]
  rw [List.singleton_append, List.takeWhile_cons_of_neg (by simp)]
  simp

theorem base_split (s : Str) (h : slash ∈ s) : ∃ d t, s = d ++ slash :: t ∧ slash ∉ t := by
  induction s with
  | nil => cases h
  | cons c q ih =>
    by_cases hq : slash ∈ q
    · obtain ⟨d, t, e, ht⟩ := ih hq
      exact ⟨c :: d, t, by simp [e], ht⟩
    · rcases List.mem_cons.1 h with rfl | h
      · exact ⟨[], q, rfl, hq⟩
      · exact absurd h hq

theorem checkBase_iff (s t : Str) (hs : slash ∉ s) : checkBase s = some t ↔ s = t ∧ Part t := by
  unfold checkBase Part
  by_cases h : s.length = 0 ∨ s = lit "." ∨ s = lit ".."
  · rw [if_pos h]
    constructor
    · intro e; cases e
    · rintro ⟨rfl, a, b, c, d⟩
      rcases h with h | h | h
      · exact absurd (List.length_eq_zero_iff.1 h) a
      · exact absurd h c
      · exact absurd h d
  · rw [if_neg h]
    simp only [not_or] at h
    constructor
    · intro e; cases e
      exact ⟨rfl, fun e => h.1 (by simp [e]), hs, h.2.1, h.2.2⟩
    · rintro ⟨rfl, _⟩; rfl

theorem checkTty_iff (full t : Str) : checkTty full = some t ↔ Terminal full t := by
  unfold checkTty Terminal
  by_cases h0 : full.length = 0
  · rw [if_pos h0]
    have : full = [] := List.length_eq_zero_iff.1 h0
    subst this
    constructor
    · intro e; cases e
    · rintro ⟨hp, rfl | ⟨d, e, _⟩⟩
      · exact absurd rfl hp.1
      · simp at e
  rw [if_neg h0]
  by_cases hs : slash ∈ full
  · rw [if_pos hs]
    obtain ⟨d, b, e, hb⟩ := base_split full hs
    by_cases hp : (lit "/dev/").isPrefixOf full
    · rw [if_pos hp, e, baseName_eq hb, checkBase_iff _ _ hb]
      constructor
      · rintro ⟨rfl, h⟩
        exact ⟨h, .inr ⟨d, rfl, by rw [← e]; exact (isPrefixOf_iff _ _).1 hp⟩⟩
      · rintro ⟨h, h' | ⟨d', e', _⟩⟩
        · exfalso; apply h.2.1; rw [← h']; simp
        · refine ⟨?_, h⟩
          have := baseName_eq (d := d) hb
          rw [e', baseName_eq h.2.1] at this
          exact this.symm
    · rw [if_neg hp]
      constructor
      · intro e; cases e
      · rintro ⟨h, rfl | ⟨d', e', hp'⟩⟩
        · exact absurd hs h.2.1
        · exact absurd ((isPrefixOf_iff _ _).2 hp') hp
  · rw [if_neg hs, checkBase_iff _ _ hs]
    constructor
    · rintro ⟨rfl, h⟩; exact ⟨h, .inl rfl⟩
    · rintro ⟨h, rfl | ⟨d, rfl, _⟩⟩
      · exact ⟨rfl, h⟩
      · exact absurd (by simp) hs

theorem firstTty_iff (l : List (Option Str)) (t : Str) : firstTty l = t ↔ FirstName l t := by
  unfold FirstName
  induction l with
  | nil =>
    unfold firstTty
    constructor
    · rintro rfl; exact .inr ⟨rfl, by simp⟩
    · rintro (⟨a, b, e, _⟩ | ⟨e, _⟩)
      · simp at e
      · exact e.symm
  | cons x r ih =>
    have key : ∀ (hx : x = none ∨ x = some []), ((∃ a b, x :: r = a ++ some t :: b ∧ t ≠ [] ∧ ∀ x ∈ a, x = none ∨ x = some []) ∨
        (t = lit "unknown" ∧ ∀ y ∈ x :: r, y = none ∨ y = some [])) ↔
        ((∃ a b, r = a ++ some t :: b ∧ t ≠ [] ∧ ∀ x ∈ a, x = none ∨ x = some []) ∨ (t = lit "unknown" ∧ ∀ x ∈ r, x = none ∨ x = some [])) := by
      intro hx
      constructor
      · rintro (⟨a, b, e, ht, ha⟩ | ⟨e, h⟩)
        · cases a with
          | nil =>
            exfalso
            have : x = some t := by simpa using (List.cons.inj e).1
            rcases hx with hx | hx <;> rw [hx] at this <;> simp at this
            exact ht this
          | cons y a' =>
            have := List.cons.inj e
            exact .inl ⟨a', b, this.2, ht, fun z hz => ha z (by simp [hz])⟩
        · exact .inr ⟨e, fun y hy => h y (by simp [hy])⟩
      · rintro (⟨a, b, e, ht, ha⟩ | ⟨e, h⟩)
        · refine .inl ⟨x :: a, b, by simp [e], ht, fun z hz => ?_⟩
          rcases List.mem_cons.1 hz with rfl | hz
          · exact hx
          · exact ha z hz
        · refine .inr ⟨e, fun z hz => ?_⟩
          rcases List.mem_cons.1 hz with rfl | hz
          · exact hx
          · exact h z hz
    cases x with
    | none => rw [key (.inl rfl)]; exact ih
    | some s =>
      by_cases hs : s.length = 0
      · have : s = [] := List.length_eq_zero_iff.1 hs
        subst this
        rw [key (.inr rfl)]; exact ih
      · unfold firstTty
        rw [if_neg hs]
        constructor
        · rintro rfl
          exact .inl ⟨[], r, rfl, fun e => hs (by simp [e]), by simp⟩
        · rintro (⟨a, b, e, ht, ha⟩ | ⟨_, h⟩)
          · cases a with
            | nil => simpa using (List.cons.inj e).1
            | cons y a' =>
              have h1 := (List.cons.inj e).1
              have := ha y (by simp)
              rw [← h1] at this
              rcases this with h | h <;> simp at h
              exact absurd (by simp [h]) hs
          · have := h (some s) (by simp)
            rcases this with h | h <;> simp at h
            exact absurd (by simp [h]) hs

theorem getRuser_iff (it : Items) (r : Str) : (getRuser it = some r ∧ r ≠ []) ↔ Requester it r ∧ r.length < 4096 := by
  have last : ∀ (o : Option Str), (match o with | none => none | some r => if r.length ≥ 4096 then none else some r) = some r ↔
      o = some r ∧ r.length < 4096 := by
    intro o; cases o with
    | none => simp
    | some s =>
      dsimp only
      by_cases h : s.length ≥ 4096
      · rw [if_pos h]
        constructor
        · intro e; cases e
        · rintro ⟨e, h'⟩; cases e; omega
      · rw [if_neg h]
        constructor
        · intro e; cases e; exact ⟨rfl, by omega⟩
        · exact fun h => h.1
  unfold getRuser Requester
  dsimp only
  refine Iff.trans (and_congr (last _) Iff.rfl) ?_
  cases it.ruser with
  | none =>
    simp
    grind
  | some q =>
    dsimp only
    by_cases hq : q.length = 0
    · have : q = [] := List.length_eq_zero_iff.1 hq
      subst this
      rw [if_pos hq]
      cases it.login with
      | none => simp; grind
      | some l => simp; grind [Part]
    · rw [if_neg hq]
      have hq' : q ≠ [] := fun e => hq (by simp [e])
      by_cases hb : q = lit "." ∨ q = lit ".." ∨ slash ∈ q
      · rw [if_pos hb]
        constructor
        · rintro ⟨⟨e, _⟩, _⟩; cases e
        · rintro ⟨⟨_, ⟨e, hp⟩ | ⟨e, _⟩⟩, _⟩
          · cases e
            rcases hb with h | h | h
            · exact absurd h hp.2.2.1
            · exact absurd h hp.2.2.2
            · exact absurd h hp.2.1
          · rcases e with e | e <;> simp at e
            exact absurd e hq'
      · rw [if_neg hb]
        simp only [not_or] at hb
        simp [hq']
        unfold Part
        constructor
        · rintro ⟨⟨rfl, h⟩, h'⟩; exact ⟨⟨h', rfl, hq', hb.2.2, hb.1, hb.2.1⟩, h⟩
        · rintro ⟨⟨h, rfl, _⟩, h'⟩; exact ⟨⟨rfl, h'⟩, h⟩

/-! ### arguments -/

theorem foldl_last {α : Type} (g : Str → Option α) (v : α) : ∀ (l : List Str) (d : α), l.foldl (fun acc a => (g a).getD acc) d = v ↔
    (∃ a x b, l = a ++ x :: b ∧ g x = some v ∧ ∀ y ∈ b, g y = none) ∨ ((∀ y ∈ l, g y = none) ∧ v = d) := by
  intro l
  induction l with
  | nil =>
    intro d; simp
    exact eq_comm
  | cons x l ih =>
    intro d
    rw [List.foldl_cons, ih]
    constructor
    · rintro (⟨a, z, b, rfl, h⟩ | ⟨h, e⟩)
      · exact .inl ⟨x :: a, z, b, rfl, h⟩
      · cases hg : g x with
        | none => exact .inr ⟨by intro y hy; rcases List.mem_cons.1 hy with rfl | hy; exact hg; exact h y hy, by simpa [hg] using e⟩
        | some w => exact .inl ⟨[], x, l, rfl, by rw [hg]; simp [hg] at e; rw [e], h⟩
    · rintro (⟨a, z, b, e, hz, h⟩ | ⟨h, e⟩)
      · cases a with
        | nil =>
          obtain ⟨rfl, rfl⟩ := List.cons.inj e
          exact .inr ⟨h, by simp [hz]⟩
        | cons y a =>
          obtain ⟨rfl, rfl⟩ := List.cons.inj e
          exact .inl ⟨a, z, b, rfl, hz, h⟩
      · exact .inr ⟨fun y hy => h y (by simp [hy]), by simp [h x (by simp), e]⟩

/-- what stands behind a prefix -/
def after (p a : Str) : Option Str := if p.isPrefixOf a then some (a.drop p.length) else none

theorem after_iff (p a s : Str) : after p a = some s ↔ a = p ++ s := by
  unfold after
  by_cases h : p.isPrefixOf a
  · rw [if_pos h]
    obtain ⟨q, rfl⟩ := (isPrefixOf_iff p a).1 h
    simp
  · rw [if_neg h]
    constructor
    · intro e; cases e
    · rintro rfl; exact absurd ((isPrefixOf_iff _ _).2 ⟨s, rfl⟩) h

theorem after_none (p a : Str) : after p a = none ↔ ¬ p <+: a := by
  unfold after
  by_cases h : p.isPrefixOf a
  · rw [if_pos h]; simp [(isPrefixOf_iff p a).1 h]
  · rw [if_neg h]; simp only [true_iff]; exact fun hp => h ((isPrefixOf_iff _ _).2 hp)

theorem timestampDir_iff (argv : List Str) (d : Str) : timestampDir argv = d ↔ DirOf argv d := by
  have e : timestampDir argv = argv.foldl (fun acc a => (after (lit "timestampdir=") a).getD acc) defaultDir := by
    unfold timestampDir
    congr 1
    funext acc a
    unfold after
    by_cases h : (lit "timestampdir=").isPrefixOf a
    · rw [if_pos h, if_pos h]; rfl
    · rw [if_neg h, if_neg h]; rfl
  rw [e, foldl_last]
  unfold DirOf
  constructor
  · rintro (⟨a, x, b, rfl, hx, hb⟩ | ⟨h, e⟩)
    · rw [after_iff] at hx; subst hx
      exact .inl ⟨a, b, rfl, fun y hy => (after_none _ _).1 (hb y hy)⟩
    · exact .inr ⟨fun y hy => (after_none _ _).1 (h y hy), e⟩
  · rintro (⟨a, b, rfl, hb⟩ | ⟨h, e⟩)
    · exact .inl ⟨a, _, b, rfl, (after_iff _ _ _).2 rfl, fun y hy => (after_none _ _).2 (hb y hy)⟩
    · exact .inr ⟨fun y hy => (after_none _ _).2 (h y hy), e⟩

/-- the number after `timestamp_timeout=` -/
def secondsOf (s : Str) : Option Int :=
  let r := strtoInt 0 (chars s)
  if r.2 = [] then some (max (-(2 ^ 63)) (min (2 ^ 63 - 1) r.1)) else none

theorem secondsOf_iff (s : Str) (v : Int) : secondsOf s = some v ↔ Seconds s v := by
  unfold secondsOf Seconds
  dsimp only
  by_cases hs : s = []
  · subst hs
    have : strtoInt 0 (chars []) = (0, []) := rfl
    rw [this]
    dsimp only
    rw [if_pos rfl]
    constructor
    · intro h; exact .inl ⟨rfl, by have := Option.some.inj h; omega⟩
    · rintro (⟨_, rfl⟩ | ⟨n, h, _⟩)
      · refine congrArg some ?_; omega
      · have := (strtoInt_zero (chars []) n).2 h
        exact absurd rfl this.2
  · have hc : chars s ≠ [] := by unfold chars; simpa using hs
    constructor
    · intro h
      by_cases hr : (strtoInt 0 (chars s)).2 = []
      · rw [if_pos hr] at h
        refine .inr ⟨(strtoInt 0 (chars s)).1, (strtoInt_zero _ _).1 ⟨by rw [← hr], hc⟩, by simpa using h.symm⟩
      · rw [if_neg hr] at h; cases h
    · rintro (⟨h, _⟩ | ⟨n, h, rfl⟩)
      · exact absurd h hs
      · obtain ⟨h, _⟩ := (strtoInt_zero _ _).2 h
        rw [h]; simp

theorem interval_iff (argv : List Str) (v : Int) : interval argv = v ↔ Timeout argv v := by
  have e : interval argv = argv.foldl (fun acc a => ((after (lit "timestamp_timeout=") a).bind secondsOf).getD acc) (5 * 60) := by
    unfold interval
    congr 1
    funext acc a
    unfold after
    by_cases h : (lit "timestamp_timeout=").isPrefixOf a
    · rw [if_pos h, if_pos h]
      have : (lit "timestamp_timeout=").length = 18 := by decide
      rw [this]
      unfold secondsOf
      dsimp only [Option.bind]
      by_cases h' : (strtoInt 0 (chars (a.drop 18))).2 = []
      · rw [if_pos h', if_pos h']; rfl
      · rw [if_neg h', if_neg h']; rfl
    · rw [if_neg h, if_neg h]; rfl
  have none_iff : ∀ y, (after (lit "timestamp_timeout=") y).bind secondsOf = none ↔
      ∀ s' v', y = lit "timestamp_timeout=" ++ s' → ¬ Seconds s' v' := by
    intro y
    constructor
    · intro h s' v' hy hs
      rw [(after_iff _ _ _).2 hy, Option.bind_some, (secondsOf_iff _ _).2 hs] at h
      cases h
    · intro h
      cases ha : after (lit "timestamp_timeout=") y with
      | none => rfl
      | some s' =>
        rw [Option.bind_some]
        cases hs : secondsOf s' with
        | none => rfl
        | some v' => exact absurd ((secondsOf_iff _ _).1 hs) (h s' v' ((after_iff _ _ _).1 ha))
  rw [e, foldl_last]
  unfold Timeout
  constructor
  · rintro (⟨a, x, b, rfl, hx, hb⟩ | ⟨h, e⟩)
    · obtain ⟨s, hs, hv⟩ := Option.bind_eq_some_iff.1 hx
      rw [after_iff] at hs; subst hs
      exact .inl ⟨a, s, b, rfl, (secondsOf_iff _ _).1 hv, fun y hy => (none_iff y).1 (hb y hy)⟩
    · exact .inr ⟨fun y hy => (none_iff y).1 (h y hy), e⟩
  · rintro (⟨a, s, b, rfl, hs, hb⟩ | ⟨h, e⟩)
    · refine .inl ⟨a, _, b, rfl, Option.bind_eq_some_iff.2 ⟨s, (after_iff _ _ _).2 rfl, (secondsOf_iff _ _).2 hs⟩, fun y hy => (none_iff y).2 (hb y hy)⟩
    · exact .inr ⟨fun y hy => (none_iff y).2 (h y hy), e⟩

/-! ### the path -/

theorem formatName_iff (d t r u p : Str) : formatName d t r u = some p ↔ p = fileFor d r t u ∧ p.length < 4096 := by
  unfold formatName fileFor
  dsimp only
  have e : (if r = u then d ++ [slash] ++ r ++ [slash] ++ t else d ++ [slash] ++ r ++ [slash] ++ t ++ [colon] ++ u) =
      d ++ slash :: (r ++ slash :: (t ++ (if r = u then [] else colon :: u))) := by
    by_cases h : r = u
    · rw [if_pos h, if_pos h]; simp
    · rw [if_neg h, if_neg h]; simp
  rw [e]
  generalize d ++ slash :: (r ++ slash :: (t ++ (if r = u then [] else colon :: u))) = q
  by_cases h : q.length ≥ 4096
  · rw [if_pos h]
    constructor
    · intro e; cases e
    · rintro ⟨rfl, h'⟩; omega
  · rw [if_neg h]
    constructor
    · intro e; cases e; exact ⟨rfl, by omega⟩
    · rintro ⟨rfl, _⟩; rfl

theorem fileFor_length (d r t u : Str) : d.length + r.length < (fileFor d r t u).length := by
  unfold fileFor; simp; omega

/-- if a name comes out it is the right one -/
theorem getName_sound {lstat : Str → LRes} {it : Items} {argv : List Str} {p : Str} (h : getName lstat it argv = .path p) : FileOf lstat it argv p := by
  unfold getName at h
  dsimp only at h
  cases hd : checkDirPerms lstat (timestampDir argv) with
  | bad => rw [hd] at h; cases h
  | fail => rw [hd] at h; cases h
  | good =>
  rw [hd] at h; dsimp only at h
  cases hu : it.user with
  | none => rw [hu] at h; cases h
  | some u =>
  rw [hu] at h; dsimp only at h
  by_cases hu0 : u.length = 0
  · rw [if_pos hu0] at h; cases h
  rw [if_neg hu0] at h
  cases hr : getRuser it with
  | none => rw [hr] at h; cases h
  | some r =>
  rw [hr] at h; dsimp only at h
  by_cases hr0 : r.length = 0
  · rw [if_pos hr0] at h; cases h
  rw [if_neg hr0] at h
  cases ht : checkTty (ttyOf it) with
  | none => rw [ht] at h; cases h
  | some t =>
  rw [ht] at h; dsimp only at h
  cases hf : formatName (timestampDir argv) t r u with
  | none => rw [hf] at h; cases h
  | some q =>
  rw [hf] at h; dsimp only at h
  cases h
  obtain ⟨hp, hl⟩ := (formatName_iff _ _ _ _ _).1 hf
  have hlen := fileFor_length (timestampDir argv) r t u
  rw [← hp] at hlen
  refine ⟨timestampDir argv, u, r, ttyOf it, t, (timestampDir_iff _ _).1 rfl, checkDir_sound (by omega) hd, hu, fun e => hu0 (by simp [e]),
    ((getRuser_iff it r).1 ⟨hr, fun e => hr0 (by simp [e])⟩).1, (firstTty_iff _ _).1 rfl, (checkTty_iff _ _).1 ht, hp, hl⟩

/-- and with an absolute directory below an existing root it does come out -/
theorem getName_complete {lstat : Str → LRes} {it : Items} {argv : List Str} {p : Str} (habs : ∀ d, DirOf argv d → d.head? = some slash)
    (hroot : ∃ st, lstat [slash] = .ok st) (h : FileOf lstat it argv p) : getName lstat it argv = .path p := by
  obtain ⟨dir, u, r, full, t, hdir, hsafe, hu, hune, hr, hfull, ht, hp, hl⟩ := h
  have hlen := fileFor_length dir r t u
  rw [← hp] at hlen
  have hd := (timestampDir_iff _ _).2 hdir
  have hg : checkDirPerms lstat dir = .good := checkDir_complete (by omega) (habs _ hdir) hroot hsafe
  obtain ⟨hr1, hr2⟩ := (getRuser_iff it r).2 ⟨hr, by omega⟩
  unfold getName
  dsimp only
  rw [hd, hg]; dsimp only
  rw [hu]; dsimp only
  rw [if_neg (by simpa using hune), hr1]; dsimp only
  rw [if_neg (by simpa using hr2)]
  rw [show ttyOf it = full from (firstTty_iff _ _).2 hfull, (checkTty_iff _ _).2 ht]; dsimp only
  rw [(formatName_iff _ _ _ _ _).2 ⟨hp, hl⟩]

/-! ### time -/

theorem timestampGood_iff {thn now iv : Int} (hthn : -(2 ^ 63) ≤ thn ∧ thn < 2 ^ 63) (hnow : 0 ≤ now ∧ now < 2 ^ 63) (hiv : iv < 2 ^ 62) :
    timestampGood thn now iv = some true ↔ Fresh thn now iv := by
  unfold timestampGood Fresh inTime
  by_cases h : now ≥ thn
  · rw [if_pos h]
    by_cases h' : -(2 ^ 63) ≤ now - thn ∧ now - thn < 2 ^ 63
    · rw [if_pos (by exact decide_eq_true h')]
      simp
      omega
    · rw [if_neg (by simpa using h')]
      simp
      omega
  · rw [if_neg h]
    by_cases h' : (-(2 ^ 63) ≤ thn - now ∧ thn - now < 2 ^ 63) ∧ (-(2 ^ 63) ≤ 2 * iv ∧ 2 * iv < 2 ^ 63)
    · rw [if_pos (by simpa using h')]
      simp
      omega
    · rw [if_neg (by simpa using h')]
      simp
      omega

theorem sec_value {b : BitVec 32} (h : b.toNat < 2 ^ 31) : (b.signExtend 64).toNat = b.toNat := by
  rw [BitVec.signExtend_eq_setWidth_of_msb_false]
  · simp; omega
  · rw [BitVec.msb_eq_decide]; simp; omega

theorem oldestLogin_spec (r : Str) : ∀ (us : List Ut) (o : BitVec 64), SaneLogins us → o.toNat < 2 ^ 31 → ∀ (n : Nat), 0 < n →
    ((0 < (oldestLogin r o us).toNat ∧ (oldestLogin r o us).toNat ≤ n) ↔
      (0 < o.toNat ∧ o.toNat ≤ n) ∨ ∃ u ∈ us, u.process = true ∧ u.user.take 32 = r.take 32 ∧ u.sec.toNat ≤ n) ∧
    (oldestLogin r o us).toNat < 2 ^ 31 := by
  intro us
  induction us with
  | nil => intro o _ ho n hn; unfold oldestLogin; simp; exact ho
  | cons u us ih =>
    intro o hs ho n hn
    have hs' : SaneLogins us := fun x hx => hs x (by simp [hx])
    unfold oldestLogin
    by_cases hp : u.process = true
    · rw [if_neg (by simp [hp])]
      by_cases hu : r.take 32 = u.user.take 32
      · rw [if_neg (by simp [hu])]
        have hsec := hs u (by simp) hp
        have hv := sec_value hsec.2
        by_cases hc : o = 0 ∨ o.toNat > u.sec.toNat
        · rw [if_pos hc]
          obtain ⟨h1, h2⟩ := ih (u.sec.signExtend 64) hs' (by rw [hv]; exact hsec.2) n hn
          refine ⟨?_, h2⟩
          rw [h1, hv]
          constructor
          · rintro (⟨_, h⟩ | ⟨x, hx, h⟩)
            · exact .inr ⟨u, by simp, hp, hu.symm, h⟩
            · exact .inr ⟨x, by simp [hx], h⟩
          · rintro (⟨h, h'⟩ | ⟨x, hx, h1, h2, h3⟩)
            · left
              rcases hc with rfl | hc
              · simp at h
              · omega
            · rcases List.mem_cons.1 hx with rfl | hx
              · exact .inl ⟨hsec.1, h3⟩
              · exact .inr ⟨x, hx, h1, h2, h3⟩
        · rw [if_neg hc]
          obtain ⟨h1, h2⟩ := ih o hs' ho n hn
          refine ⟨?_, h2⟩
          rw [h1]
          simp only [not_or] at hc
          have ho0 : 0 < o.toNat := by
            rcases Nat.eq_zero_or_pos o.toNat with h | h
            · exact absurd (BitVec.eq_of_toNat_eq (by simpa using h)) hc.1
            · exact h
          constructor
          · rintro (h | ⟨x, hx, h⟩)
            · exact .inl h
            · exact .inr ⟨x, by simp [hx], h⟩
          · rintro (h | ⟨x, hx, h1, h2, h3⟩)
            · exact .inl h
            · rcases List.mem_cons.1 hx with rfl | hx
              · left; omega
              · exact .inr ⟨x, hx, h1, h2, h3⟩
      · rw [if_pos hu]
        obtain ⟨h1, h2⟩ := ih o hs' ho n hn
        refine ⟨?_, h2⟩
        rw [h1]
        refine or_congr Iff.rfl ⟨fun ⟨x, hx, h⟩ => ⟨x, by simp [hx], h⟩, fun ⟨x, hx, h⟩ => ?_⟩
        rcases List.mem_cons.1 hx with rfl | hx
        · exact absurd h.2.1.symm hu
        · exact ⟨x, hx, h⟩
    · rw [if_pos hp]
      obtain ⟨h1, h2⟩ := ih o hs' ho n hn
      refine ⟨?_, h2⟩
      rw [h1]
      refine or_congr Iff.rfl ⟨fun ⟨x, hx, h⟩ => ⟨x, by simp [hx], h⟩, fun ⟨x, hx, h⟩ => ?_⟩
      rcases List.mem_cons.1 hx with rfl | hx
      · exact absurd h.1 hp
      · exact ⟨x, hx, h⟩

theorem checkLoginTime_iff (r : Str) (us : List Ut) (thn : Int) (hs : SaneLogins us) : checkLoginTime r us thn = true ↔ LoggedInBy us r thn := by
  have small := (oldestLogin_spec r us 0 hs (by decide) 1 (by decide)).2
  unfold checkLoginTime LoggedInBy
  dsimp only
  generalize ho : oldestLogin r 0 us = o at small ⊢
  have hint : o.toInt = o.toNat := by
    rw [BitVec.toInt_eq_toNat_cond, if_pos (by omega)]
  rw [hint]
  have hmain : (¬ (o = 0 ∨ thn < o.toNat)) ↔ 0 < thn ∧ (0 < o.toNat ∧ (o.toNat : Int) ≤ thn) := by
    have hz : o = 0 ↔ o.toNat = 0 := by
      constructor
      · rintro rfl; rfl
      · intro h; exact BitVec.eq_of_toNat_eq (by simpa using h)
    rw [hz]; omega
  have lhs : (if o = 0 ∨ thn < (o.toNat : Int) then false else true) = true ↔ ¬ (o = 0 ∨ thn < o.toNat) := by
    by_cases h : o = 0 ∨ thn < (o.toNat : Int)
    · rw [if_pos h]; exact ⟨fun e => (by cases e), fun e => absurd h e⟩
    · rw [if_neg h]; exact ⟨fun _ => h, fun _ => rfl⟩
  rw [lhs, hmain]
  constructor
  · rintro ⟨h0, h1, h2⟩
    have := (oldestLogin_spec r us 0 hs (by decide) thn.toNat (by omega)).1
    rw [ho] at this
    rcases this.1 ⟨h1, by omega⟩ with h | ⟨u, hu, a, b, c⟩
    · simp at h
    · exact ⟨u, hu, a, b, by omega⟩
  · rintro ⟨u, hu, a, b, c⟩
    have hpos := (hs u hu a).1
    have h0 : 0 < thn := by omega
    have := (oldestLogin_spec r us 0 hs (by decide) thn.toNat (by omega)).1
    rw [ho] at this
    have := this.2 (.inr ⟨u, hu, a, b, by omega⟩)
    exact ⟨h0, this.1, by omega⟩

/-! ### the key -/

theorem keyRead_iff (io : KeyIO) (f : KeyFile) (key : Str) (h20 : 20 ≤ key.length) : (keyRead io f).1 = some key ↔ KeyOf io f key := by
  have hc : ∀ b, keyContents io b = some key ↔ io.fstat = true ∧ io.readAll = true ∧ b = key := by
    intro b; unfold keyContents
    cases io.fstat <;> cases io.readAll <;> simp
  unfold KeyOf
  cases f with
  | bytes b =>
    unfold keyRead; dsimp only; rw [hc]; simp
  | denied => unfold keyRead; simp
  | absent =>
    have hne : key ≠ [] := by intro e; simp [e] at h20
    unfold keyRead keyCreate
    cases h1 : io.create with
    | false => simp
    | true =>
    cases h2 : io.chown with
    | false =>
      simp
      cases io.reopen <;> simp [hc, hne.symm]
    | true =>
    cases h3 : io.random with
    | none =>
      simp
      cases io.reopen <;> simp [hc, hne.symm]
    | some r =>
      by_cases hr : r.length < 64
      · simp [hr]
        cases io.reopen <;> simp [hc, hne.symm]
        intro _ _; omega
      · simp [hr]
        cases io.reopen <;> simp [hc]
        intro _ _
        constructor
        · rintro rfl; exact ⟨by omega, by simp [List.take_take]⟩
        · rintro ⟨_, rfl⟩; simp [List.take_take]

theorem macFile_iff (io : KeyIO) (f : KeyFile) (text mac : Str) (ht : text.length ≤ 2 ^ 32) (hk : ∀ b, f = .bytes b → b.length ≤ 2 ^ 32) :
    (macFile io f text).1 = some (some mac) ↔ ∃ key, KeyOf io f key ∧ 20 ≤ key.length ∧ mac = Digest.Spec.hmacSha1 key text := by
  have hlen : ∀ key, 20 ≤ key.length → KeyOf io f key → key.length ≤ 2 ^ 32 := by
    intro key _ h
    rcases h.2.2 with h | ⟨_, _, _, _, r, _, _, rfl⟩
    · exact hk _ h
    · simp; omega
  unfold macFile
  obtain ⟨⟨a, b⟩, h⟩ : ∃ t, keyRead io f = t := ⟨_, rfl⟩
  rw [h]
  cases a with
  | none =>
    dsimp only
    constructor
    · intro e; cases e
    · rintro ⟨key, hk, h20, _⟩
      have := (keyRead_iff io f key h20).2 hk
      rw [h] at this; cases this
  | some k =>
    dsimp only
    by_cases h20 : 20 ≤ k.length
    · have hko := (keyRead_iff io f k h20).1 (by rw [h])
      rw [Sha1.hmac_eq k text h20 (hlen k h20 hko) ht]
      constructor
      · intro e; cases e; exact ⟨k, hko, h20, rfl⟩
      · rintro ⟨key, hk', h20', rfl⟩
        have := (keyRead_iff io f key h20').2 hk'
        rw [h] at this; cases this; rfl
    · have : Sha1.hmac k text = some none := by unfold Sha1.hmac; rw [if_pos (by omega)]
      rw [this]
      constructor
      · intro e; cases e
      · rintro ⟨key, hk', h20', rfl⟩
        have := (keyRead_iff io f key h20').2 hk'
        rw [h] at this; cases this; exact absurd h20' h20

/-! ### the contents -/

theorem timeOf_step (acc : BitVec 64) (x : Byte) : (acc <<< 8 ||| x.zeroExtend 64).toNat = (acc.toNat * 256 + x.toNat) % 2 ^ 64 := by
  have hx : x.toNat < 256 := x.isLt
  have e : acc.toNat <<< 8 % 2 ^ 64 = (acc.toNat % 2 ^ 56) <<< 8 := by
    rw [Nat.shiftLeft_eq, Nat.shiftLeft_eq]; omega
  rw [BitVec.toNat_or, BitVec.toNat_shiftLeft, e, show (x.zeroExtend 64).toNat = x.toNat by simp; omega,
    ← Nat.shiftLeft_add_eq_or_of_lt (by omega), Nat.shiftLeft_eq]
  omega

theorem timeOf_toNat (b : Str) : (timeOf b).toNat = (b.foldr (fun x (acc : Nat) => acc * 256 + x.toNat) 0) % 2 ^ 64 := by
  unfold timeOf
  induction b with
  | nil => rfl
  | cons x b ih =>
    rw [List.foldr_cons, List.foldr_cons, timeOf_step, ih]
    generalize b.foldr (fun x (acc : Nat) => acc * 256 + x.toNat) 0 = n
    omega

theorem foldr_lt (b : Str) : b.foldr (fun x (acc : Nat) => acc * 256 + x.toNat) 0 < 256 ^ b.length := by
  induction b with
  | nil => simp
  | cons x b ih =>
    have hx : x.toNat < 256 := x.isLt
    rw [List.foldr_cons, List.length_cons, Nat.pow_succ]
    omega

theorem timeOf_toInt {b : Str} (h : b.length = 8) : (timeOf b).toInt = timeValue b := by
  have h1 := timeOf_toNat b
  have h2 := foldr_lt b
  rw [h] at h2
  unfold timeValue
  dsimp only
  generalize b.foldr (fun x (acc : Nat) => acc * 256 + x.toNat) 0 = n at h1 h2 ⊢
  rw [BitVec.toInt_eq_toNat_cond, h1]
  rw [Nat.mod_eq_of_lt (by omega)]
  by_cases hn : n < 2 ^ 63
  · rw [if_pos hn, if_pos (by omega)]
  · rw [if_neg hn, if_neg (by omega)]; simp

theorem bytes_sum (n : Nat) : ∀ (k j : Nat), ((List.range' j k).map fun i => n / 256 ^ i % 256).foldr (fun x (acc : Nat) => acc * 256 + x) 0 =
    n / 256 ^ j % 256 ^ k := by
  intro k
  induction k with
  | zero => intro j; simp [Nat.mod_one]
  | succ k ih =>
    intro j
    rw [List.range'_succ, List.map_cons, List.foldr_cons, ih, Nat.pow_succ 256 j, ← Nat.div_div_eq_div_mul, Nat.pow_succ' (m := 256) (n := k),
      Nat.mod_mul]
    omega

theorem timeValue_timeBytes {now : Int} (h0 : 0 ≤ now) (h1 : now < 2 ^ 63) : timeValue (timeBytes (BitVec.ofInt 64 now)) = now := by
  have hn : (BitVec.ofInt 64 now).toNat = now.toNat := by simp; omega
  have key : (timeBytes (BitVec.ofInt 64 now)).foldr (fun x (acc : Nat) => acc * 256 + x.toNat) 0 = now.toNat := by
    have h := bytes_sum now.toNat 8 0
    rw [← List.range_eq_range', List.foldr_map] at h
    unfold timeBytes
    rw [List.foldr_map]
    rw [show (fun (i : Nat) (acc : Nat) => acc * 256 + ((BitVec.ofInt 64 now).extractLsb' (8 * i) 8).toNat) =
      fun i acc => acc * 256 + now.toNat / 256 ^ i % 256 from ?_, h]
    · rw [Nat.pow_zero, Nat.div_one, Nat.mod_eq_of_lt]
      omega
    · funext i acc
      rw [BitVec.extractLsb'_toNat, hn, Nat.shiftRight_eq_div_pow, Nat.pow_mul]
  unfold timeValue
  dsimp only
  rw [key, if_pos (by omega)]
  omega

theorem timeBytes_length (t : BitVec 64) : (timeBytes t).length = 8 := by unfold timeBytes; simp

theorem hmacSha1_length (key text : Str) : (Digest.Spec.hmacSha1 key text).length = 20 := by
  unfold Digest.Spec.hmacSha1 Digest.Spec.sha1
  simp [Digest.Spec.Sha1.bytes]

end Pam.Timestamp
