import Verif.Config.LoadLemmas
import Verif.Config.WordLemmas
/-
What is loaded for a service, list by list.
-/
namespace Pam.Config
open Spec

/-- the tree for one list and one side, of a file read at the top level -/
def topTree (sys : Sys) (serviceName : List Char) (known : Option (List Char)) (o : Bool) (ty : MType) (bytes : List Char) : Tree :=
  (expand (contents sys ty 15) .auth ty (directives serviceName known o (fileLines ' ' bytes).1)).1

theorem parseTop_spec (sys : Sys) (serviceName : List Char) (known : Option (List Char)) (bytes : List Char) (t : Tables)
    (hok : (parseTop sys serviceName known bytes t).2 = true) (o : Bool) (fn : Fn) :
    ((parseTop sys serviceName known bytes t).1.side o).get fn =
      (t.side o).get fn ++ (if fn.first then (topTree sys serviceName known o fn.mtype bytes).flatten 0
        else ((topTree sys serviceName known o fn.mtype bytes).flatten 0).filter named) := by
  unfold parseTop parseConf at hok ⊢
  simp only [Bool.and_eq_true] at hok
  have := parseLines_top serviceName _ _ (loadConf_delivers sys serviceName (SUBSTACK_MAX_LEVEL - 1)) known 0
    (fileLines ' ' bytes).1 t hok.1 o fn
  rw [this]
  simp [delta, topTree, SUBSTACK_MAX_LEVEL]

/-- the three facts about loaded trees -/
structure Good (t : Tree) : Prop where
  levels : levels t ≤ SUBSTACK_MAX_LEVEL
  clean : Clean t
  noSub : NoSubLines t

theorem good_nil : Good .nil := ⟨by simp [levels], trivial, trivial⟩

theorem good_append {a b : Tree} (ha : Good a) (hb : Good b) : Good (a.append b) :=
  ⟨by rw [levels_append]; have := ha.levels; have := hb.levels; omega, clean_append ha.clean hb.clean,
   noSub_append ha.noSub hb.noSub⟩

theorem topTree_good (sys : Sys) (serviceName : List Char) (known : Option (List Char)) (o : Bool) (ty : MType) (bytes : List Char) :
    Good (topTree sys serviceName known o ty bytes) :=
  ⟨expand_levels _ 15 (contents_levels sys ty 15) _ _ _, expand_clean _ (contents_clean sys ty 15) _ _ _,
   expand_noSub _ (contents_noSub sys ty 15) _ _ _ (directives_htype _ _ _ _)⟩

/-- a list is the flat form of a good tree -/
def IsTree (first : Bool) (l : List Entry) : Prop :=
  ∃ t, Good t ∧ l = if first then t.flatten 0 else (t.flatten 0).filter named

theorem isTree_nil (b : Bool) : IsTree b [] := ⟨.nil, good_nil, by cases b <;> rfl⟩

theorem isTree_append {b : Bool} {l m : List Entry} (hl : IsTree b l) (hm : IsTree b m) : IsTree b (l ++ m) := by
  obtain ⟨t, ht, rfl⟩ := hl
  obtain ⟨u, hu, rfl⟩ := hm
  refine ⟨t.append u, good_append ht hu, ?_⟩
  cases b <;> simp [flatten_append]

theorem parseTop_isTree (sys : Sys) (serviceName : List Char) (known : Option (List Char)) (bytes : List Char) (t : Tables)
    (hok : (parseTop sys serviceName known bytes t).2 = true) (o : Bool) (fn : Fn) (ht : IsTree fn.first ((t.side o).get fn)) :
    IsTree fn.first (((parseTop sys serviceName known bytes t).1.side o).get fn) := by
  rw [parseTop_spec _ _ _ _ _ hok]
  exact isTree_append ht ⟨_, topTree_good sys serviceName known o fn.mtype bytes, rfl⟩

theorem empty_get (o : Bool) (fn : Fn) : (({} : Tables).side o).get fn = [] := by
  cases o <;> cases fn <;> rfl

theorem initHandlers_isTree (sys : Sys) (serviceName : List Char) (T : Tables) (h : initHandlers sys serviceName = some T)
    (o : Bool) (fn : Fn) : IsTree fn.first ((T.side o).get fn) := by
  have h0 : IsTree fn.first ((({} : Tables).side o).get fn) := by rw [empty_get]; exact isTree_nil _
  unfold initHandlers at h
  split at h
  · simp only at h
    cases ho : openConfig sys serviceName with
    | none =>
      simp only [ho, if_true] at h
      split at h
      · next b hb =>
        split at h
        · next hok => injection h with h; subst h; exact parseTop_isTree _ _ _ _ _ hok o fn h0
        · cases h
      · simp at h
    | some b1 =>
      simp only [ho] at h
      split at h
      · next hok1 =>
        have h1 := parseTop_isTree sys serviceName (some serviceName) b1 {} hok1 o fn h0
        split at h
        · next b hb =>
          split at h
          · next hok => injection h with h; subst h; exact parseTop_isTree _ _ _ _ _ hok o fn h1
          · cases h
        · injection h with h; subst h; exact h1
      · cases h
  · split at h
    · cases h
    · simp only at h
      split at h
      · next hok => injection h with h; subst h; exact parseTop_isTree _ _ _ _ _ hok o fn h0
      · cases h

theorem isTree_stack {σ : Type} (dl : List Char → List (List Char) → Option (σ → Int × σ)) (b : Bool) (l : List Entry) (h : IsTree b l) :
    ∃ t, Good t ∧ l = t.flatten 0 ∧ l.map (link dl) = (toStack dl t).flatten 0 ∧ (toStack dl t).levels ≤ SUBSTACK_MAX_LEVEL := by
  obtain ⟨t, ht, rfl⟩ := h
  cases b with
  | true => exact ⟨t, ht, rfl, link_flatten dl t ht.noSub 0, by rw [toStack_levels]; exact ht.levels⟩
  | false =>
    have hp : Good (prune t) := by
      refine ⟨Nat.le_trans (prune_levels t) ht.levels, ?_, prune_noSub t ht.noSub⟩
      have hc := ht.clean
      clear ht
      induction t with
      | nil => trivial
      | line h a p v r ih => simp only [prune]; split <;> exact ih hc
      | sub n b r ihb ihr =>
        simp only [prune]
        split
        · next hn => exact ⟨fun h => by simp [h] at hn, ihb hc.2.1, ihr hc.2.2⟩
        · exact ihr hc.2.2
    have e := flatten_prune t ht.clean 0
    simp only [Bool.false_eq_true, if_false, e]
    exact ⟨prune t, hp, rfl, link_flatten dl _ hp.noSub 0, by rw [toStack_levels]; exact hp.levels⟩

/-! ### Directory mode: the two files -/

theorem directives_known (serviceName s : List Char) (o : Bool) (ls : List (List Char))
    (hs : ieq s serviceName = true ∨ ieq s otherName = true) :
    directives serviceName (some s) o ls = if ieq s otherName = o then ls.map (fun l => parseLine (some l)) else [] := by
  unfold directives
  have hl : ∀ l, lineService (some s) l = (s, some l) := fun _ => rfl
  simp only [hl, hs, true_and]
  split
  · induction ls with
    | nil => rfl
    | cons l ls ih => simp [ih]
  · induction ls with
    | nil => rfl
    | cons l ls ih => simp

theorem ieq_refl (s : List Char) : ieq s s = true := by
  unfold ieq; simp

theorem expand_nil (load : Option (List Char) → Tree × Bool) (d ty : MType) : (expand load d ty []).1 = .nil := rfl

theorem topTree_known (sys : Sys) (serviceName s : List Char) (o : Bool) (ty : MType) (bytes : List Char)
    (hs : ieq s serviceName = true ∨ ieq s otherName = true) (ho : openConfig sys s = some bytes) :
    topTree sys serviceName (some s) o ty bytes = if ieq s otherName = o then stackOf sys s ty else .nil := by
  unfold topTree stackOf
  rw [directives_known _ _ _ _ hs, ho]
  split
  · simp only [lineMeaning_eq]
  · rfl

theorem stackOf_none (sys : Sys) (s : List Char) (ty : MType) (h : openConfig sys s = none) : stackOf sys s ty = .nil := by
  unfold stackOf; rw [h]

/-- which entries a list keeps: the second list of a type leaves out lines that cannot be named -/
def keep (fn : Fn) (l : List Entry) : List Entry := if fn.first then l else l.filter named

theorem keep_nil (fn : Fn) : keep fn [] = [] := by unfold keep; split <;> rfl

theorem parseTop_known (sys : Sys) (serviceName s : List Char) (bytes : List Char) (t : Tables)
    (hs : ieq s serviceName = true ∨ ieq s otherName = true) (ho : openConfig sys s = some bytes)
    (hok : (parseTop sys serviceName (some s) bytes t).2 = true) (o : Bool) (fn : Fn) :
    ((parseTop sys serviceName (some s) bytes t).1.side o).get fn =
      (t.side o).get fn ++ if ieq s otherName = o then keep fn ((stackOf sys s fn.mtype).flatten 0) else [] := by
  rw [parseTop_spec _ _ _ _ _ hok, topTree_known _ _ _ _ _ _ hs ho]
  congr 1
  by_cases hc : ieq s otherName = o
  · rw [if_pos hc, if_pos hc]; rfl
  · rw [if_neg hc, if_neg hc]; exact keep_nil fn

theorem initHandlers_dir (sys : Sys) (svc : List Char) (T : Tables) (hdir : sys.confdir.isSome ∨ sys.haveDir)
    (hsvc : ieq svc otherName = false) (h : initHandlers sys svc = some T) (fn : Fn) :
    T.conf.get fn = keep fn ((stackOf sys svc fn.mtype).flatten 0) ∧
    T.other.get fn = keep fn ((stackOf sys otherName fn.mtype).flatten 0) := by
  have hself : ieq svc svc = true ∨ ieq svc otherName = true := Or.inl (ieq_refl svc)
  have hoth : ieq otherName svc = true ∨ ieq otherName otherName = true := Or.inr (ieq_refl _)
  have hoo : ieq otherName otherName = true := ieq_refl _
  unfold initHandlers at h
  rw [if_pos hdir] at h
  simp only at h
  have c0 := fun fn => empty_get false fn
  have o0 := fun fn => empty_get true fn
  cases ho : openConfig sys svc with
  | none =>
    simp only [ho, if_true] at h
    split at h
    · next b hb =>
      split at h
      · next hok =>
        injection h with h; subst h
        have e1 := parseTop_known sys svc otherName b {} hoth hb hok false fn
        have e2 := parseTop_known sys svc otherName b {} hoth hb hok true fn
        rw [hoo, c0] at e1
        rw [hoo, o0] at e2
        rw [stackOf_none _ _ _ ho]
        refine ⟨?_, ?_⟩
        · simp only [Bool.true_eq_false, if_false, List.append_nil] at e1
          simp only [Tree.flatten, keep_nil]; exact e1
        · simp only [if_true, List.nil_append] at e2; exact e2
      · cases h
    · simp at h
  | some b1 =>
    simp only [ho] at h
    split at h
    · next hok1 =>
      have a1 := parseTop_known sys svc svc b1 {} hself ho hok1 false fn
      have a2 := parseTop_known sys svc svc b1 {} hself ho hok1 true fn
      rw [hsvc, c0] at a1
      rw [hsvc, o0] at a2
      simp only [if_true, List.nil_append, Bool.false_eq_true, if_false] at a1 a2
      split at h
      · next b hb =>
        split at h
        · next hok =>
          injection h with h; subst h
          have e1 := parseTop_known sys svc otherName b _ hoth hb hok false fn
          have e2 := parseTop_known sys svc otherName b _ hoth hb hok true fn
          rw [hoo, a1] at e1
          rw [hoo, a2] at e2
          refine ⟨?_, ?_⟩
          · simp only [Bool.true_eq_false, if_false, List.append_nil] at e1; exact e1
          · simp only [if_true, List.nil_append] at e2; exact e2
        · cases h
      · next hb =>
        injection h with h; subst h
        rw [stackOf_none _ _ _ hb]
        refine ⟨a1, ?_⟩
        simp only [Tree.flatten, keep_nil]; exact a2
    · cases h

theorem filterMap_congr' {α β : Type} (f g : α → Option β) (l : List α) (h : ∀ a ∈ l, f a = g a) :
    l.filterMap f = l.filterMap g := by
  induction l with
  | nil => rfl
  | cons a t ih =>
    rw [List.filterMap_cons, List.filterMap_cons, h a (by simp), ih (fun b hb => h b (by simp [hb]))]

theorem directives_none (serviceName : List Char) (o : Bool) (ls : List (List Char))
    (hls : ∀ l ∈ ls, (nextTok (some l)).1 ≠ none) :
    directives serviceName none o ls = ls.filterMap (fun l =>
      if (mkargv l).head?.any (fun w => (ieq w serviceName || ieq w otherName) && (ieq w otherName == o))
      then some (lineMeaning ((mkargv l).drop 1)) else none) := by
  unfold directives
  apply filterMap_congr'
  intro l hl
  obtain ⟨h1, h2⟩ := nextTok_words (some l)
  have hne := hls l hl
  have hp : parseLine (nextTok (some l)).2 = lineMeaning ((mkargv l).drop 1) := by
    rw [parseLine_words, h2, directiveOf_eq]; rfl
  have h1 : (nextTok (some l)).1 = (mkargv l).head? := h1
  rw [h1] at hne
  simp only [lineService, hp, h1]
  cases hh : (mkargv l).head? with
  | none => exact absurd hh hne
  | some w => simp

theorem initHandlers_pamconf (sys : Sys) (svc : List Char) (T : Tables) (hdir : ¬ (sys.confdir.isSome ∨ sys.haveDir))
    (h : initHandlers sys svc = some T) : ∃ bytes, sys.fs pamConf = some bytes ∧ ∀ fn,
    T.conf.get fn = keep fn ((pamConfStack sys (fun w => ieq w svc && !ieq w otherName) fn.mtype bytes).flatten 0) ∧
    T.other.get fn = keep fn ((pamConfStack sys (fun w => ieq w otherName) fn.mtype bytes).flatten 0) := by
  unfold initHandlers at h
  rw [if_neg hdir] at h
  split at h
  · cases h
  · next b hb =>
    refine ⟨b, hb, ?_⟩
    intro fn
    simp only at h
    split at h
    · next hok =>
      injection h with h; subst h
      have e1 := parseTop_spec sys svc none b {} hok false fn
      have e2 := parseTop_spec sys svc none b {} hok true fn
      rw [empty_get] at e1 e2
      have hdn := fun o => directives_none svc o (fileLines ' ' b).1 (fun l hl => logical_line_has_token b l hl)
      refine ⟨?_, ?_⟩
      · refine e1.trans ?_
        simp only [List.nil_append, topTree, pamConfStack, hdn, keep]
        have : ∀ w, ((ieq w svc || ieq w otherName) && (ieq w otherName == false)) = (ieq w svc && !ieq w otherName) := by
          intro w; cases ieq w svc <;> cases ieq w otherName <;> rfl
        simp only [this]
      · refine e2.trans ?_
        simp only [List.nil_append, topTree, pamConfStack, hdn, keep]
        have : ∀ w, ((ieq w svc || ieq w otherName) && (ieq w otherName == true)) = ieq w otherName := by
          intro w; cases ieq w svc <;> cases ieq w otherName <;> rfl
        simp only [this]
    · cases h

end Pam.Config
