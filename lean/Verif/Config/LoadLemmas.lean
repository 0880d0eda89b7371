import Verif.Config.LoadSpec
import Verif.Config.LineLemmas
import Verif.Config.WordLemmas
import Verif.Dispatch.Levels
/-
The loader builds, for every list, the flat form of the tree the configuration describes.
-/
namespace Pam.Config
open Spec

theorem flatten_append (a b : Tree) (L : Nat) : (a.append b).flatten L = a.flatten L ++ b.flatten L := by
  induction a generalizing L with
  | nil => rfl
  | line h a p v r ih => simp [Tree.append, Tree.flatten, ih]
  | sub n bd r _ ih => simp [Tree.append, Tree.flatten, ih]

theorem append_assoc' (a b c : Tree) : (a.append b).append c = a.append (b.append c) := by
  induction a with
  | nil => rfl
  | line h a p v r ih => simp [Tree.append, ih]
  | sub n bd r _ ih => simp [Tree.append, ih]

theorem append_nil' (a : Tree) : a.append .nil = a := by
  induction a with
  | nil => rfl
  | line h a p v r ih => simp [Tree.append, ih]
  | sub n bd r _ ih => simp [Tree.append, ih]

/-- contribution to list `fn` of side `o` of a segment `s` of type `ty` for side `other` -/
def delta (other : Bool) (ty : MType) (o : Bool) (fn : Fn) (s : List Entry) : List Entry :=
  if o = other ∧ fn.mtype = ty then (if fn.first then s else s.filter named) else []

theorem delta_append (other : Bool) (ty : MType) (o : Bool) (fn : Fn) (a b : List Entry) :
    delta other ty o fn (a ++ b) = delta other ty o fn a ++ delta other ty o fn b := by
  unfold delta
  split
  · split
    · rfl
    · simp
  · rfl

theorem delta_nil (other : Bool) (ty : MType) (o : Bool) (fn : Fn) : delta other ty o fn [] = [] := by
  unfold delta; split <;> (try split) <;> rfl

theorem named_eq (e : Entry) : named e = nameOk e.path := by
  unfold named nameOk
  cases e.path with
  | none => decide +kernel
  | some p => rfl

theorem get_addFirst (l : Lists) (ty : MType) (e : Entry) (fn : Fn) :
    (l.addFirst ty e).get fn = l.get fn ++ (if fn.mtype = ty ∧ fn.first = true then [e] else []) := by
  cases ty <;> cases fn <;> simp [Lists.addFirst, Lists.get, Fn.mtype, Fn.first]

theorem get_addSecond (l : Lists) (ty : MType) (e : Entry) (fn : Fn) :
    (l.addSecond ty e).get fn = l.get fn ++ (if fn.mtype = ty ∧ fn.first = false then [e] else []) := by
  cases ty <;> cases fn <;> simp [Lists.addSecond, Lists.get, Fn.mtype, Fn.first]

theorem side_update (t : Tables) (other o : Bool) (f : Lists → Lists) :
    (t.update other f).side o = if o = other then f (t.side o) else t.side o := by
  cases other <;> cases o <;> simp [Tables.update, Tables.side]

theorem addHandler_spec (t : Tables) (other : Bool) (ty : MType) (e : Entry) :
    (addHandler t other ty e).2 = nameOk e.path ∧
    ∀ o fn, ((addHandler t other ty e).1.side o).get fn = (t.side o).get fn ++ delta other ty o fn [e] := by
  unfold addHandler
  simp only
  rw [named_eq]
  cases hn : nameOk e.path with
  | true =>
    refine ⟨rfl, ?_⟩
    intro o fn
    simp only [if_true, side_update]
    by_cases ho : o = other
    · subst ho
      simp only [if_true, get_addSecond, get_addFirst, delta, true_and]
      by_cases ht : fn.mtype = ty
      · cases hf : fn.first <;> simp [ht, named_eq, hn]
      · simp [ht]
    · simp [ho, delta]
  | false =>
    refine ⟨rfl, ?_⟩
    intro o fn
    simp only [Bool.false_eq_true, if_false, side_update]
    by_cases ho : o = other
    · subst ho
      simp only [if_true, get_addFirst, delta, true_and]
      by_cases ht : fn.mtype = ty
      · cases hf : fn.first <;> simp [ht, named_eq, hn]
      · simp [ht]
    · simp [ho, delta]

/-- a loader that delivers the trees `c` -/
def Delivers (serviceName : List Char) (load : Loader) (c : MType → Option (List Char) → Tree × Bool) : Prop :=
  ∀ name service ty L t, ieq service serviceName = true ∨ ieq service otherName = true →
    (load name service ty L t).2 = (c ty name).2 ∧
    ∀ o fn, ((load name service ty L t).1.side o).get fn =
      (t.side o).get fn ++ delta (ieq service otherName) ty o fn ((c ty name).1.flatten L)

theorem setDefault_undef : setDefault undefActions ACT_BAD = allBad := undef_bad

theorem expand_cons (load : Option (List Char) → Tree × Bool) (dflt ty : MType) (d : Directive) (ds : List Directive) :
    expand load dflt ty (d :: ds) =
      if (expand load dflt ty [d]).2 then
        ((expand load dflt ty [d]).1.append (expand load dflt ty ds).1, (expand load dflt ty ds).2)
      else expand load dflt ty [d] := by
  simp only [expand]
  split
  · simp [Tree.append]
  · cases hw : d.what with
    | module a p v =>
      simp only
      cases nameOk p <;> simp [Tree.append]
    | incl sub name =>
      cases sub with
      | false =>
        simp only
        cases hl : (load name).2 <;> simp [append_assoc', Tree.append, failing]
      | true =>
        simp only
        cases nameOk name
        · simp
        · cases hl : (load name).2 <;> simp [Tree.append, failing]

theorem applyLine_spec (serviceName : List Char) (load : Loader) (c : MType → Option (List Char) → Tree × Bool)
    (hload : Delivers serviceName load c) (service : List Char)
    (hsvc : ieq service serviceName = true ∨ ieq service otherName = true)
    (req : Option MType) (L : Nat) (d : Directive) (t : Tables) (ty : MType)
    (hty : d.mtype.getD (req.getD .auth) = ty) (hreq : req = none ∨ req = some ty) :
    (applyLine load service (ieq service otherName) req L d t).2 = (expand (c ty) (req.getD .auth) ty [d]).2 ∧
    ∀ o fn, ((applyLine load service (ieq service otherName) req L d t).1.side o).get fn =
      (t.side o).get fn ++ delta (ieq service otherName) ty o fn
        ((expand (c ty) (req.getD .auth) ty [d]).1.flatten L) := by
  unfold applyLine
  simp only [hty]
  rw [if_neg (by rcases hreq with h | h <;> simp [h])]
  simp only [expand, hty, ne_eq, not_true_eq_false, if_false]
  cases hw : d.what with
  | module a p v =>
    simp only
    obtain ⟨h1, h2⟩ := addHandler_spec t (ieq service otherName) ty ⟨d.htype, L, a, p, v⟩
    refine ⟨?_, ?_⟩
    · rw [h1]; cases nameOk p <;> rfl
    · intro o fn
      rw [h2]
      cases nameOk p <;> rfl
  | incl sub name =>
    cases sub with
    | false =>
      simp only [Bool.false_eq_true, if_false, Nat.add_zero, if_true]
      obtain ⟨h1, h2⟩ := hload name service ty L t hsvc
      rw [h1]
      cases hl : (c ty name).2 with
      | true => simp [h1, hl, append_nil', h2]
      | false =>
        obtain ⟨g1, g2⟩ := addHandler_spec (load name service ty L t).1 (ieq service otherName) ty
          ⟨.mustFail, L, setDefault undefActions ACT_BAD, none, []⟩
        simp only [Bool.false_eq_true, if_false]
        refine ⟨g1, ?_⟩
        intro o fn
        rw [g2, h2, flatten_append, delta_append, List.append_assoc, setDefault_undef]
        rfl
    | true =>
      simp only [if_true]
      obtain ⟨s1, s2⟩ := addHandler_spec t (ieq service otherName) ty ⟨.substack, L, undefActions, name, []⟩
      simp only at s1
      rw [s1]
      cases hn : nameOk name with
      | false =>
        simp only [Bool.false_eq_true, if_false]
        exact ⟨by rw [s1, hn], fun o fn => by rw [s2]; rfl⟩
      | true =>
        simp only [if_true]
        obtain ⟨h1, h2⟩ := hload name service ty (L + 1)
          (addHandler t (ieq service otherName) ty ⟨.substack, L, undefActions, name, []⟩).1 hsvc
        rw [h1]
        have hsplit : ∀ b r : Tree, (Tree.sub name b r).flatten L =
            [(⟨.substack, L, undefActions, name, []⟩ : Entry)] ++ b.flatten (L + 1) ++ r.flatten L := by
          intro b r; simp [Tree.flatten]; rfl
        cases hl : (c ty name).2 with
        | true =>
          simp only [if_true]
          refine ⟨by rw [h1, hl], ?_⟩
          intro o fn
          rw [h2, s2, hsplit, delta_append, delta_append]
          simp [Tree.flatten, delta_nil]
        | false =>
          obtain ⟨g1, g2⟩ := addHandler_spec (load name service ty (L + 1)
            (addHandler t (ieq service otherName) ty ⟨.substack, L, undefActions, name, []⟩).1).1
            (ieq service otherName) ty ⟨.mustFail, L, setDefault undefActions ACT_BAD, none, []⟩
          simp only [Bool.false_eq_true, if_false]
          refine ⟨g1, ?_⟩
          intro o fn
          rw [g2, h2, s2, hsplit, delta_append, delta_append, setDefault_undef]
          simp [Tree.flatten, failing]

theorem applyLine_skip (load : Loader) (service : List Char) (other : Bool) (ty : MType) (L : Nat) (d : Directive)
    (t : Tables) (h : d.mtype.getD ty ≠ ty) : applyLine load service other (some ty) L d t = (t, true) := by
  unfold applyLine
  simp only [Option.getD_some]
  rw [if_pos ⟨by simp, fun hh => h (by injection hh with hh; exact hh.symm)⟩]

theorem expand_skip (load : Option (List Char) → Tree × Bool) (dflt ty : MType) (d : Directive) (ds : List Directive)
    (h : d.mtype.getD dflt ≠ ty) : expand load dflt ty (d :: ds) = expand load dflt ty ds := by
  simp only [expand, ne_eq, h, not_false_eq_true, if_true]

/-- nested loads: known service, one type -/
theorem parseLines_typed (serviceName : List Char) (load : Loader) (c : MType → Option (List Char) → Tree × Bool)
    (hload : Delivers serviceName load c) (service : List Char)
    (hsvc : ieq service serviceName = true ∨ ieq service otherName = true) (ty : MType) (L : Nat)
    (ls : List (List Char)) (t : Tables) :
    (parseLines load serviceName (some service) (some ty) L ls t).2
        = (expand (c ty) ty ty (ls.map (fun l => parseLine (some l)))).2 ∧
    ∀ o fn, ((parseLines load serviceName (some service) (some ty) L ls t).1.side o).get fn =
      (t.side o).get fn ++ delta (ieq service otherName) ty o fn
        ((expand (c ty) ty ty (ls.map (fun l => parseLine (some l)))).1.flatten L) := by
  induction ls generalizing t with
  | nil => simp [parseLines, expand, Tree.flatten, delta_nil]
  | cons l ls ih =>
    have hls : lineService (some service) l = (service, some l) := rfl
    simp only [parseLines, List.map_cons, hls]
    rw [if_pos (by simpa using hsvc)]
    by_cases hd : (parseLine (some l)).mtype.getD ty = ty
    · obtain ⟨h1, h2⟩ := applyLine_spec serviceName load c hload service hsvc (some ty) L (parseLine (some l)) t ty
        (by simpa using hd) (Or.inr rfl)
      simp only [Option.getD_some] at h1 h2
      rw [expand_cons]
      cases he : (expand (c ty) ty ty [parseLine (some l)]).2 with
      | true =>
        rw [he] at h1
        simp only [h1, if_true]
        obtain ⟨i1, i2⟩ := ih (applyLine load service (ieq service otherName) (some ty) L (parseLine (some l)) t).1
        refine ⟨i1, ?_⟩
        intro o fn
        rw [i2, h2, flatten_append, delta_append, List.append_assoc]
      | false =>
        rw [he] at h1
        simp only [h1, Bool.false_eq_true, if_false]
        exact ⟨he.symm, h2⟩
    · rw [applyLine_skip _ _ _ _ _ _ _ hd, expand_skip _ _ _ _ _ hd]
      simp only [if_true]
      exact ih t

theorem loadConf_delivers (sys : Sys) (serviceName : List Char) (n : Nat) :
    Delivers serviceName (loadConf sys serviceName n) (fun ty => contents sys ty n) := by
  induction n with
  | zero =>
    intro name service ty L t _
    simp [loadConf, contents, Tree.flatten, delta_nil]
  | succ n ih =>
    intro name service ty L t hsvc
    cases name with
    | none => simp [loadConf, contents, Tree.flatten, delta_nil]
    | some nm =>
      simp only [loadConf, contents]
      cases ho : openConfig sys nm with
      | none => simp [Tree.flatten, delta_nil]
      | some bytes =>
        simp only [parseConf, lineMeaning_eq]
        obtain ⟨h1, h2⟩ := parseLines_typed serviceName _ _ ih service hsvc ty L (fileLines ' ' bytes).1 t
        exact ⟨by rw [h1], h2⟩

/-- the directives for one side of the tables at the top level -/
def directives (serviceName : List Char) (known : Option (List Char)) (o : Bool) (ls : List (List Char)) :
    List Directive :=
  ls.filterMap (fun l =>
    let p := lineService known l
    if (ieq p.1 serviceName ∨ ieq p.1 otherName = true) ∧ ieq p.1 otherName = o then some (parseLine p.2) else none)

/-- top level: all types; the lists are as described if nothing aborts -/
theorem parseLines_top (serviceName : List Char) (load : Loader) (c : MType → Option (List Char) → Tree × Bool)
    (hload : Delivers serviceName load c) (known : Option (List Char)) (L : Nat)
    (ls : List (List Char)) (t : Tables) (hok : (parseLines load serviceName known none L ls t).2 = true) (o : Bool) (fn : Fn) :
    ((parseLines load serviceName known none L ls t).1.side o).get fn =
      (t.side o).get fn ++ delta o fn.mtype o fn
        ((expand (c fn.mtype) .auth fn.mtype (directives serviceName known o ls)).1.flatten L) := by
  induction ls generalizing t with
  | nil => simp [parseLines, directives, expand, Tree.flatten, delta_nil]
  | cons l ls ih =>
    have hdir : directives serviceName known o (l :: ls) =
        (if (ieq (lineService known l).1 serviceName = true ∨ ieq (lineService known l).1 otherName = true) ∧
            ieq (lineService known l).1 otherName = o then
          parseLine (lineService known l).2 :: directives serviceName known o ls else directives serviceName known o ls) := by
      unfold directives
      simp only [List.filterMap_cons]
      by_cases hc : (ieq (lineService known l).1 serviceName = true ∨ ieq (lineService known l).1 otherName = true) ∧
            ieq (lineService known l).1 otherName = o
      · rw [if_pos hc, if_pos hc]
      · rw [if_neg hc, if_neg hc]
    rw [hdir]
    simp only [parseLines] at hok ⊢
    generalize lineService known l = p at hok ⊢
    obtain ⟨service, n⟩ := p
    simp only at hok ⊢
    by_cases hacc : ieq service serviceName = true ∨ ieq service otherName = true
    · simp only [hacc, if_true, true_and] at hok ⊢
      obtain ⟨h1, h2⟩ := applyLine_spec serviceName load c hload service hacc none L (parseLine n) t _ rfl (Or.inl rfl)
      simp only [Option.getD_none] at h1 h2
      generalize hr : applyLine load service (ieq service otherName) none L (parseLine n) t = r at hok h1 h2 ⊢
      cases hr2 : r.2 with
      | false => rw [hr2] at hok; simp at hok
      | true =>
        simp only [hr2, if_true] at hok ⊢
        rw [ih r.1 hok, h2]
        by_cases ho : ieq service otherName = o
        · simp only [ho, if_true]
          by_cases hty : (parseLine n).mtype.getD .auth = fn.mtype
          · rw [expand_cons _ _ _ _ (directives serviceName known o ls)]
            rw [hty, hr2] at h1
            rw [hty]
            simp only [← h1, if_true, flatten_append, delta_append, List.append_assoc]
          · rw [expand_skip _ _ _ _ _ hty]
            have : delta o ((parseLine n).mtype.getD .auth) o fn
                ((expand (c ((parseLine n).mtype.getD .auth)) .auth ((parseLine n).mtype.getD .auth) [parseLine n]).1.flatten L) = [] := by
              unfold delta; rw [if_neg (fun h => hty h.2.symm)]
            rw [this, List.append_nil]
        · simp only [ho, if_false]
          have : ∀ s, delta (ieq service otherName) ((parseLine n).mtype.getD .auth) o fn s = [] := by
            intro s; unfold delta; rw [if_neg (fun h => ho h.1.symm)]
          rw [this, List.append_nil]
    · simp only [hacc, if_false, false_and] at hok ⊢
      exact ih t hok

/-! ### Consequences for the levels -/

/-- number of nested levels that have an entry -/
def levels : Tree → Nat
  | .nil => 0
  | .line _ _ _ _ r => max 1 (levels r)
  | .sub _ b r => max (levels b + 1) (levels r)

theorem levels_append (a b : Tree) : levels (a.append b) = max (levels a) (levels b) := by
  induction a with
  | nil => simp [Tree.append, levels]
  | line h a p v r ih => simp [Tree.append, levels, ih]
  | sub n bd r _ ih => simp [Tree.append, levels, ih]

theorem expand_levels (load : Option (List Char) → Tree × Bool) (k : Nat) (hl : ∀ n, levels (load n).1 ≤ k)
    (dflt ty : MType) (ds : List Directive) : levels (expand load dflt ty ds).1 ≤ k + 1 := by
  induction ds with
  | nil => simp [expand, levels]
  | cons d ds ih =>
    simp only [expand]
    split
    · exact ih
    · cases d.what with
      | module a p v =>
        simp only
        split
        · simp only [levels]; omega
        · simp [levels]
      | incl sub name =>
        have := hl name
        cases sub with
        | false =>
          simp only [levels_append]
          split
          · omega
          · simp only [failing, levels]; omega
        | true =>
          simp only
          split
          · simp only [levels]
            split
            · omega
            · simp only [failing, levels]; omega
          · simp [levels]

theorem contents_levels (sys : Sys) (ty : MType) (n : Nat) (name : Option (List Char)) :
    levels (contents sys ty n name).1 ≤ n := by
  induction n generalizing name with
  | zero => simp [contents, levels]
  | succ n ih =>
    cases name with
    | none => simp [contents, levels]
    | some nm =>
      simp only [contents]
      split
      · simp [levels]
      · exact expand_levels _ n ih _ _ _

/-! ### Unnameable entries -/

/-- substacks that cannot be named have no content -/
def Clean : Tree → Prop
  | .nil => True
  | .line _ _ _ _ r => Clean r
  | .sub n b r => (nameOk n = false → b = .nil) ∧ Clean b ∧ Clean r

/-- the tree without the entries that cannot be named -/
def prune : Tree → Tree
  | .nil => .nil
  | .line h a p v r => if nameOk p then .line h a p v (prune r) else prune r
  | .sub n b r => if nameOk n then .sub n (prune b) (prune r) else prune r

theorem clean_append {a b : Tree} (ha : Clean a) (hb : Clean b) : Clean (a.append b) := by
  induction a with
  | nil => exact hb
  | line h a p v r ih => exact ih ha
  | sub n bd r _ ih => exact ⟨ha.1, ha.2.1, ih ha.2.2⟩

theorem expand_clean (load : Option (List Char) → Tree × Bool) (hl : ∀ n, Clean (load n).1)
    (dflt ty : MType) (ds : List Directive) : Clean (expand load dflt ty ds).1 := by
  induction ds with
  | nil => trivial
  | cons d ds ih =>
    simp only [expand]
    split
    · exact ih
    · cases d.what with
      | module a p v =>
        simp only
        split
        · exact ih
        · trivial
      | incl sub name =>
        have := hl name
        cases sub with
        | false =>
          refine clean_append this ?_
          split
          · exact ih
          · exact ih
        | true =>
          simp only
          split
          · next hn =>
            refine ⟨fun h => by simp [h] at hn, this, ?_⟩
            split
            · exact ih
            · exact ih
          · exact ⟨fun _ => rfl, trivial, trivial⟩

theorem contents_clean (sys : Sys) (ty : MType) (n : Nat) (name : Option (List Char)) :
    Clean (contents sys ty n name).1 := by
  induction n generalizing name with
  | zero => trivial
  | succ n ih =>
    cases name with
    | none => trivial
    | some nm =>
      simp only [contents]
      split
      · trivial
      · exact expand_clean _ ih _ _ _

theorem flatten_prune (t : Tree) (h : Clean t) (L : Nat) : (t.flatten L).filter named = (prune t).flatten L := by
  induction t generalizing L with
  | nil => rfl
  | line ht a p v r ih =>
    simp only [Tree.flatten, prune, List.filter_cons, named_eq]
    split
    · simp [Tree.flatten, ← ih h]
    · exact ih h L
  | sub n b r ihb ihr =>
    obtain ⟨h1, h2, h3⟩ := h
    simp only [Tree.flatten, prune, List.filter_cons, named_eq, List.filter_append]
    cases hn : nameOk n with
    | true => simp [Tree.flatten, ihb h2, ihr h3]
    | false => simp [h1 hn, Tree.flatten, ihr h3]

theorem prune_levels (t : Tree) : levels (prune t) ≤ levels t := by
  induction t with
  | nil => simp [prune]
  | line ht a p v r ih => simp only [prune]; split <;> simp only [levels] <;> omega
  | sub n b r ihb ihr => simp only [prune]; split <;> simp only [levels] <;> omega

/-! ### As a stack of modules -/

variable {σ : Type}

/-- no line (as opposed to substack) has type substack -/
def NoSubLines : Tree → Prop
  | .nil => True
  | .line h _ _ _ r => h ≠ .substack ∧ NoSubLines r
  | .sub _ b r => NoSubLines b ∧ NoSubLines r

theorem link_flatten (dl : List Char → List (List Char) → Option (σ → Int × σ)) (t : Tree) (ht : NoSubLines t) (L : Nat) :
    (t.flatten L).map (link dl) = (toStack dl t).flatten L := by
  induction t generalizing L with
  | nil => rfl
  | line h a p v r ih =>
    obtain ⟨h1, h2⟩ := ht
    simp only [Tree.flatten, List.map_cons, toStack, Dispatch.Spec.Stack.flatten, ih h2]
    congr 1
    cases h with
    | substack => exact absurd rfl h1
    | mustFail => rfl
    | module =>
      simp only [link]
      cases p.bind (fun p => dl p v) <;> rfl
    | silentModule =>
      simp only [link]
      cases p.bind (fun p => dl p v) <;> rfl
  | sub n b r ihb ihr =>
    obtain ⟨h1, h2⟩ := ht
    simp only [Tree.flatten, List.map_cons, List.map_append, toStack, Dispatch.Spec.Stack.flatten, ihb h1, ihr h2]
    rfl

theorem toStack_levels (dl : List Char → List (List Char) → Option (σ → Int × σ)) (t : Tree) :
    (toStack dl t).levels = levels t := by
  induction t with
  | nil => rfl
  | line h a p v r ih => simp [toStack, levels, Dispatch.Spec.Stack.levels, ih]
  | sub n b r ihb ihr => simp [toStack, levels, Dispatch.Spec.Stack.levels, ihb, ihr]

theorem noSub_append {a b : Tree} (ha : NoSubLines a) (hb : NoSubLines b) : NoSubLines (a.append b) := by
  induction a with
  | nil => exact hb
  | line h a p v r ih => exact ⟨ha.1, ih ha.2⟩
  | sub n bd r _ ih => exact ⟨ha.1, ih ha.2⟩

theorem parseType_htype (tok : Option (List Char)) : (parseType tok).2 ≠ .substack := by
  unfold parseType
  split
  · simp
  · simp only
    split
    all_goals (repeat' split) <;> simp

theorem parseLine_htype (n : Option (List Char)) : (parseLine n).htype ≠ .substack := by
  unfold parseLine
  simp only
  have := parseType_htype (nextTok n).1
  split
  · simp
  · split
    · exact this
    · split
      · exact this
      · simp only
        split
        · exact this
        · simp

theorem expand_noSub (load : Option (List Char) → Tree × Bool) (hl : ∀ n, NoSubLines (load n).1)
    (dflt ty : MType) (ds : List Directive) (hds : ∀ d ∈ ds, d.htype ≠ .substack) :
    NoSubLines (expand load dflt ty ds).1 := by
  induction ds with
  | nil => trivial
  | cons d ds ih =>
    have hd := hds d (by simp)
    have ih := ih (fun d hd => hds d (by simp [hd]))
    simp only [expand]
    split
    · exact ih
    · cases d.what with
      | module a p v =>
        simp only
        split
        · exact ⟨hd, ih⟩
        · exact ⟨hd, trivial⟩
      | incl sub name =>
        have := hl name
        have hf : NoSubLines (if (load name).2 then (expand load dflt ty ds).1 else failing (expand load dflt ty ds).1) := by
          split
          · exact ih
          · exact ⟨by simp, ih⟩
        cases sub with
        | false => exact noSub_append this hf
        | true =>
          simp only
          split
          · exact ⟨this, hf⟩
          · exact ⟨trivial, trivial⟩

theorem contents_noSub (sys : Sys) (ty : MType) (n : Nat) (name : Option (List Char)) :
    NoSubLines (contents sys ty n name).1 := by
  induction n generalizing name with
  | zero => trivial
  | succ n ih =>
    cases name with
    | none => trivial
    | some nm =>
      simp only [contents]
      split
      · trivial
      · refine expand_noSub _ ih _ _ _ ?_
        intro d hd
        simp only [List.mem_map] at hd
        obtain ⟨l, _, rfl⟩ := hd
        rw [lineMeaning_eq]; exact parseLine_htype _

theorem prune_noSub (t : Tree) (h : NoSubLines t) : NoSubLines (prune t) := by
  induction t with
  | nil => trivial
  | line ht a p v r ih =>
    simp only [prune]; split
    · exact ⟨h.1, ih h.2⟩
    · exact ih h.2
  | sub n b r ihb ihr =>
    simp only [prune]; split
    · exact ⟨ihb h.1, ihr h.2⟩
    · exact ihr h.2

theorem directives_htype (serviceName : List Char) (known : Option (List Char)) (o : Bool) (ls : List (List Char)) :
    ∀ d ∈ directives serviceName known o ls, d.htype ≠ .substack := by
  intro d hd
  simp only [directives, List.mem_filterMap] at hd
  obtain ⟨l, _, h⟩ := hd
  split at h
  · injection h with h; rw [← h]; exact parseLine_htype _
  · cases h

/-! ### Levels of a flattened stack -/
open Dispatch (Handler WellLeveled)

/-- levels rise by at most one, coming from level `p` -/
def Rises : Nat → List (Handler σ) → Prop
  | _, [] => True
  | p, h :: t => h.level ≤ p + 1 ∧ Rises h.level t

theorem rises_append (L : Nat) (a b : List (Handler σ)) (p : Nat) (hp : L ≤ p + 1) (ha : Rises p a)
    (hal : ∀ h ∈ a, L ≤ h.level + 1) (hb : ∀ q, L ≤ q + 1 → Rises q b) : Rises p (a ++ b) := by
  induction a generalizing p with
  | nil => exact hb p hp
  | cons x t ih =>
    exact ⟨ha.1, ih x.level (hal x (by simp)) ha.2 (fun h hh => hal h (by simp [hh]))⟩

theorem flatten_level (t : Dispatch.Spec.Stack σ) (L : Nat) :
    ∀ h ∈ t.flatten L, L ≤ h.level ∧ h.level < L + t.levels := by
  induction t generalizing L with
  | nil => simp [Dispatch.Spec.Stack.flatten]
  | mod m r ih =>
    intro h hh
    simp only [Dispatch.Spec.Stack.flatten, List.mem_cons] at hh
    simp only [Dispatch.Spec.Stack.levels]
    rcases hh with rfl | hh
    · split <;> simp only <;> omega
    · have := ih L h hh; omega
  | sub b r ihb ihr =>
    intro h hh
    simp only [Dispatch.Spec.Stack.flatten, List.mem_cons, List.mem_append] at hh
    simp only [Dispatch.Spec.Stack.levels]
    rcases hh with rfl | hh | hh
    · simp only; omega
    · have := ihb (L + 1) h hh; omega
    · have := ihr L h hh; omega

theorem flatten_rises (t : Dispatch.Spec.Stack σ) (L p : Nat) (hp : L ≤ p + 1) : Rises p (t.flatten L) := by
  induction t generalizing L p with
  | nil => trivial
  | mod m r ih =>
    have hl : ∀ x : Handler σ, x.level = L → Rises p (x :: r.flatten L) := by
      intro x hx
      exact ⟨by omega, by rw [hx]; exact ih L L (by omega)⟩
    simp only [Dispatch.Spec.Stack.flatten]
    apply hl
    split <;> rfl
  | sub b r ihb ihr =>
    refine ⟨hp, ?_⟩
    exact rises_append L _ _ L (by omega) (ihb (L + 1) L (by omega))
      (fun h hh => by have := flatten_level b (L + 1) h hh; omega) (fun q hq => ihr L q hq)

theorem rises_get (l : List (Handler σ)) (p i : Nat) (h : Rises p l) (a b : Handler σ)
    (ha : l[i]? = some a) (hb : l[i + 1]? = some b) : b.level ≤ a.level + 1 := by
  induction l generalizing p i with
  | nil => simp at ha
  | cons x t ih =>
    cases i with
    | zero =>
      simp only [List.getElem?_cons_zero, Option.some.injEq] at ha
      cases t with
      | nil => simp at hb
      | cons y t =>
        simp at hb
        subst ha; subst hb
        exact h.2.1
    | succ i =>
      simp only [List.getElem?_cons_succ] at ha hb
      exact ih x.level i h.2 ha hb

theorem wellLeveled_flatten (t : Dispatch.Spec.Stack σ) (ht : t.levels ≤ SUBSTACK_MAX_LEVEL) :
    WellLeveled (t.flatten 0) := by
  refine ⟨?_, ?_, ?_⟩
  · intro h hh
    cases t with
    | nil => simp [Dispatch.Spec.Stack.flatten] at hh
    | mod m r =>
      simp [Dispatch.Spec.Stack.flatten] at hh
      subst hh
      split <;> rfl
    | sub b r =>
      simp [Dispatch.Spec.Stack.flatten] at hh
      subst hh; rfl
  · intro i h h' h1 h2
    exact rises_get _ 0 i (flatten_rises t 0 0 (by omega)) h h' h1 h2
  · intro h hh
    have := flatten_level t 0 h hh
    omega

end Pam.Config
