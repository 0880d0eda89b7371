import Verif.Stack.FaillockEval
/-
Stacks with classic control words: what a call returns, read off the lines of the file.
-/
namespace Pam.Stack
open Pam Pam.Config Pam.Config.Spec
open Pam.Dispatch (Flag Env dispatchAux)
open Pam.Dispatch.Spec (Verdict Stack State Module Body Result eval run)

variable {σ : Type}

/-- a module line with a classic control word -/
structure Line where
  flag : Flag
  path : Str
  args : List Str
deriving DecidableEq

/-- The lines of one type among the words of a file; `none` if a line is not a plain module line or has another kind of
control. -/
def linesOf (ty : MType) : List (List Str) → Option (List Line)
  | [] => some []
  | ws :: rest =>
    match ws with
    | t :: c :: p :: args =>
      if plain ws then
        if typeOf t = some ty then
          match flagOf c, linesOf ty rest with
          | some f, some ls => some (⟨f, p, args⟩ :: ls)
          | _, _ => none
        else linesOf ty rest
      else none
    | _ => none

/-- a positive answer -/
def Positive (r : Int) : Prop := r = PAM_SUCCESS ∨ r = PAM_NEW_AUTHTOK_REQD

instance (r : Int) : Decidable (Positive r) := by unfold Positive; infer_instance

/-- not a code of PAM: always a failure -/
def Foreign (r : Int) : Prop := r < 0 ∨ 32 ≤ r

instance (r : Int) : Decidable (Foreign r) := by unfold Foreign; infer_instance

/-- The walk over the lines, as pam.conf(5) describes the control words.  A required line counts always; a requisite line that
fails ends the walk; a sufficient line that succeeds ends it unless something failed before; an optional line only counts if it
succeeds. -/
def walk (mods : Str → List Str → σ → Int × σ) : List Line → Verdict → σ → Verdict × σ
  | [], v, w => (v, w)
  | l :: rest, v, w =>
    let a := mods l.path l.args w
    if Positive a.1 then
      if l.flag = .sufficient ∧ (v.accept a.1).isGood then (v.accept a.1, a.2) else walk mods rest (v.accept a.1) a.2
    else if Foreign a.1 then walk mods rest (v.reject (badCode a.1)) a.2
    else match l.flag with
      | .required => if a.1 = PAM_IGNORE then walk mods rest v a.2 else walk mods rest (v.reject a.1) a.2
      | .requisite => if a.1 = PAM_IGNORE then walk mods rest v a.2 else (v.reject a.1, a.2)
      | _ => walk mods rest v a.2

theorem actions_flag {c : Str} {f : Flag} (h : flagOf c = some f) : actionsOf c = onCodes (Dispatch.classicActions f) := by
  unfold actionsOf; rw [h]

/-- no module suspends the walk -/
def Smooth (mods : Str → List Str → σ → Int × σ) : List Line → σ → Prop
  | [], _ => True
  | l :: ls, w => (mods l.path l.args w).1 ≠ PAM_INCOMPLETE ∧ Smooth mods ls (mods l.path l.args w).2

theorem smooth_of {mods : Str → List Str → σ → Int × σ} (hw : ∀ p a w, (mods p a w).1 ≠ PAM_INCOMPLETE) :
    ∀ (ls : List Line) (w : σ), Smooth mods ls w
  | [], _ => trivial
  | _ :: ls, _ => ⟨hw _ _ _, smooth_of hw ls _⟩

/-- One line of the interpreter is one line of the walk, for modules that do not suspend it. -/
theorem eval_walk_on (dl : Linker σ) (mods : Str → List Str → σ → Int × σ) (ty : MType) :
    ∀ (rows : List (List Str)) (ls : List Line), linesOf ty rows = some ls →
      (∀ l ∈ ls, dl l.path l.args = some (mods l.path l.args)) → ∀ (pos : Nat) (s : State σ), Smooth mods ls s.world →
      ∃ s', eval false .none 0 (toStack dl (rowsTree ty rows)) pos s = .finished s' ∧
        (s'.verdict, s'.world) = walk mods ls s.verdict s.world := by
  intro rows
  induction rows with
  | nil =>
    intro ls hl _ pos s _
    cases hl
    exact ⟨s, rfl, rfl⟩
  | cons ws rest ih =>
    intro ls hl hdl pos s hQ
    unfold linesOf at hl
    match ws, hl with
    | t :: c :: p :: args, hl =>
      dsimp only at hl
      by_cases hp : plain (t :: c :: p :: args) = true
      · rw [if_pos hp] at hl
        by_cases ht : typeOf t = some ty
        · rw [if_pos ht] at hl
          cases hf : flagOf c with
          | none => rw [hf] at hl; cases hl
          | some f =>
            cases hr : linesOf ty rest with
            | none => rw [hf, hr] at hl; cases hl
            | some ls' =>
              rw [hf, hr] at hl
              have e := Option.some.inj hl
              subst e
              have ih := ih ls' hr (fun l hm => hdl l (List.mem_cons_of_mem _ hm))
              have hq := hQ
              unfold Smooth at hq
              simp only at hq
              rw [rowsTree_take ht, toStack_line _ _ _ _ _ (mods p args) (hdl _ List.mem_cons_self), actions_flag hf]
              rw [walk]
              dsimp only
              generalize ha : mods p args s.world = a at hq
              have hA : Answers (Body.fn (mods p args)) s a.1 a.2 := ⟨ha, hq.1⟩
              by_cases hpos : Positive a.1
              · rw [if_pos hpos]
                have hv : ¬ (a.1 < 0 ∨ 32 ≤ a.1) := by rcases hpos with h | h <;> rw [h] <;> decide
                by_cases hs : f = .sufficient
                · subst hs
                  obtain ⟨s1, e1, e2, e3⟩ := line_done hA (onCodes (Dispatch.classicActions .sufficient)) .none
                    (toStack dl (rowsTree ty rest)) pos hv
                    (by rcases hpos with h | h <;> rw [h] <;> decide)
                  rw [e3]
                  by_cases hg : (s.verdict.accept a.1).isGood = true
                  · rw [if_pos hg, if_pos ⟨rfl, hg⟩]
                    exact ⟨s1, rfl, by rw [e1, e2]⟩
                  · rw [if_neg hg, if_neg (fun h => hg h.2)]
                    rw [← e1, ← e2]
                    exact ih (pos + 1) s1 (by rw [e2]; exact hq.2)
                · obtain ⟨s1, e1, e2, e3⟩ := line_ok hA (onCodes (Dispatch.classicActions f)) .none
                    (toStack dl (rowsTree ty rest)) pos hv
                    (by cases f <;> first | exact absurd rfl hs | (rcases hpos with h | h <;> rw [h] <;> decide))
                  rw [e3, if_neg (fun h => hs h.1), ← e1, ← e2]
                  exact ih (pos + 1) s1 (by rw [e2]; exact hq.2)
              · rw [if_neg hpos]
                by_cases hfo : Foreign a.1
                · rw [if_pos hfo]
                  obtain ⟨s1, e1, e2, e3⟩ := line_bad hA (onCodes (Dispatch.classicActions f)) .none
                    (toStack dl (rowsTree ty rest)) pos (hfo.elim Or.inl (fun h => Or.inr (Or.inl h)))
                  rw [e3, ← e1, ← e2]
                  exact ih (pos + 1) s1 (by rw [e2]; exact hq.2)
                · rw [if_neg hfo]
                  have hb : badCode a.1 = a.1 := if_neg hfo
                  have hfo' := hfo
                  unfold Foreign at hfo'
                  unfold Positive at hpos
                  simp only [PAM_SUCCESS, PAM_NEW_AUTHTOK_REQD] at hpos
                  have e0 : a.1.toNat ≠ 0 := by omega
                  have e1 : a.1.toNat ≠ 12 := by omega
                  have e2 : a.1.toNat < 32 := by omega
                  have hign : a.1 = PAM_IGNORE ↔ a.1.toNat = 25 := by simp only [PAM_IGNORE]; omega
                  by_cases hi : a.1 = PAM_IGNORE
                  · have h25 := hign.mp hi
                    obtain ⟨s1, k1, k2, k3⟩ := line_ignore hA (onCodes (Dispatch.classicActions f)) .none
                      (toStack dl (rowsTree ty rest)) pos hfo
                      (by rw [h25]; cases f <;> decide)
                    rw [k3]
                    obtain ⟨s2, m1, m2⟩ := ih (pos + 1) s1 (by rw [k2]; exact hq.2)
                    refine ⟨s2, m1, ?_⟩
                    rw [m2, k1, k2]
                    cases f <;> simp only [hi, if_true]
                  · have h25 : a.1.toNat ≠ 25 := fun h => hi (hign.mpr h)
                    cases f with
                    | required =>
                      obtain ⟨s1, k1, k2, k3⟩ := line_bad hA (onCodes (Dispatch.classicActions .required)) .none
                        (toStack dl (rowsTree ty rest)) pos (Or.inr (Or.inr (by
                          simp only [onCodes, Dispatch.classicActions, e0, e1, e2, h25, if_true, if_false])))
                      rw [k3]
                      obtain ⟨s2, m1, m2⟩ := ih (pos + 1) s1 (by rw [k2]; exact hq.2)
                      refine ⟨s2, m1, ?_⟩
                      rw [m2, k1, k2, hb]
                      simp only [hi, if_false]
                    | requisite =>
                      obtain ⟨s1, k1, k2, k3⟩ := line_die hA (onCodes (Dispatch.classicActions .requisite)) .none
                        (toStack dl (rowsTree ty rest)) pos hfo (by
                          simp only [onCodes, Dispatch.classicActions, e0, e1, e2, h25, if_true, if_false])
                      rw [k3]
                      refine ⟨s1, rfl, ?_⟩
                      rw [k1, k2]
                      simp only [hi, if_false]
                    | sufficient =>
                      obtain ⟨s1, k1, k2, k3⟩ := line_ignore hA (onCodes (Dispatch.classicActions .sufficient)) .none
                        (toStack dl (rowsTree ty rest)) pos hfo (by
                          simp only [onCodes, Dispatch.classicActions, e0, e1, e2, if_true, if_false])
                      rw [k3]
                      obtain ⟨s2, m1, m2⟩ := ih (pos + 1) s1 (by rw [k2]; exact hq.2)
                      exact ⟨s2, m1, by rw [m2, k1, k2]⟩
                    | optional =>
                      obtain ⟨s1, k1, k2, k3⟩ := line_ignore hA (onCodes (Dispatch.classicActions .optional)) .none
                        (toStack dl (rowsTree ty rest)) pos hfo (by
                          simp only [onCodes, Dispatch.classicActions, e0, e1, e2, if_true, if_false])
                      rw [k3]
                      obtain ⟨s2, m1, m2⟩ := ih (pos + 1) s1 (by rw [k2]; exact hq.2)
                      exact ⟨s2, m1, by rw [m2, k1, k2]⟩
        · rw [if_neg ht] at hl
          have hskip : rowsTree ty ((t :: c :: p :: args) :: rest) = rowsTree ty rest := by
            simp only [rowsTree, ht, if_false]
          rw [hskip]
          exact ih ls hl hdl pos s hQ
      · rw [if_neg hp] at hl; cases hl

/-- The same for modules that always end. -/
theorem eval_walk (mods : Str → List Str → σ → Int × σ) (hw : ∀ p a w, (mods p a w).1 ≠ PAM_INCOMPLETE) (ty : MType)
    (rows : List (List Str)) (ls : List Line) (hl : linesOf ty rows = some ls) (pos : Nat) (s : State σ) :
      ∃ s', eval false .none 0 (toStack (fun p a => some (mods p a)) (rowsTree ty rows)) pos s = .finished s' ∧
        (s'.verdict, s'.world) = walk mods ls s.verdict s.world :=
  eval_walk_on _ mods ty rows ls hl (fun _ _ => rfl) pos s (smooth_of hw _ _)

theorem linesOf_plain (ty : MType) : ∀ (rows : List (List Str)) (ls : List Line), linesOf ty rows = some ls →
    rows.all plain = true := by
  intro rows
  induction rows with
  | nil => intro _ _; rfl
  | cons ws rest ih =>
    intro ls hl
    unfold linesOf at hl
    match ws, hl with
    | t :: c :: p :: args, hl =>
      dsimp only at hl
      by_cases hp : plain (t :: c :: p :: args) = true
      · rw [if_pos hp] at hl
        rw [List.all_cons, hp, Bool.true_and]
        by_cases ht : typeOf t = some ty
        · rw [if_pos ht] at hl
          cases hr : linesOf ty rest with
          | none => rw [hr] at hl; cases hf : flagOf c <;> rw [hf] at hl <;> cases hl
          | some ls' => exact ih ls' hr
        · rw [if_neg ht] at hl; exact ih ls hl
      · rw [if_neg hp] at hl; cases hl

theorem rowsTree_flatten_empty (ty : MType) : ∀ (rows : List (List Str)) (ls : List Line), linesOf ty rows = some ls →
    (((rowsTree ty rows).flatten 0) = [] ↔ ls = []) := by
  intro rows
  induction rows with
  | nil => intro ls h; cases h; exact ⟨fun _ => rfl, fun _ => rfl⟩
  | cons ws rest ih =>
    intro ls hl
    unfold linesOf at hl
    match ws, hl with
    | t :: c :: p :: args, hl =>
      dsimp only at hl
      by_cases hp : plain (t :: c :: p :: args) = true
      · rw [if_pos hp] at hl
        by_cases ht : typeOf t = some ty
        · rw [if_pos ht] at hl
          rw [rowsTree_take ht]
          cases hf : flagOf c with
          | none => rw [hf] at hl; cases hl
          | some f =>
            cases hr : linesOf ty rest with
            | none => rw [hf, hr] at hl; cases hl
            | some ls' =>
              rw [hf, hr] at hl
              have e := Option.some.inj hl
              subst e
              simp [Tree.flatten]
        · rw [if_neg ht] at hl
          have hskip : rowsTree ty ((t :: c :: p :: args) :: rest) = rowsTree ty rest := by
            simp only [rowsTree, ht, if_false]
          rw [hskip]; exact ih ls hl
      · rw [if_neg hp] at hl; cases hl

theorem rowsTree_noSub (ty : MType) (rows : List (List Str)) : NoSubLines (rowsTree ty rows) ∧ levels (rowsTree ty rows) ≤ 1 := by
  induction rows with
  | nil => exact ⟨trivial, by simp [rowsTree, levels]⟩
  | cons ws rest ih =>
    unfold rowsTree
    split
    · split
      · exact ⟨⟨by decide, ih.1⟩, by have := ih.2; simp only [levels]; omega⟩
      · exact ih
    · exact ih

/-- the list of a plain file, walked -/
theorem tree_walk_on (dl : Linker σ) (mods : Str → List Str → σ → Int × σ) (ty : MType)
    (rows : List (List Str)) (ls : List Line) (hl : linesOf ty rows = some ls)
    (hdl : ∀ l ∈ ls, dl l.path l.args = some (mods l.path l.args)) (e : Env σ)
    (hQ : Smooth mods ls e.world) :
    ∃ st, dispatchAux .pleaseFreeze (((rowsTree ty rows).flatten 0).map (link dl)) none e =
        .done (walk mods ls .none e.world).1.code st ∧ st.world = (walk mods ls .none e.world).2 := by
  obtain ⟨s', e1, e2⟩ := eval_walk_on dl mods ty rows ls hl hdl 0 (Dispatch.Spec.init e) hQ
  have hn := rowsTree_noSub ty rows
  rw [link_flatten _ _ hn.1 0]
  have h2 := Dispatch.C03_walk_is_structured_semantics false (toStack dl (rowsTree ty rows)) e
    (by rw [toStack_levels]; have := hn.2; simp only [SUBSTACK_MAX_LEVEL]; omega)
  have hr : run false (toStack dl (rowsTree ty rows)) e = .finished s' := e1
  rw [hr] at h2
  simp only [Bool.false_eq_true, if_false] at h2
  have f1 : s'.verdict = (walk mods ls .none e.world).1 := congrArg Prod.fst e2
  have f2 : s'.world = (walk mods ls .none e.world).2 := congrArg Prod.snd e2
  generalize dispatchAux _ _ _ _ = x at h2
  cases x with
  | done c st =>
    simp only [Dispatch.Spec.obsOutcome, Dispatch.Spec.Result.obs, Option.some.injEq, Dispatch.Spec.Obs.finished.injEq] at h2
    obtain ⟨k1, -, -, k2, -⟩ := h2
    exact ⟨st, by rw [k1, f1], by rw [k2, f2]⟩
  | incomplete p st => simp [Dispatch.Spec.obsOutcome, Dispatch.Spec.Result.obs] at h2
  | ub => simp [Dispatch.Spec.obsOutcome] at h2

theorem tree_walk (mods : Str → List Str → σ → Int × σ) (hw : ∀ p a w, (mods p a w).1 ≠ PAM_INCOMPLETE) (ty : MType)
    (rows : List (List Str)) (ls : List Line) (hl : linesOf ty rows = some ls) (w : σ) :
    ∃ st, dispatchAux .pleaseFreeze (((rowsTree ty rows).flatten 0).map (link (fun p a => some (mods p a)))) none (fresh w) =
        .done (walk mods ls .none w).1.code st ∧ st.world = (walk mods ls .none w).2 :=
  tree_walk_on _ mods ty rows ls hl (fun _ _ => rfl) (fresh w) (smooth_of hw _ _)

/-- the lines of type `ty` that a service's file has: none if there is no file -/
def fileLinesOf (sys : Sys) (svc : Str) (ty : MType) : Option (List Line) :=
  match openConfig sys svc with
  | none => some []
  | some bytes => linesOf ty ((fileLines ' ' bytes).1.map mkargv)

theorem fileLinesOf_tree {sys : Sys} {svc : Str} {ty : MType} {ls : List Line} (h : fileLinesOf sys svc ty = some ls) :
    ∃ rows, linesOf ty rows = some ls ∧ stackOf sys svc ty = rowsTree ty rows := by
  unfold fileLinesOf at h
  cases ho : openConfig sys svc with
  | none =>
    rw [ho] at h
    cases h
    exact ⟨[], rfl, by unfold stackOf; rw [ho]; rfl⟩
  | some bytes =>
    rw [ho] at h
    dsimp only at h
    exact ⟨_, h, stackOf_plain sys svc bytes ty _ ho rfl (linesOf_plain ty _ _ h)⟩

/-- A call on a new handle for a service with plain configuration files: the walk over the lines of the type in the file of the
service or, if it has none, in the file `other`. -/
theorem pass_walk (sys : Sys) (svc : Str) (T : Tables) (fn : Fn) (mods : Str → List Str → σ → Int × σ)
    (hw : ∀ p a w, (mods p a w).1 ≠ PAM_INCOMPLETE) (w : σ)
    (hdir : sys.confdir.isSome ∨ sys.haveDir) (hsvc : ieq svc otherName = false) (h : initHandlers sys svc = some T)
    (hf : fn.first = true) (own oth : List Line) (ho : fileLinesOf sys svc fn.mtype = some own)
    (hoth : own = [] → fileLinesOf sys otherName fn.mtype = some oth) :
    pass sys svc fn (fun p a => some (mods p a)) w =
      some ((walk mods (if own = [] then oth else own) .none w).1.code, (walk mods (if own = [] then oth else own) .none w).2) := by
  obtain ⟨h1, h2⟩ := (C43_loaded_stacks sys svc T hdir hsvc h fn).1 hf
  obtain ⟨rows, r1, r2⟩ := fileLinesOf_tree ho
  unfold pass
  rw [h]
  dsimp only
  rw [h1, h2, r2]
  have he := rowsTree_flatten_empty fn.mtype rows own r1
  by_cases hown : own = []
  · rw [if_pos hown, he.mpr hown]
    obtain ⟨rows', q1, q2⟩ := fileLinesOf_tree (hoth hown)
    rw [q2]
    obtain ⟨st, k1, k2⟩ := tree_walk mods hw fn.mtype rows' oth q1 w
    simp only [List.isEmpty_nil, if_true]
    rw [k1]
    dsimp only
    rw [k2]
  · rw [if_neg hown]
    obtain ⟨st, k1, k2⟩ := tree_walk mods hw fn.mtype rows own r1 w
    have : ((rowsTree fn.mtype rows).flatten 0).isEmpty = false := by
      cases hq : (rowsTree fn.mtype rows).flatten 0 with
      | nil => exact absurd (he.mp hq) hown
      | cons a b => rfl
    rw [this]
    simp only [Bool.false_eq_true, if_false]
    rw [k1]
    dsimp only
    rw [k2]

/-- A call for a service whose configuration describes no line of the type: the walk over the lines of the file `other`. -/
theorem pass_other (sys : Sys) (svc : Str) (T : Tables) (fn : Fn) (mods : Str → List Str → σ → Int × σ)
    (hw : ∀ p a w, (mods p a w).1 ≠ PAM_INCOMPLETE) (w : σ)
    (hdir : sys.confdir.isSome ∨ sys.haveDir) (hsvc : ieq svc otherName = false) (h : initHandlers sys svc = some T)
    (hf : fn.first = true) (hown : (stackOf sys svc fn.mtype).flatten 0 = []) (oth : List Line)
    (hoth : fileLinesOf sys otherName fn.mtype = some oth) :
    pass sys svc fn (fun p a => some (mods p a)) w = some ((walk mods oth .none w).1.code, (walk mods oth .none w).2) := by
  obtain ⟨h1, h2⟩ := (C43_loaded_stacks sys svc T hdir hsvc h fn).1 hf
  obtain ⟨rows', q1, q2⟩ := fileLinesOf_tree hoth
  unfold pass
  rw [h]
  dsimp only
  rw [h1, h2, hown, q2]
  obtain ⟨st, k1, k2⟩ := tree_walk mods hw fn.mtype rows' oth q1 w
  simp only [List.isEmpty_nil, if_true]
  rw [k1]
  dsimp only
  rw [k2]

/-- the words of the lines of /etc/pam.conf for a service, without its name -/
def confRows (isService : Str → Bool) (bytes : Str) : List (List Str) :=
  (fileLines ' ' bytes).1.filterMap (fun l => if (mkargv l).head?.any isService then some ((mkargv l).drop 1) else none)

/-- the lines of type `ty` in /etc/pam.conf for a service -/
def confLinesOf (isService : Str → Bool) (bytes : Str) (ty : MType) : Option (List Line) := linesOf ty (confRows isService bytes)

theorem pamConfStack_plain (sys : Sys) (isService : Str → Bool) (bytes : Str) (ty : MType) (ls : List Line)
    (h : confLinesOf isService bytes ty = some ls) : pamConfStack sys isService ty bytes = rowsTree ty (confRows isService bytes) := by
  have hp := linesOf_plain ty _ _ h
  unfold pamConfStack
  have : (fileLines ' ' bytes).1.filterMap (fun l =>
      if (mkargv l).head?.any isService then some (lineMeaning ((mkargv l).drop 1)) else none) =
      (confRows isService bytes).map lineMeaning := by
    unfold confRows
    rw [List.map_filterMap]
    congr 1
    funext l
    split <;> rfl
  rw [this, expand_plain _ _ _ hp]

/-- The same with the single file /etc/pam.conf. -/
theorem pass_conf (sys : Sys) (svc bytes : Str) (T : Tables) (fn : Fn) (mods : Str → List Str → σ → Int × σ)
    (hw : ∀ p a w, (mods p a w).1 ≠ PAM_INCOMPLETE) (w : σ)
    (hdir : ¬ (sys.confdir.isSome ∨ sys.haveDir)) (hb : sys.fs pamConf = some bytes) (h : initHandlers sys svc = some T)
    (hf : fn.first = true) (own oth : List Line)
    (ho : confLinesOf (fun w => ieq w svc && !ieq w otherName) bytes fn.mtype = some own)
    (hoth : own = [] → confLinesOf (fun w => ieq w otherName) bytes fn.mtype = some oth) :
    pass sys svc fn (fun p a => some (mods p a)) w =
      some ((walk mods (if own = [] then oth else own) .none w).1.code, (walk mods (if own = [] then oth else own) .none w).2) := by
  obtain ⟨bytes', hb', hall⟩ := C43_loaded_stacks_pam_conf sys svc T hdir h
  rw [hb] at hb'
  have := Option.some.inj hb'
  subst this
  obtain ⟨h1, h2⟩ := hall fn hf
  rw [pamConfStack_plain sys _ bytes fn.mtype own ho] at h1
  unfold pass
  rw [h]
  dsimp only
  rw [h1, h2]
  have he := rowsTree_flatten_empty fn.mtype _ own ho
  by_cases hown : own = []
  · rw [if_pos hown, he.mpr hown]
    rw [pamConfStack_plain sys _ bytes fn.mtype oth (hoth hown)]
    obtain ⟨st, k1, k2⟩ := tree_walk mods hw fn.mtype _ oth (hoth hown) w
    simp only [List.isEmpty_nil, if_true]
    rw [k1]
    dsimp only
    rw [k2]
  · rw [if_neg hown]
    obtain ⟨st, k1, k2⟩ := tree_walk mods hw fn.mtype _ own ho w
    have : ((rowsTree fn.mtype (confRows (fun w => ieq w svc && !ieq w otherName) bytes)).flatten 0).isEmpty = false := by
      cases hq : (rowsTree fn.mtype (confRows (fun w => ieq w svc && !ieq w otherName) bytes)).flatten 0 with
      | nil => exact absurd (he.mp hq) hown
      | cons a b => rfl
    rw [this]
    simp only [Bool.false_eq_true, if_false]
    rw [k1]
    dsimp only
    rw [k2]

/-! ### Single lines -/

/-- one required line, and others -/
theorem walk_required_cons (mods : Str → List Str → σ → Int × σ) (p : Str) (args : List Str) (rest : List Line)
    (v : Verdict) (w : σ) :
    walk mods (⟨.required, p, args⟩ :: rest) v w = walk mods rest (rstep v (mods p args w).1) (mods p args w).2 := by
  rw [walk]
  simp only [reduceCtorEq, false_and, if_false]
  unfold rstep
  generalize mods p args w = a
  by_cases h1 : Positive a.1
  · rw [if_pos h1]; unfold Positive at h1; rw [if_pos h1]
  · rw [if_neg h1]; unfold Positive at h1; rw [if_neg h1]
    by_cases h2 : Foreign a.1
    · rw [if_pos h2]
      have : a.1 ≠ PAM_IGNORE := by
        intro h; rw [h] at h2; exact absurd h2 (by decide)
      rw [if_neg this]
    · rw [if_neg h2]
      have : badCode a.1 = a.1 := if_neg h2
      rw [this]
      by_cases h3 : a.1 = PAM_IGNORE
      · simp only [if_pos h3]
      · simp only [if_neg h3]

/-- the end of a walk: one required line -/
theorem walk_required (mods : Str → List Str → σ → Int × σ) (p : Str) (args : List Str) (v : Verdict) (w : σ) :
    walk mods [⟨.required, p, args⟩] v w = (rstep v (mods p args w).1, (mods p args w).2) := walk_required_cons mods p args [] v w

/-- a sufficient line at the beginning -/
theorem walk_sufficient_cons (mods : Str → List Str → σ → Int × σ) (p : Str) (args : List Str) (rest : List Line) (w : σ)
    (hr : ¬ Foreign (mods p args w).1) :
    walk mods (⟨.sufficient, p, args⟩ :: rest) .none w =
      if Positive (mods p args w).1 then (.good (mods p args w).1, (mods p args w).2)
      else walk mods rest .none (mods p args w).2 := by
  rw [walk]
  generalize mods p args w = a at *
  by_cases h1 : Positive a.1
  · simp only [if_pos h1]; rfl
  · simp only [if_neg h1, if_neg hr]

theorem rstep_none_code (r : Int) : (rstep .none r).code = PAM_SUCCESS ↔ r = PAM_SUCCESS := by
  unfold rstep
  by_cases h1 : r = PAM_SUCCESS ∨ r = PAM_NEW_AUTHTOK_REQD
  · rw [if_pos h1]; rfl
  · rw [if_neg h1]
    have hr : r ≠ PAM_SUCCESS := fun h => h1 (Or.inl h)
    by_cases h2 : r = PAM_IGNORE
    · rw [if_pos h2]; exact ⟨fun h => absurd h (by decide), fun h => absurd h hr⟩
    · rw [if_neg h2]; exact ⟨fun h => absurd h (Bad.code (bad_reject _ _)), fun h => absurd h hr⟩

end Pam.Stack
