import Verif.Config.Props
/-
Property theorems about loading a service (C06, C15, C16, C43).  Vocabulary: LoadSpec.lean.
-/
namespace Pam.Config
open Spec
open Pam.Dispatch (Walk Handler WellLeveled Env Outcome St Failing deciding dispatchAux HType)

set_option linter.unusedSimpArgs false

variable {σ : Type}

/-- module lookup: path and arguments give the function, if there is one -/
abbrev Linker (σ : Type) := List Char → List (List Char) → Option (σ → Int × σ)

/-! ## C43 -/

/-- C43 (configuration directories): what is loaded for a service is exactly what its file and the
file `other` describe, type by type: the lines of that type in order, with includes in place and
substacks nested.  The lists of the second functions (setcred, close session) are the same without
entries whose path names no module. -/
theorem C43_loaded_stacks (sys : Sys) (svc : List Char) (T : Tables)
    (hdir : sys.confdir.isSome ∨ sys.haveDir) (hsvc : ieq svc otherName = false)
    (h : initHandlers sys svc = some T) (fn : Fn) :
    (fn.first = true →
      T.conf.get fn = (stackOf sys svc fn.mtype).flatten 0 ∧
      T.other.get fn = (stackOf sys otherName fn.mtype).flatten 0) ∧
    (fn.first = false →
      T.conf.get fn = ((stackOf sys svc fn.mtype).flatten 0).filter (fun e => nameOk e.path) ∧
      T.other.get fn = ((stackOf sys otherName fn.mtype).flatten 0).filter (fun e => nameOk e.path)) := by
  obtain ⟨h1, h2⟩ := initHandlers_dir sys svc T hdir hsvc h fn
  have hn : named = fun e => nameOk e.path := funext named_eq
  rw [h1, h2]
  refine ⟨fun hf => ?_, fun hf => ?_⟩
  · simp [keep, hf]
  · simp [keep, hf, hn]

/-- C43 (single file /etc/pam.conf): the lines whose first word is the service, resp. `other`. -/
theorem C43_loaded_stacks_pam_conf (sys : Sys) (svc : List Char) (T : Tables)
    (hdir : ¬ (sys.confdir.isSome ∨ sys.haveDir)) (h : initHandlers sys svc = some T) :
    ∃ bytes, sys.fs pamConf = some bytes ∧ ∀ fn, fn.first = true →
      T.conf.get fn = (pamConfStack sys (fun w => ieq w svc && !ieq w otherName) fn.mtype bytes).flatten 0 ∧
      T.other.get fn = (pamConfStack sys (fun w => ieq w otherName) fn.mtype bytes).flatten 0 := by
  obtain ⟨b, hb, hfn⟩ := initHandlers_pamconf sys svc T hdir h
  refine ⟨b, hb, fun fn hf => ?_⟩
  obtain ⟨h1, h2⟩ := hfn fn
  rw [h1, h2]
  simp [keep, hf]

/-- C43 with C03: a call for a service is the structured interpretation of what its configuration
describes, whatever the modules do. -/
theorem C43_call_is_structured_semantics (sys : Sys) (svc : List Char) (T : Tables)
    (hdir : sys.confdir.isSome ∨ sys.haveDir) (hsvc : ieq svc otherName = false)
    (h : initHandlers sys svc = some T) (fn : Fn) (hf : fn.first = true) (dl : Linker σ) (replay : Bool) (e : Env σ) :
    Dispatch.Spec.obsOutcome (dispatchAux (if replay then .mayBeFrozen else .pleaseFreeze)
        ((T.conf.get fn).map (link dl)) none e)
      = some (Dispatch.Spec.run replay (toStack dl (stackOf sys svc fn.mtype)) e).obs := by
  have h1 := ((C43_loaded_stacks sys svc T hdir hsvc h fn).1 hf).1
  have hg : Good (stackOf sys svc fn.mtype) := by
    unfold stackOf
    split
    · exact good_nil
    · next b hb =>
      have := topTree_good sys svc (some svc) false fn.mtype b
      rw [topTree_known sys svc svc false fn.mtype b (Or.inl (ieq_refl _)) hb, hsvc, if_pos rfl] at this
      unfold stackOf at this
      rw [hb] at this; exact this
  rw [h1, link_flatten dl _ hg.noSub 0]
  exact Dispatch.C03_walk_is_structured_semantics replay _ e (by rw [toStack_levels]; exact hg.levels)

/-! ## C06, C15 -/

/-- C15: in every list of every loaded configuration (whatever the files contain, cyclic includes
included): levels start at 0, rise by at most one from line to line, and stay below 16. -/
theorem C15_levels_bounded (sys : Sys) (svc : List Char) (T : Tables) (h : initHandlers sys svc = some T)
    (o : Bool) (fn : Fn) (dl : Linker σ) : WellLeveled (((T.side o).get fn).map (link dl)) := by
  obtain ⟨t, _, _, h1, h2⟩ := isTree_stack dl fn.first _ (initHandlers_isTree sys svc T h o fn)
  rw [h1]
  exact wellLeveled_flatten _ h2

/-- C06: no walk over any loaded list, including all resumed calls, accesses the substack table
out of bounds or reads a slot that was not written. -/
theorem C06_no_bad_substack_access (sys : Sys) (svc : List Char) (T : Tables) (h : initHandlers sys svc = some T)
    (o : Bool) (fn : Fn) (dl : Linker σ) (mode : Dispatch.Mode) (e : Env σ) :
    ¬ Walk mode (((T.side o).get fn).map (link dl)) e .ub :=
  Dispatch.C06_no_bad_substack_access_partial mode _ (C15_levels_bounded sys svc T h o fn dl) e

/-- C15: a configuration that includes itself is read, and is one failing line: whatever else its
lines of that type are, the innermost include is replaced by a failing line. -/
theorem C15_self_include (sys : Sys) (ty : MType) (name bytes : List Char) (d : Directive) (n : Nat)
    (ho : openConfig sys name = some bytes)
    (hl : (fileLines ' ' bytes).1.map (fun l => lineMeaning (mkargv l)) = [d]) (he : (fileLines ' ' bytes).2 = false)
    (hd : d.mtype = some ty) (hi : d.what = .incl false (some name)) :
    contents sys ty (n + 1) (some name) = (failing .nil, true) := by
  induction n with
  | zero => simp [contents, ho, hl, he, expand, hd, hi, Tree.append]
  | succ n ih => rw [contents, ho]; simp [hl, he, expand, hd, hi, ih, Tree.append, failing]

/-- C15: so the whole stack of such a service is a single failing line. -/
theorem C15_self_include_stack (sys : Sys) (ty : MType) (name bytes : List Char) (d : Directive)
    (ho : openConfig sys name = some bytes)
    (hl : (fileLines ' ' bytes).1.map (fun l => lineMeaning (mkargv l)) = [d]) (he : (fileLines ' ' bytes).2 = false)
    (hd : d.mtype = some ty) (hi : d.what = .incl false (some name)) :
    stackOf sys name ty = failing .nil := by
  unfold stackOf
  rw [ho]
  simp [hl, expand, hd, hi, C15_self_include sys ty name bytes d 14 ho hl he hd hi, Tree.append, failing]

/-- C15: an include that cannot be loaded (missing file, nested too deep, or read error) puts a
failing line in its place and reading goes on. -/
theorem C15_unloadable_include (load : Option (List Char) → Tree × Bool) (dflt ty : MType) (d : Directive) (ds : List Directive)
    (name : Option (List Char)) (hd : d.mtype.getD dflt = ty) (hi : d.what = .incl false name)
    (hbad : (load name).2 = false) :
    expand load dflt ty (d :: ds) =
      ((load name).1.append (failing (expand load dflt ty ds).1), (expand load dflt ty ds).2) := by
  simp [expand, hd, hi, hbad]

/-! ### A concrete system for the witnesses -/

/-- `auth include x` -/
def exInclude : List Char := "auth include x\n".toList

/-- one directory with the files `x` (includes itself) and `y` -/
def exSys : Sys where
  fs := fun p => if p = "/etc/pam.d/x".toList then some exInclude else none
  confdir := none
  dirs := ["/etc/pam.d/".toList]
  haveDir := true

theorem exInclude_lines : fileLines ' ' exInclude = (["auth include x\n".toList], false) := by
  have := C14_logical_lines [.entry [] [] "auth include x".toList none] (by
    intro it hit
    simp only [List.mem_cons, List.not_mem_nil, or_false] at hit
    subst hit
    refine ⟨by simp, by simp [Blanks], ⟨by decide, by decide, by decide, by decide⟩, by simp [CommentOk], Or.inl (by decide), ?_⟩
    rintro _ ⟨x, w, h, hw⟩
    have hm : '\\' ∈ "auth include x".toList := by rw [h]; simp
    exact absurd hm (by decide)) []
  have hnil : fileLines ' ' [] = ([], false) := by
    unfold fileLines physLines
    exact logicalLines_eof _ _ rfl
  rw [hnil] at this
  exact this

theorem exInclude_words : mkargv "auth include x\n".toList = ["auth".toList, "include".toList, "x".toList] := by
  have h0 : WrittenList [] ['\n'] := .nil ['\n'] (by simp [Separator])
  have h3 := WrittenList.cons [' '] "x".toList "x".toList _ _ (by simp [Separator])
    (.word "x".toList (by decide) (by simp [Separator]) (by decide)) h0 (by simp [Separator])
  have h2 := WrittenList.cons [' '] "include".toList "include".toList _ _ (by simp [Separator])
    (.word "include".toList (by decide) (by simp [Separator]) (by decide)) h3 (by simp [Separator])
  have h1 := WrittenList.cons [] "auth".toList "auth".toList _ _ (by simp [Separator])
    (.word "auth".toList (by decide) (by simp [Separator]) (by decide)) h2 (by simp [Separator])
  exact C12_arguments_round_trip _ _ h1

/-- witness for the C15 theorems: the file `x` includes itself -/
example : stackOf exSys "x".toList .auth = failing .nil := by
  refine C15_self_include_stack exSys .auth "x".toList exInclude (lineMeaning ["auth".toList, "include".toList, "x".toList])
    (by decide) ?_ ?_ (by decide) ?_
  · rw [exInclude_lines]; simp only [List.map_cons, List.map_nil, exInclude_words]
  · rw [exInclude_lines]
  · simp [lineMeaning, lower]

/-- witness for C06, C15 and C43: the service loads, and its authentication stack is one failing line -/
theorem exSys_loads : ∃ T, initHandlers exSys "x".toList = some T ∧ (T.conf.get .authenticate).length = 1 := by
  have hok : ∃ T, initHandlers exSys "x".toList = some T := by
    have ho : openConfig exSys "x".toList = some exInclude := by decide
    have ho2 : openConfig exSys otherName = none := by decide
    have hl := loadConf_delivers exSys "x".toList (SUBSTACK_MAX_LEVEL - 1)
    have hp : (parseTop exSys "x".toList (some "x".toList) exInclude {}).2 = true := by
      unfold parseTop parseConf
      rw [exInclude_lines]
      have hs : ieq "x".toList "x".toList = true ∨ ieq "x".toList otherName = true := Or.inl (ieq_refl _)
      have hls : lineService (some "x".toList) "auth include x\n".toList = ("x".toList, some "auth include x\n".toList) := rfl
      simp only [parseLines, hls]
      rw [if_pos hs]
      have := (applyLine_spec "x".toList _ _ hl "x".toList hs none 0 (parseLine (some "auth include x\n".toList)) {} _ rfl (Or.inl rfl)).1
      rw [this]
      have hpl : parseLine (some "auth include x\n".toList) = lineMeaning ["auth".toList, "include".toList, "x".toList] := by
        rw [← lineMeaning_eq, exInclude_words]
      have hd : (lineMeaning ["auth".toList, "include".toList, "x".toList]).what = .incl false (some "x".toList) := by
        simp [lineMeaning, lower]
      have hk : (expand (contents exSys ((parseLine (some "auth include x\n".toList)).mtype.getD ((none : Option MType).getD .auth))
          (SUBSTACK_MAX_LEVEL - 1)) ((none : Option MType).getD .auth)
          ((parseLine (some "auth include x\n".toList)).mtype.getD ((none : Option MType).getD .auth))
          [parseLine (some "auth include x\n".toList)]).2 = true := by
        rw [hpl]
        simp only [expand, ne_eq, Option.getD_none, not_true_eq_false, if_false, hd]
      rw [hk]
      simp
    unfold initHandlers
    have hb : exSys.confdir.isSome = true ∨ exSys.haveDir = true := Or.inr rfl
    simp only [if_pos hb, ho, ho2, hp, if_true]
    exact ⟨_, rfl⟩
  obtain ⟨T, hT⟩ := hok
  refine ⟨T, hT, ?_⟩
  have := ((C43_loaded_stacks exSys "x".toList T (Or.inr rfl) (by decide) hT .authenticate).1 rfl).1
  rw [this]
  have hst : stackOf exSys "x".toList Fn.authenticate.mtype = failing .nil := by
    refine C15_self_include_stack exSys .auth "x".toList exInclude (lineMeaning ["auth".toList, "include".toList, "x".toList])
      (by decide) ?_ ?_ (by decide) ?_
    · rw [exInclude_lines]; simp only [List.map_cons, List.map_nil, exInclude_words]
    · rw [exInclude_lines]
    · simp [lineMeaning, lower]
  rw [hst]; rfl

/-- C43 (search order): the first configuration directory that has the file wins; an explicit
configuration directory is the only one consulted. -/
theorem C43_search_order (sys : Sys) (svc : List Char) (hs : svc.head? ≠ some '/') :
    (∀ d, sys.confdir = some d → openConfig sys svc = sys.fs (d ++ "/".toList ++ svc)) ∧
    (sys.confdir = none → ∀ (pre post : List (List Char)) (d b : List Char), sys.dirs = pre ++ d :: post →
      (∀ p ∈ pre, sys.fs (p ++ svc) = none) → sys.fs (d ++ svc) = some b → openConfig sys svc = some b) := by
  refine ⟨fun d hd => ?_, fun hc pre post d b hd hp hb => ?_⟩
  · simp [openConfig, hs, hd]
  · simp only [openConfig, hs, if_false, hc, hd]
    rw [List.findSome?_append]
    have : pre.findSome? (fun d => sys.fs (d ++ svc)) = none := by
      rw [List.findSome?_eq_none_iff]; exact hp
    simp [this, hb]

/-- witness: the service file is found in the second of two directories -/
example : openConfig { exSys with dirs := ["/usr/etc/pam.d/".toList, "/etc/pam.d/".toList] } "x".toList = some exInclude := by
  refine (C43_search_order _ _ (by decide)).2 rfl ["/usr/etc/pam.d/".toList] [] "/etc/pam.d/".toList exInclude rfl ?_ (by decide)
  intro p hp
  simp only [List.mem_cons, List.not_mem_nil, or_false] at hp
  subst hp; decide

/-! ## C16 -/

/-- a line that fails whatever its module says: every code is mapped to `bad`, or the line is
broken and its control maps PAM_PERM_DENIED to `bad` or `die` -/
def FailsClosed (h : Handler σ) : Prop :=
  (∀ k < 32, h.actions k = ACT_BAD) ∨
  (h.htype = .mustFail ∧ (h.actions 6 = ACT_BAD ∨ h.actions 6 = ACT_DIE))

/-- C16, the part that holds of single lines.  The line with the words `ws` fails closed if it has
no control; if its control is neither a classic flag nor include/substack nor a valid control
string; or if its type is unreadable or its module path is missing and its control is `required`,
`requisite`, or a control string that maps perm_denied to bad or die.  Missing from the full
claim: an unreadable type or missing path together with other controls, where it is false
(`C16_illegal_type_counterexample`, `C16_illegal_type_include_counterexample`). -/
theorem C16_malformed_line_partial (ws : List (List Char)) (a : Nat → Int) (p : Option (List Char)) (v : List (List Char))
    (hw : (lineMeaning ws).what = .module a p v)
    (hbad : ws.length ≤ 1 ∨
      (∃ c, ws[1]? = some c ∧ flagOf c = none ∧ ¬ ∃ items, Control c items) ∨
      ((ws[0]? = none ∨ (∃ w, ws[0]? = some w ∧ typeOf w = none ∧ typeOf (w.drop 1) = none) ∨ ws.length ≤ 2) ∧
        ∃ c, ws[1]? = some c ∧ (actionsOf c 6 = ACT_BAD ∨ actionsOf c 6 = ACT_DIE)))
    (dl : Linker σ) (L : Nat) : FailsClosed (link dl ⟨(lineMeaning ws).htype, L, a, p, v⟩) := by
  have hc : ∀ c, ws[1]? = some c → a = actionsOf c ∧ ((lineMeaning ws).htype = .mustFail ∨
      (∃ w, ws[0]? = some w ∧ typeOf (if (w.head? = some '-') then w.drop 1 else w) ≠ none) ∧ ws[2]? ≠ none) := by
    intro c hc
    unfold lineMeaning at hw ⊢
    simp only [hc] at hw ⊢
    split at hw
    · cases hw
    · next h1 =>
      split at hw
      · cases hw
      · next h2 =>
        simp only [h1, h2, if_false]
        injection hw with e1 e2 e3
        refine ⟨e1.symm, ?_⟩
        by_cases hn : (ws[0]?.bind fun w => typeOf (if decide (ws[0]?.bind List.head? = some '-') = true then w.drop 1 else w)) = none ∨ ws[2]? = none
        · left; rw [if_pos hn]
        · right
          simp only [not_or] at hn
          cases h0 : ws[0]? with
          | none => simp [h0] at hn
          | some w =>
            simp only [h0, Option.bind_some] at hn
            refine ⟨⟨w, rfl, ?_⟩, hn.2⟩
            simpa using hn.1
  rcases hbad with hlen | ⟨c, h1, h2, h3⟩ | ⟨h1, c, h2, h3⟩
  · left
    have hn : ws[1]? = none := by simp; omega
    unfold lineMeaning at hw
    simp only [hn] at hw
    injection hw with e1 e2 e3
    intro k hk
    simp [link, ← e1, onCodes, hk]
  · left
    intro k hk
    have := (hc c h1).1
    simp only [link, this, actionsOf, h2]
    exact C11_control_error_fails_closed c h3 k hk
  · right
    obtain ⟨e1, e2⟩ := hc c h2
    refine ⟨?_, by simpa [link, e1] using h3⟩
    have : (lineMeaning ws).htype = .mustFail := by
      rcases e2 with e2 | ⟨⟨w, hw0, hty⟩, h2n⟩
      · exact e2
      · exfalso
        rcases h1 with h1 | ⟨w', hw', t1, t2⟩ | h1
        · rw [h1] at hw0; cases hw0
        · rw [hw'] at hw0; injection hw0 with hw0; subst hw0
          split at hty
          · exact hty t2
          · exact hty t1
        · apply h2n; simp; omega
    simp [link, this]

/-- C16, the part that holds of walks: in a stack without `reset`, a completed call that reaches a
line failing closed does not return PAM_SUCCESS.  (`hcells`: a broken line was recorded, if at
all, with the answer it always gives.) -/
theorem C16_fails_closed_walk_partial (mode : Dispatch.Mode) (hs : List (Handler σ)) (e : Env σ)
    (he : e.trace = []) (hreset : ∀ h ∈ hs, ∀ k < 32, h.actions k ≠ ACT_RESET)
    (hcells : ∀ (i : Nat) h, hs[i]? = some h → h.htype = .mustFail → e.cells i = INVALID_RETVAL ∨ e.cells i = PAM_PERM_DENIED)
    (c : Int) (st : St σ) (hw : Walk mode hs e (.done c st)) (i : Nat) (r : Int) (hi : (i, r) ∈ st.trace)
    (h : Handler σ) (hh : hs[i]? = some h) (hf : FailsClosed h) : c ≠ PAM_SUCCESS := by
  have hprov := Dispatch.walk_prov mode hs e he _ hw
  obtain ⟨_, _, _, hans⟩ := hprov
  have hfail : Failing h (deciding mode i r e.cells) := by
    unfold Failing
    by_cases h1 : deciding mode i r e.cells < 0
    · exact Or.inl h1
    by_cases h2 : 32 ≤ deciding mode i r e.cells
    · exact Or.inr (Or.inl h2)
    rcases hf with hf | ⟨hm, hf⟩
    · exact Or.inr (Or.inr (Or.inl (hf _ (by omega))))
    · have hr : r = PAM_PERM_DENIED := by
        obtain ⟨h', k1, k2, _, k3⟩ := hans _ hi
        rw [hh] at k1; injection k1 with k1; subst k1
        rcases k3 with ⟨_, k3⟩ | ⟨k3, _⟩ | ⟨k3, _⟩
        · exact k3
        · exact absurd hm k3
        · exact absurd hm k3
      have hd : deciding mode i r e.cells = PAM_PERM_DENIED := by
        cases mode with
        | pleaseFreeze => exact hr
        | mayBeFrozen =>
          simp only [deciding] at h1 ⊢
          rcases hcells i h hh hm with hx | hx
          · rw [if_pos hx]; exact hr
          · rw [hx]; simp [INVALID_RETVAL, PAM_PERM_DENIED]
        | mustBeFrozen =>
          simp only [deciding] at h1 ⊢
          rcases hcells i h hh hm with hx | hx
          · rw [hx] at h1; simp [INVALID_RETVAL] at h1
          · exact hx
      rw [hd]
      exact Or.inr (Or.inr hf)
  have hfind : (st.trace.find? (Dispatch.isFail mode hs e)).isSome := by
    rw [List.find?_isSome]
    exact ⟨(i, r), hi, by simp [Dispatch.isFail, hh, hfail]⟩
  obtain ⟨p, hp⟩ := Option.isSome_iff_exists.1 hfind
  obtain ⟨hp1, pre, post, hp2, hp3⟩ := List.find?_eq_some_iff_append.1 hp
  have hp1' := hp1
  unfold Dispatch.isFail at hp1'
  split at hp1'
  · next h' hh' =>
    exact (Dispatch.C02_failure_never_masked mode hs e he hreset c st hw pre p post hp2 h' hh'
      (by simpa using hp1') (by
        intro q hq h'' hh'' hq'
        have := hp3 q hq
        simp [Dispatch.isFail, hh'', hq'] at this)).1
  · cases hp1'

/-- witness: a line without a control, after one that succeeds -/
example : ∃ c st, Walk .pleaseFreeze
      [Dispatch.exLine .required PAM_SUCCESS, link (fun _ _ => none) ⟨.mustFail, 0, onCodes (fun _ => ACT_BAD), none, []⟩]
      Dispatch.exEnv (.done c st) ∧ (1, PAM_PERM_DENIED) ∈ st.trace ∧
    FailsClosed (link (σ := Nat) (fun _ _ => none) ⟨.mustFail, 0, onCodes (fun _ => ACT_BAD), none, []⟩) ∧
    (lineMeaning ["auth".toList]).htype = .mustFail := by
  have : ∃ st, dispatchAux .pleaseFreeze
      [Dispatch.exLine .required PAM_SUCCESS, link (fun _ _ => none) ⟨.mustFail, 0, onCodes (fun _ => ACT_BAD), none, []⟩]
      none Dispatch.exEnv = .done PAM_PERM_DENIED st ∧ (1, PAM_PERM_DENIED) ∈ st.trace := by
    simp [dispatchAux, Dispatch.loop, Dispatch.enter, Dispatch.visit, Dispatch.callModule, Dispatch.cachedRetval, Dispatch.act,
      Dispatch.exLine, Dispatch.freshSt, Dispatch.classicActions, link, onCodes,
      PAM_INCOMPLETE, PAM_RETURN_VALUES, INVALID_RETVAL, ACT_IGNORE, ACT_OK, ACT_BAD, ACT_DIE, ACT_DONE, ACT_RESET, PAM_SUCCESS,
      Dispatch.finish, Dispatch.upd, PAM_IGNORE, PAM_PERM_DENIED, Dispatch.exEnv]
  obtain ⟨st, h, ht⟩ := this
  exact ⟨_, st, by rw [← h]; exact .first, ht, Or.inl (by intro k hk; simp [link, onCodes, hk]), by simp [lineMeaning]⟩

/-- the handler of a parsed module line at level 0 -/
def lineHandler (dl : Linker σ) (d : Directive) : Handler σ :=
  match d.what with
  | .module a p v => link dl ⟨d.htype, 0, a, p, v⟩
  | .incl _ _ => link dl ⟨.substack, 0, undefActions, none, []⟩

/-- C16, the full claim, is false of the code: a line with an illegal type and control `optional`
is reached, answers PAM_PERM_DENIED, and the call still succeeds. -/
theorem C16_illegal_type_counterexample :
    ∃ (ws : List (List Char)) (dl : Linker Nat) (st : St Nat),
      typeOf ws[0]! = none ∧
      dispatchAux .pleaseFreeze
        [lineHandler dl (lineMeaning ws), lineHandler dl (lineMeaning ["auth".toList, "required".toList, "p".toList])]
        none Dispatch.exEnv = .done PAM_SUCCESS st ∧ (0, PAM_PERM_DENIED) ∈ st.trace := by
  refine ⟨["bogus".toList, "optional".toList, "d".toList], fun _ _ => some (fun n => (PAM_SUCCESS, n)), ?_⟩
  have e1 : lineMeaning ["bogus".toList, "optional".toList, "d".toList] =
      ⟨none, .mustFail, .module (onCodes (Dispatch.classicActions .optional)) (some "d".toList) []⟩ := by
    have f1 : flagOf "optional".toList = some .optional := by decide
    have f2 : typeOf "bogus".toList = none := by decide
    unfold lineMeaning
    simp [actionsOf, f1, f2, lower]
    exact ⟨f2, by rw [show flagOf ['o', 'p', 't', 'i', 'o', 'n', 'a', 'l'] = some .optional from f1]⟩
  have e2 : lineMeaning ["auth".toList, "required".toList, "p".toList] =
      ⟨some .auth, .module, .module (onCodes (Dispatch.classicActions .required)) (some "p".toList) []⟩ := by
    have f1 : flagOf "required".toList = some .required := by decide
    have f2 : typeOf "auth".toList = some .auth := by decide
    unfold lineMeaning
    simp [actionsOf, lower]
    exact ⟨f2, by simp [show typeOf ['a', 'u', 't', 'h'] = some .auth from f2], by rw [show flagOf ['r', 'e', 'q', 'u', 'i', 'r', 'e', 'd'] = some .required from f1]⟩
  rw [e1, e2]
  simp [dispatchAux, Dispatch.loop, Dispatch.enter, Dispatch.visit, Dispatch.callModule, Dispatch.cachedRetval, Dispatch.act,
      lineHandler, Dispatch.freshSt, Dispatch.classicActions, link, onCodes,
      PAM_INCOMPLETE, PAM_RETURN_VALUES, INVALID_RETVAL, ACT_IGNORE, ACT_OK, ACT_BAD, ACT_DIE, ACT_DONE, ACT_RESET, PAM_SUCCESS,
      Dispatch.finish, Dispatch.upd, PAM_IGNORE, PAM_PERM_DENIED, Dispatch.exEnv]
  decide

/-- C16, the full claim, is false of the code: a line with an illegal type and control `include`
contributes the lines of the named file and no failing line. -/
theorem C16_illegal_type_include_counterexample :
    ∃ (ws : List (List Char)) (load : Option (List Char) → Tree × Bool),
      typeOf ws[0]! = none ∧ expand load .auth .auth [lineMeaning ws] = (.nil, true) := by
  refine ⟨["bogus".toList, "include".toList, "f".toList], fun _ => (.nil, true), by decide, ?_⟩
  have f2 : typeOf ['b', 'o', 'g', 'u', 's'] = none := by decide
  simp [expand, lineMeaning, lower, f2, Tree.append]

end Pam.Config
