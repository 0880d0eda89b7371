import Verif.Dispatch.Denied
import Verif.Handle.Mode
import Verif.Whole.CredCall
/-
Property theorems C181: pam_setcred after a pam_authenticate that failed, pam_close_session after a pam_open_session that failed.
-/
namespace Pam.Whole
open Pam Pam.Config Pam.Config.Spec Pam.Handle Pam.Dispatch
open Pam.Stack (Line fileLinesOf fileLinesOf_tree rowsTree linesOf rowsTree_take rowsTree_flatten_empty actions_flag)

variable {W : Type}

/-- What may happen on a handle meanwhile: any calls by the application that come to an end, other than those of these functions, and any
changes of the world.  Nobody sets PAM_SERVICE (the configuration stays loaded). -/
inductive Meanwhile (lib : Lib W) (barred : List Fn) (h : Handle W) : Handle W → Prop
  | none : Meanwhile lib barred h h
  | more {h1 h2 : Handle W} (a : Act W) (ans : Ans) : Meanwhile lib barred h h1 → a.apply lib h1 = some (ans, h2) → h2.inner.loaded = true →
      (∀ fn ∈ barred, ∀ flags, a ≠ .call (.run fn flags)) → ans.code ≠ PAM_INCOMPLETE → Meanwhile lib barred h h2

/-! ### helper lemmas -/

/-- the entry of a line -/
def entryOf (l : Line) : Entry := ⟨.module, 0, onCodes (classicActions l.flag), some l.path, l.args⟩

theorem lines_entries (ty : MType) : ∀ (rows : List (List Str)) (ls : List Line), linesOf ty rows = some ls →
    (rowsTree ty rows).flatten 0 = ls.map entryOf := by
  intro rows
  induction rows with
  | nil => intro ls h; cases h; exact (rowsTree_flatten_empty ty [] [] rfl).mpr rfl
  | cons ws rest ih =>
    intro ls hl
    unfold linesOf at hl
    match ws, hl with
    | t :: c :: p :: as, hl =>
      dsimp only at hl
      by_cases hp : Stack.plain (t :: c :: p :: as) = true
      · rw [if_pos hp] at hl
        by_cases ht : typeOf t = some ty
        · rw [if_pos ht] at hl
          cases hf : flagOf c with
          | none => rw [hf] at hl; cases hl
          | some f =>
            cases hr : linesOf ty rest with
            | none => rw [hf, hr] at hl; cases hl
            | some ls' =>
              rw [hf, hr] at hl
              have e := Option.some.inj hl
              subst e
              rw [rowsTree_take ht, Tree.flatten, ih ls' hr, actions_flag hf]
              rfl
        · rw [if_neg ht] at hl
          have hskip : rowsTree ty ((t :: c :: p :: as) :: rest) = rowsTree ty rest := by
            simp only [rowsTree, ht, if_false]
          rw [hskip]; exact ih ls hl
      · rw [if_neg hp] at hl; cases hl

theorem direct_link {σ : Type} (dl : List Char → List (List Char) → Option (σ → Int × σ)) (l : Line) : Direct (link dl (entryOf l)) := by
  refine ⟨rfl, by unfold link entryOf; simp, ?_, ?_⟩
  · intro c hc
    show (if c < 32 then classicActions l.flag c else ACT_UNDEF) ∈ _
    rw [if_pos hc]
    unfold classicActions
    cases l.flag <;> dsimp only <;> repeat' split
    all_goals decide
  · intro c hc
    show (if c < 32 then classicActions l.flag c else ACT_UNDEF) = _ ∨ (if c < 32 then classicActions l.flag c else ACT_UNDEF) = _ → _
    rw [if_pos hc]
    unfold classicActions
    cases l.flag <;> dsimp only <;> repeat' split
    all_goals first | exact fun _ => Or.inl ‹_› | exact fun _ => Or.inr ‹_› | exact fun h => absurd h (by decide)

theorem same_links {σ : Type} (d1 d2 : List Char → List (List Char) → Option (σ → Int × σ)) : ∀ es : List Entry,
    SameLines (es.map (link d1)) (es.map (link d2))
  | [] => trivial
  | _ :: es => ⟨⟨rfl, rfl, rfl⟩, same_links d1 d2 es⟩

theorem firstPos_id : ∀ (es : List Entry), (∀ e ∈ es, named e = true) → ∀ j, firstPos es j = j
  | [], _, j => rfl
  | e :: es, h, 0 => by unfold firstPos; rw [if_pos (h e List.mem_cons_self)]
  | e :: es, h, j + 1 => by
    unfold firstPos
    rw [if_pos (h e List.mem_cons_self), firstPos_id es (fun e he => h e (List.mem_cons_of_mem _ he)) j]

/-- what a finished walk leaves in the handle -/
theorem runStack_done {lib : Lib W} {fn : Fn} {flags : Nat} {h h' : Handle W} {c : Int} (hne : (h.tables.conf.get fn).isEmpty = false)
    (hr : runStack lib fn flags none h = some (c, h')) (hc : c ≠ PAM_INCOMPLETE) :
    ∃ st, dispatchAux (Handle.modeOf fn) ((h.tables.conf.get fn).map (link (linker lib fn flags))) none (envOf fn h) = .done c st ∧
      h'.cells = (fun o t => if o = false ∧ t = fn.mtype ∧ fn.first = true then st.cells else h.cells o t) ∧ h'.tables = h.tables ∧ h'.former = none := by
  unfold runStack at hr
  simp only [hne, Option.isSome_none, Bool.false_eq_true, if_false] at hr
  have hside : (h.tables.side false).get fn = h.tables.conf.get fn := rfl
  rw [hside] at hr
  cases hd : dispatchAux (Handle.modeOf fn) ((h.tables.conf.get fn).map (link (linker lib fn flags))) none (envOf fn h) with
  | ub =>
    have hd' : dispatchAux (Handle.modeOf fn) ((h.tables.conf.get fn).map (link (linker lib fn flags))) none
      { cells := fun j => h.cells false fn.mtype ((if fn.first = true then id else firstPos ((h.tables.side false).get (firstOf fn))) j)
        grant := fun _ => false
        world := { s := { inner := { h.inner with caller := .module, chauthtok := decide (fn = .chauthtok) }, world := h.m.s.world, talk := h.m.s.talk },
                   hist := h.m.hist, reentered := h.m.reentered, broken := h.m.broken }
        trace := [] } = .ub := hd
    rw [hd'] at hr; cases hr
  | done s st =>
    have hd' : dispatchAux (Handle.modeOf fn) ((h.tables.conf.get fn).map (link (linker lib fn flags))) none
      { cells := fun j => h.cells false fn.mtype ((if fn.first = true then id else firstPos ((h.tables.side false).get (firstOf fn))) j)
        grant := fun _ => false
        world := { s := { inner := { h.inner with caller := .module, chauthtok := decide (fn = .chauthtok) }, world := h.m.s.world, talk := h.m.s.talk },
                   hist := h.m.hist, reentered := h.m.reentered, broken := h.m.broken }
        trace := [] } = .done s st := hd
    rw [hd'] at hr
    have e := Option.some.inj hr
    injection e with e1 e2
    subst e1 e2
    exact ⟨st, rfl, rfl, rfl, rfl⟩
  | incomplete d st =>
    have hd' : dispatchAux (Handle.modeOf fn) ((h.tables.conf.get fn).map (link (linker lib fn flags))) none
      { cells := fun j => h.cells false fn.mtype ((if fn.first = true then id else firstPos ((h.tables.side false).get (firstOf fn))) j)
        grant := fun _ => false
        world := { s := { inner := { h.inner with caller := .module, chauthtok := decide (fn = .chauthtok) }, world := h.m.s.world, talk := h.m.s.talk },
                   hist := h.m.hist, reentered := h.m.reentered, broken := h.m.broken }
        trace := [] } = .incomplete d st := hd
    rw [hd'] at hr
    have e := Option.some.inj hr
    injection e with e1 e2
    exact absurd e1.symm hc

/-- what any walk leaves alone -/
theorem runStack_keeps {lib : Lib W} {fn : Fn} {flags : Nat} {f : Option Former} {h h' : Handle W} {c : Int}
    (hr : runStack lib fn flags f h = some (c, h')) :
    h'.tables = h.tables ∧ (∀ o t, ¬ (t = fn.mtype ∧ fn.first = true) → h'.cells o t = h.cells o t) ∧ (c ≠ PAM_INCOMPLETE → h'.former = none) := by
  unfold runStack at hr
  dsimp only at hr
  split at hr
  · cases hr
  · have e := Option.some.inj hr
    injection e with e1 e2
    subst e1 e2
    exact ⟨rfl, fun o t ht => if_neg (fun x => ht x.2), fun _ => rfl⟩
  · have e := Option.some.inj hr
    injection e with e1 e2
    subst e1 e2
    exact ⟨rfl, fun o t ht => if_neg (fun x => ht x.2), fun h => absurd rfl h⟩

theorem dispatch_keeps {lib : Lib W} {fn : Fn} {flags : Nat} {h h' : Handle W} {c : Int} (hl : h.inner.loaded = true) (hf : h.former = none)
    (hr : dispatch lib fn flags h = some (c, h')) :
    h'.tables = h.tables ∧ (∀ o t, ¬ (t = fn.mtype ∧ fn.first = true) → h'.cells o t = h.cells o t) ∧ (c ≠ PAM_INCOMPLETE → h'.former = none) := by
  unfold dispatch at hr
  split at hr
  · have e := Option.some.inj hr
    injection e with e1 e2
    subst e1 e2
    exact ⟨rfl, fun _ _ _ => rfl, fun _ => hf⟩
  · have hload : load lib h = (true, h) := by unfold load; rw [if_pos hl]
    rw [hload] at hr
    simp only [hf, if_true] at hr
    exact runStack_keeps hr

theorem authenticate_keeps {lib : Lib W} {flags : Nat} {h h' : Handle W} {c : Int} (hl : h.inner.loaded = true) (hf : h.former = none)
    (hr : authenticate lib flags h = some (c, h')) :
    ∃ h1, dispatch lib .authenticate flags (begin false h) = some (c, h1) ∧ h'.tables = h1.tables ∧ h'.cells = h1.cells ∧ h'.former = h1.former := by
  unfold authenticate at hr
  obtain ⟨q, hq, e⟩ := Option.map_eq_some_iff.mp hr
  obtain ⟨c1, h1⟩ := q
  dsimp only at e
  split at e
  · injection e with e1 e2
    subst e1 e2
    exact ⟨h1, hq, rfl, rfl, rfl⟩
  · injection e with e1 e2
    subst e1 e2
    exact ⟨h1, hq, rfl, rfl, rfl⟩

theorem begin_keeps {h : Handle W} (hl : h.inner.loaded = true) (hf : h.former = none) :
    (begin false h).inner.loaded = true ∧ (begin false h).former = none ∧ (begin false h).tables = h.tables ∧ (begin false h).cells = h.cells ∧
      (begin false h).inner.caller = h.inner.caller := by
  unfold begin
  rw [hf]
  unfold Handle.onInner
  exact ⟨hl, hf, rfl, rfl, rfl⟩

theorem run_keeps {lib : Lib W} {fn first : Fn} {flags : Nat} {h h' : Handle W} {c : Int} (hfirst : first = .authenticate ∨ first = .openSession)
    (hnc : fn ≠ .chauthtok) (hl : h.inner.loaded = true) (hf : h.former = none) (hr : run lib fn flags h = some (c, h'))
    (hc : c ≠ PAM_INCOMPLETE) :
    h'.tables = h.tables ∧ (fn ≠ first → h'.cells false first.mtype = h.cells false first.mtype) ∧ h'.former = none := by
  have hno : fn ≠ first → ¬ (first.mtype = fn.mtype ∧ fn.first = true) := by
    intro hne
    rcases hfirst with rfl | rfl <;> cases fn <;> first | exact absurd rfl hne | exact absurd rfl hnc | decide
  have hb := begin_keeps hl hf
  unfold run at hr
  split at hr
  · have e := Option.some.inj hr
    injection e with e1 e2
    subst e1 e2
    exact ⟨rfl, fun _ => rfl, hf⟩
  · cases fn with
    | authenticate =>
      obtain ⟨h1, d1, d2, d3, d4⟩ := authenticate_keeps hl hf hr
      obtain ⟨k1, k2, k3⟩ := dispatch_keeps hb.1 hb.2.1 d1
      exact ⟨by rw [d2, k1, hb.2.2.1], fun hne => by rw [d3, k2 _ _ (hno hne), hb.2.2.2.1], by rw [d4]; exact k3 hc⟩
    | chauthtok => exact absurd rfl hnc
    | setcred =>
      obtain ⟨k1, k2, k3⟩ := dispatch_keeps hl hf hr
      exact ⟨k1, fun hne => k2 _ _ (hno hne), k3 hc⟩
    | acctMgmt =>
      obtain ⟨k1, k2, k3⟩ := dispatch_keeps hl hf hr
      exact ⟨k1, fun hne => k2 _ _ (hno hne), k3 hc⟩
    | openSession =>
      obtain ⟨k1, k2, k3⟩ := dispatch_keeps hl hf hr
      exact ⟨k1, fun hne => k2 _ _ (hno hne), k3 hc⟩
    | closeSession =>
      obtain ⟨k1, k2, k3⟩ := dispatch_keeps hl hf hr
      exact ⟨k1, fun hne => k2 _ _ (hno hne), k3 hc⟩

theorem meanwhile_keeps {lib : Lib W} {first : Fn} (hfirst : first = .authenticate ∨ first = .openSession) {barred : List Fn}
    (hbar : .chauthtok ∈ barred) {h h2 : Handle W} (hl : h.inner.loaded = true) (hf : h.former = none) (hm : Meanwhile lib barred h h2) :
    h2.inner.loaded = true ∧ h2.former = none ∧ h2.tables = h.tables ∧ (first ∈ barred → h2.cells false first.mtype = h.cells false first.mtype) := by
  induction hm with
  | none => exact ⟨hl, hf, rfl, fun _ => rfl⟩
  | more a ans _ happ hld hno hc ih =>
    rename_i h1 h2 _
    obtain ⟨i1, i2, i3, i4⟩ := ih
    refine ⟨hld, ?_⟩
    unfold Act.apply at happ
    split at happ
    · rename_i fn flags
      obtain ⟨q, hq, e⟩ := Option.map_eq_some_iff.mp happ
      injection e with e1 e2
      subst e1 e2
      obtain ⟨k1, k2, k3⟩ := run_keeps (c := q.1) (h' := q.2) hfirst (fun x => hno .chauthtok hbar flags (by rw [x])) i1 i2 hq hc
      exact ⟨k3, by rw [k1, i3], fun hb => by rw [k2 (fun x => hno first hb flags (by rw [x])), i4 hb]⟩
    · cases happ
    · have e := Option.some.inj happ
      injection e with e1 e2
      subst e2
      exact ⟨i2, i3, i4⟩
    · have e := Option.some.inj happ
      injection e with e1 e2
      subst e2
      exact ⟨i2, i3, i4⟩

theorem meanwhile_reach {lib : Lib W} {barred : List Fn} {h h2 : Handle W} (hr : Reach h) (hm : Meanwhile lib barred h h2) : Reach h2 := by
  induction hm with
  | none => exact hr
  | more a ans _ happ _ _ _ ih => exact .step _ _ lib a ans ih happ

theorem dispatch_walk {lib : Lib W} {fn : Fn} {flags : Nat} {h h' : Handle W} {c : Int} (happ : h.inner.caller = .app) (hl : h.inner.loaded = true)
    (hf : h.former = none) (hne : (h.tables.conf.get fn).isEmpty = false) (hr : dispatch lib fn flags h = some (c, h')) (hc : c ≠ PAM_INCOMPLETE) :
    ∃ st, dispatchAux (Handle.modeOf fn) ((h.tables.conf.get fn).map (link (linker lib fn flags))) none (envOf fn h) = .done c st ∧
      h'.cells = (fun o t => if o = false ∧ t = fn.mtype ∧ fn.first = true then st.cells else h.cells o t) ∧ h'.tables = h.tables ∧ h'.former = none := by
  unfold dispatch at hr
  rw [if_neg (by rw [happ]; decide)] at hr
  have hload : load lib h = (true, h) := by unfold load; rw [if_pos hl]
  rw [hload] at hr
  simp only [hf, if_true] at hr
  exact runStack_done hne hr hc

/-- C181 (partial): for a service whose lines of the type have classic control words and modules with names, whatever the modules do,
pam_setcred succeeds after pam_authenticate, and pam_close_session after pam_open_session, only if that call succeeded or said that
the password must be changed.  Missing: modules that answer -1, lines of other kinds, pam_chauthtok in between; the full claim is false,
see C181_jump_counterexample and C181_minus_one_counterexample. -/
theorem C181_denied_partial (lib : Lib W) (service : Str) (user : Option Str) (conv : Nat) (w : W) (h : Handle W)
    (hs : start lib service user conv w = some h) (hdir : lib.sys.confdir.isSome ∨ lib.sys.haveDir)
    (hsvc : ieq (serviceName service) otherName = false)
    (first second : Fn) (hsec : (first = .authenticate ∧ second = .setcred) ∨ (first = .openSession ∧ second = .closeSession)) (ls : List Line)
    (hl : fileLinesOf lib.sys (serviceName service) first.mtype = some ls) (hne : ls ≠ []) (hnames : ∀ l ∈ ls, nameOk (some l.path) = true)
    (hminus : ∀ path f flags args m, lib.modules first path = some f → (callProg lib (f flags args) args m).1 ≠ -1)
    (h0 : Handle W) (hm0 : Meanwhile lib [.chauthtok] h h0)
    (flags : Nat) (a : Int) (h1 : Handle W) (ha : run lib first flags h0 = some (a, h1)) (hend : a ≠ PAM_INCOMPLETE)
    (hkept : h1.inner.loaded = true) (h2 : Handle W) (hm : Meanwhile lib [.chauthtok, first] h1 h2)
    (flags2 : Nat) (h3 : Handle W) (hb : run lib second flags2 h2 = some (PAM_SUCCESS, h3)) :
    a = PAM_SUCCESS ∨ a = PAM_NEW_AUTHTOK_REQD := by
  have hfirst : first = .authenticate ∨ first = .openSession := hsec.imp And.left And.left
  have hff : first.first = true ∧ second.first = false ∧ second.mtype = first.mtype ∧ firstOf second = first ∧ first ≠ .chauthtok ∧
      Handle.modeOf first = .pleaseFreeze ∧ Handle.modeOf second = .mayBeFrozen := by
    rcases hsec with ⟨rfl, rfl⟩ | ⟨rfl, rfl⟩ <;> decide
  obtain ⟨hr, -, -, -, -⟩ := start_ready hs
  have hreach : Reach h := .start lib service user conv w h hs
  obtain ⟨p1, p2, p3, -⟩ := meanwhile_keeps hfirst (by simp) hr.loaded hr.idle hm0
  have papp := reach_app (meanwhile_reach hreach hm0)
  -- the tables
  obtain ⟨rows, r1, r2⟩ := fileLinesOf_tree hl
  have he := lines_entries first.mtype rows ls r1
  have ht1 : h.tables.conf.get first = ls.map entryOf := by
    rw [((C43_loaded_stacks lib.sys _ h.tables hdir hsvc hr.tables first).1 hff.1).1, r2, he]
  have hnamed : ∀ e ∈ ls.map entryOf, nameOk e.path = true := by
    intro e he
    obtain ⟨l, hl, rfl⟩ := List.mem_map.mp he
    exact hnames l hl
  have ht2 : h.tables.conf.get second = ls.map entryOf := by
    rw [((C43_loaded_stacks lib.sys _ h.tables hdir hsvc hr.tables second).2 hff.2.1).1, hff.2.2.1, r2, he]
    exact List.filter_eq_self.mpr hnamed
  have hnil : (ls.map entryOf).isEmpty = false := by
    cases ls with
    | nil => exact absurd rfl hne
    | cons _ _ => rfl
  -- the first call
  have hA : ∃ st env, dispatchAux .pleaseFreeze ((ls.map entryOf).map (link (linker lib first flags))) none env = .done a st ∧
      h1.cells false first.mtype = st.cells ∧ h1.tables = h.tables ∧ h1.former = none := by
    have hk := run_keeps hfirst hff.2.2.2.2.1 p1 p2 ha hend
    have hgo : ∀ hx hy : Handle W, hx.inner.caller = .app → hx.inner.loaded = true → hx.former = none → hx.tables = h.tables →
        dispatch lib first flags hx = some (a, hy) →
        ∃ st env, dispatchAux .pleaseFreeze ((ls.map entryOf).map (link (linker lib first flags))) none env = .done a st ∧
          hy.cells false first.mtype = st.cells := by
      intro hx hy y1 y2 y3 y4 y5
      obtain ⟨st, k1, k2, -, -⟩ := dispatch_walk y1 y2 y3 (by rw [y4, ht1]; exact hnil) y5 hend
      rw [y4, ht1, hff.2.2.2.2.2.1] at k1
      exact ⟨st, _, k1, by rw [k2]; simp [hff.1]⟩
    have hrefuse : refused h0.inner (.run first flags) = none := by
      unfold refused
      rcases hfirst with rfl | rfl <;> simp [papp]
    unfold run at ha
    rw [hrefuse] at ha
    rcases hfirst with hfe | hfe
    · subst hfe
      obtain ⟨hy, d1, d2, d3, d4⟩ := authenticate_keeps p1 p2 ha
      obtain ⟨b1, b2, b3, b4, b5⟩ := begin_keeps p1 p2
      obtain ⟨st, env, k1, k2⟩ := hgo _ hy (b5.trans papp) b1 b2 (b3.trans p3) d1
      exact ⟨st, env, k1, by rw [d3]; exact k2, by rw [hk.1, p3], hk.2.2⟩
    · subst hfe
      obtain ⟨st, env, k1, k2⟩ := hgo _ h1 papp p1 p2 p3 ha
      exact ⟨st, env, k1, k2, by rw [hk.1, p3], hk.2.2⟩
  obtain ⟨st, env, k1, k2, k3, k4⟩ := hA
  obtain ⟨q1, q2, q3, q4⟩ := meanwhile_keeps hfirst (barred := [.chauthtok, first]) (by simp) hkept k4 hm
  have qcells := q4 (by simp)
  -- the second call
  have hB : ∃ fl, dispatch lib second fl h2 = some (PAM_SUCCESS, h3) := by
    unfold run at hb
    split at hb
    · rename_i c hc
      have e := congrArg Prod.fst (Option.some.inj hb)
      dsimp only at e
      rw [e] at hc
      unfold refused at hc
      rcases hsec with ⟨-, rfl⟩ | ⟨-, rfl⟩ <;> (dsimp only at hc; split at hc <;> cases hc)
    · rcases hsec with ⟨-, rfl⟩ | ⟨-, rfl⟩
      · exact ⟨_, hb⟩
      · exact ⟨_, hb⟩
  obtain ⟨fl, hB⟩ := hB
  have happ2 : h2.inner.caller = .app :=
    reach_app (meanwhile_reach (.step _ _ lib (.call (.run first flags)) { code := a } (meanwhile_reach hreach hm0) (by
      show (run lib first flags h0).map _ = _
      rw [ha]
      rfl)) hm)
  obtain ⟨sb, j1, -⟩ := dispatch_walk happ2 q1 q2 (by rw [q3, k3, ht2]; exact hnil) hB (by decide)
  rw [q3, k3, ht2, hff.2.2.2.2.2.2] at j1
  have hcells : (envOf second h2).cells = st.cells := by
    unfold envOf
    dsimp only
    funext j
    rw [if_neg (by rw [hff.2.1]; decide), hff.2.2.1, hff.2.2.2.1]
    have hfp : firstPos ((h2.tables.side false).get first) j = j := by
      refine firstPos_id _ ?_ j
      show ∀ e ∈ h2.tables.conf.get first, _
      rw [q3, k3, ht1]
      intro e he
      rw [named_eq]
      exact hnamed e he
    rw [hfp, qcells, k2]
  refine walk_denied _ _ (same_links _ _ _) ?_ ?_ env (envOf second h2) a st sb (by
      cases ls with
      | nil => exact absurd rfl hne
      | cons _ _ => simp) k1 j1 hcells ?_
  · intro x hx
    obtain ⟨e, he, rfl⟩ := List.mem_map.mp hx
    obtain ⟨l, -, rfl⟩ := List.mem_map.mp he
    exact direct_link _ l
  · intro x hx
    obtain ⟨e, he, rfl⟩ := List.mem_map.mp hx
    obtain ⟨l, -, rfl⟩ := List.mem_map.mp he
    exact direct_link _ l
  · intro x hx m
    obtain ⟨e, he, rfl⟩ := List.mem_map.mp hx
    obtain ⟨l, -, rfl⟩ := List.mem_map.mp he
    show (callModule ⟨.module, linker lib first flags l.path l.args, _, _⟩ m).1 ≠ INVALID_RETVAL
    unfold callModule linker
    cases hmod : lib.modules first l.path with
    | none => exact (show PAM_MODULE_UNKNOWN ≠ INVALID_RETVAL by decide)
    | some f => exact hminus l.path f flags l.args m hmod

end Pam.Whole
