import Verif.Whole.AcctCall
/-
pam_setcred and pam_close_session on a handle whose stack has one line with the word `required`.
-/
namespace Pam.Whole
open Pam Pam.Config Pam.Config.Spec Pam.Handle Pam.Dispatch
open Pam.Stack (Line Positive Foreign rstep fileLinesOf fileLinesOf_tree rowsTree linesOf rowsTree_take rowsTree_flatten_empty actions_flag)

variable {W : Type}

/-- the entry of a required line -/
def lineEntry (path : Str) (args : List Str) : Entry := ⟨.module, 0, onCodes (classicActions .required), some path, args⟩

theorem one_entry (ty : MType) (path : Str) (args : List Str) : ∀ rows : List (List Str), linesOf ty rows = some [⟨.required, path, args⟩] →
    (rowsTree ty rows).flatten 0 = [lineEntry path args] := by
  intro rows
  induction rows with
  | nil => intro h; cases h
  | cons ws rest ih =>
    intro hl
    unfold linesOf at hl
    match ws, hl with
    | t :: c :: p :: as, hl =>
      dsimp only at hl
      by_cases hp : Stack.plain (t :: c :: p :: as) = true
      · rw [if_pos hp] at hl
        by_cases ht : typeOf t = some ty
        · rw [if_pos ht] at hl
          cases hf : flagOf c with
          | none => rw [hf] at hl; cases hl
          | some f =>
            cases hr : linesOf ty rest with
            | none => rw [hf, hr] at hl; cases hl
            | some ls' =>
              rw [hf, hr] at hl
              have e := Option.some.inj hl
              injection e with e1 e2
              injection e1 with e3 e4 e5
              subst e2 e3 e4 e5
              rw [rowsTree_take ht, Tree.flatten, (rowsTree_flatten_empty ty rest [] hr).mpr rfl, actions_flag hf]
              rfl
        · rw [if_neg ht] at hl
          have hskip : rowsTree ty ((t :: c :: p :: as) :: rest) = rowsTree ty rest := by
            simp only [rowsTree, ht, if_false]
          rw [hskip]; exact ih hl
      · rw [if_neg hp] at hl; cases hl


/-- what a stack of one required line returns, if the line's fate was decided by an earlier answer and the module has answered now -/
def frozen (cached now : Int) : Int :=
  if Foreign cached then PAM_PERM_DENIED
  else if Positive cached then if now ≠ PAM_IGNORE ∨ cached = now then now else PAM_PERM_DENIED
  else if cached = PAM_IGNORE then PAM_PERM_DENIED
  else if now = PAM_IGNORE ∨ now = PAM_SUCCESS then PAM_PERM_DENIED else now

theorem act_bad {σ : Type} (mode : Mode) (r cached : Int) (st : St σ) (h1 : st.imp = .undef) :
    act mode 0 0 ACT_BAD r cached st = some ({ st with imp := .negative, status := if r = PAM_IGNORE then PAM_PERM_DENIED else r }, .cont) := by
  unfold act
  rw [if_neg (by decide), if_neg (by decide), if_pos (by decide)]
  dsimp only
  rw [if_pos (by rw [h1]; decide)]
  rfl

theorem act_ok {σ : Type} (mode : Mode) (r cached : Int) (st : St σ) (h1 : st.imp = .undef) :
    ∃ st', act mode 0 0 ACT_OK r cached st = some (st', .cont) ∧ st'.world = st.world ∧ st'.cells = st.cells ∧
      st'.imp = (if r ≠ PAM_IGNORE ∨ cached = r then .positive else .undef) ∧
      st'.status = (if r ≠ PAM_IGNORE ∨ cached = r then r else st.status) := by
  unfold act
  rw [if_neg (by decide), if_pos (by decide)]
  dsimp only
  rw [if_pos (Or.inl h1)]
  by_cases hr : r ≠ PAM_IGNORE ∨ cached = r
  · rw [if_pos hr, if_pos hr, if_pos hr, if_pos rfl]
    by_cases hs : r = PAM_SUCCESS
    · simp only [if_pos hs]; exact ⟨_, rfl, rfl, rfl, rfl, rfl⟩
    · simp only [if_neg hs]; exact ⟨_, rfl, rfl, rfl, rfl, rfl⟩
  · rw [if_neg hr, if_neg hr, if_neg hr, if_neg (by rw [h1]; decide)]
    exact ⟨_, rfl, rfl, rfl, h1, rfl⟩

theorem act_ignore {σ : Type} (mode : Mode) (r cached : Int) (st : St σ) : act mode 0 0 ACT_IGNORE r cached st = some (st, .cont) := by
  unfold act
  rw [if_neg (by decide), if_neg (by decide), if_neg (by decide), if_pos (by decide)]

/-- the code at the end -/
def endCode {σ : Type} (st : St σ) : Int := if st.status = PAM_SUCCESS ∧ st.imp ≠ .positive then PAM_PERM_DENIED else st.status

/-- one required line, its fate being decided -/
theorem line_frozen {σ : Type} (mode : Mode) (r cached : Int) (st : St σ) (h1 : st.imp = .undef) (h2 : st.status = PAM_PERM_DENIED) :
    ∃ st', (if cached < 0 ∨ (PAM_RETURN_VALUES : Int) ≤ cached then
        (act mode 0 0 ACT_BAD PAM_PERM_DENIED cached st).map (Sum.inr (α := St σ))
      else (act mode 0 0 (onCodes (classicActions .required) cached.toNat) r cached st).map .inr) = some (.inr (st', .cont)) ∧
      st'.world = st.world ∧ st'.cells = st.cells ∧ endCode st' = frozen cached r := by
  unfold frozen endCode
  by_cases hfo : Foreign cached
  · rw [if_pos (show cached < 0 ∨ (PAM_RETURN_VALUES : Int) ≤ cached from hfo), if_pos hfo, act_bad _ _ _ _ h1]
    exact ⟨_, rfl, rfl, rfl, rfl⟩
  · rw [if_neg (show ¬ (cached < 0 ∨ (PAM_RETURN_VALUES : Int) ≤ cached) from hfo), if_neg hfo]
    unfold Foreign at hfo
    by_cases hp : Positive cached
    · have ha : onCodes (classicActions .required) cached.toNat = ACT_OK := by rcases hp with h | h <;> rw [h] <;> decide
      rw [ha, if_pos hp]
      obtain ⟨st', a1, a2, a3, a4, a5⟩ := act_ok mode r cached st h1
      refine ⟨st', by rw [a1]; rfl, a2, a3, ?_⟩
      rw [a4, a5, h2]
      by_cases hr : r ≠ PAM_IGNORE ∨ cached = r
      · simp only [if_pos hr]
        rw [if_neg (fun h => h.2 rfl)]
      · simp only [if_neg hr]
        rw [if_neg (fun h => absurd h.1 (by decide))]
    · rw [if_neg hp]
      unfold Positive at hp
      simp only [PAM_SUCCESS, PAM_NEW_AUTHTOK_REQD] at hp
      have e0 : cached.toNat ≠ 0 := by omega
      have e1 : cached.toNat ≠ 12 := by omega
      have e2 : cached.toNat < 32 := by omega
      by_cases hi : cached = PAM_IGNORE
      · have ha : onCodes (classicActions .required) cached.toNat = ACT_IGNORE := by rw [hi]; decide
        rw [ha, if_pos hi, act_ignore]
        refine ⟨_, rfl, rfl, rfl, ?_⟩
        rw [h2, if_neg (fun h => absurd h.1 (by decide))]
      · have h25 : cached.toNat ≠ 25 := by simp only [PAM_IGNORE] at hi; omega
        have ha : onCodes (classicActions .required) cached.toNat = ACT_BAD := by
          simp only [onCodes, classicActions, e0, e1, e2, h25, if_true, if_false]
        rw [ha, if_neg hi, act_bad _ _ _ _ h1]
        refine ⟨_, rfl, rfl, rfl, ?_⟩
        by_cases hri : r = PAM_IGNORE
        · simp only [if_pos hri, if_pos (Or.inl hri : r = PAM_IGNORE ∨ r = PAM_SUCCESS)]
          rw [if_neg (fun h => absurd h.1 (by decide))]
        · simp only [if_neg hri]
          by_cases hrs : r = PAM_SUCCESS
          · rw [if_pos ⟨hrs, by decide⟩, if_pos (Or.inr hrs)]
          · rw [if_neg (fun h => hrs h.1), if_neg (fun h => h.elim hri hrs)]

/-- the walk over one required line -/
theorem one_walk (mode : Mode) {σ : Type} (f : σ → Int × σ) (e : Env σ) (h0 : (f e.world).1 ≠ PAM_INCOMPLETE) :
    ∃ st, dispatchAux mode [⟨.module, some f, onCodes (classicActions .required), 0⟩] none e =
        .done (frozen (cachedRetval mode 0 (f e.world).1 (freshSt e)).1 (f e.world).1) st ∧ st.world = (f e.world).2 ∧
        st.cells = (cachedRetval mode 0 (f e.world).1 (freshSt e)).2.cells := by
  let s0 : St σ := { freshSt e with world := (f e.world).2, trace := (freshSt e).trace ++ [(0, (f e.world).1)] }
  have hval : (cachedRetval mode 0 (f e.world).1 s0).1 = (cachedRetval mode 0 (f e.world).1 (freshSt e)).1 ∧
      (cachedRetval mode 0 (f e.world).1 s0).2.cells = (cachedRetval mode 0 (f e.world).1 (freshSt e)).2.cells ∧
      (cachedRetval mode 0 (f e.world).1 s0).2.imp = .undef ∧ (cachedRetval mode 0 (f e.world).1 s0).2.status = PAM_PERM_DENIED ∧
      (cachedRetval mode 0 (f e.world).1 s0).2.world = (f e.world).2 := by
    cases mode <;> exact ⟨rfl, rfl, rfl, rfl, rfl⟩
  obtain ⟨v1, v2, v3, v4, v5⟩ := hval
  obtain ⟨st', l1, l2, l3, l4⟩ := line_frozen mode (f e.world).1 (cachedRetval mode 0 (f e.world).1 s0).1 (cachedRetval mode 0 (f e.world).1 s0).2 v3 v4
  have hvisit : visit mode ⟨.module, some f, onCodes (classicActions .required), 0⟩ 0 (freshSt e) = some (.inr (st', .cont)) := by
    rw [← l1]
    have hcall : callModule (⟨.module, some f, onCodes (classicActions .required), 0⟩ : Handler σ) (freshSt e).world = f e.world := rfl
    unfold visit
    rw [hcall]
    dsimp only
    rw [if_neg h0]
  refine ⟨st', ?_, by rw [l2, v5], by rw [l3, v2]⟩
  unfold dispatchAux
  dsimp only
  unfold loop
  rw [if_neg (Nat.lt_irrefl 0)]
  unfold enter
  rw [if_neg (Nat.lt_irrefl 0)]
  dsimp only
  rw [if_neg (by decide), hvisit]
  dsimp only
  unfold loop finish
  rw [← v1, ← l4]
  rfl

/-- a module that suspends the walk -/
theorem one_incomplete (mode : Mode) {σ : Type} (f : σ → Int × σ) (e : Env σ) (h0 : (f e.world).1 = PAM_INCOMPLETE) :
    ∃ d st, dispatchAux mode [⟨.module, some f, onCodes (classicActions .required), 0⟩] none e = .incomplete d st := by
  have hcall : callModule (⟨.module, some f, onCodes (classicActions .required), 0⟩ : Handler σ) (freshSt e).world = f e.world := rfl
  have hvisit : visit mode ⟨.module, some f, onCodes (classicActions .required), 0⟩ 0 (freshSt e) =
      some (.inl { freshSt e with world := (f e.world).2 }) := by
    unfold visit
    rw [hcall]
    dsimp only
    rw [if_pos h0]
  refine ⟨0, { freshSt e with world := (f e.world).2 }, ?_⟩
  unfold dispatchAux
  dsimp only
  unfold loop
  rw [if_neg (Nat.lt_irrefl 0)]
  unfold enter
  rw [if_neg (Nat.lt_irrefl 0)]
  dsimp only
  rw [if_neg (by decide), hvisit]

/-! ### the call -/

/-- the answer that decides the fate of the line -/
def fateOf (fn : Fn) (h : Handle W) (now : Int) : Int :=
  if fn.first = true then now else if h.cells false fn.mtype 0 = INVALID_RETVAL then now else h.cells false fn.mtype 0

theorem one_tables {lib : Lib W} {svc : Str} {h : Handle W} (hr : Ready lib svc h) (hdir : lib.sys.confdir.isSome ∨ lib.sys.haveDir)
    (hsvc : ieq svc otherName = false) (fn : Fn) (path : Str) (args : List Str)
    (hl : fileLinesOf lib.sys svc fn.mtype = some [⟨.required, path, args⟩]) (hn : nameOk (some path) = true) :
    h.tables.conf.get fn = [lineEntry path args] := by
  obtain ⟨h1, h2⟩ := C43_loaded_stacks lib.sys svc h.tables hdir hsvc hr.tables fn
  obtain ⟨rows, r1, r2⟩ := fileLinesOf_tree hl
  have he := one_entry fn.mtype path args rows r1
  cases hf : fn.first with
  | true => rw [(h1 hf).1, r2, he]
  | false =>
    rw [(h2 hf).1, r2, he, List.filter_cons_of_pos (by exact hn)]
    rfl

theorem firstPos_zero {path : Str} (args : List Str) (hn : nameOk (some path) = true) : firstPos [lineEntry path args] 0 = 0 := by
  unfold firstPos
  rw [if_pos (by rw [named_eq]; exact hn)]

/-- the state a call starts from -/
def envOf (fn : Fn) (h : Handle W) : Env (M W) :=
  ⟨fun j => h.cells false fn.mtype ((if fn.first = true then id else firstPos ((h.tables.side false).get (firstOf fn))) j), fun _ => false, entered fn h, []⟩

/-- a call of an interface function on a handle whose stack has one required line, from the walk -/
theorem dispatch_aux {lib : Lib W} {svc : Str} {h : Handle W} (hr : Ready lib svc h) (hdir : lib.sys.confdir.isSome ∨ lib.sys.haveDir)
    (hsvc : ieq svc otherName = false) (fn : Fn) (path : Str) (args : List Str)
    (hl : fileLinesOf lib.sys svc fn.mtype = some [⟨.required, path, args⟩]) (hn : nameOk (some path) = true)
    (hmod : (lib.modules fn path).isSome) (flags : Nat) :
    ∃ fin : Int → Option (Fn × Former) → St (M W) → Int × Handle W,
      (∀ c f st, (fin c f st).1 = c ∧ (fin c f st).2.m.s = left st.world ∧ (fin c f st).2.former = f ∧ (fin c f st).2.tables = h.tables ∧
        (fin c f st).2.cells false fn.mtype = (if fn.first = true then st.cells else h.cells false fn.mtype)) ∧
      dispatch lib fn flags h =
        match dispatchAux (Handle.modeOf fn) [⟨.module, some (modsOf lib fn flags path args), onCodes (classicActions .required), 0⟩] none (envOf fn h) with
        | .ub => none
        | .done s st => some (fin s none st)
        | .incomplete d st => some (fin PAM_INCOMPLETE (some (fn, ⟨d, st.imp, st.status, st.subs⟩)) st) := by
  have h1 := one_tables hr hdir hsvc fn path args hl hn
  have hmods : linker lib fn flags path args = some (modsOf lib fn flags path args) := by
    obtain ⟨f, hfm⟩ := Option.isSome_iff_exists.mp hmod
    unfold linker modsOf
    rw [hfm]; rfl
  have hlink : [lineEntry path args].map (link (linker lib fn flags)) =
      [⟨.module, some (modsOf lib fn flags path args), onCodes (classicActions .required), 0⟩] := by
    unfold link lineEntry
    simp only [List.map_cons, List.map_nil, hmods, Option.bind_some]
  have hload : load lib h = (true, h) := by unfold load; rw [if_pos hr.loaded]
  have hempty : (h.tables.conf.get fn).isEmpty = false := by rw [h1]; rfl
  have hside : (h.tables.side false).get fn = [lineEntry path args] := h1
  refine ⟨fun code former st => (code, { h with
      m := { st.world with
        s := { st.world.s with inner := { st.world.s.inner with caller := .app } }
        hist := st.world.hist ++ [.pass ⟨fn, flags, false, code, st.trace⟩] }
      cells := fun o t => if o = false ∧ t = fn.mtype ∧ fn.first then st.cells else h.cells o t
      grant := fun o g => if o = false ∧ g = fn then st.grant else h.grant o g
      former := former }), ?_, ?_⟩
  · intro c f st
    refine ⟨rfl, rfl, rfl, rfl, ?_⟩
    dsimp only
    cases fn.first <;> simp
  · unfold dispatch
    rw [if_neg (by rw [hr.app]; decide), hload]
    simp only [hr.idle, if_true]
    unfold runStack
    simp only [hempty, Option.isSome_none, Bool.false_eq_true, if_false]
    rw [hside, hlink]
    rfl

theorem fate_eq {lib : Lib W} {svc : Str} {h : Handle W} (hr : Ready lib svc h) (hdir : lib.sys.confdir.isSome ∨ lib.sys.haveDir)
    (hsvc : ieq svc otherName = false) (fn : Fn) (path : Str) (args : List Str)
    (hl : fileLinesOf lib.sys svc fn.mtype = some [⟨.required, path, args⟩]) (hn : nameOk (some path) = true) (c : Int) :
    (cachedRetval (Handle.modeOf fn) 0 c (freshSt (envOf fn h))).1 = fateOf fn h c ∧
      (fn.first = true → (cachedRetval (Handle.modeOf fn) 0 c (freshSt (envOf fn h))).2.cells 0 = c) := by
  have h1f : h.tables.conf.get (firstOf fn) = [lineEntry path args] := by
    cases fn <;> exact one_tables hr hdir hsvc _ path args hl hn
  unfold fateOf cachedRetval freshSt envOf
  cases hm : fn.first with
  | true =>
    have : Handle.modeOf fn = .pleaseFreeze := by cases fn <;> first | rfl | cases hm
    rw [this]
    exact ⟨rfl, fun _ => by simp [upd]⟩
  | false =>
    have : Handle.modeOf fn = .mayBeFrozen := by cases fn <;> first | rfl | cases hm
    simp only [this, Bool.false_eq_true, if_false]
    rw [show (h.tables.side false).get (firstOf fn) = _ from h1f, firstPos_zero args hn]
    exact ⟨rfl, fun h => h.elim⟩

/-- a call of an interface function, the first or the second of its type, on a handle whose stack has one required line -/
theorem dispatch_one {lib : Lib W} {svc : Str} {h : Handle W} (hr : Ready lib svc h) (hdir : lib.sys.confdir.isSome ∨ lib.sys.haveDir)
    (hsvc : ieq svc otherName = false) (fn : Fn) (path : Str) (args : List Str)
    (hl : fileLinesOf lib.sys svc fn.mtype = some [⟨.required, path, args⟩]) (hn : nameOk (some path) = true)
    (hmod : (lib.modules fn path).isSome) (flags : Nat) (h0 : (modsOf lib fn flags path args (entered fn h)).1 ≠ PAM_INCOMPLETE) :
    ∃ h', dispatch lib fn flags h = some (frozen (fateOf fn h (modsOf lib fn flags path args (entered fn h)).1)
        (modsOf lib fn flags path args (entered fn h)).1, h') ∧
      h'.m.s = left (modsOf lib fn flags path args (entered fn h)).2 ∧ h'.former = none ∧ h'.tables = h.tables ∧
      h'.cells false fn.mtype 0 = (if fn.first = true then (modsOf lib fn flags path args (entered fn h)).1 else h.cells false fn.mtype 0) := by
  obtain ⟨st, k1, k2, k3⟩ := one_walk (Handle.modeOf fn) (modsOf lib fn flags path args) (envOf fn h) h0
  obtain ⟨fin, f1, f2⟩ := dispatch_aux hr hdir hsvc fn path args hl hn hmod flags
  obtain ⟨e1, e2⟩ := fate_eq hr hdir hsvc fn path args hl hn (modsOf lib fn flags path args (entered fn h)).1
  rw [k1] at f2
  obtain ⟨g1, g2, g3, g4, g5⟩ := f1 (frozen (cachedRetval (Handle.modeOf fn) 0 (modsOf lib fn flags path args (envOf fn h).world).1 (freshSt (envOf fn h))).1
    (modsOf lib fn flags path args (envOf fn h).world).1) none st
  refine ⟨_, f2.trans (congrArg some (Prod.ext ?_ rfl)), by rw [g2, k2]; rfl, g3, g4, ?_⟩
  · dsimp only
    rw [g1, ← e1]; rfl
  · rw [g5]
    cases hm : fn.first with
    | false => rfl
    | true =>
      simp only [if_true]
      rw [k3]; exact e2 hm

/-- what pam_authenticate leaves behind for pam_setcred -/
theorem authenticate_cell {lib : Lib W} {svc : Str} {h : Handle W} (hr : Ready lib svc h) (hdir : lib.sys.confdir.isSome ∨ lib.sys.haveDir)
    (hsvc : ieq svc otherName = false) (path : Str) (args : List Str)
    (hl : fileLinesOf lib.sys svc .auth = some [⟨.required, path, args⟩]) (hn : nameOk (some path) = true)
    (hmod : (lib.modules .authenticate path).isSome) {flags : Nat} {a : Int} {h' : Handle W}
    (ha : run lib .authenticate flags h = some (a, h')) (hi : a ≠ PAM_INCOMPLETE) :
    a = frozen (h'.cells false .auth 0) (h'.cells false .auth 0) := by
  have hb : Ready lib svc (begin false h) := by
    unfold begin
    rw [hr.idle]
    unfold Handle.onInner
    exact ⟨hr.loaded, hr.tables, hr.idle, hr.app⟩
  have hrun : run lib .authenticate flags h = authenticate lib flags h := by
    unfold run refused
    rw [if_neg (by rw [hr.app]; decide)]
  rw [hrun] at ha
  unfold authenticate at ha
  by_cases h0 : (modsOf lib .authenticate flags path args (entered .authenticate (begin false h))).1 = PAM_INCOMPLETE
  · obtain ⟨d, st, k1⟩ := one_incomplete (Handle.modeOf .authenticate) (modsOf lib .authenticate flags path args) (envOf .authenticate (begin false h)) h0
    obtain ⟨fin, f1, f2⟩ := dispatch_aux hb hdir hsvc .authenticate path args hl hn hmod flags
    rw [k1] at f2
    rw [f2] at ha
    simp only [Option.map_some, (f1 _ _ _).1, ne_eq, not_true_eq_false, if_false, Option.some.injEq] at ha
    have e1 := congrArg Prod.fst ha
    rw [(f1 _ _ _).1] at e1
    exact absurd e1.symm hi
  · obtain ⟨h1, d1, d2, d3, d4, d5⟩ := dispatch_one hb hdir hsvc .authenticate path args hl hn hmod flags h0
    rw [d1] at ha
    have d5' : h1.cells false .auth 0 = (modsOf lib .authenticate flags path args (entered .authenticate (begin false h))).1 := d5
    have e0 : fateOf .authenticate (begin false h) (modsOf lib .authenticate flags path args (entered .authenticate (begin false h))).1 =
        (modsOf lib .authenticate flags path args (entered .authenticate (begin false h))).1 := rfl
    rw [e0, ← d5'] at ha
    have e := Option.some.inj ha
    dsimp only at e
    by_cases hx : frozen (h1.cells false .auth 0) (h1.cells false .auth 0) ≠ PAM_INCOMPLETE
    · rw [if_pos hx] at e
      injection e with e1 e2
      subst e2
      exact e1.symm
    · rw [if_neg hx] at e
      injection e with e1 e2
      subst e2
      exact e1.symm

end Pam.Whole
