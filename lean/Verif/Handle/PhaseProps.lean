import Verif.Handle.Example
import Verif.Handle.PhaseInv
/-
Property theorems about whole operations: which modules are consulted (C09), the two phases of a
password change (C22), suspended operations (C24).  Vocabulary: PhaseSpec.lean.
-/
namespace Pam.Handle
open Pam.Config (Fn MType Tables Entry Sys Lists)
open Pam.Dispatch (Former)
open Spec

set_option linter.unusedSimpArgs false
set_option maxRecDepth 100000

variable {W : Type}

/-! ## C22 -/

/-- C22: in every history, every pass of a password change carries exactly one of PAM_PRELIM_CHECK
and PAM_UPDATE_AUTHTOK; a pass with PAM_UPDATE_AUTHTOK comes directly after a preliminary pass that
returned PAM_SUCCESS, or continues an updating pass that was suspended. -/
theorem C22_update_only_after_check {h : Handle W} (hr : Reach h) : EachPass UpdateChecked (passes h.m.hist) :=
  (phase_reach hr).checked

/-- C22: if the configuration never failed to load, the passes of password changes follow the order
`TwoPhase`: in particular the successful preliminary pass before an update is one pass over the
stack, interrupted only by suspensions of that same pass.  Missing from the full claim: handles on
which a reload of the configuration failed, where it is false (`C22_failed_reload_counterexample`);
and suspended passes resumed after a change of PAM_SERVICE, where the pass continues in another
stack. -/
theorem C22_two_phases_partial {h : Handle W} (hr : Reach h) (hl : h.loadFailed = false) :
    EachPass TwoPhase (passes h.m.hist) := ((phase_reach hr).strong hl).1

/-- The configuration could be loaded when the handle was made, but failed to load again while an
update was suspended: then the suspended update is resumed as a preliminary pass. -/
theorem C22_failed_reload_counterexample :
    ∃ h : Handle (List String), Reach h ∧ ¬ EachPass TwoPhase (passes h.m.hist) := by
  have hc : (Ex.session (Ex.lib "password required m update wait\npassword required m\n") ["wait"]
      [(Ex.lib "password required m update wait\npassword required m\n", .call (.run .chauthtok 0)),
       (Ex.lib "password required m update wait\npassword required m\n", .call (.setItem PAM_SERVICE (.str "x".toList) true true)),
       (Ex.badLib, .call (.run .chauthtok 0)),
       (Ex.lib "password required m update wait\npassword required m\n", .call (.run .chauthtok 0))]).map (fun r => passes r.1.m.hist) =
      some [⟨.chauthtok, 16384, false, 0, [(0, 0), (1, 0)]⟩, ⟨.chauthtok, 8192, false, 31, []⟩,
        ⟨.chauthtok, 16384, true, 0, [(0, 0), (1, 0)]⟩, ⟨.chauthtok, 8192, false, 0, [(0, 0), (1, 0)]⟩] := by decide +kernel
  obtain ⟨r, _, hr, hp⟩ := Ex.session_spec hc
  refine ⟨r.1, hr, fun ht => ?_⟩
  rw [hp] at ht
  have := ht [⟨.chauthtok, 16384, false, 0, [(0, 0), (1, 0)]⟩, ⟨.chauthtok, 8192, false, 31, []⟩]
    ⟨.chauthtok, 16384, true, 0, [(0, 0), (1, 0)]⟩ [⟨.chauthtok, 8192, false, 0, [(0, 0), (1, 0)]⟩] rfl rfl
  rcases this with ⟨_, h⟩ | ⟨_, _, q, h1, h2, _⟩ | ⟨h, _⟩ | ⟨h, _⟩
  · exact absurd h (by decide)
  · simp only [List.getLast?_cons_cons, List.getLast?_singleton, Option.some.injEq] at h1
    rw [← h1] at h2
    exact absurd h2.2.1 (by decide)
  · exact absurd h.2.1 (by decide)
  · exact absurd h.2.1 (by decide)

/-- C22: an application that passes PAM_PRELIM_CHECK or PAM_UPDATE_AUTHTOK is refused and nothing
happens. -/
theorem C22_application_flags_refused (lib : Lib W) (flags : Nat) (h : Handle W)
    (hf : flags.testBit 14 = true ∨ flags.testBit 13 = true) :
    run lib .chauthtok flags h = some (PAM_SYSTEM_ERR, h) := by
  have : refused h.inner (.run .chauthtok flags) = some PAM_SYSTEM_ERR := by
    simp only [refused]
    split
    · rfl
    · first | rfl | rw [if_pos (by simpa using hf)]
  simp only [run, this]

/-- C22: the flags recorded for a pass are those its modules get: what the modules do with other
flags makes no difference. -/
theorem C22_modules_get_the_flags (lib lib' : Lib W) (fn : Fn) (flags : Nat) (h : Handle W) (hcv : lib'.conv = lib.conv)
    (hsys : lib'.sys = lib.sys)
    (hmod : ∀ path argv, (lib'.modules fn path).map (fun p => p flags argv) = (lib.modules fn path).map (fun p => p flags argv)) :
    dispatch lib' fn flags h = dispatch lib fn flags h := by
  have hlink : linker lib' fn flags = linker lib fn flags := by
    funext path argv
    have := hmod path argv
    have hcall : ∀ prog : Prog W, callProg lib' prog argv = callProg lib prog argv := by
      intro p; funext m; simp only [callProg, hcv]
    simp only [linker]
    cases h1 : lib'.modules fn path <;> cases h2 : lib.modules fn path <;> rw [h1, h2] at this <;>
      simp only [Option.map_some, Option.map_none, Option.some.injEq, reduceCtorEq] at this ⊢
    rw [this, hcall]
  have hrs : ∀ f x, runStack lib' fn flags f x = runStack lib fn flags f x := by
    intro f x; simp only [runStack, hlink]
  have hload : ∀ x : Handle W, load lib' x = load lib x := by intro x; simp only [load, hsys]
  simp only [dispatch, hload, hrs]

/-- witness: a password change interrupted in both phases -/
example : ∃ r, Ex.calls "password required m wait\npassword required m update wait\n" ["wait"]
      [.run .chauthtok 0, .run .chauthtok 0] = some r ∧ Reach r.1 ∧
    (r.1.loadFailed, r.2.map Ans.code, (passes r.1.m.hist).map (fun p => (p.flags, p.resumed, p.code))) =
      (false, [PAM_INCOMPLETE, PAM_SUCCESS], [(16384, false, 31), (16384, true, 0), (8192, false, 0)]) :=
  Ex.calls_spec (by decide +kernel)

/-! ## C24 -/

/-- C24: while one operation is suspended, any other returns PAM_ABORT; no module is called, the
conversation function is not called, and the suspended walk is kept. -/
theorem C24_other_operation_aborts (lib : Lib W) (fn g : Fn) (flags : Nat) (f : Former) (h : Handle W)
    (hc : h.inner.caller = .app) (hf : h.former = some (g, f)) (hne : fn ≠ g)
    (hr : refused h.inner (.run fn flags) = none) :
    ∃ h', run lib fn flags h = some (PAM_ABORT, h') ∧ h'.former = some (g, f) ∧
      passes h'.m.hist = passes h.m.hist ∧ h'.m.s.world = h.m.s.world ∧ h'.m.s.talk = h.m.s.talk := by
  have hd : ∀ (fl : Nat) (x : Handle W), x.inner.caller = .app → x.former = some (g, f) →
      dispatch lib fn fl x = some (PAM_ABORT, (load lib x).2) := by
    intro fl x hxc hxf
    unfold dispatch
    rw [if_neg (by rw [hxc]; decide)]
    have hl := (load_more lib x).2.1
    generalize load lib x = l at hl
    obtain ⟨ok, y⟩ := l
    simp only at hl ⊢
    rw [hl, hxf]
    simp only
    rw [if_neg (Ne.symm hne)]
    split <;> rfl
  have hlm : ∀ x : Handle W, (load lib x).2.m.s.world = x.m.s.world ∧ (load lib x).2.m.s.talk = x.m.s.talk := by
    intro x
    rcases load_m lib x with e | e <;> rw [e] <;> exact ⟨rfl, rfl⟩
  have hb : ∀ b, begin b h = h := by intro b; unfold begin; rw [hf]
  have key : ∃ h', dispatch lib fn flags h = some (PAM_ABORT, h') ∧ h'.former = some (g, f) ∧
      passes h'.m.hist = passes h.m.hist ∧ h'.m.s.world = h.m.s.world ∧ h'.m.s.talk = h.m.s.talk :=
    ⟨_, hd flags h hc hf, by rw [(load_more lib h).2.1, hf], by rw [(load_more lib h).1], (hlm h).1, (hlm h).2⟩
  unfold run
  rw [hr]
  cases fn
  case authenticate =>
    obtain ⟨h', k1, k2, k3, k4, k5⟩ := key
    refine ⟨await PAM_ABORT (h'.onInner sanitize), ?_, k2, ?_, k4, k5⟩
    · simp only [authenticate, hb, k1, Option.map_some]
      rw [if_pos (by decide)]
    · rw [await_passes]; exact k3
  case setcred =>
    exact ⟨_, hd _ h hc hf, by rw [(load_more lib h).2.1, hf], by rw [(load_more lib h).1], (hlm h).1, (hlm h).2⟩
  case chauthtok =>
    have hend : ∀ x : Handle W, x.former = some (g, f) → passes x.m.hist = passes h.m.hist → x.m.s.world = h.m.s.world →
        x.m.s.talk = h.m.s.talk →
        ∃ h', some (chauthtokEnd (PAM_ABORT, x)) = some (PAM_ABORT, h') ∧ h'.former = some (g, f) ∧
          passes h'.m.hist = passes h.m.hist ∧ h'.m.s.world = h.m.s.world ∧ h'.m.s.talk = h.m.s.talk := by
      intro x x1 x2 x3 x4
      refine ⟨await PAM_ABORT { x.onInner sanitize with update := false }, ?_, x1, by rw [await_passes]; exact x2, x3, x4⟩
      unfold chauthtokEnd
      rw [if_pos (show (PAM_ABORT : Int) ≠ PAM_INCOMPLETE by decide)]
    simp only [chauthtok, hb, updatePass]
    split
    · rw [hd _ { h with update := true } hc hf, Option.map_some]
      exact hend _ (by rw [(load_more lib _).2.1]; exact hf) (by rw [(load_more lib _).1]) (hlm _).1 (hlm _).2
    · rw [hd _ h hc hf]
      simp only
      rw [if_neg (by decide)]
      exact hend _ (by rw [(load_more lib _).2.1]; exact hf) (by rw [(load_more lib _).1]) (hlm _).1 (hlm _).2
  all_goals exact key

/-- C24: with the configuration loaded, the refused operation leaves the handle exactly as it was,
so that resuming gives the same as before; except that a refused pam_authenticate or pam_chauthtok
wipes the tokens, ends the delay requests (`await`), and clears the phase of a password change
that is not the suspended operation. -/
theorem C24_suspended_operation_kept (lib : Lib W) (fn g : Fn) (flags : Nat) (f : Former) (h : Handle W)
    (hc : h.inner.caller = .app) (hl : h.inner.loaded = true) (hf : h.former = some (g, f)) (hne : fn ≠ g)
    (hr : refused h.inner (.run fn flags) = none) :
    run lib fn flags h = some (PAM_ABORT,
      if fn = .authenticate then await PAM_ABORT (h.onInner sanitize)
      else if fn = .chauthtok then await PAM_ABORT { h.onInner sanitize with update := false }
      else h) := by
  have hd : ∀ (fl : Nat) (x : Handle W), x.inner.caller = .app → x.inner.loaded = true → x.former = some (g, f) →
      dispatch lib fn fl x = some (PAM_ABORT, x) := by
    intro fl x hxc hxl hxf
    unfold dispatch
    rw [if_neg (by rw [hxc]; decide)]
    have : load lib x = (true, x) := by unfold load; rw [if_pos hxl]
    rw [this]
    simp only [if_true, hxf]
    rw [if_neg (Ne.symm hne)]
  have hb : ∀ b, begin b h = h := by intro b; unfold begin; rw [hf]
  unfold run
  rw [hr]
  cases fn
  case authenticate =>
    simp only [authenticate, hb, hd _ h hc hl hf, Option.map_some]
    rw [if_pos (by decide), if_pos trivial]
  case chauthtok =>
    simp only [chauthtok, hb, updatePass]
    rw [if_neg (show ¬ Fn.chauthtok = Fn.authenticate by decide), if_pos trivial]
    split
    · rw [hd _ { h with update := true } hc hl hf, Option.map_some]
      unfold chauthtokEnd
      rw [if_pos (show (PAM_ABORT : Int) ≠ PAM_INCOMPLETE by decide)]; rfl
    · rw [hd _ h hc hl hf]
      simp only
      rw [if_neg (by decide)]
      unfold chauthtokEnd
      rw [if_pos (show (PAM_ABORT : Int) ≠ PAM_INCOMPLETE by decide)]
  all_goals
    simp only [reduceCtorEq, if_false]
    exact hd _ h hc hl hf

/-- C24: in every history a resumed pass continues a suspended pass of the same operation. -/
theorem C24_resumes_same_operation {h : Handle W} (hr : Reach h) : EachPass ResumesSame (passes h.m.hist) :=
  (phase_reach hr).same

/-- witness: pam_authenticate is suspended, pam_acct_mgmt and pam_chauthtok are refused, then it is resumed -/
example : ∃ r, Ex.calls "auth required m wait\naccount required m\n" ["wait"]
      [.run .authenticate 0, .run .acctMgmt 0, .run .chauthtok 0, .run .authenticate 0, .run .acctMgmt 0] = some r ∧ Reach r.1 ∧
    (r.2.map Ans.code, (passes r.1.m.hist).map (fun p => (p.fn, p.resumed))) =
      ([PAM_INCOMPLETE, PAM_ABORT, PAM_ABORT, PAM_SUCCESS, PAM_SUCCESS],
       [(.authenticate, false), (.authenticate, true), (.acctMgmt, false)]) :=
  Ex.calls_spec (by decide +kernel)

/-! ## C09 -/

/-- C09: if neither the service nor `other` lists a module of the type, the operation is denied and
no module is called: the pass made has an empty trace and neither world nor conversation change. -/
theorem C09_no_modules_denied (lib : Lib W) (fn : Fn) (flags : Nat) (h : Handle W) (hc : h.inner.caller = .app)
    (hl : h.inner.loaded = true) (hf : h.former = none) (h1 : h.tables.conf.get fn = []) (h2 : h.tables.other.get fn = []) :
    ∃ h', dispatch lib fn flags h = some (PAM_PERM_DENIED, h') ∧ h'.former = none ∧
      passes h'.m.hist = passes h.m.hist ++ [⟨fn, flags, false, PAM_PERM_DENIED, []⟩] ∧
      h'.m.s.world = h.m.s.world ∧ h'.m.s.talk = h.m.s.talk := by
  unfold dispatch
  rw [if_neg (by rw [hc]; decide)]
  have : load lib h = (true, h) := by unfold load; rw [if_pos hl]
  rw [this]
  simp only [if_true, hf]
  have hs : (h.tables.side true).get fn = [] := h2
  simp only [runStack, h1, List.isEmpty_nil, hs, List.map_nil, Dispatch.dispatchAux]
  refine ⟨_, rfl, rfl, ?_, rfl, rfl⟩
  rw [passes_snoc]; rfl

/-- C09: if the service lists a module of the operation's type, `other` makes no difference. -/
theorem C09_other_ignored (lib : Lib W) (fn : Fn) (flags : Nat) (h : Handle W) (other' : Lists)
    (hl : h.inner.loaded = true) (h1 : h.tables.conf.get fn ≠ []) :
    dispatch lib fn flags { h with tables := { h.tables with other := other' } } =
      (dispatch lib fn flags h).map (fun r => (r.1, { r.2 with tables := { r.2.tables with other := other' } })) := by
  have he : (h.tables.conf.get fn).isEmpty = false := by simpa using h1
  have hload : ∀ x : Handle W, x.inner.loaded = true → load lib x = (true, x) := by
    intro x hx; unfold load; rw [if_pos hx]
  have hrs : ∀ f, runStack lib fn flags f { h with tables := { h.tables with other := other' } } =
      (runStack lib fn flags f h).map (fun r => (r.1, { r.2 with tables := { r.2.tables with other := other' } })) := by
    intro f
    simp only [runStack, he, Tables.side, Handle.inner, Bool.false_eq_true, if_false]
    generalize Dispatch.dispatchAux _ _ _ _ = o
    cases o <;> rfl
  unfold dispatch
  rw [hload h hl, hload { h with tables := { h.tables with other := other' } } hl]
  by_cases hm : h.inner.caller = .module
  · rw [if_pos hm, if_pos (by exact hm)]; rfl
  · rw [if_neg hm, if_neg (by exact hm)]
    simp only [if_true]
    cases hfm : h.former with
    | none => exact hrs none
    | some gf =>
      obtain ⟨g, f⟩ := gf
      simp only
      split
      · have := hrs (some f)
        rw [hfm] at this
        exact this
      · rw [← hfm]; rfl

/-- What a handle would be whose service listed the modules that `h` has in `other`.  `conf`: what
is done with the service's own lists. -/
def asService (conf : Lists) (h : Handle W) : Handle W :=
  { h with tables := { conf := h.tables.other, other := conf }, cells := fun o => h.cells (!o), grant := fun o => h.grant (!o) }

/-- C09: if the service lists no module of the operation's type, the operation does exactly what it
would do if the service consisted of the lines of `other`: same result, same effect on everything.
Whatever else the service lists (`conf`) makes no difference. -/
theorem C09_other_used (lib : Lib W) (fn : Fn) (flags : Nat) (h : Handle W) (conf : Lists)
    (hl : h.inner.loaded = true) (h1 : h.tables.conf.get fn = []) (h2 : h.tables.other.get fn ≠ []) :
    dispatch lib fn flags (asService conf h) = (dispatch lib fn flags h).map (fun r => (r.1, asService conf r.2)) := by
  have he : (h.tables.conf.get fn).isEmpty = true := by simpa using h1
  have he2 : (h.tables.other.get fn).isEmpty = false := by simpa using h2
  have hload : ∀ x : Handle W, x.inner.loaded = true → load lib x = (true, x) := by
    intro x hx; unfold load; rw [if_pos hx]
  have hrs : ∀ f, runStack lib fn flags f (asService conf h) =
      (runStack lib fn flags f h).map (fun r => (r.1, asService conf r.2)) := by
    intro f
    simp only [runStack, asService, he, he2, Tables.side, Handle.inner, Bool.not_false, Bool.false_eq_true, if_false, if_true]
    generalize Dispatch.dispatchAux _ _ _ _ = o
    cases o
    case ub => rfl
    all_goals
      simp only [Option.map_some, Option.some.injEq, Prod.mk.injEq, true_and, Handle.mk.injEq, and_true]
      constructor
      · funext o t; cases o <;> simp
      · funext o t; cases o <;> simp
  unfold dispatch
  rw [hload h hl, hload (asService conf h) hl]
  by_cases hm : h.inner.caller = .module
  · rw [if_pos hm, if_pos (by exact hm)]; rfl
  · rw [if_neg hm, if_neg (by exact hm)]
    simp only [if_true]
    have : (asService conf h).former = h.former := rfl
    rw [this]
    cases hfm : h.former with
    | none => exact hrs none
    | some gf =>
      obtain ⟨g, f⟩ := gf
      simp only
      split
      · exact hrs (some f)
      · rfl

/-- witness: a service with account lines only; authentication is decided by `other`, session by nobody -/
example : ∃ r, Ex.session (Ex.lib "account required m\n" "auth required m fail\naccount required m fail\n") []
      ([.run .acctMgmt 0, .run .authenticate 0, .run .openSession 0].map
        (fun o => (Ex.lib "account required m\n" "auth required m fail\naccount required m fail\n", .call o))) = some r ∧ Reach r.1 ∧
    ((r.1.tables.conf.get .acctMgmt).length, (r.1.tables.conf.get .authenticate).length, (r.1.tables.other.get .authenticate).length,
      (r.1.tables.other.get .openSession).length, r.2.map Ans.code) = (1, 0, 1, 0, [0, 7, 6]) :=
  Ex.session_spec (by decide +kernel)

end Pam.Handle
