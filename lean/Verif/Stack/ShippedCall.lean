import Verif.Stack.ShippedRows
import Verif.Stack.SuProps
import Verif.Small.ListfileProps
import Verif.Small.SecurettyProps
import Verif.Small.NologinProps
/-
Calls with the configuration file that comes with Linux-PAM are walks along its lines.
-/
namespace Pam.Stack
open Pam Pam.Config Pam.Config.Spec
open Pam.Dispatch (Flag)
open Pam.Dispatch.Spec (Verdict)
open Pam.Small (Accounts Invoker TheGroup Agrees Belongs)

/-! ### The lines -/

theorem confRows_shipped (f : Str → Bool) : confRows f shipped =
    (shippedRows.map (fun r => r.map String.toList)).filterMap (fun ws => if ws.head?.any f then some (ws.drop 1) else none) := by
  unfold confRows
  rw [← shipped_rows, List.filterMap_map]
  rfl

/-- the lines of a service in the shipped file -/
def shippedOwn (svc : String) (ty : MType) : Option (List Line) :=
  linesOf ty ((shippedRows.map (fun r => r.map String.toList)).filterMap
    (fun ws => if ws.head?.any (fun w => ieq w svc.toList && !ieq w otherName) then some (ws.drop 1) else none))

/-- the lines for the other services -/
def shippedOther (ty : MType) : Option (List Line) :=
  linesOf ty ((shippedRows.map (fun r => r.map String.toList)).filterMap
    (fun ws => if ws.head?.any (fun w => ieq w otherName) then some (ws.drop 1) else none))

theorem shippedOther_eq : shippedOther .auth = some [must "pam_deny.so", must "pam_warn.so"] ∧
    shippedOther .acct = some [must "pam_deny.so"] ∧ shippedOther .pass = some [must "pam_deny.so", must "pam_warn.so"] ∧
    shippedOther .sess = some [must "pam_deny.so"] := by decide +kernel

/-- the system has the shipped file, and no /etc/pam.d -/
structure HasShipped (sys : Sys) : Prop where
  nodir : ¬ (sys.confdir.isSome ∨ sys.haveDir)
  file : sys.fs pamConf = some shipped

/-! ### Answers -/

/-- a code of PAM that does not ask for something more -/
def Settled (r : Int) : Prop := ¬ Foreign r ∧ r ≠ PAM_NEW_AUTHTOK_REQD ∧ r ≠ PAM_INCOMPLETE

instance (r : Int) : Decidable (Settled r) := by unfold Settled; infer_instance

theorem settled_ite {p : Prop} [Decidable p] {x y : Int} (hx : Settled x) (hy : Settled y) : Settled (if p then x else y) := by
  split <;> assumption

theorem settled_wheel (a : Accounts) (c : Small.WheelCall) (args : List Str) : Settled (Small.wheel a c args) := by
  unfold Small.wheel Small.wheelCheck
  apply settled_ite (by decide)
  split
  · decide
  · apply settled_ite (by decide)
    split
    · decide
    · split
      · exact settled_ite (by decide) (by decide)
      · exact settled_ite (settled_ite (by decide) (settled_ite (by decide) (by decide))) (settled_ite (settled_ite (by decide) (by decide)) (by decide))

theorem settled_rootok (uid : Nat) (s : Option Bool) : Settled (Small.rootok uid s) := by
  rcases (Small.C88_rootok uid s).2 with m | m <;> rw [m] <;> decide

theorem settled_shells (a : Accounts) (c : Small.ShellsCall) : Settled (Small.shells a c) := by
  by_cases h : Small.shells a c = PAM_SUCCESS
  · rw [h]; decide
  · rcases Small.C86_codes a c h with ⟨-, e⟩ | ⟨-, -, e⟩ | ⟨-, -, -, -, e⟩ | ⟨-, -, e⟩ <;> rw [e] <;> decide

theorem settled_securetty (a : Accounts) (c : Small.TtyCall) (hu : c.user.1 = PAM_SUCCESS) (args : List Str) :
    Settled ((Small.securettyArgs a c args).getD PAM_ABORT) := by
  have key : ∀ (p : Prop) [Decidable p] (x y : Option Int), Settled (x.getD PAM_ABORT) → Settled (y.getD PAM_ABORT) →
      Settled ((if p then x else y).getD PAM_ABORT) := by
    intro p _ x y hx hy; split <;> assumption
  unfold Small.securettyArgs Small.securetty
  rw [if_neg (fun h => h hu)]
  dsimp only
  apply key _ _ _ (by decide)
  split
  · apply key _ _ _ (by decide)
    split
    · decide
    · apply key _ _ _ (by decide)
      split
      · decide
      · apply key _ _ _ (by decide)
        have ht : ∀ b, Settled ((some (Small.ttyDenied b)).getD PAM_ABORT) := by intro b; cases b <;> decide
        apply key _ _ _ (ht _)
        split
        · decide
        · decide
        · exact key _ _ _ (by decide) (ht _)
  · decide

theorem settled_nologin (a : Accounts) (c : Small.NologinCall) (args : List Str) : Settled (Small.nologin a c args).1 := by
  have hq : Settled (args.foldl Small.nologinArg {}).nofile := by
    have := Small.nologin_nofile args
    unfold Small.nologinSetcred at this
    rw [this]
    unfold Small.quietAnswer
    exact settled_ite (by decide) (by decide)
  have key : ∀ (p : Prop) [Decidable p] (x y : Int × Option (Small.Style × Str)), Settled x.1 → Settled y.1 → Settled (if p then x else y).1 := by
    intro p _ x y hx hy; split <;> assumption
  unfold Small.nologin Small.nologinCheck
  apply key _ _ _ (by decide)
  dsimp only
  split
  · exact hq
  · next f _ =>
    have hret : Settled (match a.pwnam c.user.2 with
        | none => (PAM_USER_UNKNOWN, Small.Style.error)
        | some u => if u.uid ≠ 0 then (PAM_AUTH_ERR, Small.Style.error) else ((args.foldl Small.nologinArg {}).nofile, Small.Style.info)).1 := by
      split
      · decide
      · split
        · decide
        · exact hq
    split
    · exact hret
    · apply key _ _ _ (by decide)
      apply key
      · apply key _ _ _ (by decide)
        apply key _ _ _ (by decide)
        split
        · decide
        · exact key _ _ _ hret (by decide)
      · exact hret

theorem settled_listfile (a : Accounts) (c : Small.LCall) (args : List Str) : Settled (Small.listfile a c args) := by
  obtain ⟨h1, h2, -⟩ := Small.errors_inv True args {} (fun _ => trivial) (Or.inl rfl) nofun
  have g1 : ∀ r, (r = PAM_SERVICE_ERR ∨ (r = PAM_SUCCESS ∧ True)) → Settled r := by
    rintro r (rfl | ⟨rfl, -⟩) <;> decide
  have c1 : Settled (Small.complete (args.foldl Small.argStep {})).onerr ∧
      ∀ r, (Small.complete (args.foldl Small.argStep {})).retval = some r → Settled r := by
    generalize args.foldl Small.argStep {} = s at h1 h2
    have hf : ∀ s : Small.LState, Settled s.onerr ∧ (∀ r, s.retval = some r → Settled r) →
        Settled (s.fail s.onerr).onerr ∧ (∀ r, (s.fail s.onerr).retval = some r → Settled r) := by
      intro s hs
      unfold Small.LState.fail
      split
      · exact ⟨hs.1, fun r hr => by cases hr; exact hs.1⟩
      · exact hs
    have hi : ∀ (p : Prop) [Decidable p] (s : Small.LState), Settled s.onerr ∧ (∀ r, s.retval = some r → Settled r) →
        Settled (if p then s.fail s.onerr else s).onerr ∧ (∀ r, (if p then s.fail s.onerr else s).retval = some r → Settled r) := by
      intro p _ s hs
      split
      · exact hf s hs
      · exact hs
    unfold Small.complete
    exact hi _ _ (hi _ _ (hi _ _ (hi _ _ ⟨g1 _ h1, fun r hr => g1 r (h2 r hr)⟩)))
  unfold Small.listfile
  dsimp only
  generalize Small.complete (args.foldl Small.argStep {}) = s at c1
  have look : ∀ ci ext deny file v, Settled (Small.lookup a c ci ext s.onerr deny file v) := by
    intro ci ext deny file v
    unfold Small.lookup
    split
    · exact c1.1
    · split
      · exact c1.1
      · apply settled_ite (by decide)
        split
        · exact c1.1
        · exact settled_ite (by decide) (by decide)
  have hd : ∀ b : Bool, Settled (if b then PAM_SUCCESS else PAM_AUTH_ERR) := by intro b; cases b <;> decide
  split
  · next h => exact c1.2 _ h
  · apply settled_ite (by decide)
    apply settled_ite c1.1
    split
    · exact settled_ite (hd _) (look _ _ _ _ _)
    · exact settled_ite (settled_ite (by decide) (settled_ite (hd _) (look _ _ _ _ _))) (hd _)
  · exact c1.1

theorem settled_answer (c : Scene) (fn : Fn) (hu : Settled c.unix) (hr : ∀ p a, Settled (c.rest p a)) (p : Str) (a : List Str) :
    Settled (c.answer fn p a) := by
  unfold Scene.answer
  apply settled_ite hu
  apply settled_ite (by cases fn <;> decide)
  apply settled_ite (by decide)
  apply settled_ite (settled_wheel _ _ _)
  apply settled_ite (settled_rootok _ _)
  apply settled_ite (settled_listfile _ _ _)
  apply settled_ite (settled_nologin _ _ _)
  apply settled_ite (settled_shells _ _)
  apply settled_ite (settled_securetty _ _ rfl _)
  exact settled_ite (hr _ _) (by decide)

/-! ### A call is a walk along the lines -/

theorem call_own (c : Scene) (sys : Sys) (hs : HasShipped sys) (svc : String) (T : Tables) (hT : initHandlers sys svc.toList = some T)
    (fn : Fn) (hf : fn.first = true) (hu : Settled c.unix) (hr : ∀ p a, Settled (c.rest p a)) (own : List Line)
    (ho : shippedOwn svc fn.mtype = some own) (hne : own ≠ []) :
    c.call sys svc.toList fn = some ((walk (traced (c.answer fn)) own .none []).1.code, (walk (traced (c.answer fn)) own .none []).2) := by
  have h := pass_conf sys svc.toList shipped T fn (traced (c.answer fn)) (fun p a _ => (settled_answer c fn hu hr p a).2.2) [] hs.nodir hs.file hT hf
    own [] (by unfold confLinesOf; rw [confRows_shipped]; exact ho) (fun h => absurd h hne)
  unfold Scene.call
  rw [h, if_neg hne]

theorem call_other (c : Scene) (sys : Sys) (hs : HasShipped sys) (svc : Str) (T : Tables) (hT : initHandlers sys svc = some T)
    (fn : Fn) (hf : fn.first = true) (hu : Settled c.unix) (hr : ∀ p a, Settled (c.rest p a))
    (ho : confLinesOf (fun w => ieq w svc && !ieq w otherName) shipped fn.mtype = some []) :
    c.call sys svc fn = some (refusal fn, if fn = .authenticate ∨ fn = .chauthtok then ["pam_deny.so".toList, "pam_warn.so".toList]
      else ["pam_deny.so".toList]) := by
  obtain ⟨l1, l2, l3, l4⟩ := shippedOther_eq
  have hl : ∀ ls, shippedOther fn.mtype = some ls → c.call sys svc fn =
      some ((walk (traced (c.answer fn)) ls .none []).1.code, (walk (traced (c.answer fn)) ls .none []).2) := by
    intro ls h
    unfold Scene.call
    rw [pass_conf sys svc shipped T fn (traced (c.answer fn)) (fun p a _ => (settled_answer c fn hu hr p a).2.2) [] hs.nodir hs.file hT hf
      [] ls ho (fun _ => by unfold confLinesOf; rw [confRows_shipped]; exact h), if_pos rfl]
  have a1 : ∀ w, traced (c.answer fn) "pam_deny.so".toList [] w = (Simple.deny (denyFn fn), w ++ ["pam_deny.so".toList]) := by
    intro w; unfold traced Scene.answer; rw [if_neg (by decide), if_pos rfl]
  have a2 : ∀ w, traced (c.answer fn) "pam_warn.so".toList [] w = (PAM_IGNORE, w ++ ["pam_warn.so".toList]) := by
    intro w; unfold traced Scene.answer; rw [if_neg (by decide), if_neg (by decide), if_pos rfl]
  cases fn with
  | authenticate => rw [hl _ l1]; simp only [walk, a1, a2]; rfl
  | acctMgmt => rw [hl _ l2]; simp only [walk, a1]; rfl
  | chauthtok => rw [hl _ l3]; simp only [walk, a1, a2]; rfl
  | openSession => rw [hl _ l4]; simp only [walk, a1]; rfl
  | setcred => cases hf
  | closeSession => cases hf

end Pam.Stack
