import Verif.Handle.Example
import Verif.Handle.Mode
/-
Property theorems: who may see tokens, how long they live, and re-entrancy (C20, C21, C23).
-/
namespace Pam.Handle
open Pam.Config (Fn MType Tables Entry Sys)

set_option linter.unusedSimpArgs false
set_option maxRecDepth 100000

variable {W : Type}

/-! ## C23 -/

/-- C23: a dispatching function (or pam_end) called by a module gives PAM_SYSTEM_ERR and does
nothing: no module is called, handle and world stay as they are. -/
theorem C23_refused_from_modules (cv : Convs W) (op : Op) (m : M W) (hop : op.isRun = true)
    (hm : m.s.inner.caller = .module) :
    (step cv op m).1 = { code := PAM_SYSTEM_ERR } ∧ (step cv op m).2.s = m.s ∧
    (step cv op m).2.reentered = m.reentered := by
  have hr : refused m.s.inner op = some PAM_SYSTEM_ERR := by
    cases op <;> simp [Op.isRun] at hop
    case run fn fl => cases fn <;> simp [refused, hm]
    case pamEnd => simp [refused, hm]
  have he : effect cv op m.s = some ({ code := PAM_SYSTEM_ERR }, m.s) := by
    cases op <;> simp [Op.isRun] at hop
    all_goals simp [effect, hr]
  simp [step, he]

theorem reentered_closed : Closed (fun m : M W => m.reentered = false) where
  step := by
    intro cv op m h hp
    by_cases hr : op.isRun = true
    · rw [(C23_refused_from_modules cv op m hr (h.resolve_right (by simp [hr]))).2.2]; exact hp
    · unfold step
      split
      · exact hp
      · simp [hr, hp]
  world := fun _ _ h => h
  args := fun _ _ h => h
  caller := fun _ _ h => h
  choice := fun _ _ h => h
  loaded := fun _ h => h
  sanitize := fun _ h => h
  await := fun _ _ h => h
  pass := fun _ _ h => h

/-- C23: in every history of every application with any modules, no module ever gets into the
dispatcher, and whenever a call has returned to the application the handle is in application
mode. -/
theorem C23_never_reentered {h : Handle W} (hr : Reach h) : h.m.reentered = false ∧ h.inner.caller = .app := by
  exact ⟨reentered_closed.reach (fun _ _ _ _ => rfl) hr, reach_app hr⟩

/-- witness: a module calls pam_authenticate and gets PAM_SYSTEM_ERR; the stack goes on and succeeds -/
example : ∃ r, Ex.calls "auth required m user token reenter\n" ["joe", "pw"] [.run .authenticate 0] = some r ∧ Reach r.1 ∧
    (r.2.map Ans.code, r.1.m.hist.filterMap (fun
      | .call c (.run _ _) a _ => some (c, a.code)
      | _ => none)) = ([PAM_SUCCESS], [(Caller.module, PAM_SYSTEM_ERR)]) :=
  Ex.calls_spec (by decide +kernel)

/-! ## C20 -/

/-- C20: the application can neither read nor write a token. -/
theorem C20_tokens_refused (h : Inner) (hc : h.caller = .app) (item : Int)
    (hi : item = PAM_AUTHTOK ∨ item = PAM_OLDAUTHTOK) (v : Value) (ok ok2 : Bool) :
    getItem h item = (PAM_BAD_ITEM, .null) ∧ setItem h item v ok ok2 = (PAM_BAD_ITEM, h) := by
  have hc' : ¬ h.caller = .module := by rw [hc]; decide
  rcases hi with rfl | rfl
  · have e : Item.ofInt PAM_AUTHTOK = some .authtok := by decide
    simp only [getItem, setItem, e, readItem, putItem, if_neg hc', and_self]
  · have e : Item.ofInt PAM_OLDAUTHTOK = some .oldauthtok := by decide
    simp only [getItem, setItem, e, readItem, putItem, if_neg hc', and_self]

/-- replace both tokens -/
def Inner.tok (h : Inner) (a b : Option Str) : Inner := { h with authtok := a, oldauthtok := b }
/-- replace both tokens -/
def S.tok (m : S W) (a b : Option Str) : S W := { m with inner := m.inner.tok a b }

theorem storeStr_tok (h : Inner) (a b : Option Str) (v : Value) (ok : Bool) (set : Option Str → Inner) :
    storeStr (h.tok a b) v ok (fun s => (set s).tok a b) =
      ((storeStr h v ok set).1, (storeStr h v ok set).2.tok a b) := by
  unfold storeStr
  split
  · rfl
  · split <;> rfl

theorem setItem_tok (h : Inner) (hc : h.caller = .app) (a b : Option Str) (i : Int) (v : Value) (o1 o2 : Bool) :
    setItem (h.tok a b) i v o1 o2 = ((setItem h i v o1 o2).1, (setItem h i v o1 o2).2.tok a b) := by
  unfold setItem
  split
  · next it _ =>
    cases it
    case service => simp only [putItem]; split; (split <;> rfl); rfl
    case conv => simp only [putItem]; split; (split <;> rfl); rfl; rfl
    case failDelay => simp only [putItem]; split <;> rfl
    case xauth => simp only [putItem]; split; (split <;> rfl); rfl
    case authtok =>
      have hc' : ¬ h.caller = .module := by rw [hc]; decide
      have hc2 : ¬ (h.tok a b).caller = .module := hc'
      simp only [putItem, if_neg hc', if_neg hc2]
    case oldauthtok =>
      have hc' : ¬ h.caller = .module := by rw [hc]; decide
      have hc2 : ¬ (h.tok a b).caller = .module := hc'
      simp only [putItem, if_neg hc', if_neg hc2]
    all_goals (simp only [putItem, storeStr]; repeat' split) <;> rfl
  · rfl

theorem getItem_tok (h : Inner) (hc : h.caller = .app) (a b : Option Str) (i : Int) :
    getItem (h.tok a b) i = getItem h i := by
  unfold getItem
  split
  · next it _ =>
    have hc' : ¬ h.caller = .module := by rw [hc]; decide
    have hc2 : ¬ (h.tok a b).caller = .module := hc'
    cases it
    case authtok => simp only [readItem, if_neg hc', if_neg hc2]
    case oldauthtok => simp only [readItem, if_neg hc', if_neg hc2]
    all_goals rfl
  · rfl

theorem converse_tok (cv : Convs W) (s : Style) (msg : Str) (m : S W) (a b : Option Str) :
    converse cv s msg (m.tok a b) = ((converse cv s msg m).1, (converse cv s msg m).2.tok a b) := rfl

theorem promptFor_tok (cv : Convs W) (msg : Str) (ok : Bool) (m : S W) (a b : Option Str) :
    promptFor cv msg ok (m.tok a b) =
      ((promptFor cv msg ok m).1, (promptFor cv msg ok m).2.1, (promptFor cv msg ok m).2.2.tok a b) := by
  unfold promptFor
  split <;> rfl

theorem userReply_tok (use : Str) (o1 o2 : Bool) (r : Reply) (h : Inner) (hc : h.caller = .app) (a b : Option Str) :
    userReply use o1 o2 r (h.tok a b) =
      ((userReply use o1 o2 r h).1, (userReply use o1 o2 r h).2.1, (userReply use o1 o2 r h).2.2.tok a b) := by
  unfold userReply
  split
  · rfl
  · split
    · split
      · simp only [setItem_tok h hc]; rfl
      · rfl
    · rfl

theorem getUser_tok (cv : Convs W) (p : Option Str) (o1 o2 : Bool) (m : S W) (hc : m.inner.caller = .app) (a b : Option Str) :
    getUser cv p o1 o2 (m.tok a b) =
      ((getUser cv p o1 o2 m).1, (getUser cv p o1 o2 m).2.1, (getUser cv p o1 o2 m).2.2.tok a b) := by
  unfold getUser
  have e : (m.tok a b).inner = m.inner.tok a b := rfl
  simp only [e]
  simp only [show (m.inner.tok a b).user = m.inner.user from rfl, show (m.inner.tok a b).failUser = m.inner.failUser from rfl,
    show (m.inner.tok a b).wantUser = m.inner.wantUser from rfl, show (m.inner.tok a b).savedPrompt = m.inner.savedPrompt from rfl,
    show userPromptOf (m.inner.tok a b) p = userPromptOf m.inner p from rfl]
  split
  · rfl
  · split
    · rfl
    · split
      · rfl
      · simp only [converse_tok]
        have e2 : resumeUser (m.inner.tok a b) = (resumeUser m.inner).tok a b := by
          unfold resumeUser
          simp only [show (m.inner.tok a b).wantUser = m.inner.wantUser from rfl]
          split <;> rfl
        have hc2 : (resumeUser m.inner).caller = .app := by unfold resumeUser; split <;> exact hc
        rw [e2, userReply_tok _ _ _ _ _ hc2]
        rfl

theorem markVerified_tok (c v : Bool) (x : Inner) (a b : Option Str) : markVerified c v (x.tok a b) = (markVerified c v x).tok a b := by
  unfold markVerified; split <;> rfl

theorem markVerified_caller (c v : Bool) (x : Inner) : (markVerified c v x).caller = x.caller := (markVerified_frame ..).caller

theorem authtokTypeOf_tok (h : Inner) (hc : h.caller = .app) (ok : Bool) (a b : Option Str) :
    authtokTypeOf (h.tok a b) ok = ((authtokTypeOf h ok).1, (authtokTypeOf h ok).2.tok a b) := by
  unfold authtokTypeOf
  simp only [show (h.tok a b).chauthtok = h.chauthtok from rfl, show (h.tok a b).modArgs = h.modArgs from rfl]
  split
  · split
    · rfl
    · simp only [setItem_tok h hc]
  · rfl

theorem askToken_tok (cv : Convs W) (x y : Str) (t o1 o2 : Bool) (m : S W) (a b : Option Str) :
    askToken cv x y t o1 o2 (m.tok a b) = ((askToken cv x y t o1 o2 m).1, (askToken cv x y t o1 o2 m).2.1,
      (askToken cv x y t o1 o2 m).2.2.1, (askToken cv x y t o1 o2 m).2.2.2.tok a b) := by
  unfold askToken
  simp only [promptFor_tok]
  split <;> rfl

theorem keepToken_tok (i : Int) (t : Str) (ok v : Bool) (m : S W) (hc : m.inner.caller = .app) (a b : Option Str) :
    keepToken i t ok v (m.tok a b) =
      ((keepToken i t ok v m).1, (keepToken i t ok v m).2.1, (keepToken i t ok v m).2.2.tok a b) := by
  unfold keepToken
  have e : (m.tok a b).inner = m.inner.tok a b := rfl
  simp only [e, setItem_tok m.inner hc]
  split
  · rfl
  · have hc3 : (setItem m.inner i (.str t) ok true).2.caller = .app := by rw [setItem_caller]; exact hc
    simp only [markVerified_tok]
    rw [getItem_tok _ (by rw [markVerified_caller]; exact hc3)]
    rfl

theorem tokenReply_tok (cv : Convs W) (i : Int) (n : Nat) (ok : Bool) (c : Int) (r1 r2 : Option Str) (m : S W)
    (hc : m.inner.caller = .app) (a b : Option Str) :
    tokenReply cv i n ok c r1 r2 (m.tok a b) =
      ((tokenReply cv i n ok c r1 r2 m).1, (tokenReply cv i n ok c r1 r2 m).2.1, (tokenReply cv i n ok c r1 r2 m).2.2.tok a b) := by
  unfold tokenReply
  split
  · simp only; split <;> rfl
  · split
    · simp only; split <;> rfl
    · split
      · rfl
      · exact keepToken_tok i _ ok _ m hc a b

theorem getAuthtok_tok (cv : Convs W) (i : Int) (p : Option Str) (nv : Bool) (ok : AuthtokOk) (m : S W)
    (hc : m.inner.caller = .app) (a b : Option Str) :
    getAuthtok cv i p nv ok (m.tok a b) =
      ((getAuthtok cv i p nv ok m).1, (getAuthtok cv i p nv ok m).2.1, (getAuthtok cv i p nv ok m).2.2.tok a b) := by
  unfold getAuthtok
  have e : (m.tok a b).inner = m.inner.tok a b := rfl
  have ht : (authtokTypeOf m.inner ok.type).2.caller = .app := by rw [(authtokTypeOf_frame ..).caller]; exact hc
  simp only [e, authtokTypeOf_tok m.inner hc, show chpassOf (m.inner.tok a b) i nv = chpassOf m.inner i nv from rfl,
    getItem_tok _ ht]
  simp only [show ∀ x : Inner, (x.tok a b).modArgs = x.modArgs from fun _ => rfl]
  split
  · rfl
  · split
    · rfl
    · simp only [markVerified_tok]
      have e3 : ∀ x : Inner, ({ m.tok a b with inner := x.tok a b } : S W) = ({ m with inner := x } : S W).tok a b := fun _ => rfl
      simp only [e3, askToken_tok]
      refine tokenReply_tok _ _ _ _ _ _ _ _ ?_ a b
      rw [askToken_inner]
      simp only [markVerified_caller]
      exact ht

theorem verifyReply_tok (cv : Convs W) (g : Str) (ok : Bool) (c : Int) (r : Option Str) (m : S W)
    (hc : m.inner.caller = .app) (a b : Option Str) :
    verifyReply cv g ok c r (m.tok a b) =
      ((verifyReply cv g ok c r m).1, (verifyReply cv g ok c r m).2.1, (verifyReply cv g ok c r m).2.2.tok a b) := by
  unfold verifyReply
  have e : (m.tok a b).inner = m.inner.tok a b := rfl
  simp only [e, setItem_tok m.inner hc]
  split
  · rfl
  · split
    · rfl
    · split
      · rfl
      · exact keepToken_tok _ _ ok _ m hc a b

theorem getAuthtokVerify_tok (cv : Convs W) (g : Str) (p : Option Str) (o1 o2 : Bool) (m : S W)
    (hc : m.inner.caller = .app) (a b : Option Str) :
    getAuthtokVerify cv g p o1 o2 (m.tok a b) = ((getAuthtokVerify cv g p o1 o2 m).1,
      (getAuthtokVerify cv g p o1 o2 m).2.1, (getAuthtokVerify cv g p o1 o2 m).2.2.tok a b) := by
  unfold getAuthtokVerify
  have e : (m.tok a b).inner = m.inner.tok a b := rfl
  simp only [e, show ∀ x : Inner, (x.tok a b).chauthtok = x.chauthtok from fun _ => rfl,
    show ∀ x : Inner, (x.tok a b).authtokVerified = x.authtokVerified from fun _ => rfl,
    show ∀ x : Inner, (x.tok a b).authtokType = x.authtokType from fun _ => rfl,
    getItem_tok m.inner hc, promptFor_tok]
  split
  · rfl
  · split
    · rfl
    · exact verifyReply_tok _ _ _ _ _ _ (by rw [promptFor_inner]; exact hc) a b

/-- C20 (noninterference): whatever interface function the application calls, what it gets back
and what happens to the rest of the handle does not depend on the tokens, and the tokens are not
changed: replacing the tokens before or after the call is the same. -/
theorem C20_application_is_independent_of_tokens (cv : Convs W) (op : Op) (m : S W) (hc : m.inner.caller = .app)
    (a b : Option Str) :
    effect cv op (m.tok a b) = (effect cv op m).map (fun r => (r.1, r.2.tok a b)) := by
  cases op
  case setItem i v o1 o2 =>
    simp only [effect, show (m.tok a b).inner = m.inner.tok a b from rfl, setItem_tok m.inner hc, Option.map_some]; rfl
  case getItem i =>
    simp only [effect, show (m.tok a b).inner = m.inner.tok a b from rfl, getItem_tok m.inner hc, Option.map_some]
  case putenv nv o1 o2 =>
    simp only [effect, show (m.tok a b).inner.env = m.inner.env from rfl, Option.map_map]; rfl
  case getenv n => simp only [effect, show (m.tok a b).inner.env = m.inner.env from rfl, Option.map_map]; rfl
  case getenvlist ok => simp only [effect, show (m.tok a b).inner.env = m.inner.env from rfl, Option.map_map]; rfl
  case setData n d c ok =>
    have hc2 : (m.inner.tok a b).caller = .app := hc
    simp only [effect, show (m.tok a b).inner = m.inner.tok a b from rfl, setData, if_pos hc, if_pos hc2, Option.map_some]; rfl
  case getData n =>
    have hc2 : (m.inner.tok a b).caller = .app := hc
    simp only [effect, show (m.tok a b).inner = m.inner.tok a b from rfl, getData, if_pos hc, if_pos hc2, Option.map_some]
  case failDelay u => rfl
  case getUser p o1 o2 => simp only [effect, getUser_tok cv p o1 o2 m hc, Option.map_some]
  case getAuthtok old p nv ok => simp only [effect, getAuthtok_tok cv _ p nv ok m hc, Option.map_some]
  case getAuthtokVerify g p o1 o2 => simp only [effect, getAuthtokVerify_tok cv g p o1 o2 m hc, Option.map_some]
  case prompt msg ok => simp only [effect, promptFor_tok, Option.map_some]
  case say e msg => rfl
  case run fn fl =>
    simp only [effect]
    have : refused (m.tok a b).inner (.run fn fl) = refused m.inner (.run fn fl) := by cases fn <;> rfl
    rw [this, Option.map_map]; rfl
  case pamEnd st =>
    simp only [effect]
    have : refused (m.tok a b).inner (.pamEnd st) = refused m.inner (.pamEnd st) := rfl
    rw [this, Option.map_map]; rfl

/-- witness: an operation is suspended with a token in the handle; the application is refused it -/
example : ∃ r, Ex.calls "auth required m token wait\n" ["pw", "wait"] [.run .authenticate 0, .getItem PAM_AUTHTOK] = some r ∧
    Reach r.1 ∧ (r.2.map Ans.code, r.1.inner.caller, r.1.inner.authtok) = ([PAM_INCOMPLETE, PAM_BAD_ITEM], .app, some "pw".toList) :=
  Ex.calls_spec (by decide +kernel)

/-! ## C21 -/

theorem sanitize_tokens (i : Inner) : (sanitize i).authtok = none ∧ (sanitize i).oldauthtok = none := by
  rw [sanitize_eq]; exact ⟨rfl, rfl⟩

/-- C21: whenever pam_authenticate or pam_chauthtok, having passed its entry checks, returns to the
application with anything but PAM_INCOMPLETE, both tokens are unset; whatever the state before and
whatever the modules did. -/
theorem C21_tokens_do_not_outlive_the_call (lib : Lib W) (fn : Fn) (flags : Nat) (h h' : Handle W) (code : Int)
    (hfn : fn = .authenticate ∨ fn = .chauthtok) (hr : refused h.inner (.run fn flags) = none)
    (hs : run lib fn flags h = some (code, h')) (hc : code ≠ PAM_INCOMPLETE) :
    h'.inner.authtok = none ∧ h'.inner.oldauthtok = none := by
  have hend : ∀ (c : Int) (x : Handle W), chauthtokEnd (c, x) = (code, h') → h'.inner.authtok = none ∧ h'.inner.oldauthtok = none := by
    intro c x he
    unfold chauthtokEnd at he
    split at he
    · simp only [Prod.mk.injEq] at he
      rw [← he.2]; exact sanitize_tokens x.inner
    · next hx =>
      simp only [Prod.mk.injEq] at he
      exact absurd he.1 (by intro e; exact hx (by rw [e]; exact hc))
  unfold run at hs
  rw [hr] at hs
  rcases hfn with rfl | rfl
  · simp only [authenticate, Option.map_eq_some_iff] at hs
    obtain ⟨⟨c, x⟩, _, hs⟩ := hs
    split at hs
    · simp only [Prod.mk.injEq] at hs
      rw [← hs.2]; exact sanitize_tokens x.inner
    · next hx =>
      simp only [Prod.mk.injEq] at hs
      exact absurd hs.1 (by intro e; exact hx (by rw [e]; exact hc))
  · have hu : ∀ x : Handle W, updatePass lib flags x = some (code, h') → h'.inner.authtok = none ∧ h'.inner.oldauthtok = none := by
      intro x hs
      unfold updatePass at hs
      rw [Option.map_eq_some_iff] at hs
      obtain ⟨⟨c, y⟩, _, hs⟩ := hs
      exact hend c y hs
    simp only [chauthtok] at hs
    split at hs
    · exact hu _ hs
    · split at hs
      · exact absurd hs (by simp)
      · next c x _ =>
        split at hs
        · exact hu _ hs
        · simp only [Option.some.injEq] at hs
          exact hend c x hs

/-- witness: pam_authenticate is suspended with a token stored; resumed, it succeeds and the token is gone -/
example : ∃ r, Ex.calls "auth required m token wait\n" ["pw", "wait"] [.run .authenticate 0, .run .authenticate 0] = some r ∧
    Reach r.1 ∧ (r.2.map Ans.code, r.1.inner.authtok, r.1.m.s.talk.length) = ([PAM_INCOMPLETE, PAM_SUCCESS], none, 1) :=
  Ex.calls_spec (by decide +kernel)

/-- C21 (no token from an earlier operation): a new pam_authenticate or pam_chauthtok does not
depend on tokens left in the handle. -/
theorem C21_fresh_operation_ignores_old_tokens (lib : Lib W) (fn : Fn) (flags : Nat) (h : Handle W) (a b : Option Str)
    (hfn : fn = .authenticate ∨ fn = .chauthtok) (hf : h.former = none) (hr : refused h.inner (.run fn flags) = none) :
    run lib fn flags (h.onInner (fun i => i.tok a b)) = run lib fn flags h := by
  have hr' : refused (h.onInner (fun i => i.tok a b)).inner (.run fn flags) = none := by
    rcases hfn with rfl | rfl <;> exact hr
  have hb : ∀ c, begin c (h.onInner (fun i => i.tok a b)) = begin c h := by
    intro c
    simp only [begin, Handle.onInner, hf, sanitize_eq, Inner.tok]
  unfold run
  rw [hr, hr']
  rcases hfn with rfl | rfl
  · simp only [authenticate, hb]
  · simp only [chauthtok, hb]

/-- witness: a new handle meets the hypotheses -/
example : ∃ r, Ex.calls "auth required m token\n" [] [] = some r ∧ Reach r.1 ∧
    (r.1.former.isNone, refused r.1.inner (.run .authenticate 0), refused r.1.inner (.run .chauthtok 0)) = (true, none, none) :=
  Ex.calls_spec (by decide +kernel)

end Pam.Handle
