import Verif.Handle.Call
/-
Lifting facts about single calls to module programs, to walks over a stack, and to histories.
-/
namespace Pam.Handle
open Pam.Config (Fn MType Tables Entry Sys)
open Pam.Dispatch (Former Handler Outcome Env St Mode dispatchAux)

set_option linter.unusedSimpArgs false

/-! ### Walks -/
namespace Walk
open Pam.Dispatch
variable {σ : Type}

/-- a relation between worlds -/
structure PreOrd (R : σ → σ → Prop) : Prop where
  refl : ∀ a, R a a
  trans : ∀ a b c, R a b → R b c → R a c

/-- all handlers respect the relation -/
def Respects (R : σ → σ → Prop) (Q : σ → Prop) (hs : List (Handler σ)) : Prop :=
  ∀ h ∈ hs, ∀ f, h.func = some f → ∀ w, Q w → R w (f w).2 ∧ Q (f w).2

theorem callModule_rel {R : σ → σ → Prop} {Q : σ → Prop} (hR : PreOrd R) {h : Handler σ}
    (hh : ∀ f, h.func = some f → ∀ w, Q w → R w (f w).2 ∧ Q (f w).2) (w : σ) (hq : Q w) :
    R w (callModule h w).2 ∧ Q (callModule h w).2 := by
  unfold callModule
  split
  · exact ⟨hR.refl _, hq⟩
  · split
    · exact ⟨hR.refl _, hq⟩
    · next f hf => exact hh f hf w hq

theorem act_world {mode : Mode} {L i : Nat} {action r c : Int} {st st' : St σ} {nx : Next}
    (h : act mode L i action r c st = some (st', nx)) : st'.world = st.world := by
  unfold act at h
  grind

theorem cached_world (mode : Mode) (i : Nat) (r : Int) (st : St σ) : (cachedRetval mode i r st).2.world = st.world := by
  unfold cachedRetval; split <;> rfl

theorem enter_world {p L : Nat} {st st' : St σ} (h : enter p L st = some st') : st'.world = st.world := by
  unfold enter at h
  grind

/-- the world of a visit -/
theorem visit_world {mode : Mode} {h : Handler σ} {i : Nat} {st : St σ} {r : St σ ⊕ (St σ × Next)}
    (hv : visit mode h i st = some r) :
    (match r with | .inl s => s.world | .inr (s, _) => s.world) = (callModule h st.world).2 := by
  unfold visit at hv
  simp only at hv
  split at hv
  · simp only [Option.some.injEq] at hv; subst hv; rfl
  · split at hv
    all_goals
      rw [Option.map_eq_some_iff] at hv
      obtain ⟨⟨s, nx⟩, h1, rfl⟩ := hv
      simp only [act_world h1, cached_world]

/-- the world an outcome ends with -/
def endWorld : Outcome σ → Option σ
  | .done _ st => some st.world
  | .incomplete _ st => some st.world
  | .ub => none

theorem loop_rel {R : σ → σ → Prop} {Q : σ → Prop} (hR : PreOrd R) (mode : Mode) (skip : Nat) (hs : List (Handler σ))
    (depth prev : Nat) (st : St σ) (hh : Respects R Q hs) (hq : Q st.world) :
    ∀ w, endWorld (loop mode skip hs depth prev st) = some w → R st.world w ∧ Q w := by
  fun_induction loop mode skip hs depth prev st with
  | case1 d p st =>
    intro w hw
    simp only [finish, endWorld, Option.some.injEq] at hw
    subst hw; exact ⟨hR.refl _, hq⟩
  | case2 h t d p st hd ih => exact ih (fun a ha => hh a (by simp [ha])) hq
  | case3 h t d p st hd he => intro w hw; simp [endWorld] at hw
  | case4 h t d p st hd st0 he hty ih =>
    rw [← enter_world he] at hq ⊢
    exact ih (fun a ha => hh a (by simp [ha])) hq
  | case5 h t d p st hd st0 he hty hv => intro w hw; simp [endWorld] at hw
  | case6 h t d p st hd st0 he hty st1 hv =>
    intro w hw
    simp only [endWorld, Option.some.injEq] at hw
    have h1 := visit_world hv
    simp only at h1
    rw [← enter_world he] at hq ⊢
    rw [← hw, h1]
    exact callModule_rel hR (fun f hf => hh h (by simp) f hf) _ hq
  | case7 h t d p st hd st0 he hty st1 hv ih =>
    intro w hw
    have h1 := visit_world hv
    simp only at h1
    rw [← enter_world he] at hq ⊢
    have h2 := callModule_rel hR (fun f hf => hh h (by simp) f hf) _ hq
    rw [← h1] at h2
    have h3 := ih (fun a ha => hh a (by simp [ha])) h2.2 w hw
    exact ⟨hR.trans _ _ _ h2.1 h3.1, h3.2⟩
  | case8 h t d p st hd st0 he hty st1 hv ih =>
    intro w hw
    have h1 := visit_world hv
    simp only at h1
    rw [← enter_world he] at hq ⊢
    have h2 := callModule_rel hR (fun f hf => hh h (by simp) f hf) _ hq
    rw [← h1] at h2
    have h3 := ih (fun a ha => hh a (by
      simp only [List.mem_cons]; right
      exact (List.dropWhile_sublist _).subset ha)) h2.2 w hw
    exact ⟨hR.trans _ _ _ h2.1 h3.1, h3.2⟩
  | case9 h t d p st hd st0 he hty st1 n hv ih =>
    intro w hw
    have h1 := visit_world hv
    simp only at h1
    rw [← enter_world he] at hq ⊢
    have h2 := callModule_rel hR (fun f hf => hh h (by simp) f hf) _ hq
    rw [← h1] at h2
    have h3 := ih (fun a ha => hh a (by
      simp only [List.mem_cons]; right
      exact skipJump_mem ha)) (by split <;> exact h2.2) w hw
    refine ⟨hR.trans _ _ _ h2.1 ?_, h3.2⟩
    have := h3.1
    split at this <;> exact this
where
  skipJump_mem {L : Nat} {t : List (Handler σ)} {n : Nat} {a : Handler σ} (ha : a ∈ (skipJump L t n).1) : a ∈ t := by
    fun_induction skipJump L t n with
    | case1 => simp at ha
    | case2 => exact ha
    | case3 h t n hge ih =>
      have := (List.dropWhile_sublist (fun h' : Handler σ => decide (h'.level > L)) (l := t)).subset (ih ha)
      simp [this]
    | case4 => exact ha

/-- a walk takes the world along the relation -/
theorem dispatchAux_rel {R : σ → σ → Prop} {Q : σ → Prop} (hR : PreOrd R) (mode : Mode) (hs : List (Handler σ))
    (f : Option Former) (e : Env σ) (hh : Respects R Q hs) (hq : Q e.world) :
    ∀ w, endWorld (dispatchAux mode hs f e) = some w → R e.world w ∧ Q w := by
  unfold dispatchAux
  split
  · intro w hw
    have : w = e.world := by
      split at hw <;> (simp only [endWorld, Option.some.injEq] at hw; exact hw.symm)
    subst this; exact ⟨hR.refl _, hq⟩
  · split
    · exact loop_rel hR _ _ _ _ _ _ hh hq
    · exact loop_rel hR _ _ _ _ _ _ hh hq

end Walk

/-! ### Calls and programs -/

variable {W : Type}

theorem putItem_caller (h : Inner) (i : Item) (v : Value) (a b : Bool) : (putItem h i v a b).2.caller = h.caller := by
  cases i <;> simp only [putItem, storeStr] <;> grind

theorem setItem_caller (h : Inner) (i : Int) (v : Value) (a b : Bool) : (setItem h i v a b).2.caller = h.caller := by
  unfold setItem
  split
  · exact putItem_caller ..
  · rfl

theorem converse_inner (cv : Convs W) (s : Style) (msg : Str) (m : S W) : (converse cv s msg m).2.inner = m.inner := rfl

theorem promptFor_inner (cv : Convs W) (msg : Str) (ok : Bool) (m : S W) : (promptFor cv msg ok m).2.2.inner = m.inner := by
  unfold promptFor
  split <;> rfl

theorem pamError_inner (cv : Convs W) (msg : Str) (m : S W) : (pamError cv msg m).inner = m.inner := rfl

theorem sanitize_eq (h : Inner) : sanitize h = { h with authtok := none, oldauthtok := none } := by
  have h1 : Item.ofInt PAM_AUTHTOK = some .authtok := by decide
  have h2 : Item.ofInt PAM_OLDAUTHTOK = some .oldauthtok := by decide
  simp only [sanitize, setItem, h1, h2, putItem, storeStr, Value.toStr, trySet, if_pos]

/-- the fields not touched by the functions about items, users, tokens and prompts -/
structure Frame (a b : Inner) : Prop where
  caller : b.caller = a.caller
  env : b.env = a.env
  data : b.data = a.data
  delaySet : b.delaySet = a.delaySet
  delay : b.delay = a.delay
  chauthtok : b.chauthtok = a.chauthtok
  modArgs : b.modArgs = a.modArgs
  nextId : b.nextId = a.nextId
  cleaned : b.cleaned = a.cleaned

theorem Frame.refl (a : Inner) : Frame a a := ⟨rfl, rfl, rfl, rfl, rfl, rfl, rfl, rfl, rfl⟩

theorem Frame.trans {a b c : Inner} (h : Frame a b) (h' : Frame b c) : Frame a c :=
  ⟨h'.1.trans h.1, h'.2.trans h.2, h'.3.trans h.3, h'.4.trans h.4, h'.5.trans h.5, h'.6.trans h.6,
    h'.7.trans h.7, h'.8.trans h.8, h'.9.trans h.9⟩

theorem storeStr_frame (h h' : Inner) (v : Value) (ok : Bool) (set : Option Str → Inner) (hh : Frame h h')
    (hs : ∀ s, Frame h (set s)) : Frame h (storeStr h' v ok set).2 := by
  unfold storeStr
  split
  · exact hh
  · split
    · exact hh
    · exact hs _

theorem putItem_frame (h : Inner) (i : Item) (v : Value) (a b : Bool) : Frame h (putItem h i v a b).2 := by
  have hf : ∀ x : Inner, Frame x x := Frame.refl
  cases i
  case service =>
    simp only [putItem]
    split
    · split <;> exact ⟨rfl, rfl, rfl, rfl, rfl, rfl, rfl, rfl, rfl⟩
    · exact hf h
  case conv =>
    simp only [putItem]
    split
    · split
      · exact ⟨rfl, rfl, rfl, rfl, rfl, rfl, rfl, rfl, rfl⟩
      · exact hf h
    · exact hf h
    · exact hf h
  case failDelay =>
    simp only [putItem]
    split <;> exact ⟨rfl, rfl, rfl, rfl, rfl, rfl, rfl, rfl, rfl⟩
  case xauth =>
    simp only [putItem]
    split
    · split <;> exact ⟨rfl, rfl, rfl, rfl, rfl, rfl, rfl, rfl, rfl⟩
    · exact hf h
  case authtok =>
    simp only [putItem]
    split
    · exact storeStr_frame _ _ _ _ _ ⟨rfl, rfl, rfl, rfl, rfl, rfl, rfl, rfl, rfl⟩ (fun s => ⟨rfl, rfl, rfl, rfl, rfl, rfl, rfl, rfl, rfl⟩)
    · exact hf h
  case oldauthtok =>
    simp only [putItem]
    split
    · exact storeStr_frame _ _ _ _ _ ⟨rfl, rfl, rfl, rfl, rfl, rfl, rfl, rfl, rfl⟩ (fun s => ⟨rfl, rfl, rfl, rfl, rfl, rfl, rfl, rfl, rfl⟩)
    · exact hf h
  all_goals
    simp only [putItem]
    exact storeStr_frame _ _ _ _ _ (hf h) (fun s => ⟨rfl, rfl, rfl, rfl, rfl, rfl, rfl, rfl, rfl⟩)

theorem setItem_frame (h : Inner) (i : Int) (v : Value) (a b : Bool) : Frame h (setItem h i v a b).2 := by
  unfold setItem
  split
  · exact putItem_frame ..
  · exact Frame.refl h

theorem authtokTypeOf_frame (h : Inner) (ok : Bool) : Frame h (authtokTypeOf h ok).2 := by
  unfold authtokTypeOf
  split
  · split
    · exact Frame.refl h
    · exact setItem_frame ..
  · exact Frame.refl h

theorem frame_user (x : Inner) (a : Bool) (b : Option Str) (c : Int) :
    Frame x { x with wantUser := a, savedPrompt := b, failUser := c } := ⟨rfl, rfl, rfl, rfl, rfl, rfl, rfl, rfl, rfl⟩

theorem frame_verified (x : Inner) (b : Bool) : Frame x { x with authtokVerified := b } :=
  ⟨rfl, rfl, rfl, rfl, rfl, rfl, rfl, rfl, rfl⟩

theorem markVerified_frame (c v : Bool) (x : Inner) : Frame x (markVerified c v x) := by
  unfold markVerified
  split
  · exact frame_verified _ _
  · exact Frame.refl _

theorem userReply_frame (use : Str) (a b : Bool) (r : Reply) (h : Inner) : Frame h (userReply use a b r h).2.2 := by
  unfold userReply
  split
  · exact frame_user _ _ _ _
  · split
    · split
      · exact setItem_frame ..
      · exact frame_user _ _ _ _
    · exact frame_user _ _ _ _

theorem getUser_frame (cv : Convs W) (p : Option Str) (a b : Bool) (m : S W) :
    Frame m.inner (getUser cv p a b m).2.2.inner := by
  unfold getUser
  split
  · exact Frame.refl _
  · split
    · exact Frame.refl _
    · split
      · exact Frame.refl _
      · refine Frame.trans ?_ (userReply_frame ..)
        unfold resumeUser
        split
        · exact frame_user _ _ _ _
        · exact Frame.refl _

theorem askToken_inner (cv : Convs W) (a b : Str) (t o1 o2 : Bool) (m : S W) :
    (askToken cv a b t o1 o2 m).2.2.2.inner = m.inner := by
  unfold askToken
  simp only
  split
  · rw [promptFor_inner, promptFor_inner]
  · rw [promptFor_inner]

theorem keepToken_frame (i : Int) (t : Str) (ok v : Bool) (m : S W) : Frame m.inner (keepToken i t ok v m).2.2.inner := by
  unfold keepToken
  simp only
  split
  · exact setItem_frame ..
  · exact Frame.trans (setItem_frame m.inner i (.str t) ok true) (markVerified_frame ..)

theorem tokenReply_frame (cv : Convs W) (i : Int) (n : Nat) (ok : Bool) (c : Int) (r1 r2 : Option Str) (m : S W) :
    Frame m.inner (tokenReply cv i n ok c r1 r2 m).2.2.inner := by
  unfold tokenReply
  split
  · simp only; split <;> exact Frame.refl _
  · split
    · simp only; split <;> exact Frame.refl _
    · split
      · exact Frame.refl _
      · exact keepToken_frame ..

theorem getAuthtok_frame (cv : Convs W) (i : Int) (p : Option Str) (nv : Bool) (ok : AuthtokOk) (m : S W) :
    Frame m.inner (getAuthtok cv i p nv ok m).2.2.inner := by
  have ht := authtokTypeOf_frame m.inner ok.type
  unfold getAuthtok
  simp only
  split
  · exact ht
  · split
    · exact ht
    · refine ht.trans (Frame.trans ?_ (tokenReply_frame ..))
      rw [askToken_inner]
      exact markVerified_frame ..

theorem verifyReply_frame (cv : Convs W) (g : Str) (ok : Bool) (c : Int) (r : Option Str) (m : S W) :
    Frame m.inner (verifyReply cv g ok c r m).2.2.inner := by
  unfold verifyReply
  simp only
  split
  · exact setItem_frame ..
  · split
    · exact setItem_frame ..
    · split
      · exact setItem_frame ..
      · exact keepToken_frame ..

theorem getAuthtokVerify_frame (cv : Convs W) (g : Str) (p : Option Str) (a b : Bool) (m : S W) :
    Frame m.inner (getAuthtokVerify cv g p a b m).2.2.inner := by
  unfold getAuthtokVerify
  split
  · exact Frame.refl _
  · split
    · exact Frame.refl _
    · simp only
      have := verifyReply_frame cv g b (promptFor cv (secondPrompt p (m.inner.authtokType.getD [])) a m).1
        (promptFor cv (secondPrompt p (m.inner.authtokType.getD [])) a m).2.1
        (promptFor cv (secondPrompt p (m.inner.authtokType.getD [])) a m).2.2
      rw [promptFor_inner] at this
      exact this

theorem setData_caller (h : Inner) (n : Option Str) (d : Nat) (c ok : Bool) : (setData h n d c ok).2.caller = h.caller := by
  unfold setData
  split
  · rfl
  · split
    · rfl
    · split
      · rfl
      · split <;> rfl

theorem effect_caller {cv : Convs W} {op : Op} {m m' : S W} {a : Ans} (h : effect cv op m = some (a, m')) :
    m'.inner.caller = m.inner.caller := by
  cases op <;> simp only [effect, Option.some.injEq, Prod.mk.injEq, Option.map_eq_some_iff] at h
  case setItem => rw [← h.2]; exact setItem_caller ..
  case setData => rw [← h.2]; exact setData_caller ..
  case failDelay => rw [← h.2]; rfl
  case getUser => rw [← h.2]; exact (getUser_frame ..).caller
  case getAuthtok => rw [← h.2]; exact (getAuthtok_frame ..).caller
  case getAuthtokVerify => rw [← h.2]; exact (getAuthtokVerify_frame ..).caller
  case prompt => rw [← h.2, promptFor_inner]
  case say => rw [← h.2]; rfl
  case getItem => rw [← h.2]
  case getData => rw [← h.2]
  all_goals
    obtain ⟨r, _, _, h2⟩ := h
    rw [← h2]

/-- Most functions leave environment, module data and delays alone. -/
theorem effect_frame {cv : Convs W} {op : Op} {m m' : S W} {a : Ans} (h : effect cv op m = some (a, m'))
    (h1 : ∀ x y z, op ≠ .putenv x y z) (h2 : ∀ x y z t, op ≠ .setData x y z t) (h3 : ∀ x, op ≠ .failDelay x) :
    Frame m.inner m'.inner := by
  cases op <;> simp only [effect, Option.some.injEq, Prod.mk.injEq, Option.map_eq_some_iff] at h
  case putenv x y z => exact absurd rfl (h1 x y z)
  case setData x y z t => exact absurd rfl (h2 x y z t)
  case failDelay x => exact absurd rfl (h3 x)
  case setItem => rw [← h.2]; exact setItem_frame ..
  case getUser => rw [← h.2]; exact getUser_frame ..
  case getAuthtok => rw [← h.2]; exact getAuthtok_frame ..
  case getAuthtokVerify => rw [← h.2]; exact getAuthtokVerify_frame ..
  case prompt => rw [← h.2, promptFor_inner]; exact Frame.refl _
  case say => rw [← h.2]; exact Frame.refl _
  case getItem => rw [← h.2]; exact Frame.refl _
  case getData => rw [← h.2]; exact Frame.refl _
  all_goals
    obtain ⟨r, _, _, h2⟩ := h
    rw [← h2]; exact Frame.refl _

/-- every event of a history satisfies `L`, given what came before -/
def Always (L : List Event → Event → Prop) (hist : List Event) : Prop :=
  ∀ pre ev post, hist = pre ++ ev :: post → L pre ev

theorem Always.nil (L : List Event → Event → Prop) : Always L [] := by
  intro pre ev post h
  exact absurd h (by simp)

theorem Always.snoc {L : List Event → Event → Prop} {hist : List Event} {e : Event} (h : Always L hist) (he : L hist e) :
    Always L (hist ++ [e]) := by
  intro pre ev post heq
  rcases List.eq_nil_or_concat post with rfl | ⟨q, x, rfl⟩
  · have := List.append_inj' heq rfl
    rw [← this.1, ← (List.cons.inj this.2).1]; exact he
  · rw [List.concat_eq_append, ← List.cons_append, ← List.append_assoc] at heq
    exact h pre ev q (List.append_inj' heq rfl).1

theorem step_caller (cv : Convs W) (op : Op) (m : M W) : (step cv op m).2.s.inner.caller = m.s.inner.caller := by
  unfold step
  split
  · next a s' he => exact effect_caller he
  · simp only; split <;> rfl

/-- the world of the modules after a change of some of their surroundings -/
def M.setArgs (m : M W) (args : List Str) : M W := { m with s := { m.s with inner := { m.s.inner with modArgs := args } } }
def M.setWorld (m : M W) (w : W) : M W := { m with s := { m.s with world := w } }
def M.setCaller (m : M W) (c : Caller) : M W := { m with s := { m.s with inner := { m.s.inner with caller := c } } }
def M.setChoice (m : M W) (c : Bool) : M W := { m with s := { m.s with inner := { m.s.inner with chauthtok := c } } }
def M.setLoaded (m : M W) : M W := { m with s := { m.s with inner := { m.s.inner with loaded := true } } }
def M.sanitize (m : M W) : M W := { m with s := { m.s with inner := Handle.sanitize m.s.inner } }
def M.await (m : M W) (status : Int) : M W :=
  { m with s := { m.s with inner := (awaitTimer m.s.inner status).2 }, hist := m.hist ++ [.waited status (awaitTimer m.s.inner status).1] }
def M.pass (m : M W) (p : Pass) : M W := { m with hist := m.hist ++ [.pass p] }

/-- relations respected by everything a module can do -/
structure ModRel (R : M W → M W → Prop) : Prop where
  ord : Walk.PreOrd R
  step : ∀ cv op m, m.s.inner.caller = .module → R m (step cv op m).2
  world : ∀ m w, R m (m.setWorld w)
  args : ∀ m a, R m (m.setArgs a)

theorem exec_rel {R : M W → M W → Prop} (hR : ModRel R) (cv : Convs W) (p : Prog W) :
    ∀ m : M W, m.s.inner.caller = .module → R m (p.exec cv m).2 ∧ (p.exec cv m).2.s.inner.caller = .module := by
  induction p with
  | ret c => intro m hm; exact ⟨hR.ord.refl _, hm⟩
  | api op k ih =>
    intro m hm
    have h1 := hR.step cv op m hm
    have h2 := ih (Handle.step cv op m).1 (Handle.step cv op m).2 (by rw [step_caller]; exact hm)
    exact ⟨hR.ord.trans _ _ _ h1 h2.1, h2.2⟩
  | ext f k ih =>
    intro m hm
    have h2 := ih (f m.s.world) (m.setWorld (f m.s.world)) hm
    exact ⟨hR.ord.trans _ _ _ (hR.world m _) h2.1, h2.2⟩

theorem callProg_rel {R : M W → M W → Prop} (hR : ModRel R) (lib : Lib W) (p : Prog W) (argv : List Str) (m : M W)
    (hm : m.s.inner.caller = .module) :
    R m (callProg lib p argv m).2 ∧ (callProg lib p argv m).2.s.inner.caller = .module := by
  have h := exec_rel hR lib.conv p (m.setArgs argv) hm
  exact ⟨hR.ord.trans _ _ _ (hR.args m argv) (hR.ord.trans _ _ _ h.1 (hR.args _ [])), h.2⟩

theorem linked_respects {R : M W → M W → Prop} (hR : ModRel R) (lib : Lib W) (fn : Fn) (flags : Nat) (es : List Entry) :
    Walk.Respects R (fun m => m.s.inner.caller = .module) (es.map (Config.link (linker lib fn flags))) := by
  intro h hh f hf w hw
  obtain ⟨e, _, rfl⟩ := List.mem_map.1 hh
  have : ∃ path prog, linker lib fn flags path e.argv = some f ∧ f = callProg lib prog e.argv := by
    simp only [Config.link] at hf
    split at hf
    all_goals first
      | (exact absurd hf (by simp))
      | (rw [Option.bind_eq_some_iff] at hf
         obtain ⟨path, _, hl⟩ := hf
         simp only [linker, Option.map_eq_some_iff] at hl
         obtain ⟨p, hp, hl⟩ := hl
         exact ⟨path, p flags e.argv, by simp [linker, hp, hl], hl.symm⟩)
  obtain ⟨path, prog, _, rfl⟩ := this
  exact callProg_rel hR lib prog e.argv w hw

/-- What a run of a stack does to the state modules see, and to the rest of the handle. -/
theorem runStack_spec {R : M W → M W → Prop} (hR : ModRel R) {lib : Lib W} {fn : Fn} {flags : Nat} {f : Option Former}
    {h h' : Handle W} {code : Int} (hs : runStack lib fn flags f h = some (code, h')) :
    ∃ (m : M W) (t : List (Nat × Int)),
      R ((h.m.setCaller .module).setChoice (decide (fn = .chauthtok))) m ∧ m.s.inner.caller = .module ∧
      h'.m = (m.setCaller .app).pass ⟨fn, flags, f.isSome, code, t⟩ ∧
      h'.tables = h.tables ∧ h'.update = h.update ∧ h'.loadFailed = h.loadFailed ∧
      ((code = PAM_INCOMPLETE ∧ ∃ fm, h'.former = some (fn, fm)) ∨ h'.former = none) := by
  unfold runStack at hs
  simp only at hs
  split at hs
  · exact absurd hs (by simp)
  · next s st hd =>
    simp only [Option.some.injEq, Prod.mk.injEq] at hs
    obtain ⟨rfl, rfl⟩ := hs
    have := Walk.dispatchAux_rel hR.ord _ _ _ _ (linked_respects hR lib fn flags _) rfl st.world (by rw [hd]; rfl)
    exact ⟨st.world, st.trace, this.1, this.2, rfl, rfl, rfl, rfl, Or.inr rfl⟩
  · next d st hd =>
    simp only [Option.some.injEq, Prod.mk.injEq] at hs
    obtain ⟨rfl, rfl⟩ := hs
    have := Walk.dispatchAux_rel hR.ord _ _ _ _ (linked_respects hR lib fn flags _) rfl st.world (by rw [hd]; rfl)
    exact ⟨st.world, st.trace, this.1, this.2, rfl, rfl, rfl, rfl, Or.inl ⟨rfl, _, rfl⟩⟩

/-- What loading does. -/
theorem load_m (lib : Lib W) (h : Handle W) : (load lib h).2.m = h.m ∨ (load lib h).2.m = h.m.setLoaded := by
  unfold load
  split
  · exact Or.inl rfl
  · split
    · exact Or.inl rfl
    · exact Or.inr rfl

theorem load_former (lib : Lib W) (h : Handle W) : (load lib h).2.former = h.former ∧ (load lib h).2.update = h.update := by
  unfold load
  split
  · exact ⟨rfl, rfl⟩
  · split <;> exact ⟨rfl, rfl⟩

/-! ### Invariants of the state modules see -/

/-- closed under everything that happens to the state -/
structure Closed (P : M W → Prop) : Prop where
  step : ∀ cv op m, (m.s.inner.caller = .module ∨ op.isRun = false) → P m → P (step cv op m).2
  world : ∀ m w, P m → P (m.setWorld w)
  args : ∀ m a, P m → P (m.setArgs a)
  caller : ∀ m c, P m → P (m.setCaller c)
  choice : ∀ m c, P m → P (m.setChoice c)
  loaded : ∀ m, P m → P m.setLoaded
  sanitize : ∀ m, P m → P m.sanitize
  await : ∀ m s, P m → P (m.await s)
  pass : ∀ m p, P m → P (m.pass p)

theorem Closed.modRel {P : M W → Prop} (hP : Closed P) : ModRel (fun m m' => P m → P m') where
  ord := ⟨fun _ h => h, fun _ _ _ h h' hp => h' (h hp)⟩
  step := fun cv op m h => hP.step cv op m (Or.inl h)
  world := hP.world
  args := hP.args

theorem Closed.load {P : M W → Prop} (hP : Closed P) (lib : Lib W) (h : Handle W) (hp : P h.m) : P (load lib h).2.m := by
  rcases load_m lib h with e | e <;> rw [e]
  · exact hp
  · exact hP.loaded _ hp

theorem Closed.runStack {P : M W → Prop} (hP : Closed P) {lib : Lib W} {fn : Fn} {flags : Nat} {f : Option Former}
    {h h' : Handle W} {code : Int} (hs : runStack lib fn flags f h = some (code, h')) (hp : P h.m) : P h'.m := by
  obtain ⟨m, t, h1, _, h3, _⟩ := runStack_spec hP.modRel hs
  rw [h3]
  exact hP.pass _ _ (hP.caller _ _ (h1 (hP.choice _ _ (hP.caller _ _ hp))))

theorem Closed.dispatch {P : M W → Prop} (hP : Closed P) {lib : Lib W} {fn : Fn} {flags : Nat}
    {h h' : Handle W} {code : Int} (hs : dispatch lib fn flags h = some (code, h')) (hp : P h.m) : P h'.m := by
  unfold Handle.dispatch at hs
  split at hs
  · simp only [Option.some.injEq, Prod.mk.injEq] at hs; rw [← hs.2]; exact hp
  · have hl := hP.load lib h hp
    generalize Handle.load lib h = l at hs hl
    obtain ⟨ok, h1⟩ := l
    simp only at hs hl
    split at hs
    · split at hs
      · split at hs
        · exact hP.runStack hs hl
        · simp only [Option.some.injEq, Prod.mk.injEq] at hs; rw [← hs.2]; exact hl
      · exact hP.runStack hs hl
    · simp only [Option.some.injEq, Prod.mk.injEq] at hs; rw [← hs.2]; exact hl

theorem Closed.chauthtokEnd {P : M W → Prop} (hP : Closed P) (r : Int × Handle W) (hp : P r.2.m) : P (chauthtokEnd r).2.m := by
  unfold Handle.chauthtokEnd
  split
  · exact hP.await _ _ (hP.sanitize _ hp)
  · exact hp

theorem Closed.begin {P : M W → Prop} (hP : Closed P) (b : Bool) (h : Handle W) (hp : P h.m) : P (begin b h).m := by
  unfold Handle.begin
  split
  · exact hP.sanitize _ hp
  · exact hp

theorem Closed.updatePass {P : M W → Prop} (hP : Closed P) {lib : Lib W} {flags : Nat} {h h' : Handle W} {code : Int}
    (hs : updatePass lib flags h = some (code, h')) (hp : P h.m) : P h'.m := by
  unfold Handle.updatePass at hs
  rw [Option.map_eq_some_iff] at hs
  obtain ⟨⟨c, h1⟩, hd, hs⟩ := hs
  have := hP.chauthtokEnd (c, h1) (hP.dispatch hd hp)
  rw [hs] at this; exact this

theorem Closed.run {P : M W → Prop} (hP : Closed P) {lib : Lib W} {fn : Fn} {flags : Nat}
    {h h' : Handle W} {code : Int} (hs : run lib fn flags h = some (code, h')) (hp : P h.m) : P h'.m := by
  unfold Handle.run at hs
  split at hs
  · simp only [Option.some.injEq, Prod.mk.injEq] at hs; rw [← hs.2]; exact hp
  · split at hs
    · unfold authenticate at hs
      simp only [Option.map_eq_some_iff] at hs
      obtain ⟨⟨c, h1⟩, hd, hs⟩ := hs
      have h1p := hP.dispatch hd (hP.begin _ _ hp)
      split at hs
      · simp only [Prod.mk.injEq] at hs; rw [← hs.2]; exact hP.await _ _ (hP.sanitize _ h1p)
      · simp only [Prod.mk.injEq] at hs; rw [← hs.2]; exact h1p
    · exact hP.dispatch hs hp
    · unfold chauthtok at hs
      split at hs
      · exact hP.updatePass hs (hP.begin _ _ hp)
      · split at hs
        · exact absurd hs (by simp)
        · next c h1 hd =>
          have h1p := hP.dispatch hd (hP.begin _ _ hp)
          split at hs
          · exact hP.updatePass hs h1p
          · have := hP.chauthtokEnd (c, h1) h1p
            simp only [Option.some.injEq] at hs
            rw [hs] at this; exact this
    · exact hP.dispatch hs hp

/-- the state after pam_start, before loading -/
def startM (service : Str) (user : Option Str) (conv : Nat) (w : W) : M W :=
  { s := { inner := { service := (Config.afterLast '/' service).map lower, user := user, conv := conv }, world := w } }

theorem Closed.act {P : M W → Prop} (hP : Closed P) {lib : Lib W} {a : Act W} {h h' : Handle W} {ans : Ans}
    (hs : a.apply lib h = some (ans, h')) (hp : P h.m) : P h'.m := by
  unfold Act.apply at hs
  split at hs
  · rw [Option.map_eq_some_iff] at hs
    obtain ⟨⟨c, h1⟩, hd, hs⟩ := hs
    simp only [Prod.mk.injEq] at hs
    rw [← hs.2]
    exact hP.run hd hp
  · exact absurd hs (by simp)
  · simp only [Option.some.injEq, Prod.mk.injEq] at hs
    rw [← hs.2]
    refine hP.step _ _ _ (Or.inr ?_) hp
    next op h1 h2 =>
      cases op
      case run fn fl => exact absurd rfl (h1 fn fl)
      case pamEnd st => exact absurd rfl (h2 st)
      all_goals rfl
  · simp only [Option.some.injEq, Prod.mk.injEq] at hs
    rw [← hs.2]; exact hP.world _ _ hp

/-- An invariant of the state modules see holds in every reachable handle. -/
theorem Closed.reach {P : M W → Prop} (hP : Closed P) (h0 : ∀ service user conv w, P (startM service user conv w))
    {h : Handle W} (hr : Reach h) : P h.m := by
  induction hr with
  | start lib service user conv w h hs =>
    unfold start at hs
    simp only at hs
    split at hs
    · next h1 he =>
      simp only [Option.some.injEq] at hs
      subst hs
      have := hP.load lib { m := startM service user conv w, tables := {}, cells := fun _ _ _ => INVALID_RETVAL, grant := fun _ _ _ => false, former := none, update := false } (h0 _ _ _ _)
      unfold startM at this
      rw [he] at this
      exact this
    · exact absurd hs (by simp)
  | step h h' lib a ans _ hs ih => exact hP.act hs ih

/-- the same, for the handles reachable from a given pam_start -/
theorem Closed.since {P : M W → Prop} (hP : Closed P) {lib : Lib W} {service : Str} {user : Option Str} {conv : Nat} {w : W}
    {h0 h : Handle W} (hs : start lib service user conv w = some h0) (hp : P (startM service user conv w)) (hr : Since h0 h) :
    P h.m := by
  induction hr with
  | refl =>
    unfold start at hs
    simp only at hs
    split at hs
    · next h1 he =>
      simp only [Option.some.injEq] at hs
      subst hs
      have := hP.load lib { m := startM service user conv w, tables := {}, cells := fun _ _ _ => INVALID_RETVAL, grant := fun _ _ _ => false, former := none, update := false } hp
      unfold startM at this
      rw [he] at this
      exact this
    · exact absurd hs (by simp)
  | step h h' lib a ans _ hs ih => exact hP.act hs ih

/-- every reachable handle comes from some pam_start -/
theorem reach_since {h : Handle W} (hr : Reach h) :
    ∃ lib service user conv w h0, start lib service user conv w = some h0 ∧ Since h0 h := by
  induction hr with
  | start lib service user conv w h hs => exact ⟨lib, service, user, conv, w, h, hs, .refl⟩
  | step h h' lib a ans _ hs ih =>
    obtain ⟨l, s, u, c, w, h0, h1, h2⟩ := ih
    exact ⟨l, s, u, c, w, h0, h1, .step h h' lib a ans h2 hs⟩

end Pam.Handle
