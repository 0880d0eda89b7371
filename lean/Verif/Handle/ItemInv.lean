import Verif.Handle.Lift
import Verif.Handle.ItemSpec
/-
Lemmas about items, the question for the user name and the failure delay.
-/
namespace Pam.Handle
open Spec

set_option linter.unusedSimpArgs false
set_option maxRecDepth 100000

variable {W : Type}

/-- What an event about these things must say. -/
def ItemLegal (init : Item → Value) (pre : List Event) : Event → Prop
  | .call _ (.getItem i) ans _ => ∀ it, Item.ofInt i = some it → isPublic it = true →
      ans.code = PAM_SUCCESS ∧ ans.value = itemsAfter init pre it
  | .call _ (.setItem i v ok ok2) ans _ => ∀ it, Item.ofInt i = some it → fits it v = true → ok = true → ok2 = true →
      ans.code = PAM_SUCCESS
  | .call _ (.getUser p _ okUser) ans talk => userRule (itemsAfter init pre) (askAfter pre) p okUser ans talk
  | .waited st w => delayKnown (itemsAfter init pre .failDelay) (requests pre) st →
      w = waitRule (itemsAfter init pre .failDelay) (requests pre) st
  | _ => True

/-- the part of the handle concerned is the same -/
structure Face (a b : Inner) : Prop where
  items : ∀ it, isPublic it = true → (readItem b it).2 = (readItem a it).2
  failUser : b.failUser = a.failUser
  wantUser : b.wantUser = a.wantUser
  savedPrompt : b.savedPrompt = a.savedPrompt

theorem Face.refl (a : Inner) : Face a a := ⟨fun _ _ => rfl, rfl, rfl, rfl⟩
theorem Face.trans {a b c : Inner} (h : Face a b) (h' : Face b c) : Face a c :=
  ⟨fun i hi => (h'.1 i hi).trans (h.1 i hi), h'.2.trans h.2, h'.3.trans h.3, h'.4.trans h.4⟩

/-- the fields that do not matter here, taken from `b` -/
def others (a b : Inner) : Inner :=
  { service := a.service, user := a.user, prompt := a.prompt, tty := a.tty, ruser := a.ruser, rhost := a.rhost
    xdisplay := a.xdisplay, conv := a.conv, delayFn := a.delayFn, xauth := a.xauth, failUser := a.failUser
    wantUser := a.wantUser, savedPrompt := a.savedPrompt
    authtok := b.authtok, oldauthtok := b.oldauthtok, authtokType := b.authtokType
    authtokVerified := b.authtokVerified, data := b.data, env := b.env, nextId := b.nextId, cleaned := b.cleaned
    delay := b.delay, delaySet := b.delaySet, caller := b.caller, modArgs := b.modArgs, chauthtok := b.chauthtok, loaded := b.loaded }

theorem Face.of_private {a b : Inner} (h : others a b = b) :
    Face a b := by
  rw [← h]
  refine ⟨?_, rfl, rfl, rfl⟩
  intro it hi
  cases it <;> first | rfl | exact absurd hi (by decide)

theorem setItem_private {h : Inner} {i : Int} (hi : i = PAM_AUTHTOK ∨ i = PAM_OLDAUTHTOK ∨ i = PAM_AUTHTOK_TYPE) (v : Value) (a b : Bool) :
    Face h (setItem h i v a b).2 := by
  have key : ∀ it, (it = .authtok ∨ it = .oldauthtok ∨ it = .authtokType) → Face h (putItem h it v a b).2 := by
    intro it hit
    rcases hit with rfl | rfl | rfl <;> simp only [putItem, storeStr] <;> (repeat' split) <;> exact Face.of_private rfl
  rcases hi with rfl | rfl | rfl
  · exact key .authtok (by simp)
  · exact key .oldauthtok (by simp)
  · exact key .authtokType (by simp)

theorem authtokTypeOf_face (h : Inner) (ok : Bool) : Face h (authtokTypeOf h ok).2 := by
  unfold authtokTypeOf
  split
  · split
    · exact Face.refl _
    · exact setItem_private (by simp) ..
  · exact Face.refl _

theorem markVerified_face (c v : Bool) (x : Inner) : Face x (markVerified c v x) := by
  unfold markVerified
  split
  · exact Face.of_private rfl
  · exact Face.refl _

theorem keepToken_face {i : Int} (hi : i = PAM_AUTHTOK ∨ i = PAM_OLDAUTHTOK) (t : Str) (ok v : Bool) (m : S W) :
    Face m.inner (keepToken i t ok v m).2.2.inner := by
  have hi : i = PAM_AUTHTOK ∨ i = PAM_OLDAUTHTOK ∨ i = PAM_AUTHTOK_TYPE := by rcases hi with h | h <;> simp [h]
  unfold keepToken
  simp only
  split
  · exact setItem_private hi ..
  · exact (setItem_private hi ..).trans (markVerified_face ..)

theorem tokenReply_face (cv : Convs W) {i : Int} (hi : i = PAM_AUTHTOK ∨ i = PAM_OLDAUTHTOK) (n : Nat) (ok : Bool) (c : Int)
    (r1 r2 : Option Str) (m : S W) : Face m.inner (tokenReply cv i n ok c r1 r2 m).2.2.inner := by
  unfold tokenReply
  split
  · simp only; split <;> exact Face.refl _
  · split
    · simp only; split <;> exact Face.refl _
    · split
      · exact Face.refl _
      · exact keepToken_face hi ..

theorem getAuthtok_face (cv : Convs W) {i : Int} (hi : i = PAM_AUTHTOK ∨ i = PAM_OLDAUTHTOK) (p : Option Str) (nv : Bool)
    (ok : AuthtokOk) (m : S W) : Face m.inner (getAuthtok cv i p nv ok m).2.2.inner := by
  unfold getAuthtok
  simp only
  have ht := authtokTypeOf_face m.inner ok.type
  split
  · exact ht
  · split
    · exact ht
    · refine ht.trans (Face.trans ?_ (tokenReply_face _ hi ..))
      rw [askToken_inner]
      exact markVerified_face ..

theorem getAuthtokVerify_face (cv : Convs W) (g : Str) (p : Option Str) (a b : Bool) (m : S W) :
    Face m.inner (getAuthtokVerify cv g p a b m).2.2.inner := by
  unfold getAuthtokVerify
  split
  · exact Face.refl _
  · split
    · exact Face.refl _
    · simp only
      have : ∀ (c : Int) (r : Option Str) (x : S W), Face x.inner (verifyReply cv g b c r x).2.2.inner := by
        intro c r x
        unfold verifyReply
        simp only
        split
        · exact setItem_private (by simp) ..
        · split
          · exact setItem_private (by simp) ..
          · split
            · exact setItem_private (by simp) ..
            · exact keepToken_face (by simp) ..
      have := this (promptFor cv (secondPrompt p (m.inner.authtokType.getD [])) a m).1
        (promptFor cv (secondPrompt p (m.inner.authtokType.getD [])) a m).2.1
        (promptFor cv (secondPrompt p (m.inner.authtokType.getD [])) a m).2.2
      rw [promptFor_inner] at this
      exact this

theorem setData_face (h : Inner) (n : Option Str) (d : Nat) (c ok : Bool) : Face h (setData h n d c ok).2 := by
  unfold setData
  split
  · exact Face.refl _
  · split
    · exact Face.refl _
    · split
      · exact Face.of_private rfl
      · split <;> exact Face.of_private rfl

theorem effect_face {cv : Convs W} {op : Op} {m m' : S W} {a : Ans} (h : effect cv op m = some (a, m'))
    (h1 : ∀ x y z t, op ≠ .setItem x y z t) (h2 : ∀ x y z, op ≠ .getUser x y z) : Face m.inner m'.inner := by
  cases op <;> simp only [effect, Option.some.injEq, Prod.mk.injEq, Option.map_eq_some_iff] at h
  case setItem x y z t => exact absurd rfl (h1 x y z t)
  case getUser x y z => exact absurd rfl (h2 x y z)
  case setData x y z t => rw [← h.2]; exact setData_face ..
  case failDelay x => rw [← h.2]; exact Face.of_private rfl
  case getAuthtok => rw [← h.2]; exact getAuthtok_face _ (by split <;> simp) ..
  case getAuthtokVerify => rw [← h.2]; exact getAuthtokVerify_face ..
  case prompt => rw [← h.2, promptFor_inner]; exact Face.refl _
  case say => rw [← h.2]; exact Face.refl _
  case getItem => rw [← h.2]; exact Face.refl _
  case getData => rw [← h.2]; exact Face.refl _
  all_goals
    obtain ⟨r, _, _, h2⟩ := h
    rw [← h2]
    first | exact Face.refl _ | exact Face.of_private rfl

/-! ### pam_set_item -/

theorem storeStr_cases (h : Inner) (v : Value) (ok : Bool) (set : Option Str → Inner) :
    storeStr h v ok set = (PAM_BAD_ITEM, h) ∨ storeStr h v ok set = (PAM_BUF_ERR, h) ∨
      ∃ s, v = .ofStr s ∧ storeStr h v ok set = (PAM_SUCCESS, set s) := by
  unfold storeStr
  cases v <;> simp only [Value.toStr, trySet]
  case null => exact Or.inr (Or.inr ⟨none, rfl, rfl⟩)
  case str s =>
    cases ok
    · exact Or.inr (Or.inl rfl)
    · exact Or.inr (Or.inr ⟨some s, rfl, rfl⟩)
  all_goals exact Or.inl trivial

/-- the items after pam_set_item gave the code `c` -/
def itemsPut (vals : Item → Value) (it : Item) (v : Value) (c : Int) : Item → Value :=
  if c = PAM_SUCCESS then put vals it (stored it v)
  else if it = .xauth ∧ c = PAM_BUF_ERR then put vals it (.xauth [] [])
  else vals

theorem putItem_items (h : Inner) (it : Item) (v : Value) (a b : Bool) (j : Item) (hj : isPublic j = true) :
    (readItem (putItem h it v a b).2 j).2 = itemsPut (fun k => (readItem h k).2) it v (putItem h it v a b).1 j := by
  cases it
  case service =>
    cases v <;> simp only [putItem]
    case str s =>
      cases a
      · cases j <;> rfl
      · cases j <;> rfl
    all_goals rfl
  case conv =>
    cases v <;> simp only [putItem]
    case conv c =>
      cases a
      · rfl
      · cases j <;> rfl
    all_goals rfl
  case failDelay =>
    cases v <;> simp only [putItem]
    case fn c => cases j <;> rfl
    case null => cases j <;> rfl
    all_goals rfl
  case xauth =>
    cases v <;> simp only [putItem]
    case xauth n d => cases a <;> cases b <;> cases j <;> rfl
    all_goals rfl
  case authtok =>
    simp only [putItem]
    split
    · rcases storeStr_cases { h with authtok := overwritten h.authtok } v a (fun s => { h with authtok := s }) with e | e | ⟨s, rfl, e⟩ <;>
        rw [e] <;> cases j <;> first | rfl | exact absurd hj (by decide)
    · rfl
  case oldauthtok =>
    simp only [putItem]
    split
    · rcases storeStr_cases { h with oldauthtok := overwritten h.oldauthtok } v a (fun s => { h with oldauthtok := s }) with e | e | ⟨s, rfl, e⟩ <;>
        rw [e] <;> cases j <;> first | rfl | exact absurd hj (by decide)
    · rfl
  all_goals
    simp only [putItem]
    rcases storeStr_cases h v a _ with e | e | ⟨s, rfl, e⟩ <;> rw [e]
    · rfl
    · rfl
    · cases j <;> first | rfl | exact absurd hj (by decide)

/-- the code of the failed question after pam_set_item gave the code `c` -/
def failedPut (it : Item) (c old : Int) : Int :=
  if c = PAM_SUCCESS ∧ (it = .user ∨ it = .userPrompt ∨ it = .conv) then 0 else old

theorem putItem_question (h : Inner) (it : Item) (v : Value) (a b : Bool) :
    (putItem h it v a b).2.wantUser = h.wantUser ∧ (putItem h it v a b).2.savedPrompt = h.savedPrompt ∧
      (putItem h it v a b).2.failUser =
        failedPut it (putItem h it v a b).1 h.failUser := by
  cases it
  case service => cases v <;> cases a <;> exact ⟨rfl, rfl, rfl⟩
  case conv => cases v <;> cases a <;> exact ⟨rfl, rfl, rfl⟩
  case failDelay => cases v <;> exact ⟨rfl, rfl, rfl⟩
  case xauth => cases v <;> cases a <;> cases b <;> exact ⟨rfl, rfl, rfl⟩
  case authtok =>
    simp only [putItem]
    split
    · rcases storeStr_cases { h with authtok := overwritten h.authtok } v a (fun s => { h with authtok := s }) with e | e | ⟨s, rfl, e⟩ <;>
        rw [e] <;> exact ⟨rfl, rfl, rfl⟩
    · exact ⟨rfl, rfl, rfl⟩
  case oldauthtok =>
    simp only [putItem]
    split
    · rcases storeStr_cases { h with oldauthtok := overwritten h.oldauthtok } v a (fun s => { h with oldauthtok := s }) with e | e | ⟨s, rfl, e⟩ <;>
        rw [e] <;> exact ⟨rfl, rfl, rfl⟩
    · exact ⟨rfl, rfl, rfl⟩
  all_goals
    simp only [putItem]
    rcases storeStr_cases h v a _ with e | e | ⟨s, rfl, e⟩ <;> rw [e] <;> exact ⟨rfl, rfl, rfl⟩

theorem putItem_fits (h : Inner) (it : Item) (v : Value) (hf : fits it v = true) : (putItem h it v true true).1 = PAM_SUCCESS := by
  cases it <;> cases v <;> first | rfl | exact absurd hf Bool.false_ne_true

/-! ### pam_get_user -/

theorem ofInt_question (i : Int) (it : Item) (h : Item.ofInt i = some it) :
    (it = .user ∨ it = .userPrompt ∨ it = .conv) ↔ (i = PAM_USER ∨ i = PAM_USER_PROMPT ∨ i = PAM_CONV) := by
  cases it <;> grind (splits := 20) [Item.ofInt]

theorem readItem_user (h : Inner) : (readItem h .user).2 = .ofStr h.user := rfl
theorem readItem_prompt (h : Inner) : (readItem h .userPrompt).2 = .ofStr h.prompt := rfl

theorem question_eq (h : Inner) (vals : Item → Value) (p : Option Str) (hv : vals .userPrompt = .ofStr h.prompt) :
    question vals p = userPromptOf h p := by
  unfold question userPromptOf
  rw [hv]
  cases p
  · cases h.prompt <;> rfl
  · rfl

/-- the state of the question in a handle -/
def askOf (h : Inner) : Ask := ⟨h.failUser, if h.wantUser then some h.savedPrompt else none⟩

theorem resumeUser_facts (h : Inner) : (∀ it, (readItem (resumeUser h) it) = readItem h it) ∧ (resumeUser h).failUser = h.failUser ∧
    (resumeUser h).wantUser = false ∧ (resumeUser h).user = h.user := by
  unfold resumeUser
  split
  · exact ⟨fun it => by cases it <;> rfl, rfl, rfl, rfl⟩
  · next hw => exact ⟨fun _ => rfl, rfl, by simpa using hw, rfl⟩

theorem userReply_spec (use : Str) (okP okU : Bool) (r : Reply) (h : Inner) (hf : h.failUser = 0) (hw : h.wantUser = false)
    (hu : h.user = none) (t : Talk) (ht : t.code = r.1) (hta : t.answer = r.2.bind id) (htm : t.msg = use) :
    let x := userReply use okP okU r h
    ({ code := x.1, value := .ofStr x.2.1 } : Ans) = answerOf t okU ∧
    (∀ it, isPublic it = true → (readItem x.2.2 it).2 = (if x.1 = PAM_SUCCESS then put (fun k => (readItem h k).2) .user (.ofStr x.2.1) else fun k => (readItem h k).2) it) ∧
    askOf x.2.2 = (if x.1 = PAM_CONV_AGAIN then ({ failed := 0, pending := some (if okP then some t.msg else none) } : Ask)
      else if t.code = PAM_SUCCESS ∧ t.answer ≠ none then { failed := 0, pending := none }
      else { failed := x.1, pending := none }) := by
  simp only
  unfold userReply answerOf askOf
  rw [ht, hta, htm]
  by_cases h1 : r.1 = PAM_CONV_AGAIN
  · have hc : convCode r.1 = PAM_CONV_AGAIN := by rw [h1]; decide
    rw [if_pos hc, if_neg (show ¬ r.1 = PAM_SUCCESS by rw [h1]; decide), if_pos h1]
    refine ⟨rfl, fun it hi => ?_, ?_⟩
    · cases it <;> rfl
    · simp [hf]
  · have hc : convCode r.1 ≠ PAM_CONV_AGAIN := by
      unfold convCode; split
      · exact h1
      · decide
    rw [if_neg hc]
    by_cases h2 : r.1 = PAM_SUCCESS
    · have hc2 : convCode r.1 = PAM_SUCCESS := by rw [h2]; decide
      rw [if_pos hc2, if_pos h2]
      cases hb : r.2.bind id with
      | none =>
        simp only
        refine ⟨rfl, fun it hi => ?_, ?_⟩
        · rw [if_neg (by decide)]; cases it <;> rfl
        · simp [hw, PAM_CONV_ERR, PAM_CONV_AGAIN]
      | some u =>
        simp only
        have hset : setItem h PAM_USER (.str u) okU true = if okU then (PAM_SUCCESS, { h with user := some u, failUser := PAM_SUCCESS }) else (PAM_BUF_ERR, h) := by
          cases okU <;> rfl
        rw [hset]
        cases okU
        · simp only [Bool.false_eq_true, if_false, hu]
          refine ⟨rfl, fun it hi => ?_, ?_⟩
          · rw [if_neg (by decide)]
          · simp [hw, hf, h2, PAM_BUF_ERR, PAM_CONV_AGAIN]
        · simp only [if_true]
          refine ⟨rfl, fun it hi => ?_, ?_⟩
          · cases it <;> rfl
          · simp [hw, hf, h2, PAM_SUCCESS, PAM_CONV_AGAIN]
    · have hc2 : convCode r.1 ≠ PAM_SUCCESS := by
        unfold convCode; split
        · exact h2
        · decide
      rw [if_neg hc2, if_neg h2, if_neg h1]
      simp only
      refine ⟨?_, fun it hi => ?_, ?_⟩
      · unfold convCode
        by_cases h3 : r.1 = PAM_BUF_ERR
        · rw [if_pos (by simp [h3]), if_pos h3, h3]; rfl
        · rw [if_neg h3]
          by_cases h4 : r.1 = PAM_CONV_ERR
          · rw [if_pos (by simp [h4]), h4]; rfl
          · rw [if_neg (by simp [h1, h2, h3, h4])]; rfl
      · rw [if_neg hc2]; cases it <;> rfl
      · simp [hw, h2, hc]

/-! ### Delay -/

theorem largest_snoc (r : List Nat) (u : Nat) : largest (r ++ [u]) = max (largest r) u := by
  simp [largest]

/-! ### The invariant -/

/-- handle and history agree -/
structure ItemInv (init : Item → Value) (m : M W) : Prop where
  items : ∀ it, isPublic it = true → (readItem m.s.inner it).2 = itemsAfter init m.hist it
  ask : askOf m.s.inner = askAfter m.hist
  dset : m.s.inner.delaySet = !(requests m.hist).isEmpty
  delay : ∀ u us, requests m.hist = u :: us → 0 < u → m.s.inner.delay = largest (requests m.hist)
  legal : Always (ItemLegal init) m.hist

theorem itemsAfter_snoc (init : Item → Value) (h : List Event) (e : Event) :
    itemsAfter init (h ++ [e]) = itemsStep (itemsAfter init h) e := by simp [itemsAfter]
theorem askAfter_snoc (h : List Event) (e : Event) : askAfter (h ++ [e]) = askStep (askAfter h) e := by simp [askAfter]
theorem requests_snoc (h : List Event) (e : Event) : requests (h ++ [e]) = requestStep (requests h) e := by simp [requests]

theorem put_congr {vals vals' : Item → Value} {it : Item} (h : vals it = vals' it) (j : Item) (v : Value) :
    put vals j v it = put vals' j v it := by
  unfold put; split
  · rfl
  · exact h

theorem itemsStep_congr {vals vals' : Item → Value} {it : Item} (h : vals it = vals' it) (e : Event) :
    itemsStep vals e it = itemsStep vals' e it := by
  cases e with
  | pass p => exact h
  | waited s w => exact h
  | call c op a t =>
    cases op <;> simp only [itemsStep] <;> first | exact h | skip
    case setItem i v ok ok2 =>
      cases Item.ofInt i with
      | none => exact h
      | some j => simp only; (repeat' split) <;> first | exact h | exact put_congr h _ _
    case getUser => split <;> first | exact h | exact put_congr h _ _

theorem ItemInv.snoc {init : Item → Value} {m : M W} {s' : S W} {e : Event} (h : ItemInv init m)
    (h1 : ∀ it, isPublic it = true → (readItem s'.inner it).2 = itemsStep (fun k => (readItem m.s.inner k).2) e it)
    (h2 : askOf s'.inner = askStep (askOf m.s.inner) e)
    (h3 : s'.inner.delaySet = m.s.inner.delaySet ∧ s'.inner.delay = m.s.inner.delay ∧ ∀ r, requestStep r e = r)
    (h4 : ItemLegal init m.hist e) : ItemInv init ({ m with s := s', hist := m.hist ++ [e] } : M W) where
  items := by
    intro it hi
    rw [h1 it hi, itemsAfter_snoc]
    exact itemsStep_congr (h.items it hi) e
  ask := by simp only [h2, askAfter_snoc, h.ask]
  dset := by simp only [requests_snoc, h3.2.2, h3.1, h.dset]
  delay := by
    intro u us he hu
    simp only [requests_snoc, h3.2.2] at he ⊢
    rw [h3.2.1]; exact h.delay u us he hu
  legal := h.legal.snoc h4

theorem readItem_public {h : Inner} {it : Item} (hi : isPublic it = true) : (readItem h it).1 = PAM_SUCCESS := by
  cases it <;> first | rfl | exact absurd hi (by decide)

theorem getUser_step {init : Item → Value} {m : M W} (cv : Convs W) (p : Option Str) (okP okU : Bool) (h : ItemInv init m) :
    ItemInv init (step cv (.getUser p okP okU) m).2 := by
  unfold step
  simp only [effect]
  have hfr := getUser_frame cv p okP okU m.s
  have hv1 : itemsAfter init m.hist .user = .ofStr m.s.inner.user := (h.items .user rfl).symm
  have hv2 : itemsAfter init m.hist .userPrompt = .ofStr m.s.inner.prompt := (h.items .userPrompt rfl).symm
  have hq : question (itemsAfter init m.hist) p = userPromptOf m.s.inner p := question_eq _ _ _ hv2
  have ha1 : (askAfter m.hist).failed = m.s.inner.failUser := by rw [← h.ask]; rfl
  have ha2 : (askAfter m.hist).pending = if m.s.inner.wantUser then some m.s.inner.savedPrompt else none := by rw [← h.ask]; rfl
  -- calls that change nothing
  have quiet : ∀ (c : Int) (u : Option Str), (c = PAM_SUCCESS → u = m.s.inner.user) →
      userRule (itemsAfter init m.hist) (askAfter m.hist) p okU { code := c, value := .ofStr u } [] →
      ItemInv init ({ m with hist := m.hist ++ [.call m.s.inner.caller (.getUser p okP okU) { code := c, value := .ofStr u } []] } : M W) := by
    intro c u hc hr
    refine ItemInv.snoc (s' := m.s) h ?_ rfl ⟨rfl, rfl, fun _ => rfl⟩ hr
    intro it hi
    simp only [itemsStep]
    split
    · next e =>
      unfold put
      split
      · next e2 => subst e2; rw [hc e]; rfl
      · rfl
    · rfl
  cases hu : m.s.inner.user with
  | some u =>
    have hg : getUser cv p okP okU m.s = (PAM_SUCCESS, some u, m.s) := by simp only [getUser, hu]
    rw [hg]
    simp only [List.drop_length]
    refine quiet _ _ (fun _ => hu.symm) ?_
    simp only [userRule, hv1, hu, Value.ofStr]
    exact ⟨trivial, trivial⟩
  | none =>
    by_cases hf : m.s.inner.failUser ≠ PAM_SUCCESS
    · have hg : getUser cv p okP okU m.s = (m.s.inner.failUser, none, m.s) := by simp only [getUser, hu, if_pos hf]
      rw [hg]
      simp only [List.drop_length]
      refine quiet _ _ (fun e => absurd e hf) ?_
      simp only [userRule, hv1, hu, Value.ofStr, ha1]
      rw [if_pos hf]
      exact ⟨trivial, trivial⟩
    · have hf0 : m.s.inner.failUser = 0 := by simpa using hf
      by_cases hw : m.s.inner.wantUser = true ∧ m.s.inner.savedPrompt ≠ some (userPromptOf m.s.inner p)
      · have hg : getUser cv p okP okU m.s = (PAM_ABORT, none, m.s) := by simp only [getUser, hu, if_neg hf, if_pos hw]
        rw [hg]
        simp only [List.drop_length]
        refine quiet _ _ (fun e => absurd e (by decide)) ?_
        simp only [userRule, hv1, hu, Value.ofStr, ha1, ha2, hq]
        rw [if_neg (by simpa using hf0), if_pos (by rw [if_pos hw.1]; simpa using hw.2)]
        exact ⟨trivial, trivial⟩
      · obtain ⟨r1, r2, r3, r4⟩ := resumeUser_facts m.s.inner
        obtain ⟨s1, s2, s3⟩ := userReply_spec (userPromptOf m.s.inner p) okP okU (converse cv .echoOn (userPromptOf m.s.inner p) m.s).1
          (resumeUser m.s.inner) (r2.trans hf0) r3 (r4.trans hu)
          ⟨.echoOn, userPromptOf m.s.inner p, (converse cv .echoOn (userPromptOf m.s.inner p) m.s).1.1,
            (converse cv .echoOn (userPromptOf m.s.inner p) m.s).1.2.bind id⟩ rfl rfl rfl
        have htalk : (converse cv .echoOn (userPromptOf m.s.inner p) m.s).2.talk = m.s.talk ++
          [⟨.echoOn, userPromptOf m.s.inner p, (converse cv .echoOn (userPromptOf m.s.inner p) m.s).1.1,
            (converse cv .echoOn (userPromptOf m.s.inner p) m.s).1.2.bind id⟩] := rfl
        simp only [getUser, hu, if_neg hf, if_neg hw] at hfr ⊢
        simp only [htalk, List.drop_left]
        generalize converse cv .echoOn (userPromptOf m.s.inner p) m.s = c at *
        generalize userReply (userPromptOf m.s.inner p) okP okU c.1 (resumeUser m.s.inner) = x at *
        generalize ht : (⟨.echoOn, userPromptOf m.s.inner p, c.1.1, c.1.2.bind id⟩ : Talk) = t at *
        refine ItemInv.snoc (s' := { inner := x.2.2, world := c.2.world, talk := m.s.talk ++ [t] })
          (e := .call m.s.inner.caller (.getUser p okP okU) { code := x.1, value := .ofStr x.2.1 } [t]) h ?_ ?_
          ⟨hfr.delaySet, hfr.delay, fun _ => rfl⟩ ?_
        · intro it hi
          simp only [itemsStep]
          rw [s2 it hi]
          have : (fun k => (readItem (resumeUser m.s.inner) k).2) = (fun k => (readItem m.s.inner k).2) := by
            funext k; rw [r1 k]
          rw [this]
        · exact s3
        · simp only [ItemLegal, userRule, hv1, hu, Value.ofStr, ha1, ha2, hq]
          rw [if_neg (by simpa using hf0), if_neg]
          · exact ⟨t, rfl, by rw [← ht], by rw [← ht], s1⟩
          · intro hp
            by_cases hww : m.s.inner.wantUser = true
            · rw [if_pos hww] at hp
              exact hw ⟨hww, fun e => hp.2 (by rw [e])⟩
            · rw [if_neg hww] at hp
              exact hp.1 rfl

theorem ItemInv.flags {init : Item → Value} {m m' : M W} (h : ItemInv init m) (h1 : m'.s.inner = m.s.inner) (h2 : m'.hist = m.hist) :
    ItemInv init m' :=
  ⟨by rw [h1, h2]; exact h.items, by rw [h1, h2]; exact h.ask, by rw [h1, h2]; exact h.dset, by rw [h1, h2]; exact h.delay,
    by rw [h2]; exact h.legal⟩

theorem ItemInv.face {init : Item → Value} {m m' : M W} (h : ItemInv init m) (hf : Face m.s.inner m'.s.inner)
    (hd : m'.s.inner.delaySet = m.s.inner.delaySet ∧ m'.s.inner.delay = m.s.inner.delay) (h2 : m'.hist = m.hist) : ItemInv init m' := by
  refine ⟨?_, ?_, ?_, ?_, by rw [h2]; exact h.legal⟩
  · intro it hi; rw [hf.items it hi, h2]; exact h.items it hi
  · rw [h2, ← h.ask]; simp only [askOf, hf.failUser, hf.wantUser, hf.savedPrompt]
  · rw [h2, hd.1]; exact h.dset
  · rw [h2, hd.2]; exact h.delay

theorem itemInv_closed (init : Item → Value) : Closed (W := W) (ItemInv init) where
  step := by
    intro cv op m hop h
    by_cases hu : ∃ p x y, op = .getUser p x y
    · obtain ⟨p, x, y, rfl⟩ := hu
      exact getUser_step cv p x y h
    by_cases hd : ∃ u, op = .failDelay u
    · obtain ⟨u, rfl⟩ := hd
      unfold step
      simp only [effect]
      have hreq : requests (m.hist ++ [.call m.s.inner.caller (.failDelay u) { code := (failDelay m.s.inner u).1 }
          (List.drop m.s.talk.length m.s.talk)]) = requests m.hist ++ [u] := by rw [requests_snoc]; rfl
      refine ⟨?_, ?_, ?_, ?_, h.legal.snoc trivial⟩
      · intro it hi
        rw [itemsAfter_snoc]
        have := h.items it hi
        cases it <;> exact this
      · rw [askAfter_snoc]; exact h.ask
      · simp only [hreq]
        simp [failDelay]
      · intro v vs he hv
        simp only [hreq] at he ⊢
        rw [largest_snoc]
        simp only [failDelay]
        rw [h.dset]
        cases hr : requests m.hist with
        | nil =>
          rw [hr] at he
          simp only [List.nil_append, List.cons.injEq] at he
          simp only [List.isEmpty_nil, Bool.not_true, Bool.false_eq_true, if_false, largest, List.foldl_nil]
          rw [if_pos (by omega)]; omega
        | cons v' vs' =>
          rw [hr] at he
          simp only [List.cons_append, List.cons.injEq] at he
          have := h.delay v' vs' hr (by omega)
          rw [hr] at this
          simp only [List.isEmpty_cons, Bool.not_false, if_true]
          rw [this]
          split <;> omega
    by_cases hs : ∃ i v a b, op = .setItem i v a b
    · obtain ⟨i, v, a, b, rfl⟩ := hs
      unfold step
      simp only [effect, List.drop_length]
      have hfr := setItem_frame m.s.inner i v a b
      refine ItemInv.snoc (s' := { m.s with inner := (setItem m.s.inner i v a b).2 }) h ?_ ?_ ⟨hfr.delaySet, hfr.delay, fun _ => rfl⟩ ?_
      · intro it hi
        unfold setItem
        simp only [itemsStep]
        cases Item.ofInt i with
        | none => rfl
        | some j => simp only; rw [putItem_items _ _ _ _ _ _ hi]; rfl
      · unfold setItem askOf
        simp only [askStep]
        cases hj : Item.ofInt i with
        | none =>
          simp only
          simp only [show ¬ (PAM_BAD_ITEM : Int) = PAM_SUCCESS by decide, false_and, if_false]
        | some j =>
          simp only
          obtain ⟨q1, q2, q3⟩ := putItem_question m.s.inner j v a b
          rw [q1, q2, q3]
          simp only [failedPut, ofInt_question i j hj]
          split <;> rfl
      · intro j hj hfit ha hb
        subst ha hb
        simp only [setItem, hj]
        exact putItem_fits _ _ _ hfit
    have h1 : ∀ x y z t, op ≠ .setItem x y z t := fun x y z t e => hs ⟨x, y, z, t, e⟩
    have h2 : ∀ x y z, op ≠ .getUser x y z := fun x y z e => hu ⟨x, y, z, e⟩
    have h3 : ∀ x, op ≠ .failDelay x := fun x e => hd ⟨x, e⟩
    unfold step
    cases he : effect cv op m.s with
    | none => simp only; split <;> exact h.flags rfl rfl
    | some r =>
      obtain ⟨a, s'⟩ := r
      simp only
      have hf := effect_face he h1 h2
      have hdl : s'.inner.delaySet = m.s.inner.delaySet ∧ s'.inner.delay = m.s.inner.delay := by
        cases op <;> first
          | exact absurd rfl (h3 _)
          | (simp only [effect, Option.some.injEq, Prod.mk.injEq, Option.map_eq_some_iff] at he
             obtain ⟨r, _, _, h2⟩ := he
             rw [← h2]; exact ⟨rfl, rfl⟩)
          | skip
        case setData n d c ok =>
          simp only [effect, Option.some.injEq, Prod.mk.injEq] at he
          rw [← he.2]
          simp only [setData]
          (repeat' split) <;> exact ⟨rfl, rfl⟩
        all_goals
          have := effect_frame he (by simp) (by simp) (by simp)
          exact ⟨this.delaySet, this.delay⟩
      refine ItemInv.snoc (s' := s') h ?_ ?_ ⟨hdl.1, hdl.2, ?_⟩ ?_
      · intro it hi
        rw [hf.items it hi]
        cases op <;> first | rfl | exact absurd rfl (h1 _ _ _ _) | exact absurd rfl (h2 _ _ _)
      · simp only [askOf, hf.failUser, hf.wantUser, hf.savedPrompt]
        cases op <;> first | rfl | exact absurd rfl (h1 _ _ _ _) | exact absurd rfl (h2 _ _ _)
      · intro r
        cases op <;> first | rfl | exact absurd rfl (h3 _)
      · cases op <;> first | trivial | exact absurd rfl (h1 _ _ _ _) | exact absurd rfl (h2 _ _ _) | skip
        case getItem i =>
          intro it hj hi
          simp only [effect, Option.some.injEq, Prod.mk.injEq, getItem, hj] at he
          rw [← he.1]
          exact ⟨readItem_public hi, h.items it hi⟩
  world := fun _ _ h => h.flags rfl rfl
  args := fun _ _ h => h.face (Face.of_private rfl) ⟨rfl, rfl⟩ rfl
  caller := fun _ _ h => h.face (Face.of_private rfl) ⟨rfl, rfl⟩ rfl
  choice := fun _ _ h => h.face (Face.of_private rfl) ⟨rfl, rfl⟩ rfl
  loaded := fun _ h => h.face (Face.of_private rfl) ⟨rfl, rfl⟩ rfl
  sanitize := by
    intro m h
    refine h.face ?_ ?_ rfl
    · simp only [M.sanitize, sanitize_eq]; exact Face.of_private rfl
    · simp only [M.sanitize, sanitize_eq]; exact ⟨trivial, trivial⟩
  await := by
    intro m st h
    refine ⟨?_, ?_, ?_, ?_, ?_⟩
    · intro it hi
      simp only [M.await, itemsAfter_snoc]
      have := h.items it hi
      cases it <;> exact this
    · simp only [M.await, askAfter_snoc]; exact h.ask
    · simp only [M.await, requests_snoc]; rfl
    · intro u us he
      simp only [M.await, requests_snoc] at he
      exact absurd he (by simp [requestStep])
    · refine h.legal.snoc ?_
      have hs := h.dset
      have hfn : itemsAfter init m.hist .failDelay = (match m.s.inner.delayFn with | none => .null | some f => .fn f) := (h.items .failDelay rfl).symm
      intro hk
      simp only [delayKnown, waitRule, awaitTimer, hfn] at hk ⊢
      cases hr : requests m.hist with
      | nil =>
        rw [hr] at hk hs
        cases hf : m.s.inner.delayFn with
        | some f => rw [hf] at hk; simp at hk
        | none => simp [hs]
      | cons u us =>
        rw [hr] at hk hs
        rcases Nat.eq_zero_or_pos u with h0 | h0
        · cases hf : m.s.inner.delayFn with
          | some f => rw [hf] at hk; simp [h0] at hk
          | none =>
            rw [hf] at hk
            simp [h0] at hk
            simp [hs, hk]
        · have hd := h.delay u us hr h0
          rw [hd, hr]
          cases m.s.inner.delayFn with
          | some f => rfl
          | none => simp [hs]
  pass := by
    intro m p h
    exact ItemInv.snoc (s' := m.s) h (fun it _ => rfl) rfl ⟨rfl, rfl, fun _ => rfl⟩ trivial

theorem itemInv_since {lib : Lib W} {service : Str} {user : Option Str} {conv : Nat} {w : W} {h0 h : Handle W}
    (hs : start lib service user conv w = some h0) (hr : Since h0 h) :
    ItemInv (startItems ((Config.afterLast '/' service).map lower) user conv) h.m := by
  refine (itemInv_closed _).since hs ⟨?_, rfl, rfl, fun u us he => absurd he (by simp [startM, requests]), Always.nil _⟩ hr
  intro it hi
  cases it <;> first | rfl | exact absurd hi (by decide)

end Pam.Handle
