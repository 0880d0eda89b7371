import Verif.Dispatch.Guard
import Verif.Whole.DeniedProps
import Verif.Whole.LoginProps
import Verif.Handle.ItemInv
/-
pam_unix called in the middle of a stack: what any answer of it but a failure says.
-/
namespace Pam.Whole
open Pam Pam.Config Pam.Config.Spec Pam.Handle Pam.Dispatch
open Pam.Stack (Line fileLinesOf fileLinesOf_tree)

variable {W : Type}

/-! ### what modules leave alone -/

/-- a code that pam_get_user may keep -/
def FailOk (c : Int) : Prop := c ≠ PAM_NEW_AUTHTOK_REQD ∧ c ≠ PAM_IGNORE

/-- the operation is not changed, and no strange code is kept -/
def Tame (a b : Inner) : Prop := b.chauthtok = a.chauthtok ∧ (FailOk a.failUser → FailOk b.failUser)

theorem Tame.refl (a : Inner) : Tame a a := ⟨rfl, id⟩
theorem Tame.trans {a b c : Inner} (h : Tame a b) (k : Tame b c) : Tame a c := ⟨k.1.trans h.1, fun x => k.2 (h.2 x)⟩

theorem failOk_zero : FailOk 0 := by unfold FailOk; decide

theorem setItem_tame (h : Inner) (i : Int) (v : Value) (a b : Bool) : Tame h (setItem h i v a b).2 := by
  refine ⟨(setItem_frame h i v a b).chauthtok, fun hf => ?_⟩
  unfold setItem
  split
  · rw [(putItem_question h _ v a b).2.2]
    unfold failedPut
    split
    · exact failOk_zero
    · exact hf
  · exact hf

theorem authtokTypeOf_tame (h : Inner) (ok : Bool) : Tame h (authtokTypeOf h ok).2 := by
  unfold authtokTypeOf
  split
  · split
    · exact Tame.refl h
    · exact setItem_tame ..
  · exact Tame.refl h

theorem markVerified_tame (c v : Bool) (x : Inner) : Tame x (markVerified c v x) := by
  unfold markVerified
  split
  · exact ⟨rfl, id⟩
  · exact Tame.refl _

theorem convCode_ok (c : Int) : FailOk (convCode c) := by
  unfold convCode FailOk
  split
  · rename_i h
    rcases h with rfl | rfl | rfl | rfl <;> decide
  · decide

theorem userReply_tame (use : Str) (a b : Bool) (r : Reply) (h : Inner) : Tame h (userReply use a b r h).2.2 := by
  unfold userReply
  split
  · exact ⟨rfl, id⟩
  · split
    · split
      · exact setItem_tame ..
      · exact ⟨rfl, fun _ => (show FailOk PAM_CONV_ERR by unfold FailOk; decide)⟩
    · exact ⟨rfl, fun _ => convCode_ok _⟩

theorem getUser_tame (cv : Convs W) (p : Option Str) (a b : Bool) (m : S W) : Tame m.inner (getUser cv p a b m).2.2.inner := by
  unfold getUser
  split
  · exact Tame.refl _
  · split
    · exact Tame.refl _
    · split
      · exact Tame.refl _
      · refine Tame.trans ?_ (userReply_tame ..)
        unfold resumeUser
        split
        · exact ⟨rfl, id⟩
        · exact Tame.refl _

theorem keepToken_tame (i : Int) (t : Str) (ok v : Bool) (m : S W) : Tame m.inner (keepToken i t ok v m).2.2.inner := by
  unfold keepToken
  simp only
  split
  · exact setItem_tame ..
  · exact Tame.trans (setItem_tame m.inner i (.str t) ok true) (markVerified_tame ..)

theorem tokenReply_tame (cv : Convs W) (i : Int) (n : Nat) (ok : Bool) (c : Int) (r1 r2 : Option Str) (m : S W) :
    Tame m.inner (tokenReply cv i n ok c r1 r2 m).2.2.inner := by
  unfold tokenReply
  split
  · simp only; split <;> exact Tame.refl _
  · split
    · simp only; split <;> exact Tame.refl _
    · split
      · exact Tame.refl _
      · exact keepToken_tame ..

theorem getAuthtok_tame (cv : Convs W) (i : Int) (p : Option Str) (nv : Bool) (ok : AuthtokOk) (m : S W) :
    Tame m.inner (getAuthtok cv i p nv ok m).2.2.inner := by
  have ht := authtokTypeOf_tame m.inner ok.type
  unfold getAuthtok
  simp only
  split
  · exact ht
  · split
    · exact ht
    · refine ht.trans (Tame.trans ?_ (tokenReply_tame ..))
      rw [askToken_inner]
      exact markVerified_tame ..

theorem getAuthtokVerify_tame (cv : Convs W) (g : Str) (p : Option Str) (a b : Bool) (m : S W) :
    Tame m.inner (getAuthtokVerify cv g p a b m).2.2.inner := by
  unfold getAuthtokVerify
  split
  · exact Tame.refl _
  · split
    · exact Tame.refl _
    · simp only
      have key : ∀ m1 : S W, m1.inner = m.inner → ∀ c r, Tame m.inner (verifyReply cv g b c r m1).2.2.inner := by
        intro m1 h1 c r
        rw [← h1]
        unfold verifyReply
        simp only
        split
        · exact setItem_tame ..
        · split
          · exact setItem_tame ..
          · split
            · exact setItem_tame ..
            · exact keepToken_tame ..
      exact key _ (promptFor_inner ..) _ _

theorem setData_tame (h : Inner) (n : Option Str) (d : Nat) (c ok : Bool) : Tame h (setData h n d c ok).2 := by
  unfold setData
  split
  · exact Tame.refl h
  · split
    · exact Tame.refl h
    · split
      · exact ⟨rfl, id⟩
      · split
        · exact ⟨rfl, id⟩
        · exact Tame.refl h

theorem effect_tame {cv : Convs W} {op : Op} {m m' : S W} {a : Ans} (h : effect cv op m = some (a, m')) : Tame m.inner m'.inner := by
  cases op <;> simp only [effect, Option.some.injEq, Prod.mk.injEq, Option.map_eq_some_iff] at h
  case setItem => rw [← h.2]; exact setItem_tame ..
  case setData => rw [← h.2]; exact setData_tame ..
  case failDelay => rw [← h.2]; exact ⟨rfl, id⟩
  case getUser => rw [← h.2]; exact getUser_tame ..
  case getAuthtok => rw [← h.2]; exact getAuthtok_tame ..
  case getAuthtokVerify => rw [← h.2]; exact getAuthtokVerify_tame ..
  case prompt => rw [← h.2, promptFor_inner]; exact Tame.refl _
  case say => rw [← h.2]; exact Tame.refl _
  case getItem => rw [← h.2]; exact Tame.refl _
  case getData => rw [← h.2]; exact Tame.refl _
  all_goals
    obtain ⟨r, _, _, h2⟩ := h
    rw [← h2]; exact ⟨rfl, id⟩

theorem step_tame (cv : Convs W) (op : Op) (m : M W) : Tame m.s.inner (step cv op m).2.s.inner := by
  unfold step
  split
  · rename_i h; exact effect_tame h
  · split <;> exact Tame.refl _

theorem tame_rel : ModRel (W := W) (fun m m' => Tame m.s.inner m'.s.inner) where
  ord := ⟨fun _ => Tame.refl _, fun _ _ _ => Tame.trans⟩
  step := fun cv op m _ => step_tame cv op m
  world := fun _ _ => Tame.refl _
  args := fun _ _ => ⟨rfl, id⟩

theorem failOk_closed : Closed (W := W) (fun m => FailOk m.s.inner.failUser) where
  step := fun cv op m _ h => (step_tame cv op m).2 h
  world := fun _ _ h => h
  args := fun _ _ h => h
  caller := fun _ _ h => h
  choice := fun _ _ h => h
  loaded := fun _ h => h
  sanitize := fun m h => by
    show FailOk (Handle.sanitize m.s.inner).failUser
    rw [sanitize_eq]; exact h
  await := fun m s h => by
    show FailOk (awaitTimer m.s.inner s).2.failUser
    exact h
  pass := fun _ _ h => h

theorem reach_failOk {h : Handle W} (hr : Reach h) : FailOk h.inner.failUser :=
  failOk_closed.reach (fun _ _ _ _ => failOk_zero) hr

/-! ### pam_get_user and pam_get_authtok -/

/-- the user a module is told about: PAM_USER, or the answer to the question for it -/
inductive Names (lib : Lib W) (s : S W) : Str → W → Prop
  | known (name : Str) : s.inner.user = some name → Names lib s name s.world
  | asked (name prompt : Str) (w1 : W) : s.inner.user = none →
      lib.conv s.inner.conv .echoOn prompt s.world = ((PAM_SUCCESS, some (some name)), w1) → Names lib s name w1

/-- the password a module is given: PAM_AUTHTOK, or the answer to the question for it -/
inductive Gives (lib : Lib W) (s : S W) (w1 : W) : Str → Prop
  | kept (pw : Str) : s.inner.authtok = some pw → Gives lib s w1 pw
  | typed (pw : Str) : s.inner.authtok = none → (lib.conv s.inner.conv .echoOff "Password: ".toList w1).1 = (PAM_SUCCESS, some (some pw)) →
      Gives lib s w1 pw

theorem getUser_any (lib : Lib W) (s : S W) (hf : FailOk s.inner.failUser) :
    ∃ a s1, effect lib.conv (.getUser none true true) s = some (a, s1) ∧ FailOk a.code ∧ Frame s.inner s1.inner ∧
      (a.code = PAM_SUCCESS → ∃ name, a.value = .str name ∧ Names lib s name s1.world ∧ s1.inner.authtok = s.inner.authtok ∧ s1.inner.conv = s.inner.conv ∧
        s1.inner.oldauthtok = s.inner.oldauthtok) := by
  refine ⟨_, _, rfl, ?_, getUser_frame .., ?_⟩
  · show FailOk (getUser lib.conv none true true s).1
    unfold getUser
    split
    · exact failOk_zero
    · split
      · exact hf
      · split
        · exact (show FailOk PAM_ABORT by unfold FailOk; decide)
        · show FailOk (userReply _ _ _ _ _).1
          unfold userReply
          split
          · exact (show FailOk PAM_CONV_AGAIN by unfold FailOk; decide)
          · split
            · split
              · exact (show FailOk PAM_SUCCESS by unfold FailOk; decide)
              · exact (show FailOk PAM_CONV_ERR by unfold FailOk; decide)
            · exact convCode_ok _
  · show (getUser lib.conv none true true s).1 = PAM_SUCCESS → ∃ name, Value.ofStr (getUser lib.conv none true true s).2.1 = .str name ∧
      Names lib s name (getUser lib.conv none true true s).2.2.world ∧ (getUser lib.conv none true true s).2.2.inner.authtok = s.inner.authtok ∧
      (getUser lib.conv none true true s).2.2.inner.conv = s.inner.conv ∧ (getUser lib.conv none true true s).2.2.inner.oldauthtok = s.inner.oldauthtok
    unfold getUser
    cases hu : s.inner.user with
    | some u => exact fun _ => ⟨u, rfl, .known u hu, rfl, rfl, rfl⟩
    | none =>
      dsimp only
      split
      · rename_i h1; exact fun h => absurd h h1
      · split
        · exact fun h => absurd (show PAM_ABORT = PAM_SUCCESS from h) (by decide)
        · unfold converse
          dsimp only
          generalize hp : userPromptOf s.inner none = P
          have hres : (resumeUser s.inner).authtok = s.inner.authtok ∧ (resumeUser s.inner).conv = s.inner.conv ∧
              (resumeUser s.inner).oldauthtok = s.inner.oldauthtok := by
            unfold resumeUser; split <;> exact ⟨rfl, rfl, rfl⟩
          generalize resumeUser s.inner = i at hres
          generalize hr : lib.conv s.inner.conv .echoOn P s.world = q
          obtain ⟨⟨c, t⟩, w1⟩ := q
          unfold userReply
          dsimp only
          split
          · exact fun h => absurd (show PAM_CONV_AGAIN = PAM_SUCCESS from h) (by decide)
          · split
            · rename_i hc
              have hc' : c = PAM_SUCCESS := by
                unfold convCode at hc
                split at hc
                · exact hc
                · exact absurd hc (by decide)
              cases t with
              | none => exact fun h => absurd (show PAM_CONV_ERR = PAM_SUCCESS from h) (by decide)
              | some t =>
                cases t with
                | none => exact fun h => absurd (show PAM_CONV_ERR = PAM_SUCCESS from h) (by decide)
                | some t =>
                  intro _
                  exact ⟨t, rfl, .asked t P w1 hu (by rw [hr, hc']), hres.1, hres.2.1, hres.2.2⟩
            · rename_i hc
              exact fun h => absurd h hc

theorem getAuthtok_any (lib : Lib W) (s : S W) (hc : s.inner.caller = .module) (hch : s.inner.chauthtok = false) :
    ∃ a s1, effect lib.conv (.getAuthtok false none false {}) s = some (a, s1) ∧ FailOk a.code ∧ s1.inner.caller = .module ∧
      (a.code = PAM_SUCCESS → Gives lib s s.world (textOf a.value) ∧
        (s1.world = s.world ∨ s1.world = (lib.conv s.inner.conv .echoOff "Password: ".toList s.world).2)) := by
  have e2 : authtokTypeOf s.inner true = ([], s.inner) := by
    unfold authtokTypeOf; rw [if_neg (by rw [hch]; simp)]
  cases ht : s.inner.authtok with
  | some t =>
    have e3 : getItem s.inner PAM_AUTHTOK = (PAM_SUCCESS, .str t) := by
      show readItem s.inner .authtok = _
      unfold readItem
      simp only [if_pos hc, ht, Value.ofStr]
    have e4 : getAuthtok lib.conv PAM_AUTHTOK none false {} s = (PAM_SUCCESS, some (.str t), s) := by
      unfold getAuthtok
      simp only [e2, e3]
      rw [if_pos (by simp)]
    refine ⟨{ code := PAM_SUCCESS, value := .str t }, s, ?_, (show FailOk PAM_SUCCESS by unfold FailOk; decide), hc, fun _ => ⟨.kept t ht, Or.inl rfl⟩⟩
    unfold effect
    dsimp only
    rw [if_neg (by decide), e4]
    rfl
  | none =>
    cases hu : getOption s.inner.modArgs "use_first_pass".toList with
    | some x =>
      have e1 : chpassOf s.inner PAM_AUTHTOK false = 0 := by
        unfold chpassOf; rw [if_neg (by rw [hch]; simp)]
      have e3 : getItem s.inner PAM_AUTHTOK = (PAM_SUCCESS, .null) := by
        show readItem s.inner .authtok = _
        unfold readItem
        simp only [if_pos hc, ht, Value.ofStr]
      have e4 : getAuthtok lib.conv PAM_AUTHTOK none false {} s = (PAM_AUTH_ERR, none, s) := by
        unfold getAuthtok
        simp only [e1, e2, e3, hu]
        rw [if_neg (by simp), if_pos (by simp)]
        simp
      refine ⟨{ code := PAM_AUTH_ERR, value := .null }, s, ?_, (show FailOk PAM_AUTH_ERR by unfold FailOk; decide), hc,
        fun h => absurd (show PAM_AUTH_ERR = PAM_SUCCESS from h) (by decide)⟩
      unfold effect
      dsimp only
      rw [if_neg (by decide), e4]
      rfl
    | none =>
      obtain ⟨s1, v, k1, k2, k3, -, t, k5⟩ := getAuthtok_ask (cv := lib.conv) hc hch ht hu
      refine ⟨_, s1, k1, ?_, by rw [k5]; exact hc, fun h => ⟨.typed _ ht ?_, Or.inr k3⟩⟩
      · have := tokOf_ordinary (lib.conv s.inner.conv .echoOff "Password: ".toList s.world).1
        generalize (tokOf (lib.conv s.inner.conv .echoOff "Password: ".toList s.world).1).1 = c at this
        unfold FailOk
        constructor <;> (rintro rfl; exact absurd this (by decide))
      · have h' := tokOf_success.mp h
        dsimp only
        rw [k2 h]
        exact h'

end Pam.Whole
