import Verif.Handle.Lift
/-
Between calls of the application the handle is in application mode.
-/
namespace Pam.Handle
open Pam.Config (Fn MType Tables Entry Sys)

variable {W : Type}

theorem dispatch_caller {lib : Lib W} {fn : Fn} {flags : Nat} {h h' : Handle W} {code : Int}
    (hs : dispatch lib fn flags h = some (code, h')) (hp : h.inner.caller = .app) : h'.inner.caller = .app := by
  have hrs : ∀ {f : Option Dispatch.Former} {h h' : Handle W} {code : Int},
      runStack lib fn flags f h = some (code, h') → h'.inner.caller = .app := by
    intro f h h' code hs
    have hT : ModRel (fun _ _ : M W => True) := ⟨⟨fun _ => trivial, fun _ _ _ _ _ => trivial⟩, fun _ _ _ _ => trivial, fun _ _ => trivial, fun _ _ => trivial⟩
    obtain ⟨m, t, _, _, h3, _⟩ := runStack_spec hT hs
    show h'.m.s.inner.caller = _
    rw [h3]; rfl
  unfold dispatch at hs
  rw [if_neg (by rw [hp]; decide)] at hs
  have hl : (load lib h).2.inner.caller = .app := by
    rcases load_m lib h with e | e <;> (show (load lib h).2.m.s.inner.caller = _; rw [e]; exact hp)
  generalize load lib h = l at hs hl
  obtain ⟨ok, h1⟩ := l
  simp only at hs hl
  split at hs
  · split at hs
    · split at hs
      · exact hrs hs
      · simp only [Option.some.injEq, Prod.mk.injEq] at hs; rw [← hs.2]; exact hl
    · exact hrs hs
  · simp only [Option.some.injEq, Prod.mk.injEq] at hs; rw [← hs.2]; exact hl

theorem sanitize_caller (i : Inner) : (sanitize i).caller = i.caller := rfl

theorem await_caller (s : Int) (h : Handle W) : (await s h).inner.caller = h.inner.caller := rfl

theorem chauthtokEnd_caller (r : Int × Handle W) : (chauthtokEnd r).2.inner.caller = r.2.inner.caller := by
  unfold chauthtokEnd; split <;> rfl

theorem begin_caller (b : Bool) (h : Handle W) : (begin b h).inner.caller = h.inner.caller := by
  unfold begin; split <;> rfl

theorem updatePass_caller {lib : Lib W} {flags : Nat} {h h' : Handle W} {code : Int}
    (hs : updatePass lib flags h = some (code, h')) (hp : h.inner.caller = .app) : h'.inner.caller = .app := by
  unfold updatePass at hs
  rw [Option.map_eq_some_iff] at hs
  obtain ⟨⟨c, h1⟩, hd, hs⟩ := hs
  have := chauthtokEnd_caller (c, h1)
  rw [hs] at this; rw [this]; exact dispatch_caller hd hp

theorem run_caller {lib : Lib W} {fn : Fn} {flags : Nat} {h h' : Handle W} {code : Int}
    (hs : run lib fn flags h = some (code, h')) (hp : h.inner.caller = .app) : h'.inner.caller = .app := by
  have hb : ∀ b, (begin b h).inner.caller = .app := fun b => by rw [begin_caller]; exact hp
  unfold run at hs
  split at hs
  · simp only [Option.some.injEq, Prod.mk.injEq] at hs; rw [← hs.2]; exact hp
  · split at hs
    · unfold authenticate at hs
      simp only [Option.map_eq_some_iff] at hs
      obtain ⟨⟨c, h1⟩, hd, hs⟩ := hs
      have h1p := dispatch_caller hd (hb _)
      split at hs
      · simp only [Prod.mk.injEq] at hs; rw [← hs.2]; exact h1p
      · simp only [Prod.mk.injEq] at hs; rw [← hs.2]; exact h1p
    · exact dispatch_caller hs hp
    · unfold chauthtok at hs
      split at hs
      · exact updatePass_caller hs (hb _)
      · split at hs
        · exact absurd hs (by simp)
        · next c h1 hd =>
          have h1p := dispatch_caller hd (hb _)
          split at hs
          · exact updatePass_caller hs h1p
          · have := chauthtokEnd_caller (c, h1)
            simp only [Option.some.injEq] at hs
            rw [hs] at this; rw [this]; exact h1p
    · exact dispatch_caller hs hp

theorem reach_app {h : Handle W} (hr : Reach h) : h.inner.caller = .app := by
  induction hr with
  | start lib service user conv w h hs =>
    unfold start at hs
    simp only at hs
    split at hs
    · next h1 he =>
      simp only [Option.some.injEq] at hs
      subst hs
      have := load_m lib { m := startM service user conv w, tables := {}, cells := fun _ _ _ => INVALID_RETVAL, grant := fun _ _ _ => false, former := none, update := false }
      unfold startM at this
      rw [he] at this
      show h1.m.s.inner.caller = _
      rcases this with e | e
      · simp only at e; rw [e]
      · simp only at e; rw [e]; rfl
    · exact absurd hs (by simp)
  | step h h' lib a ans _ hs ih =>
    unfold Act.apply at hs
    split at hs
    · rw [Option.map_eq_some_iff] at hs
      obtain ⟨⟨c, h1⟩, hd, hs⟩ := hs
      simp only [Prod.mk.injEq] at hs
      rw [← hs.2]
      exact run_caller hd ih
    · exact absurd hs (by simp)
    · simp only [Option.some.injEq, Prod.mk.injEq] at hs
      rw [← hs.2]; simp only [Handle.inner, step_caller]; exact ih
    · simp only [Option.some.injEq, Prod.mk.injEq] at hs
      rw [← hs.2]; exact ih

end Pam.Handle
