import Verif.Handle.Example
import Verif.Handle.PEnvProps
/-
The environment theorems C17 and C18 over histories of a handle: any mixture of calls by modules
and by the application.
-/
namespace Pam.Handle
open Spec

set_option linter.unusedSimpArgs false
set_option maxRecDepth 100000

variable {W : Type}

namespace Spec
/-- the pam_putenv calls of a history, by whomever, with their codes -/
def puts (hist : List Event) : List Done :=
  hist.filterMap (fun
    | .call _ (.putenv a o1 o2) ans _ => some (⟨a, o1, o2⟩, ans.code)
    | _ => none)
end Spec

theorem searchBelow_total {e vs} (h : Rep e vs) (n : Str) : ∀ i ≤ vs.length,
    e.searchBelow n i = some none ∨ ∃ j < vs.length, e.searchBelow n i = some (some j) := by
  intro i
  induction i with
  | zero => intro _; exact Or.inl rfl
  | succ i ih =>
    intro hi
    unfold PEnv.searchBelow
    rw [rep_at h i (by omega)]
    simp only
    split
    · exact Or.inr ⟨i, by omega, rfl⟩
    · exact ih (by omega)

theorem getenv_total {e vs} (h : Rep e vs) (n : Option Str) : (e.getenv n).isSome = true := by
  unfold PEnv.getenv
  split
  · rfl
  · next n =>
    have hs : e.search n = e.searchBelow n vs.length := by unfold PEnv.search; rw [h.req]; rfl
    rw [hs]
    rcases searchBelow_total h n vs.length (Nat.le_refl _) with h1 | ⟨j, hj, h1⟩
    · rw [h1]; rfl
    · rw [h1]
      simp only
      rw [rep_at h j hj]; rfl

/-- what an event about the environment must say -/
def EnvLegal (pre : List Event) : Event → Prop
  | .call _ (.getenv (some n)) ans _ => '=' ∉ n → ans.value = .ofStr (valueAfter n (puts pre))
  | .call _ (.getenv none) ans _ => ans.value = .null
  | .call _ (.getenvlist ok) ans _ => ans.list =
      if ∀ i ≤ (order (puts pre)).length, ok i = true then
        some ((order (puts pre)).map (fun n => n ++ '=' :: (valueAfter n (puts pre)).getD []))
      else none
  | _ => True

/-- the invariant -/
def EnvOk (m : M W) : Prop :=
  m.broken = false ∧ (∃ vs, Rep m.s.inner.env vs ∧ GoodVars vs ∧ Hist (puts m.hist) vs) ∧ Always EnvLegal m.hist

theorem puts_snoc (h : List Event) (e : Event) : puts (h ++ [e]) = puts h ++ puts [e] := by
  unfold puts; rw [List.filterMap_append]

theorem vars_text {vs : List (Str × Str)} {h : List Done} (h4 : GoodVars vs) (h5 : Hist h vs) :
    vs.map text = (order h).map (fun n => n ++ '=' :: (valueAfter n h).getD []) := by
  rw [← h5.ord, List.map_map]
  apply List.map_congr_left
  intro p hp
  have : lookupV vs p.1 = some p.2 := by
    obtain ⟨pre, post, hs⟩ := List.append_of_mem hp
    rw [hs]
    apply lookupV_split
    have hnd := h4.nodup
    rw [hs] at hnd
    simp only [List.map_append, List.map_cons, List.nodup_append, List.nodup_cons] at hnd
    intro hm
    exact hnd.2.2 _ hm p.1 (by simp) rfl
  simp [Function.comp, text, ← h5.val, this]

theorem envOk_closed : Closed (W := W) EnvOk where
  step := by
    intro cv op m hop hp
    obtain ⟨hb, ⟨vs, h1, h2, h3⟩, hal⟩ := hp
    have hother : (∀ x y z, op ≠ .putenv x y z) → (∀ x, op ≠ .getenv x) → (∀ x, op ≠ .getenvlist x) →
        EnvOk (step cv op m).2 := by
      intro n1 n2 n3
      unfold step
      cases he : effect cv op m.s with
      | none =>
        have hr : op.isRun = true := by
          cases op <;> simp only [effect] at he <;> first
            | rfl
            | exact absurd rfl (n1 _ _ _)
            | exact absurd rfl (n2 _)
            | exact absurd rfl (n3 _)
            | exact absurd he (by simp)
        simp only [hr, if_true]
        exact ⟨hb, ⟨vs, h1, h2, h3⟩, hal⟩
      | some r =>
        obtain ⟨a, s'⟩ := r
        have h0 : puts [.call m.s.inner.caller op a (s'.talk.drop m.s.talk.length)] = [] := by
          cases op <;> first | rfl | exact absurd rfl (n1 _ _ _)
        refine ⟨hb, ⟨vs, ?_, h2, ?_⟩, hal.snoc ?_⟩
        · have henv : s'.inner.env = m.s.inner.env := by
            by_cases hd : ∃ x y z t, op = .setData x y z t
            · obtain ⟨x, y, z, t, rfl⟩ := hd
              simp only [effect, Option.some.injEq, Prod.mk.injEq] at he
              rw [← he.2]
              simp only [setData]
              split
              · rfl
              · split
                · rfl
                · split
                  · rfl
                  · split <;> rfl
            · by_cases hd2 : ∃ x, op = .failDelay x
              · obtain ⟨x, rfl⟩ := hd2
                simp only [effect, Option.some.injEq, Prod.mk.injEq] at he
                rw [← he.2]; rfl
              · exact (effect_frame he n1 (fun x y z t e => hd ⟨x, y, z, t, e⟩) (fun x e => hd2 ⟨x, e⟩)).env
          rw [henv]; exact h1
        · simp only [puts_snoc, h0, List.append_nil]; exact h3
        · cases op <;> first | trivial | exact absurd rfl (n2 _) | exact absurd rfl (n3 _)
    cases op
    case putenv a o1 o2 =>
      obtain ⟨e', p1, p2, p3⟩ := putenv_spec h1 h2 ⟨a, o1, o2⟩
      simp only at p1
      unfold step
      simp only [effect, p1, Option.map_some]
      refine ⟨hb, ⟨_, p2, p3, ?_⟩, hal.snoc trivial⟩
      rw [puts_snoc]
      exact hist_step h3 _ ⟨a, o1, o2⟩
    case getenv n =>
      obtain ⟨v, hv⟩ := Option.isSome_iff_exists.1 (getenv_total h1 n)
      unfold step
      simp only [effect, hv, Option.map_some]
      refine ⟨hb, ⟨vs, h1, h2, ?_⟩, hal.snoc ?_⟩
      · rw [puts_snoc]; simpa [puts] using h3
      · cases n with
        | none => simp only [PEnv.getenv, Option.some.injEq] at hv; subst hv; rfl
        | some n =>
          intro hn
          rw [getenv_rep h1 h2 n hn, Option.some.injEq] at hv
          simp only [← hv, h3.val]
    case getenvlist ok =>
      unfold step
      simp only [effect, getenvlist_rep h1 ok, Option.map_some]
      refine ⟨hb, ⟨vs, h1, h2, ?_⟩, hal.snoc ?_⟩
      · rw [puts_snoc]; simpa [puts] using h3
      · have hlen : vs.length = (order (puts m.hist)).length := by rw [← h3.ord]; simp
        simp only [EnvLegal, vars_text h2 h3, hlen]
    all_goals exact hother (by simp) (by simp) (by simp)
  world := fun _ _ h => h
  args := fun _ _ h => h
  caller := fun _ _ h => h
  choice := fun _ _ h => h
  loaded := fun _ h => h
  sanitize := by
    intro m h
    unfold EnvOk M.sanitize at *
    rw [sanitize_eq]; exact h
  await := by
    intro m st h
    obtain ⟨hb, ⟨vs, h1, h2, h3⟩, hal⟩ := h
    refine ⟨hb, ⟨vs, h1, h2, ?_⟩, hal.snoc trivial⟩
    simp only [M.await, puts_snoc]
    exact (List.append_nil (puts m.hist)).symm ▸ h3
  pass := by
    intro m p h
    obtain ⟨hb, ⟨vs, h1, h2, h3⟩, hal⟩ := h
    refine ⟨hb, ⟨vs, h1, h2, ?_⟩, hal.snoc trivial⟩
    simp only [M.pass, puts_snoc]
    exact (List.append_nil (puts m.hist)).symm ▸ h3

theorem envOk_reach {h : Handle W} (hr : Reach h) : EnvOk h.m :=
  envOk_closed.reach (fun _ _ _ _ => ⟨rfl, ⟨[], make_rep, good_nil, ⟨rfl, by intro n; simp [lookupV, valueAfter, startM, puts]⟩⟩, Always.nil _⟩) hr

/-- C17 and C18 (memory safety): no call of an environment function, by a module or by the
application, ever makes a bad memory access. -/
theorem C17_no_bad_access {h : Handle W} (hr : Reach h) : h.m.broken = false := (envOk_reach hr).1

/-- C17: every pam_getenv in every history gives the value set by the last pam_putenv about that
name before it, if that was a successful setting, and NULL otherwise. -/
theorem C17_getenv_is_last_put {h : Handle W} (hr : Reach h) (pre post : List Event) (c : Caller) (n : Str) (ans : Ans)
    (talk : List Talk) (he : h.m.hist = pre ++ .call c (.getenv (some n)) ans talk :: post) (hn : '=' ∉ n) :
    ans.value = .ofStr (valueAfter n (puts pre)) :=
  (envOk_reach hr).2.2 pre _ post he hn

/-- C18: every pam_getenvlist in every history gives the variables set, in the order of their
creation, or NULL if memory runs out. -/
theorem C18_getenvlist_in_history {h : Handle W} (hr : Reach h) (pre post : List Event) (c : Caller) (ok : Nat → Bool) (ans : Ans)
    (talk : List Talk) (he : h.m.hist = pre ++ .call c (.getenvlist ok) ans talk :: post) :
    ans.list = if ∀ i ≤ (order (puts pre)).length, ok i = true then
        some ((order (puts pre)).map (fun n => n ++ '=' :: (valueAfter n (puts pre)).getD []))
      else none :=
  (envOk_reach hr).2.2 pre _ post he

/-- witness: a module sets A=b, the application changes it and lists the environment -/
example : ∃ r, Ex.calls "auth required m env\n" []
      [.run .authenticate 0, .getenv (some "A".toList), .putenv (some "A=c".toList) true true, .getenvlist (fun _ => true)] = some r ∧
    Reach r.1 ∧ r.2.map (fun a => (a.value, a.list)) =
      [(.null, none), (.str "b".toList, none), (.null, none), (.null, some ["A=c".toList])] :=
  Ex.calls_spec (by decide +kernel)

end Pam.Handle
