import Verif.Stack.Walk
/-
Stacks with classic control words whose modules do not influence each other: which answers make the call succeed.
-/
namespace Pam.Stack
open Pam Pam.Config Pam.Config.Spec
open Pam.Dispatch (Flag)
open Pam.Dispatch.Spec (Verdict)

/-- modules given by their answers; the world is the list of the modules called so far -/
def traced (ans : Str → List Str → Int) : Str → List Str → List Str → Int × List Str := fun p a w => (ans p a, w ++ [p])

/-- a line that must not fail -/
def Mandatory (l : Line) : Prop := l.flag = .required ∨ l.flag = .requisite

/-- all lines that must not fail succeed or are to be ignored -/
def AllPass (ans : Str → List Str → Int) (ls : List Line) : Prop :=
  ∀ l ∈ ls, Mandatory l → ans l.path l.args = PAM_SUCCESS ∨ ans l.path l.args = PAM_IGNORE

/-- Some sufficient line succeeds, and nothing before it failed. -/
def Shortcut (ans : Str → List Str → Int) (ls : List Line) : Prop :=
  ∃ pre l post, ls = pre ++ l :: post ∧ l.flag = .sufficient ∧ ans l.path l.args = PAM_SUCCESS ∧ AllPass ans pre

theorem allPass_nil (ans : Str → List Str → Int) : AllPass ans [] := fun l h => by cases h

theorem allPass_cons {ans : Str → List Str → Int} {l : Line} {ls : List Line} :
    AllPass ans (l :: ls) ↔ (Mandatory l → ans l.path l.args = PAM_SUCCESS ∨ ans l.path l.args = PAM_IGNORE) ∧ AllPass ans ls := by
  unfold AllPass
  constructor
  · intro h; exact ⟨h l List.mem_cons_self, fun m hm => h m (List.mem_cons_of_mem _ hm)⟩
  · rintro ⟨h1, h2⟩ m hm
    rcases List.mem_cons.mp hm with rfl | hm
    · exact h1
    · exact h2 m hm

theorem shortcut_cons {ans : Str → List Str → Int} {l : Line} {ls : List Line} :
    Shortcut ans (l :: ls) ↔ (l.flag = .sufficient ∧ ans l.path l.args = PAM_SUCCESS) ∨
      ((Mandatory l → ans l.path l.args = PAM_SUCCESS ∨ ans l.path l.args = PAM_IGNORE) ∧ Shortcut ans ls) := by
  constructor
  · rintro ⟨pre, m, post, h1, h2, h3, h4⟩
    cases pre with
    | nil => cases h1; exact Or.inl ⟨h2, h3⟩
    | cons a pre =>
      cases h1
      obtain ⟨h5, h6⟩ := allPass_cons.mp h4
      exact Or.inr ⟨h5, pre, m, post, rfl, h2, h3, h6⟩
  · rintro (⟨h1, h2⟩ | ⟨h1, pre, m, post, h2, h3, h4, h5⟩)
    · exact ⟨[], l, ls, rfl, h1, h2, allPass_nil ans⟩
    · exact ⟨l :: pre, m, post, by rw [h2]; rfl, h3, h4, allPass_cons.mpr ⟨h1, h5⟩⟩

theorem shortcut_nil {ans : Str → List Str → Int} : ¬ Shortcut ans [] := by
  rintro ⟨pre, m, post, h1, -⟩
  cases pre <;> cases h1

/-- the answers are codes of PAM, and the password need not be changed -/
def Usual (ans : Str → List Str → Int) (ls : List Line) : Prop :=
  ∀ l ∈ ls, ¬ Foreign (ans l.path l.args) ∧ ans l.path l.args ≠ PAM_NEW_AUTHTOK_REQD

theorem walk_bad (mods : Str → List Str → List Str → Int × List Str) : ∀ (ls : List Line) (v : Verdict) (w : List Str), Bad v →
    Bad (walk mods ls v w).1 := by
  intro ls
  induction ls with
  | nil => intro v w h; exact h
  | cons l rest ih =>
    intro v w h
    rw [walk]
    simp only [h.accept]
    split
    · split
      · exact h
      · exact ih _ _ h
    split
    · exact ih _ _ (bad_reject _ _)
    split
    · split
      · exact ih _ _ h
      · exact ih _ _ (bad_reject _ _)
    · split
      · exact ih _ _ h
      · exact bad_reject _ _
    · exact ih _ _ h

theorem walk_success_aux (ans : Str → List Str → Int) : ∀ (ls : List Line), Usual ans ls → ∀ (v : Verdict) (w : List Str),
    v = .none ∨ v = .good PAM_SUCCESS →
    ((walk (traced ans) ls v w).1.code = PAM_SUCCESS ↔
      Shortcut ans ls ∨ (AllPass ans ls ∧ (v = .good PAM_SUCCESS ∨ ∃ l ∈ ls, ans l.path l.args = PAM_SUCCESS))) := by
  intro ls
  induction ls with
  | nil =>
    intro _ v w hv
    rw [walk]
    rcases hv with rfl | rfl
    · simp [shortcut_nil, Verdict.code]; decide
    · simp [shortcut_nil, Verdict.code, allPass_nil]
  | cons l rest ih =>
    intro hu v w hv
    have hr : Usual ans rest := fun m hm => hu m (List.mem_cons_of_mem _ hm)
    obtain ⟨hf, hn⟩ := hu l List.mem_cons_self
    rw [walk]
    rw [shortcut_cons, allPass_cons]
    simp only [List.mem_cons, exists_eq_or_imp]
    have e1 : ans l.path l.args = (traced ans l.path l.args w).1 := rfl
    rw [e1] at hf hn ⊢
    generalize traced ans l.path l.args w = a at hf hn ⊢
    have hacc : v.accept PAM_SUCCESS = .good PAM_SUCCESS := by rcases hv with rfl | rfl <;> rfl
    by_cases h1 : a.1 = PAM_SUCCESS
    · have hp : Positive PAM_SUCCESS := Or.inl rfl
      simp only [h1, if_pos hp, hacc]
      by_cases h2 : l.flag = .sufficient
      · simp [h2, Verdict.code, Verdict.isGood]
      · simp only [h2, false_and, if_false]
        have this := ih hr (.good PAM_SUCCESS) a.2 (Or.inr rfl)
        rw [this]
        simp
    · have hp : ¬ Positive (a.1) := fun h => h.elim h1 hn
      simp only [if_neg hp, if_neg hf]
      have this := ih hr v a.2 hv
      by_cases h2 : a.1 = PAM_IGNORE
      · have h3 : ¬ PAM_IGNORE = PAM_SUCCESS := by decide
        cases hfl : l.flag <;>
          simp only [h2, h3, if_true, this, reduceCtorEq, false_and, and_false, false_or, or_true, implies_true, true_and]
      · cases hfl : l.flag with
        | required =>
          have hb := walk_bad (traced ans) rest (v.reject (a.1)) a.2 (bad_reject _ _)
          have hm : Mandatory l := Or.inl hfl
          simp only [h1, h2, hm, reduceCtorEq, false_and, false_or, or_self, imp_false, not_true_eq_false, iff_false, if_false]
          exact hb.code
        | requisite =>
          have hm : Mandatory l := Or.inr hfl
          simp only [h1, h2, hm, reduceCtorEq, false_and, false_or, or_self, imp_false, not_true_eq_false, iff_false, if_false]
          exact (bad_reject v _).code
        | sufficient =>
          have hm : ¬ Mandatory l := by rintro (h | h) <;> rw [hfl] at h <;> cases h
          simp only [h1, hm, and_false, false_or, false_implies, true_and]
          exact this
        | optional =>
          have hm : ¬ Mandatory l := by rintro (h | h) <;> rw [hfl] at h <;> cases h
          simp only [h1, hm, reduceCtorEq, and_false, false_or, false_implies, true_and]
          exact this

/-- When a call succeeds: some sufficient line succeeds and nothing failed before, or nothing fails and something succeeds. -/
theorem walk_success (ans : Str → List Str → Int) (ls : List Line) (h : Usual ans ls) (w : List Str) :
    (walk (traced ans) ls .none w).1.code = PAM_SUCCESS ↔
      Shortcut ans ls ∨ (AllPass ans ls ∧ ∃ l ∈ ls, ans l.path l.args = PAM_SUCCESS) := by
  rw [walk_success_aux ans ls h .none w (Or.inl rfl)]
  simp

/-- what was called stays in the list -/
theorem traced_keeps (ans : Str → List Str → Int) : ∀ (ls : List Line) (v : Verdict) (w : List Str), ∀ x ∈ w, x ∈ (walk (traced ans) ls v w).2 := by
  intro ls
  induction ls with
  | nil => intro v w x hx; exact hx
  | cons l rest ih =>
    intro v w x hx
    have h2 : x ∈ (traced ans l.path l.args w).2 := List.mem_append_left _ hx
    rw [walk]
    generalize traced ans l.path l.args w = a at h2
    split
    · split
      · exact h2
      · exact ih _ _ x h2
    split
    · exact ih _ _ x h2
    split
    · split <;> exact ih _ _ x h2
    · split
      · exact ih _ _ x h2
      · exact h2
    · exact ih _ _ x h2

end Pam.Stack
