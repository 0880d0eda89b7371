import Verif.Env.ExpandLemmas
import Verif.Env.PutLemmas
import Verif.Env.LineNul
/-
Reading pam_env.conf line by line, against the specification.
-/
namespace Pam.Env
open Pam Pam.Small Spec

theorem confLine_bad {w : Who} {e : PEnv} {l : Str} (h : Means l none) : confLine w e l = some (BAD_LINE, e) := by
  unfold confLine
  cases hp : parseLine l with
  | none => rfl
  | some v => exact absurd (parseLine_inv hp) h

theorem confLine_entry {w : Who} {e : PEnv} {m : Vars} (hm : Reads e m) {l : Str} {en : Entry} (h : Means l (some en)) {f : Effect} (hf : en.Does m w f) :
    match f with
    | .set v => ∃ e', confLine w e l = some (PAM_SUCCESS, e') ∧ Reads e' (update m en.name (some v))
    | .unset => ∃ e', confLine w e l = some (if (m en.name).isSome then PAM_SUCCESS else PAM_BAD_ITEM, e') ∧ Reads e' (update m en.name none)
    | .fails => confLine w e l = some (PAM_ABORT, e) := by
  obtain ⟨h1, h2, h3, h4⟩ := h
  have hc := checkVar_eq hm hf
  unfold confLine
  rw [parseLine_entry h1 h2]
  dsimp only
  rw [hc]
  cases f with
  | set v => exact put_set hm en.name v h4 h3
  | unset => exact put_unset hm en.name h4 h3
  | fails => rfl

theorem confLines_runs {w : Who} {m : Vars} {es : List (Option Entry)} {ok : Bool} {m' : Vars} {r : Option Bool} (h : Runs w m es ok m' r) :
    ∀ {e : PEnv} {ls : List Str} {retval : Int}, Reads e m → Meanings ls es → (retval = PAM_SUCCESS ↔ ok = true) →
      ∃ code e', confLines w retval e ls = some (code, e') ∧ Reads e' m' ∧ (code = PAM_SUCCESS ↔ r = some true) := by
  induction h with
  | @nil m ok =>
    intro e ls retval hm hl hr
    cases hl
    exact ⟨retval, e, rfl, hm, by rw [hr, Option.some.injEq]⟩
  | @skip m es ok m' r _ ih =>
    intro e ls retval hm hl hr
    cases hl with
    | @cons l ls _ _ h1 h2 =>
      obtain ⟨code, e', hc, h⟩ := ih (retval := BAD_LINE) hm h2 (by decide)
      refine ⟨code, e', ?_, h⟩
      rw [← hc]
      conv => lhs; unfold confLines
      rw [confLine_bad h1]
      dsimp only
      rw [if_neg (by decide)]
  | @set m en es ok v m' r hd _ ih =>
    intro e ls retval hm hl hr
    cases hl with
    | @cons l ls _ _ h1 h2 =>
      obtain ⟨e1, hl1, hm1⟩ := confLine_entry hm h1 hd
      obtain ⟨code, e', hc, h⟩ := ih (retval := PAM_SUCCESS) hm1 h2 (by decide)
      refine ⟨code, e', ?_, h⟩
      rw [← hc]
      conv => lhs; unfold confLines
      rw [hl1]
      dsimp only
      rw [if_neg (by decide)]
  | @unset m en es ok m' r hd _ ih =>
    intro e ls retval hm hl hr
    cases hl with
    | @cons l ls _ _ h1 h2 =>
      obtain ⟨e1, hl1, hm1⟩ := confLine_entry hm h1 hd
      obtain ⟨code, e', hc, h⟩ := ih (retval := if (m en.name).isSome then PAM_SUCCESS else PAM_BAD_ITEM) hm1 h2 (by cases (m en.name).isSome <;> decide)
      refine ⟨code, e', ?_, h⟩
      rw [← hc]
      conv => lhs; unfold confLines
      rw [hl1]
      dsimp only
      rw [if_neg (by cases (m en.name).isSome <;> decide)]
  | @fails m en es ok hd =>
    intro e ls retval hm hl hr
    cases hl with
    | @cons l ls _ _ h1 h2 =>
      refine ⟨PAM_ABORT, e, ?_, hm, by decide⟩
      have hl1 := confLine_entry hm h1 hd
      dsimp only at hl1
      unfold confLines
      rw [hl1]
      dsimp only
      rw [if_pos (by decide)]

theorem fileLines_nil : Config.fileLines NUL [] = ([], false) := by
  unfold Config.fileLines Config.physLines Config.logicalLines
  rfl

/-- the lines of a well-written file -/
theorem fileLines_only (its : List Config.Spec.Item) (h : ∀ it ∈ its, it.Ok) :
    (Config.fileLines NUL (its.flatMap Config.Spec.Item.text)).1 = its.filterMap Config.Spec.Item.glued := by
  have := Config.fileLines_items0 its h []
  rw [List.append_nil] at this
  rw [this]
  show its.filterMap Config.Spec.Item.glued ++ (Config.fileLines NUL []).1 = _
  rw [show (Config.fileLines NUL []).1 = [] by rw [fileLines_nil], List.append_nil]

end Pam.Env
