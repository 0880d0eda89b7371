import Verif.Handle.PEnvHist
/-
Property theorems about the PAM environment (C17, C18).  Vocabulary: PEnvSpec.lean.
-/
namespace Pam.Handle
open Spec

set_option linter.unusedSimpArgs false

/-- C17: every history of pam_putenv calls runs without a bad memory access, whatever the
arguments and whichever allocations fail; afterwards pam_getenv gives, for every name, the value of
the last call about that name if that call was a successful setting, and NULL otherwise.  (So a
call never affects another variable, and a replacement that fails for lack of memory unsets the
variable.) -/
theorem C17_environment_is_a_map (cs : List Put) :
    ∃ h e, runPuts cs = some (h, e) ∧ h.map Prod.fst = cs ∧
      ∀ n : Str, '=' ∉ n → e.getenv (some n) = some (valueAfter n h) := by
  obtain ⟨h, e, vs, h1, h2, h3, h4, h5⟩ := runPuts_spec cs
  exact ⟨h, e, h1, h2, fun n hn => by rw [getenv_rep h3 h4 n hn, h5.val]⟩

/-- C17 (return codes): with memory available, setting a named variable succeeds, deleting one
succeeds exactly if it is set and is PAM_BAD_ITEM otherwise; a call without a variable name is
refused. -/
theorem C17_putenv_codes (cs : List Put) (c : Put) :
    ∃ h e code e', runPuts cs = some (h, e) ∧ e.putenv c.arg c.ok1 c.ok2 = some (code, e') ∧
      (c.arg = none → code = PAM_PERM_DENIED) ∧
      (c.arg ≠ none → c.name = none → code = PAM_BAD_ITEM) ∧
      (∀ n v, c.name = some n → c.value = some v →
        (c.ok1 = true → c.ok2 = true → code = PAM_SUCCESS) ∧ (code = PAM_SUCCESS ∨ code = PAM_BUF_ERR)) ∧
      (∀ n, c.name = some n → c.value = none →
        code = if valueAfter n h = none then PAM_BAD_ITEM else PAM_SUCCESS) := by
  obtain ⟨h, e, vs, h1, h2, h3, h4, h5⟩ := runPuts_spec cs
  obtain ⟨e', p1, _, _⟩ := putenv_spec h3 h4 c
  refine ⟨h, e, _, e', h1, p1, ?_, ?_, ?_, ?_⟩
  · intro ha
    have hn : c.name = none := by simp [Put.name, ha]
    simp [putVars, hn, ha]
  · intro ha hn; simp [putVars, hn, ha]
  · intro n v hn hv
    simp only [putVars, hn, hv]
    refine ⟨fun o1 o2 => ?_, ?_⟩
    · simp [o1, o2]; split <;> rfl
    · split
      · split <;> simp
      · split <;> simp
  · intro n hn hv
    simp only [putVars, hn, hv]
    rw [← h5.val]
    by_cases hin : n ∈ vs.map Prod.fst
    · rw [if_pos hin, if_neg (fun hx => lookupV_none.1 hx hin)]
    · rw [if_neg hin, if_pos (lookupV_none.2 hin)]

/-- C18: after every history, the used part of the list (with its NULL) fits in the allocated
array, and pam_getenvlist returns, if memory suffices, the variables set, each exactly once as
NAME=VALUE, in the order in which they were created; if memory does not suffice, NULL. -/
theorem C18_getenvlist_is_a_snapshot (cs : List Put) :
    ∃ h e, runPuts cs = some (h, e) ∧ 1 ≤ e.requested ∧ e.requested ≤ e.slots.length ∧
      (order h).Nodup ∧
      (∀ n, n ∈ order h ↔ (valueAfter n h).isSome) ∧
      ∀ ok : Nat → Bool, e.getenvlist ok = some (
        if ∀ i ≤ (order h).length, ok i = true then
          some ((order h).map (fun n => n ++ '=' :: (valueAfter n h).getD []))
        else none) := by
  obtain ⟨h, e, vs, h1, h2, h3, h4, h5⟩ := runPuts_spec cs
  have hmap : vs.map text = (order h).map (fun n => n ++ '=' :: (valueAfter n h).getD []) := by
    rw [← h5.ord, List.map_map]
    apply List.map_congr_left
    intro p hp
    have : lookupV vs p.1 = some p.2 := by
      obtain ⟨pre, post, hs⟩ := List.append_of_mem hp
      rw [hs]
      apply lookupV_split
      have hnd := h4.nodup
      rw [hs] at hnd
      simp only [List.map_append, List.map_cons, List.nodup_append, List.nodup_cons] at hnd
      intro hm
      exact hnd.2.2 _ hm p.1 (by simp) rfl
    simp [Function.comp, text, ← h5.val, this]
  refine ⟨h, e, h1, by rw [h3.req]; omega, ?_, h5.ord ▸ h4.nodup, ?_, ?_⟩
  · obtain ⟨rest, hs⟩ := h3.slots
    rw [h3.req, hs]; simp
  · intro n
    rw [← h5.ord, ← h5.val, Option.isSome_iff_ne_none, ne_eq, lookupV_none]
    exact Decidable.not_not.symm
  · intro ok
    rw [getenvlist_rep h3 ok, hmap]
    have hlen : vs.length = (order h).length := by rw [← h5.ord]; simp
    rw [hlen]

/-- an example history: A=1, B=2, A=3, delete B, a failing C=4, D= -/
def exPuts : List Put :=
  [⟨some "A=1".toList, true, true⟩, ⟨some "B=2".toList, true, true⟩, ⟨some "A=3".toList, true, true⟩,
   ⟨some "B".toList, true, true⟩, ⟨some "C=4".toList, true, false⟩, ⟨some "D=".toList, true, true⟩]

/-- witness for C17 and C18: the example history leaves A=3 and D= -/
example : ∃ h e, runPuts exPuts = some (h, e) ∧
    e.getenv (some "A".toList) = some (some "3".toList) ∧ e.getenv (some "B".toList) = some none ∧
    h.map Prod.snd = [PAM_SUCCESS, PAM_SUCCESS, PAM_SUCCESS, PAM_SUCCESS, PAM_BUF_ERR, PAM_SUCCESS] ∧
    e.getenvlist (fun _ => true) = some (some ["A=3".toList, "D=".toList]) := by
  refine ⟨_, _, rfl, ?_, ?_, ?_, ?_⟩ <;> decide

/-- On a name containing `=`, pam_getenv answers from the middle of another variable's value, so
the restriction to proper names in C17 is needed. -/
theorem C17_name_with_equals_counterexample :
    ∃ h e, runPuts [⟨some "A=B=C".toList, true, true⟩] = some (h, e) ∧
      valueAfter "A=B".toList h = none ∧ e.getenv (some "A=B".toList) = some (some "C".toList) := by
  refine ⟨_, _, rfl, ?_, ?_⟩ <;> decide

end Pam.Handle
