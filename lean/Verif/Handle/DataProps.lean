import Verif.Handle.Example
import Verif.Handle.DataInv
import Verif.Handle.Mode
/-
Property theorems: module data (C19).  Vocabulary: DataSpec.lean.
-/
namespace Pam.Handle
open Spec

set_option maxRecDepth 100000

variable {W : Type}

/-- C19: in every history, each pam_get_data made by a module gives the datum of the last successful
pam_set_data for that name before it, and PAM_NO_MODULE_DATA if there is none. -/
theorem C19_get_data_is_last_set {h : Handle W} (hr : Reach h) (pre post : List Event) (n : Str) (ans : Ans) (talk : List Talk)
    (he : h.m.hist = pre ++ .call .module (.getData (some n)) ans talk :: post) :
    (∀ d, lastData n (setCalls pre) = some d → ans.code = PAM_SUCCESS ∧ ans.data = some d) ∧
    (lastData n (setCalls pre) = none → ans.code = PAM_NO_MODULE_DATA ∧ ans.data = none) := by
  have := (dataOk_reach hr).2 pre _ post he
  simp only [GetLegal] at this
  refine ⟨fun d hd => ?_, fun hd => ?_⟩ <;> (rw [hd] at this; exact this)

/-- C19: with memory available, pam_set_data by a module succeeds. -/
theorem C19_set_data_succeeds (h : Inner) (hc : h.caller = .module) (n : Str) (d : Nat) (c : Bool) :
    (setData h (some n) d c true).1 = PAM_SUCCESS := by
  have hc : ¬ h.caller = .app := by rw [hc]; decide
  simp only [setData, if_neg hc]
  split <;> rfl

/-- C19: at every moment, the cleanup function given with the `k`-th successful pam_set_data has been
called exactly once, with the datum and PAM_DATA_REPLACE, if a later one replaced it, and not at
all otherwise; after pam_end it has been called exactly once in either case: with PAM_DATA_REPLACE,
or with the status given to pam_end. -/
theorem C19_cleanup_exactly_once {h : Handle W} (hr : Reach h) (status : Int) (k : Nat) (s : SetCall)
    (hk : (setCalls h.m.hist)[k]? = some s) :
    h.inner.cleaned.filter (fun c => c.id = k) =
      (if s.cleanup && replaced (setCalls h.m.hist) k then [⟨k, s.data, PAM_DATA_REPLACE⟩] else []) ∧
    (pamEnd status h).1 = PAM_SUCCESS ∧
    (pamEnd status h).2.cleaned.filter (fun c => c.id = k) =
      (if s.cleanup then [⟨k, s.data, if replaced (setCalls h.m.hist) k then PAM_DATA_REPLACE else status⟩] else []) := by
  have hi := (dataOk_reach hr).1
  have hlog := hi.log k
  simp only [replaceLog, hk] at hlog
  have hend : pamEnd status h = (PAM_SUCCESS, freeData h.inner status) := by
    simp [pamEnd, refused, (reach_app hr)]
  refine ⟨hlog, by rw [hend], ?_⟩
  rw [hend]
  simp only [freeData, List.filter_append, hlog]
  rw [filter_flatMap_cleanup hi status k]
  simp only [hk]
  cases s.cleanup <;> cases replaced (setCalls h.m.hist) k <;> rfl

/-- C19: no cleanup function is called but those of successful pam_set_data calls. -/
theorem C19_only_stored_data_cleaned {h : Handle W} (hr : Reach h) (status : Int) (c : Cleaned)
    (hc : c ∈ (pamEnd status h).2.cleaned) : ∃ s, (setCalls h.m.hist)[c.id]? = some s ∧ s.data = c.data ∧ s.cleanup = true := by
  have hi := (dataOk_reach hr).1
  have hlog := hi.log c.id
  have hend : pamEnd status h = (PAM_SUCCESS, freeData h.inner status) := by
    simp [pamEnd, refused, (reach_app hr)]
  rw [hend] at hc
  have hm : c ∈ (freeData h.inner status).cleaned.filter (fun x => x.id = c.id) := List.mem_filter.2 ⟨hc, by simp⟩
  simp only [freeData, List.filter_append, hlog] at hm
  rw [filter_flatMap_cleanup hi status c.id] at hm
  simp only [replaceLog] at hm
  cases hk : (setCalls h.m.hist)[c.id]? with
  | none => rw [hk] at hm; simp at hm
  | some s =>
    rw [hk] at hm
    refine ⟨s, rfl, ?_⟩
    simp only [List.mem_append] at hm
    rcases hm with hm | hm <;>
    · split at hm
      · next hcl =>
        simp only [List.mem_cons, List.not_mem_nil, or_false] at hm
        simp only [Bool.and_eq_true] at hcl
        rw [hm]; exact ⟨rfl, hcl.1⟩
      · simp at hm

/-- witness: a datum is stored and replaced by the next module; the first is cleaned then, the second at the end -/
example : ∃ r, Ex.calls "auth required m data\nauth required m data\n" [] [.run .authenticate 0] = some r ∧ Reach r.1 ∧
    (r.2.map Ans.code, setCalls r.1.m.hist, r.1.inner.cleaned, (pamEnd 9 r.1).2.cleaned) =
      ([PAM_SUCCESS], [⟨"d".toList, 7, true⟩, ⟨"d".toList, 7, true⟩], [⟨0, 7, PAM_DATA_REPLACE⟩],
        [⟨0, 7, PAM_DATA_REPLACE⟩, ⟨1, 7, 9⟩]) :=
  Ex.calls_spec (by decide +kernel)

end Pam.Handle
