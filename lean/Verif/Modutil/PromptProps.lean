import Verif.Modutil.Prompt
/-
C151: pam_prompt.
-/
namespace Pam.Modutil.Prompt
open Pam

namespace Spec

/-- the blocks that come up in a call -/
def Blocks (w : World) (b : Nat) : Prop :=
  w.msg = some b ∨ (∃ s, w.answer.resp = some (b, s)) ∨ ∃ r, w.answer.resp = some (r, some b)

/-- they are different -/
def Distinct (w : World) : Prop :=
  ∀ m r s, w.msg = some m → w.answer.resp = some (r, s) → m ≠ r ∧ (∀ x, s = some x → x ≠ r ∧ x ≠ m)

/-- the block of an answer -/
def AnswerOf (w : World) (b : Nat) : Prop := ∃ r, w.answer.resp = some (r, some b)

end Spec
open Spec

/-- C151: if there is a conversation function and memory, it is asked, and its result is the result of the call; the answer, if there is one, is handed to the caller who
asks for it, and is wiped and released otherwise; the text of the message is wiped, and every block that came up is released exactly once, but for the answer handed
over, which is not. -/
theorem C151_prompt (w : World) (want : Bool) (m : Nat) (hi : w.item = PAM_SUCCESS) (hc : w.conv = true) (hm : w.msg = some m) (hd : Distinct w) :
    (vprompt w want).asked = true ∧ (vprompt w want).code = w.answer.code ∧
    (∀ b, (vprompt w want).response = some b ↔ want = true ∧ AnswerOf w b) ∧
    (∀ b, (vprompt w want).mem.count (.free b) = 1 ↔ Blocks w b ∧ ¬ (vprompt w want).response = some b) ∧
    (∀ b, (vprompt w want).mem.count (.free b) ≤ 1) ∧
    (∀ b, Mem.wipe b ∈ (vprompt w want).mem ↔ b = m ∨ (want = false ∧ AnswerOf w b)) ∧
    (∀ b pre post, (vprompt w want).mem = pre ++ Mem.free b :: post → Mem.wipe b ∉ post) := by
  obtain ⟨item, conv, msg, ⟨code, resp⟩⟩ := w
  dsimp only at hi hc hm
  subst hi hc hm
  unfold vprompt
  rw [if_neg (fun h => h rfl), if_neg (by decide : ¬ (true = false))]
  dsimp only
  unfold Blocks AnswerOf
  dsimp only
  have ord : ∀ {l : List Mem}, (∀ (i j b : Nat), l[i]? = some (Mem.free b) → l[j]? = some (Mem.wipe b) → j < i) →
      ∀ b pre post, l = pre ++ Mem.free b :: post → Mem.wipe b ∉ post := by
    intro l h b pre post e hm
    obtain ⟨k, hk⟩ := List.getElem?_of_mem hm
    have h1 : l[pre.length]? = some (Mem.free b) := by rw [e]; simp
    have h2 : l[pre.length + 1 + k]? = some (Mem.wipe b) := by
      rw [e, List.getElem?_append_right (by omega)]
      have : pre.length + 1 + k - pre.length = k + 1 := by omega
      rw [this]; exact hk
    have := h _ _ b h1 h2
    omega
  cases resp with
  | none =>
    refine ⟨rfl, rfl, ?_, ?_, ?_, ?_, ?_⟩
    · intro b; cases want <;> simp
    · intro b
      cases want <;> simp [List.count_cons, List.count_nil] <;> grind
    · intro b
      cases want <;> simp [List.count_cons] <;> split <;> omega
    · intro b
      cases want <;> simp
    · apply ord
      intro i j b h1 h2
      cases want <;> (simp at h1 h2; rcases i with _ | _ | i <;> rcases j with _ | _ | j <;> simp_all)
  | some rs =>
    obtain ⟨r, s⟩ := rs
    obtain ⟨d1, d2⟩ := hd m r s rfl rfl
    refine ⟨rfl, rfl, ?_, ?_, ?_, ?_, ?_⟩
    · intro b; cases want <;> simp
    · intro b
      cases want <;> cases s <;> simp [List.count_cons, List.count_nil] <;> grind
    · intro b
      cases want <;> cases s <;> simp [List.count_cons] <;> grind
    · intro b
      cases want <;> cases s <;> simp <;> grind
    · apply ord
      intro i j b h1 h2
      cases want <;> cases s <;> simp only [List.nil_append, List.cons_append, List.append_nil] at h1 h2 <;>
        (rcases i with _ | _ | _ | _ | _ | i <;> rcases j with _ | _ | _ | _ | _ | j <;> simp at h1 h2 <;> grind)

/-- C151, failures: without a conversation function or memory the call fails, nothing is asked and there is no answer. -/
theorem C151_fails (w : World) (want : Bool) :
    (w.item ≠ PAM_SUCCESS → vprompt w want = ⟨w.item, none, [], false⟩) ∧
    (w.item = PAM_SUCCESS → w.conv = false → vprompt w want = ⟨PAM_SYSTEM_ERR, none, [], false⟩) ∧
    (w.item = PAM_SUCCESS → w.conv = true → w.msg = none → vprompt w want = ⟨PAM_BUF_ERR, none, [], false⟩) := by
  refine ⟨fun h => ?_, fun h1 h2 => ?_, fun h1 h2 h3 => ?_⟩ <;> unfold vprompt
  · rw [if_pos h]
  · rw [if_neg (by simp [h1]), if_pos h2]
  · rw [if_neg (by simp [h1]), if_neg (by simp [h2]), h3]

/-! ### examples, and where more does not hold -/

example : vprompt ⟨PAM_SUCCESS, true, some 1, ⟨PAM_SUCCESS, some (2, some 3)⟩⟩ false =
    ⟨PAM_SUCCESS, none, [.wipe 3, .free 3, .wipe 1, .free 2, .free 1], true⟩ := by decide
example : vprompt ⟨PAM_SUCCESS, true, some 1, ⟨PAM_SUCCESS, some (2, some 3)⟩⟩ true = ⟨PAM_SUCCESS, some 3, [.wipe 1, .free 2, .free 1], true⟩ := by decide
example : Distinct ⟨PAM_SUCCESS, true, some 1, ⟨PAM_SUCCESS, some (2, some 3)⟩⟩ := by
  intro m r s h1 h2
  cases h1; cases h2
  exact ⟨by decide, by intro x hx; cases hx; exact ⟨by decide, by decide⟩⟩

/-- C151: success does not mean an answer, and an answer does not mean success: callers have to look at both. -/
theorem C151_both_counterexample :
    (vprompt ⟨PAM_SUCCESS, true, some 1, ⟨PAM_SUCCESS, none⟩⟩ true).code = PAM_SUCCESS ∧ (vprompt ⟨PAM_SUCCESS, true, some 1, ⟨PAM_SUCCESS, none⟩⟩ true).response = none ∧
    (vprompt ⟨PAM_SUCCESS, true, some 1, ⟨PAM_CONV_ERR, some (2, some 3)⟩⟩ true).code = PAM_CONV_ERR ∧
    (vprompt ⟨PAM_SUCCESS, true, some 1, ⟨PAM_CONV_ERR, some (2, some 3)⟩⟩ true).response = some 3 := by decide

end Pam.Modutil.Prompt
