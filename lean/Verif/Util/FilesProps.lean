import Verif.Util.FilesLemmas
/-
Property theorems C31 (user lookup in a passwd-style file) and C32 (key lookup).  Vocabulary:
FilesSpec.lean.
-/
namespace Pam.Util
open Spec

/-- C31: for every file and user name, the lookup succeeds exactly if some line of the file starts with
the user name followed by a colon, the name being non-empty and without a colon. -/
theorem C31_user_lookup_exact (name file : List Char) :
    checkUser name (some file) = PAM_SUCCESS ↔
      name ≠ [] ∧ ':' ∉ name ∧ ∃ l ∈ lines file, (name ++ [':']) <+: l := by
  unfold checkUser
  by_cases h1 : name = []
  · rw [if_pos h1]
    constructor
    · intro h; exact absurd h (by decide)
    · intro h; exact absurd h1 h.1
  · rw [if_neg h1]
    by_cases h2 : ':' ∈ name
    · rw [if_pos h2]
      constructor
      · intro h; exact absurd h (by decide)
      · intro h; exact absurd h2 h.2.1
    · rw [if_neg h2]
      simp only
      rw [scan_spec name h1 _ file false (by omega), Bool.false_or]
      by_cases h3 : (lines file).any (fun l => decide (name ++ [':'] <+: l)) = true
      · rw [if_pos h3]
        rw [List.any_eq_true] at h3
        obtain ⟨l, hl, h4⟩ := h3
        exact ⟨fun _ => ⟨h1, h2, l, hl, by simpa using h4⟩, fun _ => rfl⟩
      · rw [if_neg h3]
        constructor
        · intro h; exact absurd h (by decide)
        · rintro ⟨_, _, l, hl, h4⟩
          exact absurd (List.any_eq_true.2 ⟨l, hl, by simpa using h4⟩) h3

/-- C31 (return codes): otherwise the answer is PAM_SERVICE_ERR for an empty name or a file that cannot
be opened, and PAM_PERM_DENIED. -/
theorem C31_user_lookup_codes (name : List Char) (file : Option (List Char)) :
    checkUser name file = PAM_SUCCESS ∨
    (checkUser name file = PAM_SERVICE_ERR ∧ (name = [] ∨ (':' ∉ name ∧ file = none))) ∨
    (checkUser name file = PAM_PERM_DENIED ∧ name ≠ [] ∧ (':' ∈ name ∨ file ≠ none)) := by
  unfold checkUser
  by_cases h1 : name = []
  · right; left; rw [if_pos h1]; exact ⟨rfl, Or.inl h1⟩
  · rw [if_neg h1]
    by_cases h2 : ':' ∈ name
    · right; right; rw [if_pos h2]; exact ⟨rfl, h1, Or.inl h2⟩
    · rw [if_neg h2]
      cases file with
      | none => right; left; exact ⟨rfl, Or.inr ⟨h2, rfl⟩⟩
      | some f =>
        simp only
        split
        · left; rfl
        · right; right; exact ⟨rfl, h1, Or.inr (by simp)⟩

/-- a prefix of a name, a longer name and a name in another column are not found; a last line without
newline counts -/
example :
    let f := "root:x:0:0\nbobby:x:1:1\n\nx:bob:y\nalice:z".toList
    lines f = ["root:x:0:0".toList, "bobby:x:1:1".toList, [], "x:bob:y".toList, "alice:z".toList] ∧
    checkUser "bob".toList (some f) = PAM_PERM_DENIED ∧ checkUser "bobby".toList (some f) = PAM_SUCCESS ∧
    checkUser "alice".toList (some f) = PAM_SUCCESS ∧ checkUser "root:x".toList (some f) = PAM_PERM_DENIED := by
  decide

/-- C32: for every file and key, the lookup returns `v` exactly if some line reads `key = v` (the key
compared without regard to case) and no earlier line has that key.  What is missing for C32: the
value keeps the blanks at its end (`C32_trailing_blanks_counterexample`). -/
theorem C32_first_definition_partial (file key v : List Char) :
    searchKey (some file) key = some v ↔
      ∃ before line after k, lines file = before ++ line :: after ∧ Defines line k v ∧
        k.map lower = key.map lower ∧
        ∀ b ∈ before, ∀ k' v', Defines b k' v' → k'.map lower ≠ key.map lower := by
  have hieq : ∀ k : List Char, ieq k key = true ↔ k.map lower = key.map lower := by
    intro k; simp [ieq]
  rw [searchKey, searchLines_spec key _ file (by omega), List.findSome?_eq_some_iff]
  constructor
  · rintro ⟨before, line, after, h1, h2, h3⟩
    have hmem : ∀ l, l ∈ before ++ line :: after → '\n' ∉ l := fun l hl =>
      lines_no_nl file l (h1 ▸ hl)
    cases hkv : keyValue line with
    | none => rw [hkv] at h2; cases h2
    | some kv =>
      rw [hkv] at h2
      simp only at h2
      split at h2
      · rename_i hi
        cases h2
        refine ⟨before, line, after, kv.1, h1, keyValue_defines line _ _ (hmem line (by simp)) hkv, (hieq _).1 hi, ?_⟩
        intro b hb k' v' hd hk
        have := h3 b hb
        rw [defines_keyValue b k' v' (hmem b (by simp [hb])) hd] at this
        simp only at this
        rw [if_pos ((hieq _).2 hk)] at this
        cases this
      · cases h2
  · rintro ⟨before, line, after, k, h1, h2, h3, h4⟩
    have hmem : ∀ l, l ∈ before ++ line :: after → '\n' ∉ l := fun l hl =>
      lines_no_nl file l (h1 ▸ hl)
    refine ⟨before, line, after, h1, ?_, ?_⟩
    · rw [defines_keyValue line k v (hmem line (by simp)) h2]
      simp only
      rw [if_pos ((hieq _).2 h3)]
    · intro b hb
      cases hkv : keyValue b with
      | none => rfl
      | some kv =>
        simp only
        rw [if_neg]
        intro hi
        exact h4 b hb kv.1 kv.2 (keyValue_defines b _ _ (hmem b (by simp [hb])) hkv) ((hieq _).1 hi)

/-- a file that cannot be opened has no keys -/
theorem C32_no_file (key : List Char) : searchKey none key = none := rfl

/-- C32 is false as stated: blanks at the end of a value are not ignored, so a comment after a value
changes it. -/
theorem C32_trailing_blanks_counterexample :
    Defines "UMASK 022 # comment".toList "UMASK".toList "022 ".toList ∧
    searchKey (some "UMASK 022 # comment\n".toList) "UMASK".toList = some "022 ".toList ∧
    searchKey (some "UMASK 022\n".toList) "UMASK".toList = some "022".toList := by
  refine ⟨keyValue_defines _ _ _ (by decide) (by decide), by decide, by decide⟩

example : searchKey (some "# UMASK 1\n\n  umask\t= 027\nUMASK 022\n".toList) "UMASK".toList = some "027".toList ∧
    searchKey (some "UMASKS 1".toList) "UMASK".toList = none ∧
    searchKey (some "UMASK".toList) "UMASK".toList = some [] := by
  decide

end Pam.Util
