import Verif.Config.TokenLemmas
import Verif.Config.ControlLemmas
import Verif.Config.LineLemmas
import Verif.Config.WordLemmas
import Verif.Config.LoadTop
import Verif.Dispatch.Props
/-
Property theorems about reading the configuration (C06, C10-C16, C43).  Vocabulary:
ControlSpec.lean (C10, C11), WordSpec.lean (C12), LineSpec.lean (C14), LoadSpec.lean (C43).
-/
namespace Pam.Config
open Spec
open Pam.Dispatch (Walk Handler WellLeveled Env Outcome St Failing deciding dispatchAux)

set_option linter.unusedSimpArgs false

variable {σ : Type}

/-! ## C10, C11 -/

/-- C10: a syntactically valid control gives each return code the action of the last entry for it,
else of the first `default`, else bad. -/
theorem C10_control_meaning (s : List Char) (items : List (Key × Int)) (h : Control s items) (c : Nat) (hc : c < 32) :
    bracketActions s c = meaning items c := bracketActions_of s items h c hc

/-- witness: `success=ok default=die  success=2` -/
theorem exControl : Control "success=ok default=die  success=2".toList
    [(.code 0, ACT_OK), (.dflt, ACT_DIE), (.code 0, 2)] := by
  have h0 : Control [] [] := .nil [] (by simp [Blank])
  have h1 := Control.cons "  ".toList "success".toList [] [] "2".toList [] (.code 0) 2 []
    (by simp [Blank, isSpace]) (by simp [Blank]) (by simp [Blank]) (.code 0 "success" rfl)
    (.jump "2".toList (by decide) (by decide) (by simp) (by decide) (by decide)) h0
  have h2 := Control.cons " ".toList "default".toList [] [] "die".toList _ .dflt ACT_DIE _
    (by simp [Blank, isSpace]) (by simp [Blank]) (by simp [Blank]) .dflt .die h1
  exact Control.cons [] "success".toList [] [] "ok".toList _ (.code 0) ACT_OK _
    (by simp [Blank]) (by simp [Blank]) (by simp [Blank]) (.code 0 "success" rfl) .ok h2

example : bracketActions "success=ok default=die  success=2".toList 0 = 2 ∧
    bracketActions "success=ok default=die  success=2".toList 7 = ACT_DIE := by
  rw [C10_control_meaning _ _ exControl 0 (by decide), C10_control_meaning _ _ exControl 7 (by decide)]
  decide

/-- C11: a text that is no valid control maps every return code to bad. -/
theorem C11_control_error_fails_closed (s : List Char) (h : ¬ ∃ items, Control s items) (c : Nat) (hc : c < 32) :
    bracketActions s c = ACT_BAD := bracketActions_error s h c hc

/-- C11: so a line with such a control never contributes to success: no answer of its module is
accepted, and every answer fails the line. -/
theorem C11_control_error_never_accepts (s : List Char) (h : ¬ ∃ items, Control s items) (hd : Handler σ)
    (ha : hd.actions = bracketActions s) (d : Int) : Failing hd d := by
  unfold Failing
  by_cases h1 : d < 0
  · exact Or.inl h1
  · by_cases h2 : 32 ≤ d
    · exact Or.inr (Or.inl h2)
    · exact Or.inr (Or.inr (Or.inl (by rw [ha]; exact C11_control_error_fails_closed s h _ (by omega))))

/-- witness: a jump of 0 after a valid entry is no control -/
example : ¬ ∃ items, Control "success=ok default=0".toList items := by
  rintro ⟨items, h⟩
  have h1 := parseControlLoop_of _ _ h (fun _ => ACT_UNDEF)
  have e1 : parseEntry "success=ok default=0".toList = some ((0, -1), " default=0".toList) := by decide +kernel
  have e2 : parseEntry "default=0".toList = none := by decide +kernel
  rw [parseControlLoop_some_step _ _ _ _ _ (by decide) e1, parseControlLoop_none_step _ _ _ (by decide) e2] at h1
  cases h1

/-! ## C12, C13 -/

/-- C12: arguments written as plain words or in brackets reach the module unchanged and in order. -/
theorem C12_arguments_round_trip (args : List (List Char)) (text : List Char) (h : WrittenList args text) :
    mkargv text = args := mkargv_writtenList args text h

/-- C12, on a whole line: type, control, module path and arguments are taken from the words of the
line as `lineMeaning` says; arguments are the words from the fourth on. -/
theorem C12_line_words (ws : List (List Char)) (line : List Char) (h : WrittenList ws line) :
    parseLine (some line) = lineMeaning ws := by
  rw [← lineMeaning_eq, C12_arguments_round_trip ws line h]

/-- witness: `  a=b [x \]  y] []` is the three arguments `a=b`, `x ]  y` and the empty one -/
example : WrittenList ["a=b".toList, "x ]  y".toList, []] "  a=b [x \\]  y] []".toList := by
  have h0 : WrittenList [] [] := .nil [] (by simp)
  have h3 := WrittenList.cons [' '] [] ("[]".toList) [] [] (by simp [Separator]) (.bracketed [] (by simp)) h0 (by simp)
  have h2 := WrittenList.cons [' '] "x ]  y".toList "[x \\]  y]".toList _ _ (by simp [Separator])
    (.bracketed "x ]  y".toList (by decide)) h3 (by simp [Separator])
  have h1 := WrittenList.cons "  ".toList "a=b".toList "a=b".toList _ _ (by simp [Separator])
    (.word "a=b".toList (by decide) (by simp [Separator]) (by decide)) h2 (by simp [Separator])
  exact h1

/-- C13: building the argument vector of a string of length `l` in a block with `l` pointer slots
followed by the `l + 1` bytes of the copied string: all reads and writes stay within those bytes,
at most `l` pointers are stored, and pointer number `i` points to the C string of argument `i`. -/
theorem C13_argv_in_buffer (s : List Char) (hs : NUL ∉ s) :
    ∃ m ptrs, mkargvMem s.length (s.length + 1) (s ++ [NUL]) 0 = some (m, ptrs) ∧
      ptrs.length = (mkargv s).length ∧ ptrs.length ≤ s.length ∧
      ∀ (i q : Nat) (a : List Char), ptrs[i]? = some q → (mkargv s)[i]? = some a → CStr m q a := by
  obtain ⟨m, ptrs, h1, _, h2, h3, h4⟩ := mkargvMem_spec s.length s [] (s ++ [NUL]) 0 s.length (s.length + 1) rfl
    (by simp) hs (Nat.le_refl _) (by omega)
  exact ⟨m, ptrs, h1, h2, h3, h4⟩

/-- C13: the tokenizer itself, anywhere in a block: given a NUL-terminated string at `p`, it
neither reads nor writes past the terminator, nor before `p`. -/
theorem C13_tokenizer_in_string (m : Mem) (p : Nat) (s post : List Char) (h : m.drop p = s ++ NUL :: post)
    (hs : NUL ∉ s) : ∃ m' r, tokenizeMem m p = some (m', r) ∧
      m'.take p = m.take p ∧ m'.drop (p + s.length) = NUL :: post := by
  obtain ⟨h1, h2⟩ := tokenizeMem_spec m p s post h hs
  cases ht : tokenize s with
  | none =>
    refine ⟨m, none, h1 ht, rfl, ?_⟩
    rw [← List.drop_drop, h]; simp
  | some r =>
    obtain ⟨m', q, nxp, e1, _, _, e2, e3, _⟩ := h2 r.1 r.2 ht
    refine ⟨m', some (q, nxp), e1, e2, ?_⟩
    rw [e3, ← List.drop_drop, h]; simp

/-- witness: four characters, two arguments -/
example : NUL ∉ "a [b".toList ∧ mkargv "a [b".toList = ["a".toList, "b".toList] := by
  refine ⟨by decide, ?_⟩
  simp [mkargv_of, tokenize, tokenize.next, isDelim, bracket]

/-! ## C14 -/

/-- C14: a file made of comments, empty lines and (continued) entries has exactly the logical lines
of its entries, in order; whatever follows is read independently of them. -/
theorem C14_logical_lines (its : List Item) (h : ∀ it ∈ its, it.Ok) (rest : List Char) :
    fileLines ' ' (its.flatMap Item.text ++ rest) =
      (its.filterMap Item.value ++ (fileLines ' ' rest).1, (fileLines ' ' rest).2) :=
  fileLines_items its h rest

/-- C14: for every file whatsoever: a logical line is never empty, never contains a comment sign or
NUL, and never begins with a blank or newline. -/
theorem C14_line_shape (file l : List Char) (h : l ∈ (fileLines ' ' file).1) :
    l ≠ [] ∧ '#' ∉ l ∧ NUL ∉ l ∧ ∀ c ∈ l.head?, c ≠ ' ' ∧ c ≠ '\t' ∧ c ≠ '\n' :=
  logicalLines_shape ' ' (by decide) (physLines file) (fun l hl => (mem_physLines file l hl).2) l h

/-- C14: a file ending in a continued line is an error, and the lines before it are those of its
entries. -/
theorem C14_dangling_continuation (its : List Item) (h : ∀ it ∈ its, it.Ok) (ps : List Piece)
    (hp : ∀ p ∈ ps, p.Ok) (hne : ps ≠ []) :
    fileLines ' ' (its.flatMap Item.text ++ ps.flatMap Piece.text) = (its.filterMap Item.value, true) := by
  rw [fileLines_items its h]
  have h1 := piece_lines ps hp []
  have h2 := assemble_pieces_eof ps hp hne
  simp only [List.append_nil, physLines] at h1
  have : fileLines ' ' (ps.flatMap Piece.text) = ([], true) := by
    unfold fileLines
    rw [h1]; exact logicalLines_error _ _ h2
  rw [this]; simp

/-- witness: a comment, then an entry over two lines, with a trailing comment -/
example : let its : List Item := [.blank " ".toList (some "x".toList),
      .entry [⟨"  ".toList, "auth required".toList, " ".toList⟩] "\t".toList "pam_x.so ".toList (some "why\\".toList)]
    (∀ it ∈ its, it.Ok) ∧ its.filterMap Item.value = ["auth required pam_x.so ".toList] ∧
    its.flatMap Item.text = " #x\n  auth required\\ \n\tpam_x.so #why\\\n".toList := by
  refine ⟨?_, by decide, by decide⟩
  intro it hit
  simp only [List.mem_cons, List.not_mem_nil, or_false] at hit
  rcases hit with rfl | rfl
  · refine ⟨?_, ?_⟩
    · intro c hc; left; simpa using hc
    · intro t ht; injection ht with ht; subst ht; decide
  · refine ⟨?_, ?_, ?_, ?_, ?_, ?_⟩
    · intro p hp
      simp only [List.mem_cons, List.not_mem_nil, or_false] at hp
      subst hp
      refine ⟨?_, ⟨by decide, by decide, by decide, by decide⟩, ?_⟩
      · intro c hc; left; simpa using hc
      · intro c hc; left; simpa using hc
    · intro c hc; right; simpa using hc
    · exact ⟨by decide, by decide, by decide, by decide⟩
    · intro t ht; injection ht with ht; subst ht; decide
    · exact Or.inl (by decide)
    · intro h; cases h

end Pam.Config
