import Verif.Config.WordSpec
import Verif.Config.LoadSpec
import Verif.Config.LineLemmas
/-
Bracket quoting round-trips through the tokenizer, and a line is its words.
-/
namespace Pam.Config
open Spec

theorem isDelim_iff (c : Char) : isDelim c = true ↔ Separator c := by
  unfold isDelim Separator
  simp only [Bool.or_eq_true, beq_iff_eq]
  constructor
  · rintro ((h | h) | h) <;> simp [h]
  · rintro (h | h | h) <;> simp [h]

theorem mkargv_of (s : List Char) : mkargv s =
    match tokenize s with
    | none => []
    | some (tok, none) => [tok]
    | some (tok, some r) => tok :: mkargv r := by
  rw [mkargv]; split <;> simp_all

theorem mkargv_nil : mkargv [] = [] := by rw [mkargv_of]; rfl

theorem tokenize_delims (w s : List Char) (hw : ∀ c ∈ w, Separator c) : tokenize (w ++ s) = tokenize s := by
  unfold tokenize
  rw [dropWhile_blanks w s (fun c hc => (isDelim_iff c).2 (hw c hc))]

theorem mkargv_delims (w s : List Char) (hw : ∀ c ∈ w, Separator c) : mkargv (w ++ s) = mkargv s := by
  rw [mkargv_of, tokenize_delims w s hw, ← mkargv_of]

theorem bracket_quote (a r : List Char) (he : a.getLast? ≠ some '\\') :
    bracket (quote a ++ ']' :: r) = (a, ']' :: r) := by
  induction a with
  | nil => cases r <;> simp [quote, bracket]
  | cons c t ih =>
    have het : t ≠ [] → t.getLast? ≠ some '\\' := by
      intro ht
      rw [List.getLast?_cons] at he
      cases t with
      | nil => exact absurd rfl ht
      | cons d t => simpa [List.getLast?_cons] using he
    have iht : bracket (quote t ++ ']' :: r) = (t, ']' :: r) := by
      by_cases ht : t = []
      · subst ht; cases r <;> simp [quote, bracket]
      · exact ih (het ht)
    by_cases hc : c = ']'
    · subst hc
      simp only [quote, if_true, List.cons_append]
      rw [bracket]
      rw [if_neg (by decide)]
      simp [iht]
    · simp only [quote, if_neg hc, List.cons_append]
      cases t with
      | nil =>
        have : c ≠ '\\' := by simpa using he
        simp only [quote, List.nil_append] at iht ⊢
        rw [bracket]
        simp [hc, this, iht]
      | cons d t =>
        have hq : ∃ x y, quote (d :: t) ++ ']' :: r = x :: y ∧ x ≠ ']' := by
          by_cases hd : d = ']'
          · exact ⟨'\\', _, by simp [quote, hd]; rfl, by decide⟩
          · exact ⟨d, _, by simp [quote, hd]; rfl, hd⟩
        obtain ⟨x, y, hxy, hx⟩ := hq
        rw [hxy] at iht ⊢
        rw [bracket]
        simp [hc, hx, iht]

theorem takeWhile_word (a r : List Char) (ha : ∀ c ∈ a, ¬ Separator c) (hr : ∀ c ∈ r.head?, Separator c) :
    (a ++ r).takeWhile (fun c => !isDelim c) = a ∧ (a ++ r).dropWhile (fun c => !isDelim c) = r := by
  induction a with
  | nil =>
    cases r with
    | nil => simp
    | cons d r =>
      have : isDelim d = true := (isDelim_iff d).2 (hr d (by simp))
      simp [this]
  | cons c t ih =>
    have hc : isDelim c = false := by
      cases h : isDelim c with
      | false => rfl
      | true => exact absurd ((isDelim_iff c).1 h) (ha c (by simp))
    have := ih (fun c h => ha c (by simp [h]))
    simp [hc, this]

theorem mkargv_written (arg text rest : List Char) (h : Written arg text) (hsep : ∀ c ∈ rest.head?, Separator c) :
    mkargv (text ++ rest) = arg :: mkargv rest := by
  cases h with
  | word hne hs hb =>
    obtain ⟨h1, h2⟩ := takeWhile_word arg rest hs hsep
    cases arg with
    | nil => exact absurd rfl hne
    | cons c t =>
      have hc : isDelim c = false := by
        cases h : isDelim c with
        | false => rfl
        | true => exact absurd ((isDelim_iff c).1 h) (hs c (by simp))
      have hcb : c ≠ '[' := by simpa using hb
      have htok : tokenize (c :: t ++ rest) = some (c :: t, tokenize.next rest) := by
        unfold tokenize
        simp only [List.cons_append, List.dropWhile, hc] at h1 h2 ⊢
        simp only [hcb, if_false]
        simp only [Bool.not_false] at h2
        simp [h1, h2]
      rw [mkargv_of, htok]
      cases rest with
      | nil => simp [tokenize.next, mkargv_nil]
      | cons d r =>
        have hd := hsep d (by simp)
        have := mkargv_delims [d] r (by simpa using hd)
        simp only [List.cons_append, List.nil_append] at this
        rw [this]
        cases r with
        | nil => simp [tokenize.next, mkargv_nil]
        | cons e r => simp [tokenize.next]
  | bracketed he =>
    have hb := bracket_quote arg rest he
    have htok : tokenize ('[' :: (quote arg ++ [']']) ++ rest) = some (arg, tokenize.next (']' :: rest)) := by
      unfold tokenize
      have : isDelim '[' = false := rfl
      simp only [List.cons_append, List.dropWhile, this]
      simp [hb]
    rw [mkargv_of, htok]
    cases rest with
    | nil => simp [tokenize.next, mkargv_nil]
    | cons d r => simp [tokenize.next]

theorem mkargv_writtenList (args : List (List Char)) (text : List Char) (h : WrittenList args text) :
    mkargv text = args := by
  induction h with
  | nil w hw =>
    have := mkargv_delims w [] hw
    simpa [mkargv_nil] using this
  | cons w arg text rest args hw ha hr hsep ih =>
    rw [List.append_assoc, mkargv_delims w _ hw, mkargv_written arg text rest ha hsep, ih]

/-! ### Lines as words -/

/-- arguments of an optional text -/
def wordsOf (n : Option (List Char)) : List (List Char) :=
  match n with
  | none => []
  | some s => mkargv s

theorem nextTok_words (n : Option (List Char)) :
    (nextTok n).1 = (wordsOf n).head? ∧ wordsOf (nextTok n).2 = (wordsOf n).drop 1 := by
  cases n with
  | none => simp [nextTok, wordsOf]
  | some s =>
    simp only [nextTok, wordsOf]
    rw [mkargv_of s]
    cases h : tokenize s with
    | none => simp
    | some p =>
      obtain ⟨tok, nx⟩ := p
      cases nx <;> simp

/-- what a line of words `ws` (type, control, module path, arguments) asks for -/
def directiveOf (ws : List (List Char)) : Directive :=
  let ty := parseType ws[0]?
  match ws[1]? with
  | none => { mtype := ty.1, htype := .mustFail, what := .module (setDefault undefActions ACT_BAD) none [] }
  | some c =>
    if ieq "include".toList c then { mtype := ty.1, htype := ty.2, what := .incl false ws[2]? }
    else if ieq "substack".toList c then { mtype := ty.1, htype := ty.2, what := .incl true ws[2]? }
    else { mtype := ty.1, htype := if ws[2]?.isSome then ty.2 else .mustFail,
           what := .module (controlActions c) ws[2]? (ws.drop 3) }

theorem parseLine_words (n : Option (List Char)) : parseLine n = directiveOf (wordsOf n) := by
  obtain ⟨a1, a2⟩ := nextTok_words n
  obtain ⟨b1, b2⟩ := nextTok_words (nextTok n).2
  obtain ⟨c1, c2⟩ := nextTok_words (nextTok (nextTok n).2).2
  rw [b2, a2] at c1 c2
  rw [a2] at b1 b2
  unfold parseLine directiveOf
  simp only [a1, b1, c1]
  have h0 : (wordsOf n).head? = (wordsOf n)[0]? := List.head?_eq_getElem?
  have h1 : ((wordsOf n).drop 1).head? = (wordsOf n)[1]? := by rw [List.head?_eq_getElem?]; simp
  have h2 : (((wordsOf n).drop 1).drop 1).head? = (wordsOf n)[2]? := by rw [List.head?_eq_getElem?]; simp
  have h3 : ((((wordsOf n).drop 1).drop 1).drop 1) = (wordsOf n).drop 3 := by simp
  rw [h0, h1, h2]
  rw [h3] at c2
  cases hw : (wordsOf n)[1]? with
  | none =>
    have hlen : (wordsOf n).length ≤ 1 := by simpa using hw
    have e2 : (wordsOf n)[2]? = none := by simp; omega
    simp only [e2]
    congr 2
    have e3 : (wordsOf n).drop 3 = [] := by simp; omega
    rw [e3] at c2
    cases hn : (nextTok (nextTok (nextTok n).2).2).2 with
    | none => rfl
    | some s => rw [hn] at c2; exact c2
  | some c =>
    simp only
    split
    · rfl
    · split
      · rfl
      · congr 2

theorem ieq_lit (n : String) (hn : n.toList.map lower = n.toList) (w : List Char) :
    (ieq n.toList w = true) = (w.map lower = n.toList) := by
  unfold ieq; rw [hn]; simp only [beq_iff_eq]; exact propext ⟨Eq.symm, Eq.symm⟩

theorem ieq_self_literals : ∀ n ∈ ["auth", "session", "account", "password", "include", "substack", "required",
    "requisite", "optional", "sufficient", "other"], n.toList.map lower = n.toList := by decide +kernel

theorem parseType_eq (tok : Option (List Char)) :
    parseType tok =
      ((tok.bind (fun w => typeOf (if tok.bind List.head? = some '-' then w.drop 1 else w))),
       if tok.bind (fun w => typeOf (if tok.bind List.head? = some '-' then w.drop 1 else w)) = none then .mustFail
       else if tok.bind List.head? = some '-' then .silentModule else .module) := by
  cases tok with
  | none => rfl
  | some t =>
    simp only [parseType, Option.bind_some]
    generalize (if t.head? = some '-' then t.drop 1 else t) = u
    have i := ieq_self_literals
    simp only [ieq_lit "auth" (i _ (by decide)), ieq_lit "session" (i _ (by decide)), ieq_lit "account" (i _ (by decide)),
      ieq_lit "password" (i _ (by decide))]
    clear i
    simp only [typeOf, List.findSome?_cons, List.findSome?_nil]
    generalize u.map lower = u
    have n1 : "auth".toList ≠ "session".toList := by decide
    have n2 : "auth".toList ≠ "account".toList := by decide
    have n3 : "auth".toList ≠ "password".toList := by decide
    have n4 : "session".toList ≠ "account".toList := by decide
    have n5 : "session".toList ≠ "password".toList := by decide
    have n6 : "account".toList ≠ "password".toList := by decide
    generalize "auth".toList = a1 at *
    generalize "session".toList = a2 at *
    generalize "account".toList = a3 at *
    generalize "password".toList = a4 at *
    grind

theorem tbl_required : setDefault (assign (assign (assign undefActions 0 ACT_OK) 12 ACT_OK) 25 ACT_IGNORE) ACT_BAD
    = onCodes (Dispatch.classicActions .required) := by
  funext k
  simp only [setDefault, assign, undefActions, onCodes, Dispatch.classicActions, PAM_RETURN_VALUES, ACT_UNDEF, ACT_OK, ACT_IGNORE, ACT_BAD]
  grind

theorem tbl_requisite : setDefault (assign (assign (assign undefActions 0 ACT_OK) 12 ACT_OK) 25 ACT_IGNORE) ACT_DIE
    = onCodes (Dispatch.classicActions .requisite) := by
  funext k
  simp only [setDefault, assign, undefActions, onCodes, Dispatch.classicActions, PAM_RETURN_VALUES, ACT_UNDEF, ACT_OK, ACT_IGNORE, ACT_DIE]
  grind

theorem tbl_optional : setDefault (assign (assign undefActions 0 ACT_OK) 12 ACT_OK) ACT_IGNORE
    = onCodes (Dispatch.classicActions .optional) := by
  funext k
  simp only [setDefault, assign, undefActions, onCodes, Dispatch.classicActions, PAM_RETURN_VALUES, ACT_UNDEF, ACT_OK, ACT_IGNORE]
  grind

theorem tbl_sufficient : setDefault (assign (assign undefActions 0 ACT_DONE) 12 ACT_DONE) ACT_IGNORE
    = onCodes (Dispatch.classicActions .sufficient) := by
  funext k
  simp only [setDefault, assign, undefActions, onCodes, Dispatch.classicActions, PAM_RETURN_VALUES, ACT_UNDEF, ACT_DONE, ACT_IGNORE]
  grind

theorem controlActions_eq (c : List Char) : controlActions c = actionsOf c := by
  have i := ieq_self_literals
  unfold controlActions actionsOf
  simp only [ieq_lit "required" (i _ (by decide)), ieq_lit "requisite" (i _ (by decide)), ieq_lit "optional" (i _ (by decide)),
    ieq_lit "sufficient" (i _ (by decide)), tbl_required, tbl_requisite, tbl_optional, tbl_sufficient]
  clear i
  simp only [flagOf, List.findSome?_cons, List.findSome?_nil]
  generalize c.map lower = u
  have n1 : "required".toList ≠ "requisite".toList := by decide
  have n2 : "required".toList ≠ "optional".toList := by decide
  have n3 : "required".toList ≠ "sufficient".toList := by decide
  have n4 : "requisite".toList ≠ "optional".toList := by decide
  have n5 : "requisite".toList ≠ "sufficient".toList := by decide
  have n6 : "optional".toList ≠ "sufficient".toList := by decide
  generalize "required".toList = a1 at *
  generalize "requisite".toList = a2 at *
  generalize "optional".toList = a3 at *
  generalize "sufficient".toList = a4 at *
  grind

theorem undef_bad : setDefault undefActions ACT_BAD = onCodes (fun _ => ACT_BAD) := by
  funext i; simp [setDefault, undefActions, onCodes, PAM_RETURN_VALUES]

theorem directiveOf_eq (ws : List (List Char)) : directiveOf ws = lineMeaning ws := by
  have i := ieq_self_literals
  unfold directiveOf lineMeaning
  rw [parseType_eq, undef_bad]
  cases ws[1]? with
  | none => simp
  | some c =>
    simp only [ieq_lit "include" (i _ (by decide)), ieq_lit "substack" (i _ (by decide)), controlActions_eq]
    split
    · simp
    · split
      · simp
      · simp only [Directive.mk.injEq]
        refine ⟨by simp, ?_, trivial⟩
        cases ws[2]? <;> simp

theorem lineMeaning_eq (l : List Char) : lineMeaning (mkargv l) = parseLine (some l) := by
  rw [parseLine_words, directiveOf_eq]; rfl

theorem parseLine_some : (fun l => parseLine (some l)) = (fun l => lineMeaning (mkargv l)) :=
  funext fun l => (lineMeaning_eq l).symm

theorem tokenize_isSome (s : List Char) (hne : s ≠ []) (hh : ∀ c ∈ s.head?, ¬ Separator c) : tokenize s ≠ none := by
  cases s with
  | nil => exact absurd rfl hne
  | cons c t =>
    have hc : isDelim c = false := by
      cases h : isDelim c with
      | false => rfl
      | true => exact absurd ((isDelim_iff c).1 h) (hh c (by simp))
    unfold tokenize
    simp only [List.dropWhile, hc]
    split <;> simp

/-- every logical line has a first word: `this_service` is never NULL -/
theorem logical_line_has_token (bytes l : List Char) (h : l ∈ (fileLines ' ' bytes).1) : (nextTok (some l)).1 ≠ none := by
  have hs := logicalLines_shape ' ' (by decide) (physLines bytes) (fun l hl => (mem_physLines bytes l hl).2) l h
  have := tokenize_isSome l hs.1 (fun c hc hsep => by
    have := hs.2.2.2 c hc
    rcases hsep with h | h | h
    · exact this.1 h
    · exact this.2.1 h
    · exact this.2.2 h)
  unfold nextTok
  simp only
  split
  · next h => exact absurd h this
  · simp

end Pam.Config
