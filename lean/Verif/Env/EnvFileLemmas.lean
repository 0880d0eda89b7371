import Verif.Env.ConfLemmas
/-
Reading /etc/environment line by line, against the specification.
-/
namespace Pam.Env
open Pam Pam.Small Spec

theorem reads_nil {e : PEnv} {m : Vars} (hm : Reads e m) : e.getenv (some []) = some none := by
  obtain ⟨⟨cs, h, hr⟩, -⟩ := hm
  obtain ⟨h', e', hr', -, hg⟩ := Handle.C17_environment_is_a_map cs
  rw [hr] at hr'
  cases hr'
  rw [hg [] (by simp)]
  unfold Handle.Spec.valueAfter
  have : h.reverse.find? (fun d => d.1.name == some []) = none := by
    rw [List.find?_eq_none]
    intro d _ hd
    have hd : d.1.name = some [] := by simpa using hd
    unfold Handle.Spec.Put.name at hd
    split at hd
    · cases hd
    · split at hd
      · cases hd
      · next hne => exact hne (Option.some.inj hd)
  rw [this]

theorem isNameChar_iff (c : Char) : isNameChar c = true ↔ NameChar c := by
  unfold isNameChar NameChar isDigit
  simp only [Bool.or_eq_true, Bool.and_eq_true, decide_eq_true_eq, beq_iff_eq, Char.le_def, UInt32.le_iff_toNat_le]
  simp only [Char.toNat, or_assoc]
  rfl

theorem nameChar_eq {n : Str} (h : ∀ c ∈ n, NameChar c) : '=' ∉ n := by
  intro hh
  have := (isNameChar_iff '=').mpr (h _ hh)
  revert this; decide

theorem isQuote_iff (c : Char) : isQuote c = true ↔ c = '"' ∨ c = '\'' := by
  unfold isQuote; simp

theorem copyQuoted_snoc {q : Char} (hq : isQuote q = true) : ∀ v, copyQuoted (v ++ [q]) = v
  | [] => by
    show copyQuoted [q] = []
    unfold copyQuoted
    rw [if_neg (by simp [hq]), if_neg (by simp)]
    rfl
  | c :: v => by
    show copyQuoted (c :: (v ++ [q])) = _
    unfold copyQuoted
    rw [copyQuoted_snoc hq v, if_pos (show v ++ [q] ≠ [] by simp)]
    simp

theorem copyQuoted_none : ∀ v : Str, (∀ c ∈ v.getLast?, isQuote c = false) → copyQuoted v = v
  | [], _ => rfl
  | [c], h => by
    have := h c rfl
    unfold copyQuoted
    rw [if_pos (by simp [this])]
    rfl
  | c :: d :: v, h => by
    unfold copyQuoted
    rw [copyQuoted_none (d :: v) (by rwa [List.getLast?_cons_cons] at h), if_pos (show d :: v ≠ [] by simp)]
    simp

theorem unquote_eq {q v : Str} (h : Unquoted q v) : unquote q = v := by
  cases h with
  | bare h =>
    cases q with
    | nil => rfl
    | cons c q =>
      unfold unquote
      dsimp only
      have := h c rfl
      rw [if_neg (by rw [isQuote_iff]; rintro (rfl | rfl) <;> simp at this)]
  | @closed c c' v h1 h2 =>
    show unquote (c :: (v ++ [c'])) = v
    unfold unquote
    dsimp only
    rw [if_pos ((isQuote_iff c).mpr h1), copyQuoted_snoc ((isQuote_iff c').mpr h2)]
  | @unclosed c v h1 h2 =>
    unfold unquote
    dsimp only
    rw [if_pos ((isQuote_iff c).mpr h1), copyQuoted_none]
    intro d hd
    cases hq : isQuote d
    · rfl
    · have := h2 d hd
      rcases (isQuote_iff d).mp hq with rfl | rfl <;> simp at this

/-- every value has exactly one meaning -/
theorem unquoted_total (q : Str) : ∃ v, Unquoted q v := by
  cases q with
  | nil => exact ⟨[], .bare (by simp)⟩
  | cons c q =>
    cases hc : isQuote c with
    | false => exact ⟨_, .bare (by
        intro d hd
        cases hd
        constructor <;> (rintro rfl; revert hc; decide))⟩
    | true =>
      by_cases h : ∃ d, q.getLast? = some d ∧ isQuote d = true
      · obtain ⟨d, hd, hd2⟩ := h
        obtain ⟨x, rfl⟩ : ∃ x, q = x ++ [d] := by
          rw [List.getLast?_eq_some_iff] at hd
          exact hd
        exact ⟨x, .closed ((isQuote_iff c).mp hc) ((isQuote_iff d).mp hd2)⟩
      · exact ⟨q, .unclosed ((isQuote_iff c).mp hc) (by
          intro d hd
          have : ¬ isQuote d = true := fun hh => h ⟨d, hd, hh⟩
          rw [isQuote_iff, not_or] at this
          exact this)⟩

/-- a line as `_pam_line_assemble` gives it -/
def Shape (l : Str) : Prop := '#' ∉ l ∧ ∀ c ∈ l.head?, isWordEnd c = false

/-- what `envText` does with the text of the line -/
def ofText (t : Str) : Option Str :=
  if t.head? = some '=' then none
  else match t.dropWhile isNameChar with
    | [] => some t
    | c :: v => if c ≠ '=' then none else some (t.takeWhile isNameChar ++ '=' :: unquote v)

theorem envText_body {l t : Str} (hs : Shape l) (hb : Body l t) : envText l = ofText t := by
  obtain ⟨pre, rest, rfl, hpre, ht, hrest⟩ := hb
  have hd : (pre ++ t ++ rest).dropWhile isWordEnd = pre ++ t ++ rest := by
    cases hl : pre ++ t ++ rest with
    | nil => rfl
    | cons c x =>
      have := hs.2 c (by rw [hl]; rfl)
      rw [List.dropWhile_cons, this]
      rfl
  have hsharp : '#' ∉ t := fun h => hs.1 (List.mem_append_left _ (List.mem_append_right _ h))
  have hh : ¬ (pre ++ t ++ rest).head? = some '#' := fun h => hs.1 (List.mem_of_head? h)
  have hk : ((skipPrefix (pre ++ t ++ rest) "export ".toList).getD (pre ++ t ++ rest)) = t ++ rest := by
    rcases hpre with rfl | ⟨rfl, hno⟩
    · have : skipPrefix ("export ".toList ++ t ++ rest) "export ".toList = some (t ++ rest) := by
        rw [List.append_assoc]
        unfold skipPrefix
        rw [if_pos (List.isPrefixOf_iff_prefix.mpr (List.prefix_append _ _)), List.drop_left]
      rw [this]; rfl
    · have : skipPrefix ([] ++ t ++ rest) "export ".toList = none := by
        unfold skipPrefix
        rw [if_neg (fun h => hno (List.isPrefixOf_iff_prefix.mp h))]
      rw [this]; rfl
  have htk : (t ++ rest).takeWhile (fun c => decide (c ≠ '\n' ∧ c ≠ '#')) = t := by
    refine takeWhile_all' (fun c hc => decide_eq_true ⟨fun h => ht (h ▸ hc), fun h => hsharp (h ▸ hc)⟩) ?_
    intro c hc
    rcases hrest with rfl | ⟨x, rfl⟩
    · cases hc
    · cases hc; decide
  unfold envText ofText
  rw [hd]
  dsimp only
  rw [if_neg hh, hk, htk]
  split
  · rfl
  · cases t.dropWhile isNameChar <;> rfl

/-- what a line does -/
theorem envLine_means {e : PEnv} {m : Vars} (hm : Reads e m) {l : Str} (hs : Shape l) {f : EnvEffect} (h : EnvMeans l f) :
    ∃ e', envLine e l = some (PAM_SUCCESS, e') ∧ Reads e' (f.on m) := by
  obtain ⟨t, hb, hf⟩ := h
  unfold envLine
  rw [envText_body hs hb]
  have hname : ∀ n : Str, (∀ c ∈ n, NameChar c) → ∀ c ∈ n, isNameChar c = true := fun n hn c hc => (isNameChar_iff c).mpr (hn c hc)
  have hhead : ∀ (n : Str) (q : Str), n ≠ [] → (∀ c ∈ n, NameChar c) → ¬ (n ++ q).head? = some '=' := by
    intro n q h1 h2 h3
    cases n with
    | nil => exact h1 rfl
    | cons c n => cases h3; exact nameChar_eq h2 List.mem_cons_self
  cases f with
  | set n v =>
    obtain ⟨h1, h2, q, rfl, hq⟩ := hf
    have e1 : ofText (n ++ '=' :: q) = some (n ++ '=' :: v) := by
      unfold ofText
      rw [if_neg (hhead n _ h1 h2), dropWhile_all (hname n h2) (by intro c hc; cases hc; decide), takeWhile_all' (hname n h2) (by intro c hc; cases hc; decide)]
      dsimp only
      rw [if_neg (by simp), unquote_eq hq]
    rw [e1]
    dsimp only
    rw [if_neg (by simp)]
    exact put_set hm n v (nameChar_eq h2) h1
  | unset n =>
    obtain ⟨h1, rfl, h2⟩ := hf
    have e1 : ofText t = some t := by
      unfold ofText
      have := dropWhile_all (b := []) (hname t h2) (by simp)
      rw [List.append_nil] at this
      have hh := hhead t [] h1 h2
      rw [List.append_nil] at hh
      rw [if_neg hh, this]
    rw [e1]
    dsimp only
    rw [if_pos (nameChar_eq h2), hm.2 t (nameChar_eq h2)]
    cases hv : m t with
    | none =>
      refine ⟨e, rfl, hm.1, fun k hk => ?_⟩
      rw [hm.2 k hk]
      show _ = some (update m t none k)
      unfold update
      split
      · next h => rw [h, hv]
      · rfl
    | some x =>
      obtain ⟨e', h, h'⟩ := put_unset hm t (nameChar_eq h2) h1
      refine ⟨e', ?_, h'⟩
      rw [hv] at h
      exact h
  | nothing =>
    have e1 : ofText t = none ∨ t = [] := by
      unfold ofText
      split
      · exact Or.inl rfl
      · next hh =>
        obtain ⟨a, b, hab, ha, hb', htw, hdw⟩ := split_while isNameChar t
        rw [hdw, htw]
        cases b with
        | nil =>
          refine Or.inr ?_
          rw [List.append_nil] at hab
          cases a with
          | nil => exact hab
          | cons c a => exact absurd ⟨c :: a, [], by rw [List.append_nil]; exact hab, nofun, fun d hd => (isNameChar_iff d).mp (ha d hd), Or.inl rfl⟩ hf
        | cons c b =>
          refine Or.inl ?_
          dsimp only
          rw [if_pos]
          rintro rfl
          cases a with
          | nil => rw [hab] at hh; exact hh rfl
          | cons c a => exact hf ⟨c :: a, _, hab, nofun, fun d hd => (isNameChar_iff d).mp (ha d hd), Or.inr ⟨b, rfl⟩⟩
    rcases e1 with e1 | rfl
    · rw [e1]; exact ⟨e, rfl, hm⟩
    · have : ofText [] = some [] := rfl
      rw [this]
      dsimp only
      rw [if_pos (by simp), reads_nil hm]
      exact ⟨e, rfl, hm⟩

theorem envLines_means : ∀ {ls : List Str} {fs : List EnvEffect} {e : PEnv} {m : Vars}, Reads e m → EnvMeanings ls fs → (∀ l ∈ ls, Shape l) →
    ∃ e', envLines e ls = some (PAM_SUCCESS, e') ∧ Reads e' (fs.foldl EnvEffect.on m)
  | _, _, e, m, hm, .nil, _ => ⟨e, rfl, hm⟩
  | _, _, e, m, hm, .cons h1 h2, hs => by
    obtain ⟨e1, hl, hm1⟩ := envLine_means hm (hs _ List.mem_cons_self) h1
    obtain ⟨e', hc, h⟩ := envLines_means hm1 h2 (fun l hl => hs l (List.mem_cons_of_mem _ hl))
    refine ⟨e', ?_, h⟩
    unfold envLines
    rw [hl]
    exact hc

/-- every line means something -/
theorem envMeans_total (l : Str) : ∃ f, EnvMeans l f := by
  obtain ⟨t, hb⟩ : ∃ t, Body l t := by
    have hcut : ∀ x : Str, ∃ t rest, x = t ++ rest ∧ '\n' ∉ t ∧ (rest = [] ∨ ∃ y, rest = '\n' :: y) := by
      intro x
      obtain ⟨a, b, hab, ha, hb, -, -⟩ := split_while (fun c => decide (c ≠ '\n')) x
      refine ⟨a, b, hab, fun h => by have := ha _ h; simp at this, ?_⟩
      cases b with
      | nil => exact Or.inl rfl
      | cons c b =>
        have := hb c rfl
        exact Or.inr ⟨b, by simpa using this⟩
    by_cases hp : "export ".toList <+: l
    · obtain ⟨x, rfl⟩ := hp
      obtain ⟨t, rest, rfl, h1, h2⟩ := hcut x
      exact ⟨t, _, rest, by rw [List.append_assoc], Or.inl rfl, h1, h2⟩
    · obtain ⟨t, rest, rfl, h1, h2⟩ := hcut l
      exact ⟨t, [], rest, rfl, Or.inr ⟨rfl, hp⟩, h1, h2⟩
  by_cases h : ∃ n q, t = n ++ q ∧ n ≠ [] ∧ (∀ c ∈ n, NameChar c) ∧ (q = [] ∨ ∃ q', q = '=' :: q')
  · obtain ⟨n, q, rfl, h1, h2, rfl | ⟨q', rfl⟩⟩ := h
    · exact ⟨.unset n, _, hb, h1, List.append_nil n, h2⟩
    · obtain ⟨v, hv⟩ := unquoted_total q'
      exact ⟨.set n v, _, hb, h1, h2, q', rfl, hv⟩
  · exact ⟨.nothing, t, hb, h⟩

/-- the text of a line -/
theorem body_unique {l t t' : Str} (h : Body l t) (h' : Body l t') : t = t' := by
  have key : ∀ {x t rest : Str}, x = t ++ rest → '\n' ∉ t → (rest = [] ∨ ∃ y, rest = '\n' :: y) → x.takeWhile (fun c => decide (c ≠ '\n')) = t := by
    rintro x t rest rfl ht hr
    refine takeWhile_all' (fun c hc => decide_eq_true (fun h => ht (h ▸ hc))) ?_
    intro c hc
    rcases hr with rfl | ⟨y, rfl⟩
    · cases hc
    · cases hc; decide
  obtain ⟨pre, rest, hl, hp, ht, hr⟩ := h
  obtain ⟨pre', rest', hl', hp', ht', hr'⟩ := h'
  have hpre : pre = pre' := by
    rcases hp with rfl | ⟨rfl, hn⟩ <;> rcases hp' with rfl | ⟨rfl, hn'⟩
    · rfl
    · exact absurd ⟨t ++ rest, by rw [hl, List.append_assoc]⟩ hn'
    · exact absurd ⟨t' ++ rest', by rw [hl', List.append_assoc]⟩ hn
    · rfl
  subst hpre
  rw [hl] at hl'
  rw [List.append_assoc, List.append_assoc] at hl'
  have hl' := List.append_cancel_left hl'
  exact (key rfl ht hr).symm.trans (key hl' ht' hr')

/-- the lines of any file -/
theorem lines_shape (c l : Str) (h : l ∈ (Config.fileLines NUL c).1) : Shape l := by
  have := Config.logicalLines_shape NUL (by decide) _ (fun l hl => (Config.mem_physLines c l hl).2) l h
  refine ⟨this.2.1, fun d hd => ?_⟩
  have := this.2.2.2 d hd
  cases hw : isWordEnd d
  · rfl
  · rcases (isWordEnd_iff d).mp hw with (h | h) | h <;> simp [h] at this

end Pam.Env
