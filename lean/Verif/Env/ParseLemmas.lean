import Verif.Env.Spec
/-
`_parse_line` reads entries, and nothing else.
-/
namespace Pam.Env
open Pam Pam.Small Spec

theorem isLead_iff (c : Char) : Config.isLead c = true ↔ Blank c := by
  unfold Config.isLead Blank
  simp

theorem isWordEnd_iff (c : Char) : isWordEnd c = true ↔ Blank c ∨ c = '\n' := by
  unfold isWordEnd Blank
  simp [or_assoc]

/-- what can follow a word -/
def Tail (r : Str) : Prop := ∀ c ∈ r.head?, isWordEnd c = true

theorem dropWhile_all {p : Char → Bool} {a b : Str} (h : ∀ c ∈ a, p c = true) (hb : ∀ c ∈ b.head?, p c = false) : (a ++ b).dropWhile p = b := by
  rw [List.dropWhile_append_of_pos h]
  cases b with
  | nil => rfl
  | cons c b => rw [List.dropWhile_cons_of_neg]; simp [hb c rfl]

theorem takeWhile_all' {p : Char → Bool} {a b : Str} (h : ∀ c ∈ a, p c = true) (hb : ∀ c ∈ b.head?, p c = false) : (a ++ b).takeWhile p = a := by
  rw [List.takeWhile_append_of_pos h]
  cases b with
  | nil => simp
  | cons c b => rw [List.takeWhile_cons_of_neg]; simp; simp [hb c rfl]

theorem split_while (p : Char → Bool) (s : Str) : ∃ a b, s = a ++ b ∧ (∀ c ∈ a, p c = true) ∧ (∀ c ∈ b.head?, p c = false) ∧ s.takeWhile p = a ∧ s.dropWhile p = b := by
  refine ⟨s.takeWhile p, s.dropWhile p, (List.takeWhile_append_dropWhile).symm, fun c hc => ?_, fun c hc => ?_, rfl, rfl⟩
  · exact List.all_eq_true.mp List.all_takeWhile _ hc
  · have := List.head?_dropWhile_not p s
    rw [Option.mem_def] at hc
    rw [hc] at this
    exact this

theorem keyword_written (o : Bool) (r : Str) : keyword ((if o then "OVERRIDE=".toList else "DEFAULT=".toList) ++ r) = some (o, r) := by
  unfold keyword
  cases o with
  | false =>
    rw [if_neg (by decide), skipPrefix_some.mpr rfl]
  | true =>
    rw [if_pos rfl, skipPrefix_none.mpr, skipPrefix_some.mpr rfl]
    rintro ⟨t, ht⟩
    have := congrArg (fun x : Str => x.head?) ht
    simp at this

theorem keyword_inv {p : Str} {o : Bool} {r : Str} (h : keyword p = some (o, r)) : p = (if o then "OVERRIDE=".toList else "DEFAULT=".toList) ++ r := by
  unfold keyword at h
  split at h
  · next h1 => cases h; exact skipPrefix_some.mp h1
  · split at h
    · next h1 => cases h; exact skipPrefix_some.mp h1
    · cases h

theorem takeValue_written {q : Bool} {t r : Str} (h1 : q = true → '"' ∉ t) (h2 : q = false → (∀ c ∈ t, ¬ Blank c ∧ c ≠ '\n') ∧ t.head? ≠ some '"') (hr : Tail r) :
    takeValue ((if q then '"' :: t ++ ['"'] else t) ++ r) = some (q, t, r) := by
  cases q with
  | true =>
    rw [if_pos rfl]
    have hq := h1 rfl
    show takeValue ('"' :: (t ++ ['"'] ++ r)) = _
    unfold takeValue
    rw [if_pos (by rfl)]
    dsimp only [List.tail_cons]
    have e1 : (t ++ ['"'] ++ r).takeWhile (· ≠ '"') = t := by
      rw [List.append_assoc]
      exact takeWhile_all' (fun c hc => decide_eq_true (fun e => hq (e ▸ hc))) (by intro c hc; cases hc; rfl)
    have e2 : (t ++ ['"'] ++ r).dropWhile (· ≠ '"') = '"' :: r := by
      rw [List.append_assoc]
      exact dropWhile_all (fun c hc => decide_eq_true (fun e => hq (e ▸ hc))) (by intro c hc; cases hc; rfl)
    rw [if_neg (by simp), e1, e2, List.tail_cons, if_neg]
    rintro ⟨h1, h2⟩
    cases r with
    | nil => exact h1 rfl
    | cons c r => have := hr c rfl; simp [this] at h2
  | false =>
    rw [if_neg (by decide)]
    obtain ⟨h3, h4⟩ := h2 rfl
    have hw : ∀ c ∈ t, (!isWordEnd c) = true := by
      intro c hc
      rw [Bool.not_eq_true', Bool.eq_false_iff, ne_eq, isWordEnd_iff]
      rintro (h | h)
      · exact (h3 c hc).1 h
      · exact (h3 c hc).2 h
    have hr' : ∀ c ∈ r.head?, (!isWordEnd c) = false := by intro c hc; rw [hr c hc]; rfl
    have e1 := takeWhile_all' hw hr'
    have e2 := dropWhile_all hw hr'
    have hh : (t ++ r).head? ≠ some '"' := by
      intro e
      cases t with
      | nil => exact absurd (hr '"' e) (by decide)
      | cons c t => exact h4 e
    unfold takeValue
    rw [if_neg hh, e1, e2]

theorem takeValue_inv {p : Str} {q : Bool} {t r : Str} (h : takeValue p = some (q, t, r)) :
    p = (if q then '"' :: t ++ ['"'] else t) ++ r ∧ (q = true → '"' ∉ t) ∧ (q = false → (∀ c ∈ t, ¬ Blank c ∧ c ≠ '\n') ∧ t.head? ≠ some '"') ∧ Tail r := by
  unfold takeValue at h
  split at h
  · next hq =>
    obtain ⟨s, rfl⟩ : ∃ s, p = '"' :: s := by
      cases p with
      | nil => cases hq
      | cons c s => cases hq; exact ⟨s, rfl⟩
    dsimp only [List.tail_cons] at h
    obtain ⟨a, b, hs, ha, hb, e1, e2⟩ := split_while (fun c => decide (c ≠ '"')) s
    rw [e1, e2] at h
    split at h
    · cases h
    next hm =>
    split at h
    · cases h
    next hr =>
    cases h
    have hb' : ∃ b', b = '"' :: b' := by
      cases b with
      | nil =>
        rw [List.append_nil] at hs
        subst hs
        exact absurd (fun hh => by have := ha _ hh; simp at this) hm
      | cons c b' =>
        have := hb c rfl
        simp at this
        exact ⟨b', by rw [this]⟩
    obtain ⟨b', rfl⟩ := hb'
    refine ⟨by rw [hs]; simp, fun _ hh => by have := ha _ hh; simp at this, nofun, ?_⟩
    rw [List.tail_cons] at *
    intro c hc
    apply Classical.byContradiction
    intro hn
    apply hr
    refine ⟨fun e => (by rw [e] at hc; cases hc), ?_⟩
    rw [Option.mem_def] at hc
    rw [hc]
    simpa using hn
  · next hq =>
    cases h
    obtain ⟨a, b, hs, ha, hb, e1, e2⟩ := split_while (fun c => !isWordEnd c) p
    rw [e1, e2]
    refine ⟨hs, nofun, fun _ => ⟨fun c hc => ?_, fun hh => ?_⟩, fun c hc => ?_⟩
    · have := ha c hc
      rw [Bool.not_eq_true', Bool.eq_false_iff, ne_eq, isWordEnd_iff, not_or] at this
      exact this
    · cases a with
      | nil => cases hh
      | cons c a => cases hh; exact hq (by rw [hs]; rfl)
    · have := hb c hc
      simpa using this

theorem written_cons {s : Setting} (h : s.sep ≠ []) : ∃ b x, b ∈ s.sep ∧ s.written = b :: x := by
  obtain ⟨sep, o, q, t⟩ := s
  cases sep with
  | nil => exact absurd rfl h
  | cons b sep => exact ⟨b, _, List.mem_cons_self .., rfl⟩

theorem written_pos {s : Setting} (h : s.sep ≠ []) : 0 < s.written.length := by
  obtain ⟨b, x, -, e⟩ := written_cons h
  rw [e]; exact Nat.succ_pos _

/-! ### entries are read -/

/-- the value a setting that counts leaves behind -/
def valOf : Option Setting → Val
  | none => .null
  | some s => if s.text = [] then .quote else .text s.text

/-- does the setting give a value? -/
def gives (s : Setting) : Bool := s.quoted || !s.text.isEmpty

/-- the effect of one setting -/
def apply1 (v : Var) (s : Setting) : Var := if gives s then v.put s.override (valOf (some s)) else v

theorem tail_written {ss : List Setting} {rest : Str} (h : ∀ s ∈ ss, s.Ok) (hr : rest = [] ∨ ∃ x, rest = '\n' :: x) : Tail (ss.flatMap Setting.written ++ rest) := by
  cases ss with
  | nil =>
    rcases hr with rfl | ⟨x, rfl⟩
    · nofun
    · intro c hc; cases hc; decide
  | cons s ss =>
    obtain ⟨h1, h2, -⟩ := h s (List.mem_cons_self ..)
    intro c hc
    rw [List.flatMap_cons] at hc
    obtain ⟨b, x, hb, e⟩ := written_cons h1
    rw [e] at hc
    cases hc
    exact (isWordEnd_iff c).mpr (Or.inl (h2 c hb))

theorem parseLoop_written {rest : Str} (hrest : rest = [] ∨ ∃ x, rest = '\n' :: x) : ∀ (ss : List Setting) (fuel q : Nat) (v : Var),
    (∀ s ∈ ss, s.Ok) → ss.length < fuel → (q ≠ 0 → ∀ t ∈ ss, t.quoted = true ∨ t.text ≠ []) →
    (∀ a s b, ss = a ++ s :: b → s.quoted = true → s.text ≠ [] → ∀ t ∈ b, t.quoted = true ∨ t.text ≠ []) →
    parseLoop fuel (ss.flatMap Setting.written ++ rest) q v = some (ss.foldl apply1 v)
  | [], 0, _, _, _, hf, _, _ => absurd hf (Nat.not_lt_zero _)
  | [], fuel + 1, q, v, _, _, _, _ => by
    unfold parseLoop
    rw [if_pos]
    · rfl
    · rcases hrest with rfl | ⟨x, rfl⟩
      · rfl
      · simp [Config.isLead]
  | _ :: _, 0, _, _, _, hf, _, _ => absurd hf (Nat.not_lt_zero _)
  | s :: ss, fuel + 1, q, v, hok, hf, hq, hp => by
    obtain ⟨h1, h2, h3, h4⟩ := hok s (List.mem_cons_self ..)
    have hok' : ∀ s ∈ ss, s.Ok := fun t ht => hok t (List.mem_cons_of_mem _ ht)
    have ht := tail_written hok' hrest
    have hp' : ∀ a s b, ss = a ++ s :: b → s.quoted = true → s.text ≠ [] → ∀ t ∈ b, t.quoted = true ∨ t.text ≠ [] := by
      intro a x b hh; exact hp (s :: a) x b (by rw [hh]; rfl)
    have ih := fun q v hq => parseLoop_written hrest ss fuel q v hok' (Nat.lt_of_succ_lt_succ hf) hq hp'
    rw [List.flatMap_cons, List.append_assoc]
    generalize ss.flatMap Setting.written ++ rest = r at *
    have hlead : (s.written ++ r).head?.any Config.isLead = true := by
      obtain ⟨b, x, hb, e⟩ := written_cons h1
      rw [e]
      exact (isLead_iff b).mpr (h2 b hb)
    have hdrop : (s.written ++ r).dropWhile Config.isLead =
        (if s.override then "OVERRIDE=".toList else "DEFAULT=".toList) ++ ((if s.quoted then '"' :: s.text ++ ['"'] else s.text) ++ r) := by
      unfold Setting.written
      rw [List.append_assoc, List.append_assoc]
      refine dropWhile_all (fun c hc => (isLead_iff c).mpr (h2 c hc)) ?_
      intro c hc
      obtain ⟨sep, o, q, t⟩ := s
      cases o <;> cases hc <;> decide
    unfold parseLoop
    rw [if_neg (by rw [hlead]; decide), hdrop, keyword_written]
    dsimp only
    rw [takeValue_written h3 h4 ht]
    dsimp only
    rw [List.foldl_cons]
    have hap : apply1 v s = if (s.quoted || !s.text.isEmpty) then v.put s.override (if s.text = [] then .quote else .text s.text) else v := rfl
    rw [hap]
    by_cases htx : s.text = []
    · rw [if_neg (fun h => h htx), htx]
      cases hsq : s.quoted with
      | true =>
        simp only [if_true, Bool.true_or]
        rw [if_pos (by omega)]
        exact ih _ _ (fun h => fun t ht => hq (by omega) t (List.mem_cons_of_mem _ ht))
      | false =>
        have hq0 : q = 0 := by
          apply Classical.byContradiction
          intro h
          rcases hq h s (List.mem_cons_self ..) with h | h
          · rw [hsq] at h; cases h
          · exact h htx
        subst hq0
        simp only [Bool.false_eq_true, if_false, ne_eq, not_true_eq_false, Bool.false_or, List.isEmpty_nil, Bool.not_true]
        exact ih _ _ (fun h => absurd rfl h)
    · rw [if_pos htx]
      have hg : (s.quoted || !s.text.isEmpty) = true := by
        cases hx : s.text with
        | nil => exact absurd hx htx
        | cons => simp
      rw [hg, if_pos rfl]
      rw [if_neg htx]
      refine ih _ _ (fun h => ?_)
      by_cases hsq : s.quoted = true
      · exact hp [] s ss rfl hsq htx
      · rw [if_neg hsq] at h
        exact fun t ht => hq h t (List.mem_cons_of_mem _ ht)

theorem fold_name : ∀ (ss : List Setting) (v : Var), (ss.foldl apply1 v).name = v.name
  | [], _ => rfl
  | s :: ss, v => by
    rw [List.foldl_cons, fold_name ss]
    unfold apply1 Var.put
    split
    · split <;> rfl
    · rfl

theorem fold_val (get : Var → Val) (o : Bool) (hget : ∀ v o' x, get (v.put o' x) = if o' = o then x else get v) : ∀ (ss : List Setting) (v : Var),
    get (ss.foldl apply1 v) = match ss.reverse.find? (fun s => s.override == o && (s.quoted || !s.text.isEmpty)) with
      | none => get v
      | some s => valOf (some s)
  | [], _ => rfl
  | s :: ss, v => by
    rw [List.foldl_cons, fold_val get o hget ss, List.reverse_cons, List.find?_append]
    cases ss.reverse.find? (fun s => s.override == o && (s.quoted || !s.text.isEmpty)) with
    | some t => rfl
    | none =>
      simp only [Option.none_or, List.find?_cons, List.find?_nil]
      unfold apply1 gives
      cases hg : (s.quoted || !s.text.isEmpty) with
      | false => simp
      | true =>
        simp only [if_true, hget, Bool.and_true]
        by_cases ho : s.override = o
        · rw [if_pos ho]; simp [ho]
        · rw [if_neg ho]
          have : (s.override == o) = false := by simpa using ho
          rw [this]

theorem written_length (ss : List Setting) (h : ∀ s ∈ ss, s.Ok) : ss.length ≤ (ss.flatMap Setting.written).length := by
  induction ss with
  | nil => simp
  | cons s ss ih =>
    have := ih (fun t ht => h t (List.mem_cons_of_mem _ ht))
    have h1 : 0 < s.written.length := written_pos (h s (List.mem_cons_self ..)).1
    rw [List.flatMap_cons, List.length_append, List.length_cons]
    omega

/-- a plain entry is read as what it says -/
theorem parseLine_entry {e : Entry} {l : Str} (h : e.IsLine l) (hp : e.Plain) :
    parseLine l = some { name := e.name, defval := valOf (e.last false), override := valOf (e.last true) } := by
  obtain ⟨hn, hs, rest, rfl, hr⟩ := h
  have ht := tail_written hs hr
  rw [List.append_assoc]
  have hw : ∀ c ∈ e.name, (!isWordEnd c) = true := by
    intro c hc
    rw [Bool.not_eq_true', Bool.eq_false_iff, ne_eq, isWordEnd_iff]
    rintro (h | h)
    · exact (hn c hc).1 h
    · exact (hn c hc).2 h
  have ht' : ∀ c ∈ (e.settings.flatMap Setting.written ++ rest).head?, (!isWordEnd c) = false := by intro c hc; rw [ht c hc]; rfl
  unfold parseLine
  rw [takeWhile_all' hw ht', dropWhile_all hw ht']
  dsimp only
  rw [parseLoop_written hr e.settings _ 0 _ hs (by have := written_length e.settings hs; rw [List.length_append]; omega) (fun h => absurd rfl h) hp]
  have e1 := fold_name e.settings { name := e.name }
  have e2 := fold_val Var.defval false (by intro v o' x; unfold Var.put; cases o' <;> rfl) e.settings { name := e.name }
  have e3 := fold_val Var.override true (by intro v o' x; unfold Var.put; cases o' <;> rfl) e.settings { name := e.name }
  generalize e.settings.foldl apply1 { name := e.name } = v at *
  obtain ⟨a, b, c⟩ := v
  dsimp only at e1 e2 e3
  unfold Entry.last
  rw [e1, e2, e3]
  cases e.settings.reverse.find? (fun s => s.override == false && (s.quoted || !s.text.isEmpty)) <;>
    cases e.settings.reverse.find? (fun s => s.override == true && (s.quoted || !s.text.isEmpty)) <;> rfl

/-! ### and nothing else is -/

theorem parseLoop_inv : ∀ (fuel : Nat) (ptr : Str) (q : Nat) (v v' : Var), parseLoop fuel ptr q v = some v' → ptr.length < fuel → Tail ptr →
    ∃ (ss : List Setting) (rest : Str), ptr = ss.flatMap Setting.written ++ rest ∧ (∀ s ∈ ss, s.Ok) ∧ (rest = [] ∨ ∃ x, rest = '\n' :: x)
  | 0, _, _, _, _, _, hl, _ => absurd hl (Nat.not_lt_zero _)
  | fuel + 1, ptr, q, v, v', h, hl, ht => by
    unfold parseLoop at h
    split at h
    · next hb =>
      refine ⟨[], ptr, rfl, nofun, ?_⟩
      cases ptr with
      | nil => exact Or.inl rfl
      | cons c p =>
        have := ht c rfl
        rw [isWordEnd_iff] at this
        rcases this with this | rfl
        · simp [(isLead_iff c).mpr this] at hb
        · exact Or.inr ⟨p, rfl⟩
    · next hb =>
      split at h
      · cases h
      next o p hk =>
      split at h
      · cases h
      next quoted t rest hv =>
      obtain ⟨sep, b, hs, hsep, -, -, e2⟩ := split_while Config.isLead ptr
      rw [e2] at hk
      have hk := keyword_inv hk
      obtain ⟨hp, k1, k2, k3⟩ := takeValue_inv hv
      have hne : sep ≠ [] := by
        rintro rfl
        rw [List.nil_append] at hs
        have : ptr.head?.any Config.isLead = false := by
          rw [hs, hk]; cases o <;> rfl
        rw [this] at hb
        exact hb rfl
      have hptr : ptr = (Setting.mk sep o quoted t).written ++ rest := by
        unfold Setting.written
        rw [hs, hk, hp]; simp only [List.append_assoc]
      have hlen : rest.length < fuel := by
        have := congrArg List.length hptr
        rw [List.length_append] at this
        have h1 : 0 < (Setting.mk sep o quoted t).written.length := written_pos hne
        omega
      have : ∃ q' v'', parseLoop fuel rest q' v'' = some v' := by
        dsimp only at h
        split at h
        · exact ⟨_, _, h⟩
        · generalize (if quoted = true then q + 1 else q) = qq at h
          by_cases hqq : qq ≠ 0
          · rw [if_pos hqq] at h; exact ⟨_, _, h⟩
          · rw [if_neg hqq] at h; exact ⟨_, _, h⟩
      obtain ⟨q', v'', h⟩ := this
      obtain ⟨ss, rest', e, hok, hr⟩ := parseLoop_inv fuel rest q' v'' v' h hlen k3
      refine ⟨⟨sep, o, quoted, t⟩ :: ss, rest', ?_, ?_, hr⟩
      · rw [hptr, e, List.flatMap_cons, List.append_assoc]
      · intro s hs
        rcases List.mem_cons.mp hs with rfl | hs
        · exact ⟨hne, fun c hc => (isLead_iff c).mp (hsep c hc), k1, k2⟩
        · exact hok s hs

/-- a line that is read is an entry -/
theorem parseLine_inv {l : Str} {v : Var} (h : parseLine l = some v) : ∃ e : Entry, e.IsLine l := by
  unfold parseLine at h
  obtain ⟨a, b, hs, ha, hb, e1, e2⟩ := split_while (fun c => !isWordEnd c) l
  rw [e1, e2] at h
  obtain ⟨ss, rest, e, hok, hr⟩ := parseLoop_inv _ _ _ _ _ h (Nat.lt_succ_self _) (by intro c hc; have := hb c hc; simpa using this)
  refine ⟨⟨a, ss⟩, fun c hc => ?_, hok, rest, by rw [hs, e, List.append_assoc], hr⟩
  have := ha c hc
  rw [Bool.not_eq_true', Bool.eq_false_iff, ne_eq, isWordEnd_iff, not_or] at this
  exact this

end Pam.Env
