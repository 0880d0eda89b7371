import Verif.Namespace.WordsProps
/-
Property theorems about the configuration of pam_namespace (C111, C112).
-/
namespace Pam.Namespace
open Pam

/-! ### variables -/

theorem expand_skip (vars : List (Str × Str)) : ∀ (n : Str) (out r : Str), expandLoop vars n.length out (n ++ r) = expandLoop vars 0 out r
  | [], _, _ => rfl
  | c :: n, out, r => by
    show expandLoop vars (n.length + 1) out (c :: (n ++ r)) = _
    rw [expandLoop]
    exact expand_skip vars n out r

/-- the variables -/
def vars (home user : Str) : List (Str × Str) := [("HOME".toList, home), ("USER".toList, user)]

theorem prefix_dollar {c : Char} {r n : Str} : ('$' :: n) <+: c :: r ↔ c = '$' ∧ n.isPrefixOf r = true := by
  rw [List.cons_prefix_cons, List.isPrefixOf_iff_prefix]
  exact ⟨fun h => ⟨h.1.symm, h.2⟩, fun h => ⟨h.1.symm, h.2⟩⟩

theorem expand_of {home user s t : Str} (h : Spec.Expands home user s t) (h1 : home ≠ []) (h2 : user ≠ []) :
    ∀ out, expandLoop (vars home user) 0 out s = some (out ++ t) := by
  induction h with
  | nil => intro out; simp [expandLoop]
  | home _ ih =>
    intro out
    rename_i r t _
    show expandLoop (vars home user) 0 out ('$' :: ("HOME".toList ++ r)) = _
    rw [expandLoop, if_pos rfl]
    rw [show (vars home user).find? (fun v => v.1.isPrefixOf ("HOME".toList ++ r)) = some ("HOME".toList, home) from rfl]
    dsimp only
    rw [if_neg (by simp [h1]), expand_skip, ih, List.append_assoc]
  | user _ ih =>
    intro out
    rename_i r t _
    show expandLoop (vars home user) 0 out ('$' :: ("USER".toList ++ r)) = _
    rw [expandLoop, if_pos rfl]
    rw [show (vars home user).find? (fun v => v.1.isPrefixOf ("USER".toList ++ r)) = some ("USER".toList, user) from rfl]
    dsimp only
    rw [if_neg (by simp [h2]), expand_skip, ih, List.append_assoc]
  | other hh hu _ ih =>
    intro out
    rename_i c r t _
    rw [expandLoop]
    by_cases hc : c = '$'
    · rw [if_pos hc]
      have e1 : "HOME".toList.isPrefixOf r = false := by
        cases hb : "HOME".toList.isPrefixOf r with
        | false => rfl
        | true => exact absurd (prefix_dollar.2 ⟨hc, hb⟩) hh
      have e2 : "USER".toList.isPrefixOf r = false := by
        cases hb : "USER".toList.isPrefixOf r with
        | false => rfl
        | true => exact absurd (prefix_dollar.2 ⟨hc, hb⟩) hu
      rw [show (vars home user).find? (fun v => v.1.isPrefixOf r) = none by simp only [vars, List.find?_cons, e1, e2, List.find?_nil]]
      dsimp only
      rw [ih, List.append_assoc]; rfl
    · rw [if_neg hc, ih, List.append_assoc]; rfl

theorem expands_total (home user : Str) : ∀ (n : Nat) (s : Str), s.length ≤ n → ∃ t, Spec.Expands home user s t := by
  intro n
  induction n with
  | zero =>
    intro s hs
    rw [List.length_eq_zero_iff.1 (Nat.le_zero.1 hs)]
    exact ⟨[], .nil⟩
  | succ n ih =>
    intro s hs
    cases s with
    | nil => exact ⟨[], .nil⟩
    | cons c r =>
      by_cases hh : "$HOME".toList <+: c :: r
      · obtain ⟨r', e⟩ := hh
        have hl := congrArg List.length e
        simp at hl hs
        obtain ⟨t, ht⟩ := ih r' (by omega)
        rw [← e]; exact ⟨_, .home ht⟩
      · by_cases hu : "$USER".toList <+: c :: r
        · obtain ⟨r', e⟩ := hu
          have hl := congrArg List.length e
          simp at hl hs
          obtain ⟨t, ht⟩ := ih r' (by omega)
          rw [← e]; exact ⟨_, .user ht⟩
        · obtain ⟨t, ht⟩ := ih r (by simp at hs; omega)
          exact ⟨_, .other hh hu ht⟩

/-- C111 (variables): if neither the home directory nor the name is empty, the variables are replaced by them, in all texts. -/
theorem C111_variables {home user : Str} (h1 : home ≠ []) (h2 : user ≠ []) (s t : Str) : expand home user s = some t ↔ Spec.Expands home user s t := by
  have key : ∀ t, Spec.Expands home user s t → expand home user s = some t := fun t h => expand_of h h1 h2 []
  constructor
  · intro h
    obtain ⟨t', h'⟩ := expands_total home user s.length s (Nat.le_refl _)
    rw [key t' h'] at h; cases h; exact h'
  · exact key t

/-- An empty home directory at the beginning of a field makes the program access memory before the buffer. -/
theorem C111_empty_home_counterexample (user : Str) : expand [] user "$HOME/tmp".toList = none := rfl

/-! ### splitting -/

theorem splitOn_ne (sep : Char) (s : Str) : splitOn sep s ≠ [] := by
  cases s with
  | nil => simp [splitOn]
  | cons c r =>
    rw [splitOn]
    split
    · simp
    · split <;> simp

theorem parts_split (sep : Char) : ∀ s : Str, Spec.Parts sep s (splitOn sep s)
  | [] => .one (by simp)
  | c :: r => by
    have ih := parts_split sep r
    rw [splitOn]
    split
    · rename_i hc
      subst hc
      exact .more (w := []) (by simp) ih
    · rename_i hc
      cases hs : splitOn sep r with
      | nil => exact absurd hs (splitOn_ne sep r)
      | cons w ws =>
        rw [hs] at ih
        dsimp only
        have hw : ∀ {w : Str}, sep ∉ w → sep ∉ c :: w := fun h e => by
          rcases List.mem_cons.1 e with e | e
          · exact hc e.symm
          · exact h e
        cases ih with
        | one h => exact .one (hw h)
        | more h hr => exact .more (w := c :: w) (hw h) hr

theorem parts_unique {sep : Char} {s : Str} {ws : List Str} (h : Spec.Parts sep s ws) : ws = splitOn sep s := by
  have one : ∀ {w : Str}, sep ∉ w → splitOn sep w = [w] := by
    intro w
    induction w with
    | nil => intro _; rfl
    | cons c w ih =>
      intro h
      rw [splitOn, if_neg (by rintro rfl; exact h List.mem_cons_self), ih (fun e => h (List.mem_cons_of_mem _ e))]
  have more : ∀ {w r : Str}, sep ∉ w → splitOn sep (w ++ sep :: r) = w :: splitOn sep r := by
    intro w r
    induction w with
    | nil => intro _; rw [List.nil_append, splitOn, if_pos rfl]
    | cons c w ih =>
      intro h
      rw [List.cons_append, splitOn, if_neg (by rintro rfl; exact h List.mem_cons_self), ih (fun e => h (List.mem_cons_of_mem _ e))]
  induction h with
  | one h => rw [one h]
  | more h _ ih => rw [more h, ih]

/-! ### the method -/

theorem methodOf_iff {s : Str} {m : Method} : methodOf s = some m ↔ s = Spec.methodName m := by
  unfold methodOf
  constructor
  · intro h
    split at h
    · cases h; assumption
    · split at h
      · cases h; assumption
      · split at h
        · cases h; assumption
        · split at h
          · cases h; assumption
          · split at h
            · cases h; assumption
            · cases h
  · rintro rfl
    cases m <;> decide

/-- what a flag does to the entry -/
theorem parseFlag_flags {e : Env} {p q : Poly} {f : Str} (h : parseFlag e p f = some q) :
    q.flags = ⟨p.flags.exclusive, p.flags.create || "create".toList.isPrefixOf f, p.flags.noinit || "noinit".toList.isPrefixOf f,
      p.flags.shared || "shared".toList.isPrefixOf f, p.flags.iscript || "iscript".toList.isPrefixOf f,
      p.flags.mntopts || "mntopts".toList.isPrefixOf f⟩ ∧
    q.method = p.method ∧ q.uids = p.uids := by
  have excl : ∀ a b : Str, a.isPrefixOf f = true → a.take 4 ≠ b.take 4 → 4 ≤ a.length → 4 ≤ b.length → b.isPrefixOf f = false := by
    intro a b ha hne hla hlb
    cases hb : b.isPrefixOf f with
    | false => rfl
    | true =>
      rw [List.isPrefixOf_iff_prefix] at ha hb
      obtain ⟨x, rfl⟩ := ha
      obtain ⟨y, hy⟩ := hb
      refine absurd ?_ hne
      have := congrArg (List.take 4) hy
      rw [List.take_append_of_le_length hlb, List.take_append_of_le_length hla] at this
      exact this.symm
  unfold parseFlag at h
  split at h
  · rename_i hc
    obtain ⟨m, _, rfl⟩ := Option.map_eq_some_iff.1 h
    rw [hc, excl _ "noinit".toList hc (by decide) (by decide) (by decide), excl _ "iscript".toList hc (by decide) (by decide) (by decide),
      excl _ "shared".toList hc (by decide) (by decide) (by decide), excl _ "mntopts".toList hc (by decide) (by decide) (by decide)]
    simp
  · rename_i h1
    rw [show "create".toList.isPrefixOf f = false from Bool.eq_false_iff.2 h1]
    split at h
    · rename_i hc
      cases h
      rw [hc, excl _ "iscript".toList hc (by decide) (by decide) (by decide),
        excl _ "shared".toList hc (by decide) (by decide) (by decide), excl _ "mntopts".toList hc (by decide) (by decide) (by decide)]
      simp
    · rename_i h2
      rw [show "noinit".toList.isPrefixOf f = false from Bool.eq_false_iff.2 h2]
      split at h
      · rename_i hc
        cases h
        rw [hc, excl _ "shared".toList hc (by decide) (by decide) (by decide), excl _ "mntopts".toList hc (by decide) (by decide) (by decide)]
        simp
      · rename_i h3
        rw [show "iscript".toList.isPrefixOf f = false from Bool.eq_false_iff.2 h3]
        split at h
        · rename_i hc
          cases h
          rw [hc, excl _ "mntopts".toList hc (by decide) (by decide) (by decide)]
          simp
        · rename_i h4
          rw [show "shared".toList.isPrefixOf f = false from Bool.eq_false_iff.2 h4]
          split at h
          · rename_i hc
            rw [hc]
            split at h <;> cases h <;> simp
          · rename_i h5
            rw [show "mntopts".toList.isPrefixOf f = false from Bool.eq_false_iff.2 h5]
            cases h
            simp

theorem parseFlags_flags {e : Env} : ∀ {fs : List Str} {p q : Poly}, parseFlags e p fs = some q →
    (q.flags.exclusive = p.flags.exclusive) ∧
    (q.flags.create = true ↔ p.flags.create = true ∨ ∃ f ∈ fs, "create".toList <+: f) ∧
    (q.flags.noinit = true ↔ p.flags.noinit = true ∨ ∃ f ∈ fs, "noinit".toList <+: f) ∧
    (q.flags.iscript = true ↔ p.flags.iscript = true ∨ ∃ f ∈ fs, "iscript".toList <+: f) ∧
    (q.flags.shared = true ↔ p.flags.shared = true ∨ ∃ f ∈ fs, "shared".toList <+: f) ∧
    q.method = p.method ∧ q.uids = p.uids
  | [], p, q, h => by
    cases h; simp
  | f :: fs, p, q, h => by
    rw [parseFlags] at h
    cases hf : parseFlag e p f with
    | none => rw [hf] at h; cases h
    | some r =>
      rw [hf] at h
      obtain ⟨i0, i1, i2, i3, i4, i5, i6⟩ := parseFlags_flags (p := r) (q := q) h
      obtain ⟨j, jm, ju⟩ := parseFlag_flags hf
      rw [j] at i0 i1 i2 i3 i4
      simp only [Bool.or_eq_true, List.isPrefixOf_iff_prefix] at i1 i2 i3 i4
      have key : ∀ (a : Prop) (k : Str), ((a ∨ k <+: f) ∨ ∃ f ∈ fs, k <+: f) ↔ (a ∨ ∃ g ∈ f :: fs, k <+: g) := by
        intro a k; simp [or_assoc]
      rw [key] at i1 i2 i3 i4
      exact ⟨i0, i1, i2, i3, i4, i5.trans jm, i6.trans ju⟩

/-- C111 (the method field): the first part is the name of the method, the others are flags, known by how they begin. -/
theorem C111_method {e : Env} {s : Str} {p : Poly} (h : parseMethod e s = .entry p) :
    ∃ parts m fs, Spec.Parts ':' s parts ∧ parts.filter (· ≠ []) = Spec.methodName m :: fs ∧ p.method = m ∧
      (p.flags.create = true ↔ ∃ f ∈ fs, "create".toList <+: f) ∧ (p.flags.noinit = true ↔ ∃ f ∈ fs, "noinit".toList <+: f) ∧
      (p.flags.iscript = true ↔ ∃ f ∈ fs, "iscript".toList <+: f) ∧ (p.flags.shared = true ↔ ∃ f ∈ fs, "shared".toList <+: f) := by
  unfold parseMethod at h
  cases ht : tokens s with
  | nil => rw [ht] at h; cases h
  | cons n fs =>
    rw [ht] at h
    dsimp only at h
    cases hm : methodOf n with
    | none => rw [hm] at h; cases h
    | some m =>
      rw [hm] at h
      dsimp only at h
      cases hf : parseFlags e (.zero m) fs with
      | none => rw [hf] at h; cases h
      | some q =>
        rw [hf] at h; cases h
        obtain ⟨_, i1, i2, i3, i4, i5, _⟩ := parseFlags_flags hf
        refine ⟨_, m, fs, parts_split ':' s, ?_, i5, ?_, ?_, ?_, ?_⟩
        · rw [← methodOf_iff.1 hm]; exact ht
        · rw [i1]; simp [Poly.zero]
        · rw [i2]; simp [Poly.zero]
        · rw [i3]; simp [Poly.zero]
        · rw [i4]; simp [Poly.zero]

/-- An empty method, or one of colons only, makes the program compare a null pointer. -/
theorem C111_empty_method_counterexample (e : Env) :
    words "/tmp /inst/ \"\"".toList = some ["/tmp".toList, "/inst/".toList, []] ∧ words "/tmp /inst/ :".toList = some ["/tmp".toList, "/inst/".toList, ":".toList] ∧
    parseMethod e [] = .fault ∧ parseMethod e ":".toList = .fault :=
  ⟨by decide +kernel, by decide +kernel, rfl, rfl⟩

/-! ### lines -/

theorem strip_stripped (s : Str) : Spec.Stripped s (stripSlashes s) := by
  cases s with
  | nil => exact ⟨0, rfl, .inl (by simp [stripSlashes]), fun _ => rfl⟩
  | cons c r =>
    have key : ∀ u : Str, ∃ n, u = List.replicate n '/' ++ u.dropWhile (· = '/') := by
      intro u
      induction u with
      | nil => exact ⟨0, rfl⟩
      | cons x u ih =>
        by_cases hx : x = '/'
        · obtain ⟨n, e⟩ := ih
          refine ⟨n + 1, ?_⟩
          rw [List.dropWhile_cons, if_pos (by simp [hx]), List.replicate_succ, List.cons_append, ← e, hx]
        · exact ⟨0, by rw [List.dropWhile_cons, if_neg (by simp [hx])]; rfl⟩
    obtain ⟨n, e⟩ := key r.reverse
    refine ⟨n, ?_, ?_, by simp [stripSlashes]⟩
    · have := congrArg List.reverse e
      rw [List.reverse_reverse, List.reverse_append, List.reverse_replicate] at this
      show c :: r = c :: (r.reverse.dropWhile (· = '/')).reverse ++ _
      rw [List.cons_append, ← this]
    · cases hd : r.reverse.dropWhile (· = '/') with
      | nil => left; simp [stripSlashes, hd]
      | cons x u =>
        right
        rw [stripSlashes, hd]
        have hx : x ≠ '/' := by
          rintro rfl
          have := List.head?_dropWhile_not (p := (decide <| · = '/')) (l := r.reverse)
          rw [hd] at this
          simp at this
        rw [List.reverse_cons, ← List.cons_append, List.getLast?_concat]
        simpa using hx

theorem stripped_unique {s t u : Str} (h1 : Spec.Stripped s t) (h2 : Spec.Stripped s u) : t = u := by
  obtain ⟨n, e1, l1, z1⟩ := h1
  obtain ⟨m, e2, l2, z2⟩ := h2
  have key : ∀ {t u : Str} {n m : Nat}, t ++ List.replicate n '/' = u ++ List.replicate m '/' → m < n → (u.length ≤ 1 ∨ u.getLast? ≠ some '/') →
      (t = [] → n = 0) → False := by
    intro t u n m he hlt hl hz
    have : u = t ++ List.replicate (n - m) '/' := by
      have h3 : List.replicate n '/' = List.replicate (n - m) '/' ++ List.replicate m '/' := by
        rw [List.replicate_append_replicate]; congr 1; omega
      rw [h3, ← List.append_assoc] at he
      exact (List.append_cancel_right he).symm
    have ht : t ≠ [] := fun e => by have := hz e; omega
    rcases hl with hl | hl
    · rw [this, List.length_append, List.length_replicate] at hl
      have := List.length_pos_iff.2 ht
      omega
    · apply hl
      rw [this, List.getLast?_append]
      obtain ⟨k, hk⟩ : ∃ k, n - m = k + 1 := ⟨n - m - 1, by omega⟩
      rw [hk, List.replicate_succ', List.getLast?_append]
      rfl
  rcases Nat.lt_trichotomy n m with h | h | h
  · exact (key (e2.symm.trans e1) h l1 z2).elim
  · subst h
    exact List.append_cancel_right (e1.symm.trans e2)
  · exact (key (e1.symm.trans e2) h l2 z1).elim

theorem hasDots_iff : ∀ s : Str, hasDots s = true ↔ Spec.DotDot s
  | [] => by
    constructor
    · intro h; cases h
    · rintro ⟨a, b, e⟩; cases a <;> cases e
  | c :: r => by
    rw [hasDots, Bool.or_eq_true, Bool.and_eq_true, decide_eq_true_eq, decide_eq_true_eq, hasDots_iff r]
    constructor
    · rintro (⟨rfl, h⟩ | ⟨a, b, rfl⟩)
      · cases r with
        | nil => cases h
        | cons d r => cases h; exact ⟨[], r, rfl⟩
      · exact ⟨c :: a, b, rfl⟩
    · rintro ⟨a, b, e⟩
      cases a with
      | nil => cases e; exact .inl ⟨rfl, rfl⟩
      | cons d a => cases e; exact .inr ⟨a, b, rfl⟩

/-- the text of a line before a comment or its end -/
theorem content_eq {body tail : Str} (hb : ∀ c ∈ body, c ≠ '#' ∧ c ≠ '\n') (ht : tail = [] ∨ tail = ['\n'] ∨ tail.head? = some '#') :
    content (body ++ tail) = body.dropWhile isSpace := by
  have stop : ∀ u : Str, (∀ c ∈ u, c ≠ '#' ∧ c ≠ '\n') → (u ++ tail).takeWhile (fun c => c ≠ '#' ∧ c ≠ '\n') = u := by
    intro u hu
    induction u with
    | nil =>
      rcases ht with rfl | rfl | ht
      · rfl
      · rfl
      · cases tail with
        | nil => rfl
        | cons c r => cases ht; rfl
    | cons c u ih =>
      rw [List.cons_append, List.takeWhile_cons, if_pos (by simpa using hu c List.mem_cons_self), ih (fun c hc => hu c (List.mem_cons_of_mem _ hc))]
  unfold content
  induction body with
  | nil =>
    rcases ht with rfl | rfl | ht
    · rfl
    · rfl
    · cases tail with
      | nil => rfl
      | cons c r => cases ht; rfl
  | cons c body ih =>
    rw [List.cons_append, List.dropWhile_cons, List.dropWhile_cons]
    by_cases hc : isSpace c = true
    · rw [if_pos hc, if_pos hc]
      exact ih (fun c hc => hb c (List.mem_cons_of_mem _ hc))
    · rw [if_neg hc, if_neg hc]
      exact stop (c :: body) hb

theorem words_dropWhile (s : Str) : words (s.dropWhile isSpace) = words s := by
  obtain ⟨ws, hw, e⟩ := split_blanks s
  have : argvParse s = argvParse (s.dropWhile isSpace) := by
    conv => lhs; rw [e]
    rw [argvParse_eq, argvParse_eq, loop_blank hw]
  unfold words
  rw [this]

/-- C111 (lines that say nothing): empty lines and comments are passed over. -/
theorem C111_nothing (e : Env) (w : Who) {body tail : Str} (hb : ∀ c ∈ body, isSpace c ∧ c ≠ '\n') (ht : tail = [] ∨ tail = ['\n'] ∨ tail.head? = some '#') :
    processLine e w (body ++ tail) = .none := by
  unfold processLine
  rw [content_eq (fun c hc => ⟨by rintro rfl; exact absurd (hb _ hc).1 (by decide), (hb c hc).2⟩) ht]
  rw [if_pos]
  have := dropWhile_blanks (ws := body) (u := []) (fun c hc => (hb c hc).1) (by simp)
  rwa [List.append_nil] at this

/-- C111 (lines): a line of one or two fields is an error. -/
theorem C111_too_few (e : Env) (w : Who) {body tail : Str} {fs : List Str} (hb : ∀ c ∈ body, c ≠ '#' ∧ c ≠ '\n' ∧ c ≠ NUL)
    (ht : tail = [] ∨ tail = ['\n'] ∨ tail.head? = some '#') (hf : Spec.Fields body fs) (h1 : fs ≠ []) (h2 : fs.length < 3) : processLine e w (body ++ tail) = .bad := by
  have hw : words body = some fs := C110_fields hf (fun h => (hb _ h).2.2 rfl)
  unfold processLine
  rw [content_eq (fun c hc => ⟨(hb c hc).1, (hb c hc).2.1⟩) ht]
  have hnil : body.dropWhile isSpace ≠ [] := by
    intro hnil
    have hd := words_dropWhile body
    rw [hnil, hw, show words [] = some [] from rfl] at hd
    cases hd
    exact h1 rfl
  rw [if_neg hnil, words_dropWhile, hw]
  match fs, h1, h2 with
  | [_], _, _ => rfl
  | [_, _], _, _ => rfl

example (e : Env) (w : Who) : processLine e w ("/a ".toList ++ "# user".toList) = .bad := by
  have hf : Spec.Fields ([] ++ "/a".toList ++ ' ' :: []) ["/a".toList] :=
    .more (by intro c h; cases h) (.more (s := [_]) (v := [_]) (.plain _ (by decide) (by decide) (by decide)) (.one (.plain _ (by decide) (by decide) (by decide)))) (by decide)
      (.done (by intro c h; cases h))
  exact C111_too_few e w (body := "/a ".toList) (by decide) (.inr (.inr rfl)) hf (by decide) (by decide)

/-- the list of users, when there is one -/
theorem parseUids_eq (e : Env) (l : Str) (uid : Nat) :
    uid ∈ (parseUids e (some l)).2 ↔ Spec.Listed e (if l.head? = some '~' then l.tail else l) uid := by
  unfold parseUids Spec.Listed
  dsimp only
  generalize (if l.head? = some '~' then l.tail else l) = u
  rw [List.mem_filterMap]
  constructor
  · rintro ⟨n, hn, he⟩
    obtain ⟨⟨a, b, c⟩, h1, rfl⟩ := Option.map_eq_some_iff.1 he
    exact ⟨_, parts_split ',' u, n, hn, b, c, h1⟩
  · rintro ⟨names, hp, n, hn, gid, home, h⟩
    rw [parts_unique hp] at hn
    exact ⟨n, hn, by rw [h]; rfl⟩

/-- the entry of a line, apart from the method and its flags -/
structure Entry (e : Env) (q : Poly) (dir rdir pre : Str) (uids : Option Str) (p : Poly) : Prop where
  dir : Spec.Stripped dir p.dir
  rdir : Spec.Stripped rdir p.rdir
  pre : p.pre = pre
  exclusive : p.flags.exclusive = true ↔ ∃ l, uids = some l ∧ l.head? = some '~'
  listed : ∀ uid, uid ∈ p.uids ↔ ∃ l, uids = some l ∧ Spec.Listed e (if l.head? = some '~' then l.tail else l) uid
  same : ({ p with dir := q.dir, rdir := q.rdir, pre := q.pre, uids := q.uids, flags := { p.flags with exclusive := q.flags.exclusive } } : Poly) = q

/-- the conditions that the paths of an entry must meet -/
structure GoodPaths (m : Method) (dir rdir pre : Str) : Prop where
  short : dir.length < 4096 ∧ rdir.length < 4096 ∧ pre.length < 4096
  ne : rdir ≠ []
  abs : Spec.Absolute dir
  preAbs : m ≠ .tmpfs → Spec.Absolute pre
  dots : ¬ Spec.DotDot dir ∧ ¬ Spec.DotDot pre

/-- C111: a line with its fields gives an entry exactly if its method is good and its paths are absolute, without "..", and short; and the entry says what the
line says. -/
theorem C111_line {e : Env} {w : Who} {body tail d i m : Str} {rest : List Str} {dir rdir pre : Str}
    (hne : w.home ≠ [] ∧ w.user ≠ [] ∧ w.rhome ≠ [] ∧ w.ruser ≠ [])
    (hb : ∀ c ∈ body, c ≠ '#' ∧ c ≠ '\n' ∧ c ≠ NUL) (ht : tail = [] ∨ tail = ['\n'] ∨ tail.head? = some '#')
    (hf : Spec.Fields body (d :: i :: m :: rest)) (hd : Spec.Expands w.home w.user d dir) (hr : Spec.Expands w.rhome w.ruser d rdir)
    (hi : Spec.Expands w.home w.user i pre) :
    (∀ p, processLine e w (body ++ tail) = .entry p →
      ∃ q, parseMethod e m = .entry q ∧ Entry e q dir rdir pre rest.head? p ∧ GoodPaths q.method p.dir p.rdir pre) ∧
    (∀ q dir' rdir', parseMethod e m = .entry q → Spec.Stripped dir dir' → Spec.Stripped rdir rdir' → GoodPaths q.method dir' rdir' pre →
      ∃ p, processLine e w (body ++ tail) = .entry p) ∧
    (parseMethod e m ≠ .fault → (¬ ∃ p, processLine e w (body ++ tail) = .entry p) → processLine e w (body ++ tail) = .bad) := by
  have hw : words body = some (d :: i :: m :: rest) := C110_fields hf (fun h => (hb _ h).2.2 rfl)
  have hl : processLine e w (body ++ tail) = makeEntry e dir rdir pre m rest.head? := by
    unfold processLine
    rw [content_eq (fun c hc => ⟨(hb c hc).1, (hb c hc).2.1⟩) ht]
    have hnil : body.dropWhile isSpace ≠ [] := by
      intro hnil
      have := words_dropWhile body
      rw [hnil, hw] at this
      cases this
    rw [if_neg hnil, words_dropWhile, hw]
    dsimp only
    rw [(C111_variables hne.2.2.1 hne.2.2.2 d rdir).2 hr, (C111_variables hne.1 hne.2.1 d dir).2 hd, (C111_variables hne.1 hne.2.1 i pre).2 hi]
  rw [hl]
  unfold makeEntry
  dsimp only
  have hsd := strip_stripped dir
  have hsr := strip_stripped rdir
  generalize stripSlashes dir = D at hsd ⊢
  generalize stripSlashes rdir = R at hsr ⊢
  by_cases h0 : D = [] ∨ R = []
  · rw [if_pos h0]
    refine ⟨(by intro p h; cases h), ?_, fun _ _ => rfl⟩
    intro q dir' rdir' _ h1 h2 hg
    rw [stripped_unique h1 hsd, stripped_unique h2 hsr] at hg
    rcases h0 with h0 | h0
    · have := hg.abs; rw [h0] at this; cases this
    · exact absurd h0 hg.ne
  · rw [if_neg h0]
    cases hm : parseMethod e m with
    | none => refine ⟨(by intro p h; cases h), (by intro q _ _ h; cases h), fun _ _ => ?_⟩; unfold parseMethod at hm; split at hm
              · cases hm
              · split at hm
                · cases hm
                · split at hm <;> cases hm
    | bad => exact ⟨(by intro p h; cases h), (by intro q _ _ h; cases h), fun _ _ => rfl⟩
    | fault => exact ⟨(by intro p h; cases h), (by intro q _ _ h; cases h), fun h => absurd rfl h⟩
    | entry q =>
      dsimp only
      have cond : (D.length ≥ pathMax ∨ R.length ≥ pathMax ∨ pre.length ≥ pathMax) ∨ (D.head? ≠ some '/' ∨ q.method ≠ .tmpfs ∧ pre.head? ≠ some '/') ∨
          (hasDots D = true ∨ hasDots pre = true) ↔ ¬ GoodPaths q.method D R pre := by
        constructor
        · rintro h hg
          rcases h with h | h | h
          · have := hg.short; unfold pathMax at h; omega
          · rcases h with h | h
            · exact h hg.abs
            · exact h.2 (hg.preAbs h.1)
          · rcases h with h | h
            · exact hg.dots.1 ((hasDots_iff _).1 h)
            · exact hg.dots.2 ((hasDots_iff _).1 h)
        · intro h
          by_cases c1 : D.length ≥ pathMax ∨ R.length ≥ pathMax ∨ pre.length ≥ pathMax
          · exact .inl c1
          · by_cases c2 : D.head? ≠ some '/' ∨ q.method ≠ .tmpfs ∧ pre.head? ≠ some '/'
            · exact .inr (.inl c2)
            · by_cases c3 : hasDots D = true ∨ hasDots pre = true
              · exact .inr (.inr c3)
              · refine absurd ⟨?_, ?_, ?_, ?_, ?_⟩ h
                · unfold pathMax at c1; omega
                · exact fun e => h0 (.inr e)
                · exact Classical.byContradiction fun x => c2 (.inl x)
                · exact fun hq => Classical.byContradiction fun x => c2 (.inr ⟨hq, x⟩)
                · exact ⟨fun x => c3 (.inl ((hasDots_iff _).2 x)), fun x => c3 (.inr ((hasDots_iff _).2 x))⟩
      have hgood : ∀ dir' rdir', Spec.Stripped dir dir' → Spec.Stripped rdir rdir' → dir' = D ∧ rdir' = R :=
        fun _ _ h1 h2 => ⟨stripped_unique h1 hsd, stripped_unique h2 hsr⟩
      by_cases hg : GoodPaths q.method D R pre
      · have n1 : ¬ (D.length ≥ pathMax ∨ R.length ≥ pathMax ∨ pre.length ≥ pathMax) := fun h => cond.1 (.inl h) hg
        have n2 : ¬ (D.head? ≠ some '/' ∨ q.method ≠ .tmpfs ∧ pre.head? ≠ some '/') := fun h => cond.1 (.inr (.inl h)) hg
        have n3 : ¬ (hasDots D = true ∨ hasDots pre = true) := fun h => cond.1 (.inr (.inr h)) hg
        rw [if_neg n1, if_neg n2, if_neg n3]
        refine ⟨?_, fun _ _ _ _ _ _ _ => ⟨_, rfl⟩, fun _ h => absurd ⟨_, rfl⟩ h⟩
        intro p hp
        cases hp
        refine ⟨q, rfl, ⟨hsd, hsr, rfl, ?_, ?_, ?_⟩, hg⟩
        · cases rest.head? with
          | none => simp [parseUids]
          | some l => simp [parseUids]
        · intro uid
          cases rest.head? with
          | none => simp [parseUids]
          | some l => rw [parseUids_eq]; simp
        · rfl
      · refine ⟨?_, ?_, ?_⟩
        · intro p hp
          split at hp
          · cases hp
          · rename_i c1
            split at hp
            · cases hp
            · rename_i c2
              split at hp
              · cases hp
              · rename_i c3
                rcases cond.2 hg with c | c | c
                · exact absurd c c1
                · exact absurd c c2
                · exact absurd c c3
        · intro q' dir' rdir' hq h1 h2 hg'
          cases hq
          obtain ⟨rfl, rfl⟩ := hgood _ _ h1 h2
          exact absurd hg' hg
        · intro _ _
          rcases cond.2 hg with c | c | c
          · rw [if_pos c]
          · rw [if_pos c]; split <;> rfl
          · rw [if_pos c]; split
            · rfl
            · split <;> rfl

/-- the hypotheses are met, and the entry is as expected -/
example : processLine ⟨fun n => if n = "adm".toList then some (3, 4, "/".toList) else none, fun _ => none⟩
    ⟨"ann".toList, "/home/ann".toList, "bob".toList, "/home/bob".toList⟩ "  $HOME/tmp/\t\"/tmp inst/\" user:create=0700 ~root,adm # text\n".toList =
    .entry ⟨"/home/ann/tmp".toList, "/home/bob/tmp".toList, "/tmp inst/".toList, .user, ⟨true, true, false, false, false, false⟩, [3], none, none,
      ⟨false, false, false⟩, unset, unset, 0o700⟩ := by decide +kernel

example : Spec.Fields "  $HOME/tmp user".toList ["$HOME/tmp".toList, "user".toList] := by
  refine .more (b := "  ".toList) (f := "$HOME/tmp".toList) (v := "$HOME/tmp".toList) (by intro c h; revert c; decide) ?_ (by decide) (.last (b := []) (f := "user".toList) (by intro c h; cases h) ?_)
  all_goals
    repeat' first
      | exact .one (.plain _ (by decide) (by decide) (by decide))
      | refine .more (s := [_]) (v := [_]) (.plain _ (by decide) (by decide) (by decide)) ?_

/-! ### create -/

/-- C111 (create=mode,owner,group): the mode is a number in the notation of C, the owner and the group must be known. -/
theorem C111_create {e : Env} {mode owner group : Str} {v uid gid ugid : Nat} {home : Str} (hm : Numeral mode v) (hv : v < 2 ^ 32)
    (h1 : ',' ∉ mode) (h2 : ',' ∉ owner) (ho : owner ≠ []) (hg : group ≠ []) (hu : e.user owner = some (uid, ugid, home)) (hgr : e.group group = some gid) :
    createParams e ('=' :: mode) = some (v, unset, unset) ∧
    createParams e ('=' :: mode ++ ',' :: owner) = some (v, uid, ugid) ∧
    createParams e ('=' :: mode ++ ',' :: owner ++ ',' :: group) = some (v, uid, gid) := by
  have cut0 : ∀ {s : Str}, ',' ∉ s → cut s = (s, none) := by
    intro s hs
    unfold cut
    have h3 : ∀ c ∈ s, (decide (c ≠ ',')) = true := fun c hc => by simp; rintro rfl; exact hs hc
    have h4 := List.takeWhile_append_of_pos (l₂ := []) h3
    have h5 := List.dropWhile_append_of_pos (l₂ := []) h3
    rw [List.append_nil, List.takeWhile_nil, List.append_nil] at h4
    rw [List.append_nil, List.dropWhile_nil] at h5
    rw [h4, h5]
  have cut1 : ∀ {s r : Str}, ',' ∉ s → cut (s ++ ',' :: r) = (s, some r) := by
    intro s r hs
    unfold cut
    rw [List.takeWhile_append_of_pos (fun c hc => by simp; rintro rfl; exact hs hc), List.dropWhile_append_of_pos (fun c hc => by simp; rintro rfl; exact hs hc)]
    rw [List.takeWhile_cons, if_neg (by simp), List.dropWhile_cons, if_neg (by simp), List.append_nil]
  have hmode : modeOf mode = v := by
    obtain ⟨h3, h4⟩ := (strtoInt_zero mode v).2 hm
    unfold modeOf
    rw [if_neg h4, h3]
    dsimp only
    rw [if_pos (by rw [Int.natAbs_natCast]; omega)]
    omega
  refine ⟨?_, ?_, ?_⟩
  · unfold createParams
    rw [if_neg (by simp), List.tail_cons, cut0 h1]
    dsimp only
    rw [hmode]
  · unfold createParams
    rw [if_neg (by simp), List.cons_append, List.tail_cons, cut1 h1]
    dsimp only
    rw [cut0 h2]
    dsimp only
    rw [ownerOf, if_neg ho, hu, hmode]
    rfl
  · unfold createParams
    rw [if_neg (by simp), List.append_assoc, List.cons_append, List.tail_cons, List.cons_append, cut1 h1]
    dsimp only
    rw [cut1 h2]
    dsimp only
    rw [ownerOf, if_neg ho, hu, hmode]
    dsimp only [Option.map, Option.getD]
    cases group with
    | nil => exact absurd rfl hg
    | cons c g => dsimp only; rw [hgr]; rfl

/-- An unknown owner or group is an error. -/
theorem C111_create_unknown {e : Env} {mode owner : Str} (h1 : ',' ∉ mode) (h2 : ',' ∉ owner) (ho : owner ≠ []) (hu : e.user owner = none) (r : Str) :
    createParams e ('=' :: mode ++ ',' :: owner ++ ',' :: r) = none := by
  have cut1 : ∀ {s r : Str}, ',' ∉ s → cut (s ++ ',' :: r) = (s, some r) := by
    intro s r hs
    unfold cut
    rw [List.takeWhile_append_of_pos (fun c hc => by simp; rintro rfl; exact hs hc), List.dropWhile_append_of_pos (fun c hc => by simp; rintro rfl; exact hs hc)]
    rw [List.takeWhile_cons, if_neg (by simp), List.dropWhile_cons, if_neg (by simp), List.append_nil]
  unfold createParams
  rw [if_neg (by simp), List.append_assoc, List.cons_append, List.tail_cons, List.cons_append, cut1 h1]
  dsimp only
  rw [cut1 h2]
  dsimp only
  rw [ownerOf, if_neg ho, hu]
  rfl

/-- A mode that is no number is taken for 0, and one without a leading 0 is decimal: "755" is 01363. -/
theorem C111_mode_counterexample : modeOf "rwxr-xr-x".toList = 0 ∧ modeOf "755".toList = 0o1363 := by
  constructor <;> decide +kernel

/-! ### the files -/

/-- what a line contributes -/
def entryOf (e : Env) (w : Who) (l : Str) : Option Poly := match processLine e w l with | .entry p => some p | _ => none

theorem lines_eq {e : Env} {w : Who} {ignore : Bool} : ∀ (ls : List Str) (acc : List Poly), (∀ l ∈ ls, processLine e w l ≠ .fault) →
    processLines e w ignore acc ls = some (if ignore = false ∧ ∃ l ∈ ls, processLine e w l = .bad then none else some (acc ++ ls.filterMap (entryOf e w)))
  | [], acc, _ => by simp [processLines]
  | l :: ls, acc, h => by
    have ih := fun acc => lines_eq (ignore := ignore) ls acc (fun l hl => h l (List.mem_cons_of_mem _ hl))
    have hl := h l List.mem_cons_self
    rw [processLines]
    cases hp : processLine e w l with
    | fault => exact absurd hp hl
    | none =>
      dsimp only
      rw [ih]
      simp [entryOf, hp]
    | bad =>
      dsimp only
      cases ignore with
      | true => rw [if_pos rfl, ih]; simp [entryOf, hp]
      | false => rw [if_neg (by simp)]; simp [hp]
    | entry p =>
      dsimp only
      rw [ih]
      simp [entryOf, hp]

/-- C111 (files): the entries are those of the lines, in their order.  One bad line makes the session fail, unless ignore_config_error is given; then it is passed over. -/
theorem C111_file {e : Env} {w : Who} (ls : List Str) (h : ∀ l ∈ ls, processLine e w l ≠ .fault) :
    processLines e w true [] ls = some (some (ls.filterMap (entryOf e w))) ∧
    ((∃ l ∈ ls, processLine e w l = .bad) → processLines e w false [] ls = some none) ∧
    ((¬ ∃ l ∈ ls, processLine e w l = .bad) → processLines e w false [] ls = some (some (ls.filterMap (entryOf e w)))) := by
  refine ⟨?_, ?_, ?_⟩
  · rw [lines_eq ls [] h]; simp
  · intro hb; rw [lines_eq ls [] h, if_pos ⟨rfl, hb⟩]
  · intro hb; rw [lines_eq ls [] h, if_neg (fun x => hb x.2)]; rfl

/-- C111 (files): files that cannot be read make the session fail; else the lines of all files count, in the order of the files. -/
theorem C111_all_files {e : Env} {w : Who} {file : Str → Option (List Str)} : ∀ (fs : List Str) (acc : List Poly) (text : Str → List Str),
    (∀ f ∈ fs, file f = some (text f)) → (∀ f ∈ fs, ∀ l ∈ text f, processLine e w l ≠ .fault) →
    parseFiles e w true file acc fs = some (some (acc ++ (fs.flatMap text).filterMap (entryOf e w)))
  | [], acc, text, _, _ => by simp [parseFiles]
  | f :: fs, acc, text, h1, h2 => by
    rw [parseFiles, h1 f List.mem_cons_self]
    dsimp only
    rw [lines_eq _ _ (h2 f List.mem_cons_self)]
    rw [if_neg (by simp)]
    dsimp only
    rw [C111_all_files fs _ text (fun f hf => h1 f (List.mem_cons_of_mem _ hf)) (fun f hf => h2 f (List.mem_cons_of_mem _ hf))]
    simp

/-- C111 (files): a file that cannot be read makes the session fail, with ignore_config_error too. -/
theorem C111_unreadable {e : Env} {w : Who} {ignore : Bool} {file : Str → Option (List Str)} : ∀ (fs : List Str) (acc : List Poly),
    (∀ f ∈ fs, ∀ ls, file f = some ls → ∀ l ∈ ls, processLine e w l ≠ .fault) → (∃ f ∈ fs, file f = none) → parseFiles e w ignore file acc fs = some none
  | [], _, _, h => by obtain ⟨f, hf, _⟩ := h; cases hf
  | f :: fs, acc, h1, h2 => by
    rw [parseFiles]
    cases hf : file f with
    | none => rfl
    | some ls =>
      dsimp only
      rw [lines_eq _ _ (h1 f List.mem_cons_self ls hf)]
      split
      · next h =>
        split at h
        · cases h
        · cases h
      · rfl
      · next acc' h =>
        refine C111_unreadable fs acc' (fun g hg => h1 g (List.mem_cons_of_mem _ hg)) ?_
        obtain ⟨g, hg, he⟩ := h2
        rcases List.mem_cons.1 hg with rfl | hg
        · rw [hf] at he; cases he
        · exact ⟨g, hg, he⟩

theorem strLe_total : ∀ a b : Str, (strLe a b || strLe b a) = true
  | [], _ => by simp [strLe]
  | _ :: _, [] => by simp [strLe]
  | a :: r, b :: s => by
    rw [strLe, strLe]
    by_cases h : a = b
    · rw [if_pos h, if_pos h.symm]; exact strLe_total r s
    · rw [if_neg h, if_neg (Ne.symm h)]
      have : a.toNat ≠ b.toNat := fun e => h (Char.ext (UInt32.toNat_inj.1 e))
      simp only [Bool.or_eq_true, decide_eq_true_eq]; omega

theorem strLe_trans : ∀ a b c : Str, strLe a b = true → strLe b c = true → strLe a c = true
  | [], _, _, _, _ => rfl
  | _ :: _, [], _, h, _ => by cases h
  | _ :: _, _ :: _, [], _, h => by cases h
  | a :: r, b :: s, c :: t, h1, h2 => by
    rw [strLe] at h1 h2 ⊢
    by_cases hab : a = b
    · subst hab
      rw [if_pos rfl] at h1
      by_cases hbc : a = c
      · subst hbc; rw [if_pos rfl] at h2 ⊢; exact strLe_trans r s t h1 h2
      · rw [if_neg hbc] at h2 ⊢; exact h2
    · rw [if_neg hab, decide_eq_true_eq] at h1
      by_cases hbc : b = c
      · subst hbc; rw [if_neg hab, decide_eq_true_eq]; exact h1
      · rw [if_neg hbc, decide_eq_true_eq] at h2
        have : a ≠ c := by rintro rfl; omega
        rw [if_neg this, decide_eq_true_eq]; omega

/-- C111 (drop-in files): those of the administrator and those of the vendor which have no file of the same name among them, each once, sorted by name. -/
theorem C111_drop_ins (etc vendor : List Str) :
    (readDir etc vendor).Pairwise (fun a b => strLe (baseName a) (baseName b) = true) ∧
    (readDir etc vendor).Perm (etc ++ vendor.filter (fun v => ∀ k ∈ etc, baseName k ≠ baseName v)) := by
  unfold readDir
  refine ⟨List.pairwise_mergeSort (le := fun a b => strLe (baseName a) (baseName b)) (fun a b c => strLe_trans _ _ _) (fun a b => strLe_total _ _) _, ?_⟩
  refine (List.mergeSort_perm _ _).trans ?_
  rw [show (vendor.filter fun v => decide (¬ (etc.any fun k => decide (baseName k = baseName v)) = true)) =
    vendor.filter (fun v => decide (∀ k ∈ etc, baseName k ≠ baseName v)) from List.filter_congr (fun v _ => by simp)]

example : readDir ["/etc/security/namespace.d/b.conf".toList] ["/usr/namespace.d/b.conf".toList, "/usr/namespace.d/a.conf".toList] =
    ["/usr/namespace.d/a.conf".toList, "/etc/security/namespace.d/b.conf".toList] := by
  simp [readDir, baseName, strLe, List.mergeSort, List.MergeSort.Internal.splitInTwo, List.merge]

end Pam.Namespace
