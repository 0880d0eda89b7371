import Verif.Config.Control
import Verif.Config.ControlSpec
/-
The control parser accepts exactly the documented grammar.
-/
namespace Pam.Config
open Spec

theorem dropWhile_all_append {p : Char → Bool} (w s : List Char) (hw : ∀ c ∈ w, p c = true)
    (hs : ∀ c ∈ s.head?, p c = false) : (w ++ s).dropWhile p = s := by
  induction w with
  | nil =>
    cases s with
    | nil => rfl
    | cons c t => simp [List.dropWhile, hs c (by simp)]
  | cons c t ih =>
    simp [hw c (by simp)]
    exact ih (fun c hc => hw c (by simp [hc]))

theorem matchTok_some (ns : List (List Char)) (s : List Char) (i : Nat) (r : List Char)
    (h : matchTok ns s = some (i, r)) : ∃ n, ns[i]? = some n ∧ s = n ++ r := by
  induction ns generalizing i r with
  | nil => simp [matchTok] at h
  | cons n ns ih =>
    rw [matchTok] at h
    split at h
    · next hp =>
      cases h
      obtain ⟨t, ht⟩ := List.isPrefixOf_iff_prefix.1 hp
      exact ⟨n, rfl, by simp [← ht]⟩
    · rw [Option.map_eq_some_iff] at h
      obtain ⟨⟨j, r'⟩, h1, h2⟩ := h
      cases h2
      obtain ⟨m, h3, h4⟩ := ih j r' h1
      exact ⟨m, by simpa using h3, h4⟩

/-- in a list of names none of which is a prefix of another, the scan finds the right one -/
theorem matchTok_of_prefix (ns : List (List Char))
    (hpf : ns.Pairwise (fun a b => ¬ a <+: b ∧ ¬ b <+: a)) (i : Nat) (n r : List Char)
    (h : ns[i]? = some n) : matchTok ns (n ++ r) = some (i, r) := by
  induction ns generalizing i with
  | nil => simp at h
  | cons m ns ih =>
    rw [matchTok]
    cases i with
    | zero =>
      simp at h; subst h
      rw [if_pos (List.isPrefixOf_iff_prefix.2 ⟨r, rfl⟩)]; simp
    | succ i =>
      simp at h
      rw [List.pairwise_cons] at hpf
      have hm := hpf.1 n (List.mem_of_getElem? h)
      rw [if_neg]
      · rw [ih hpf.2 i h]; rfl
      · intro hp
        have hp := List.isPrefixOf_iff_prefix.1 hp
        rcases List.prefix_or_prefix_of_prefix hp (List.prefix_append n r) with h1 | h1
        · exact hm.1 h1
        · exact hm.2 h1

theorem returns_pf : tokenReturns.Pairwise (fun a b => ¬ a <+: b ∧ ¬ b <+: a) := by decide +kernel
theorem actions_pf : tokenActions.Pairwise (fun a b => ¬ a <+: b ∧ ¬ b <+: a) := by decide +kernel

/-- table index of a key -/
def keyIndex : Key → Nat
  | .code c => c
  | .dflt => 32

theorem tokenReturns_eq : tokenReturns = (codeNames.map String.toList) ++ ["default".toList] := by
  decide +kernel

theorem keyText_iff (key : Key) (k : List Char) (hk : KeyText key k) : tokenReturns[keyIndex key]? = some k := by
  rw [tokenReturns_eq]
  cases hk with
  | code c n h =>
    have : c < codeNames.length := (List.getElem?_eq_some_iff.1 h).1
    simp only [keyIndex]
    rw [List.getElem?_append_left (by simpa using this), List.getElem?_map, h]; rfl
  | dflt => rfl

theorem keyText_of_index (i : Nat) (n : List Char) (h : tokenReturns[i]? = some n) :
    ∃ key, keyIndex key = i ∧ KeyText key n ∧ (key = .dflt ↔ i = 32) := by
  rw [tokenReturns_eq, List.getElem?_append] at h
  split at h
  · next hi =>
    rw [List.getElem?_map, Option.map_eq_some_iff] at h
    obtain ⟨m, h1, rfl⟩ := h
    have : codeNames.length = 32 := rfl
    have hi' : i < 32 := by simpa [this] using hi
    exact ⟨.code i, rfl, .code i m h1, by simp; omega⟩
  · next hi =>
    have : (codeNames.map String.toList).length = 32 := rfl
    rw [this] at h hi
    have hi2 : i = 32 := by
      by_cases hh : i - 32 = 0
      · omega
      · rw [List.getElem?_eq_none (by simp; omega)] at h; cases h
    subst hi2
    simp at h
    subst h
    exact ⟨.dflt, rfl, .dflt, by simp⟩

theorem keyText_head (key : Key) (k : List Char) (hk : KeyText key k) :
    ∃ c t, k = c :: t ∧ isSpace c = false := by
  have hm := List.mem_of_getElem? (keyText_iff key k hk)
  revert hm
  have : ∀ k ∈ tokenReturns, ∃ c t, k = c :: t ∧ isSpace c = false := by
    intro k hk
    have h1 := tokenReturns_ne k hk
    have h2 : ∀ k ∈ tokenReturns, ∀ c ∈ k.head?, isSpace c = false := by decide +kernel
    have := h2 k hk
    cases k with
    | nil => exact absurd rfl h1
    | cons c t => exact ⟨c, t, rfl, this c (by simp)⟩
  exact this k

theorem digit_le (c : Char) (h : isDigit c = true) : c.toNat - '0'.toNat ≤ 9 := by
  simp only [isDigit, decide_eq_true_eq] at h
  have h0 : '0'.toNat = 48 := rfl
  have h9 : '9'.toNat = 57 := rfl
  omega

theorem foldl_dec_ge (ds : List Char) (n : Nat) :
    n ≤ ds.foldl (fun n d => n * 10 + (d.toNat - '0'.toNat)) n := by
  induction ds generalizing n with
  | nil => simp
  | cons d ds ih => simp only [List.foldl_cons]; exact Nat.le_trans (by omega) (ih _)

/-- the number loop computes the decimal value, with exact overflow detection -/
theorem parseNum_of (ds : List Char) (acc : Nat) (rest : List Char) (hd : ∀ d ∈ ds, isDigit d = true)
    (hend : ∀ c ∈ rest.head?, isDigit c = false)
    (hmax : ds.foldl (fun n d => n * 10 + (d.toNat - '0'.toNat)) acc ≤ INT_MAX) :
    parseNum acc (ds ++ rest) = some (ds.foldl (fun n d => n * 10 + (d.toNat - '0'.toNat)) acc, rest) := by
  induction ds generalizing acc with
  | nil =>
    cases rest with
    | nil => rfl
    | cons c t => simp [parseNum, hend c (by simp)]
  | cons d ds ih =>
    simp only [List.cons_append, List.foldl_cons] at *
    rw [parseNum, if_pos (hd d (by simp))]
    have h1 := foldl_dec_ge ds (acc * 10 + (d.toNat - '0'.toNat))
    have h9 := digit_le d (hd d (by simp))
    rw [if_neg (by omega), if_neg (by omega)]
    exact ih _ (fun d hd' => hd d (by simp [hd'])) hmax

theorem parseNum_some (acc : Nat) (s : List Char) (n : Nat) (r : List Char) (hacc : acc ≤ INT_MAX)
    (h : parseNum acc s = some (n, r)) : ∃ ds, s = ds ++ r ∧ (∀ d ∈ ds, isDigit d = true) ∧
      (∀ c ∈ r.head?, isDigit c = false) ∧
      n = ds.foldl (fun n d => n * 10 + (d.toNat - '0'.toNat)) acc ∧ n ≤ INT_MAX := by
  fun_induction parseNum acc s with
  | case1 => cases h; exact ⟨[], rfl, by simp, by simp, rfl, hacc⟩
  | case2 => cases h
  | case3 => cases h
  | case4 acc c t hc h1 h2 ih =>
    have h9 := digit_le c hc
    simp only [INT_MAX] at h1 h2 ⊢
    obtain ⟨ds, e1, e2, e3, e4, e5⟩ := ih (by simp only [INT_MAX]; omega) h
    exact ⟨c :: ds, by simp [e1], by simpa [hc] using e2, e3, by simpa using e4, e5⟩
  | case5 acc c t hc => cases h; exact ⟨[], rfl, by simp, by simpa using hc, rfl, hacc⟩

theorem actions_not_digit : ∀ n ∈ tokenActions, ∀ c ∈ n.head?, isDigit c = false := by decide +kernel

theorem parseAction_of (rest : List Char) (a : Int) (t : List Char) (h : ActionText rest a t) :
    parseAction (t ++ rest) = some (a, rest) := by
  have word : ∀ (i : Nat) (n : List Char), tokenActions[i]? = some n → parseAction (n ++ rest) = some (-(i : Int), rest) := by
    intro i n hn
    unfold parseAction
    rw [matchTok_of_prefix _ actions_pf i n rest hn]
  cases h with
  | ignore => exact word 0 _ rfl
  | ok => exact word 1 _ rfl
  | done => exact word 2 _ rfl
  | bad => exact word 3 _ rfl
  | die => exact word 4 _ rfl
  | reset => exact word 5 _ rfl
  | jump _ hne hd hend hpos hmax =>
    cases hm : matchTok tokenActions (t ++ rest) with
    | some p =>
      exfalso
      obtain ⟨i, r⟩ := p
      obtain ⟨n, h1, h2⟩ := matchTok_some _ _ _ _ hm
      have hmem := List.mem_of_getElem? h1
      have h3 := actions_not_digit n hmem
      have h4 := tokenActions_ne n hmem
      cases t with
      | nil => exact hne rfl
      | cons d ds =>
        cases n with
        | nil => exact h4 rfl
        | cons e es =>
          simp at h2
          have := h3 e (by simp)
          rw [← h2.1, hd d (by simp)] at this
          cases this
    | none =>
      unfold parseAction
      rw [hm]
      have hn := parseNum_of t 0 rest hd hend hmax
      cases t with
      | nil => exact absurd rfl hne
      | cons d ds =>
        simp only [List.cons_append] at hn ⊢
        rw [if_pos (hd d (by simp)), hn]
        simp only [decimal] at hpos ⊢
        rw [if_neg (by omega)]

theorem parseAction_some (s : List Char) (a : Int) (r : List Char) (h : parseAction s = some (a, r)) :
    ∃ t, s = t ++ r ∧ ActionText r a t := by
  unfold parseAction at h
  split at h
  · next i r' hm =>
    cases h
    obtain ⟨n, h1, h2⟩ := matchTok_some _ _ _ _ hm
    refine ⟨n, h2, ?_⟩
    match i, h1 with
    | 0, h1 => simp [tokenActions] at h1; subst h1; exact .ignore
    | 1, h1 => simp [tokenActions] at h1; subst h1; exact .ok
    | 2, h1 => simp [tokenActions] at h1; subst h1; exact .done
    | 3, h1 => simp [tokenActions] at h1; subst h1; exact .bad
    | 4, h1 => simp [tokenActions] at h1; subst h1; exact .die
    | 5, h1 => simp [tokenActions] at h1; subst h1; exact .reset
    | i + 6, h1 => simp [tokenActions] at h1
  · split at h
    · cases h
    · next c t hm =>
      split at h
      · next hc =>
        split at h
        · cases h
        · next n r' hn =>
          split at h
          · cases h
          · next hn0 =>
            cases h
            obtain ⟨ds, e1, e2, e3, e4, e5⟩ := parseNum_some 0 _ _ _ (by omega) hn
            refine ⟨ds, e1, ?_⟩
            rw [e4]
            refine .jump ds ?_ e2 e3 ?_ ?_
            · intro hh
              subst hh
              simp at e4; exact hn0 e4
            · show 1 ≤ ds.foldl _ 0
              rw [← e4]; omega
            · show ds.foldl _ 0 ≤ _
              rw [← e4]; exact e5
      · cases h

theorem actionText_head (rest : List Char) (a : Int) (t : List Char) (h : ActionText rest a t) :
    ∃ c t', t = c :: t' ∧ isSpace c = false := by
  cases h with
  | jump _ hne hd hend hpos hmax =>
    cases t with
    | nil => exact absurd rfl hne
    | cons d ds =>
      refine ⟨d, ds, rfl, ?_⟩
      have := hd d (by simp)
      simp only [isDigit, decide_eq_true_eq] at this
      have h0 : '0'.toNat = 48 := rfl
      have h9 : '9'.toNat = 57 := rfl
      simp only [isSpace, Bool.or_eq_false_iff, beq_eq_false_iff_ne, ne_eq]
      refine ⟨⟨⟨⟨⟨?_, ?_⟩, ?_⟩, ?_⟩, ?_⟩, ?_⟩ <;> (rintro rfl; revert this; decide)
  | ignore => exact ⟨_, _, rfl, by decide⟩
  | ok => exact ⟨_, _, rfl, by decide⟩
  | done => exact ⟨_, _, rfl, by decide⟩
  | bad => exact ⟨_, _, rfl, by decide⟩
  | die => exact ⟨_, _, rfl, by decide⟩
  | reset => exact ⟨_, _, rfl, by decide⟩

theorem parseEntry_of (k w₂ w₃ a rest : List Char) (key : Key) (act : Int) (h₂ : Blank w₂) (h₃ : Blank w₃)
    (hk : KeyText key k) (ha : ActionText rest act a) :
    parseEntry (k ++ w₂ ++ ['='] ++ w₃ ++ a ++ rest) = some ((keyIndex key, act), rest) := by
  unfold parseEntry
  have e1 := matchTok_of_prefix _ returns_pf _ k (w₂ ++ ['='] ++ w₃ ++ a ++ rest) (keyText_iff key k hk)
  simp only [List.append_assoc] at e1 ⊢
  rw [e1]
  simp only [skipSpace]
  rw [dropWhile_all_append w₂ _ h₂ (by simp; decide)]
  obtain ⟨c, t', hc, hcs⟩ := actionText_head rest act a ha
  have hd : (w₃ ++ (a ++ rest)).dropWhile isSpace = a ++ rest :=
    dropWhile_all_append w₃ _ h₃ (by simp [hc, hcs])
  simp only [List.cons_append, List.nil_append, if_true]
  rw [hd]
  have := parseAction_of rest act a ha
  rw [hc] at this ⊢
  simp only [List.cons_append] at this ⊢
  rw [this]

theorem takeWhile_blank (s : List Char) : Blank (s.takeWhile isSpace) := by
  intro c hc
  induction s with
  | nil => simp at hc
  | cons d t ih =>
    rw [List.takeWhile] at hc
    split at hc
    · simp at hc
      rcases hc with rfl | hc
      · assumption
      · exact ih hc
    · simp at hc

theorem parseEntry_some (s : List Char) (i : Nat) (a : Int) (r : List Char)
    (h : parseEntry s = some ((i, a), r)) : ∃ key k w₂ w₃ t, keyIndex key = i ∧ KeyText key k ∧ (key = .dflt ↔ i = 32) ∧
      Blank w₂ ∧ Blank w₃ ∧ ActionText r a t ∧ s = k ++ w₂ ++ ['='] ++ w₃ ++ t ++ r := by
  unfold parseEntry at h
  split at h
  · cases h
  · next ret s1 hm =>
    obtain ⟨n, g1, g2⟩ := matchTok_some _ _ _ _ hm
    obtain ⟨key, k1, k2, k3⟩ := keyText_of_index _ _ g1
    have t1 := List.takeWhile_append_dropWhile (p := isSpace) (l := s1)
    split at h
    · cases h
    · next c s2 hs2 =>
      split at h
      · next hc =>
        have t2 := List.takeWhile_append_dropWhile (p := isSpace) (l := s2)
        split at h
        · cases h
        · next d s3 hs3 =>
          split at h
          · cases h
          · next a' r' hpa =>
            cases h
            obtain ⟨t, e1, e2⟩ := parseAction_some _ _ _ hpa
            refine ⟨key, n, _, _, t, k1, k2, k3, takeWhile_blank s1, takeWhile_blank s2, e2, ?_⟩
            simp only [skipSpace] at hs2 hs3
            rw [hs2] at t1
            rw [hs3, e1] at t2
            conv => lhs; rw [g2, ← t1, ← t2, hc]
            simp only [List.append_assoc, List.cons_append, List.nil_append]
      · cases h

/-- run of the assignments of a list of entries -/
def assignAll (tbl : Nat → Int) (items : List (Key × Int)) : Nat → Int :=
  items.foldl (fun t e => assign t (keyIndex e.1) e.2) tbl

theorem parseControlLoop_of (s : List Char) (items : List (Key × Int)) (h : Control s items) (tbl : Nat → Int) :
    parseControlLoop tbl s = some (assignAll tbl items) := by
  induction h generalizing tbl with
  | nil w hw =>
    unfold parseControlLoop
    have : skipSpace w = [] := by
      have := dropWhile_all_append (p := isSpace) w [] hw (by simp)
      simpa [skipSpace] using this
    split
    · rfl
    · next hc => rw [this] at hc; cases hc
  | cons w₁ k w₂ w₃ a rest key act items h₁ h₂ h₃ hk ha hr ih =>
    obtain ⟨c, t', hc, hcs⟩ := keyText_head key k hk
    have e1 : skipSpace (w₁ ++ k ++ w₂ ++ ['='] ++ w₃ ++ a ++ rest) = k ++ w₂ ++ ['='] ++ w₃ ++ a ++ rest := by
      have := dropWhile_all_append (p := isSpace) w₁ (k ++ w₂ ++ ['='] ++ w₃ ++ a ++ rest) h₁
        (by simp [hc, hcs])
      simpa [skipSpace] using this
    have e2 := parseEntry_of k w₂ w₃ a rest key act h₂ h₃ hk ha
    unfold parseControlLoop
    split
    · next hn => rw [e1, hc] at hn; simp at hn
    · next d t hd =>
      rw [e1] at hd
      rw [hd] at e2
      split
      · next hn => rw [e2] at hn; cases hn
      · next ret a' r hn =>
        rw [e2] at hn; cases hn
        rw [ih]; rfl

theorem parseControlLoop_some (tbl : Nat → Int) (s : List Char) (t : Nat → Int)
    (h : parseControlLoop tbl s = some t) : ∃ items, Control s items := by
  fun_induction parseControlLoop tbl s with
  | case1 tbl s hs =>
    refine ⟨[], .nil s ?_⟩
    have := takeWhile_blank s
    have t1 := List.takeWhile_append_dropWhile (p := isSpace) (l := s)
    simp only [skipSpace] at hs
    rw [hs, List.append_nil] at t1
    rw [t1] at this; exact this
  | case2 => cases h
  | case3 tbl s c u hs ret a r he ih =>
    obtain ⟨items, hi⟩ := ih h
    obtain ⟨key, k, w₂, w₃, t', e1, e2, e3, e4, e5, e6, e7⟩ := parseEntry_some _ _ _ _ he
    refine ⟨(key, a) :: items, ?_⟩
    have t1 := List.takeWhile_append_dropWhile (p := isSpace) (l := s)
    simp only [skipSpace] at hs
    rw [hs, e7] at t1
    rw [← t1]
    have := Control.cons (s.takeWhile isSpace) k w₂ w₃ t' r key a items (takeWhile_blank s) e4 e5 e2 e6 hi
    simpa only [List.append_assoc] using this

theorem control_acts (s : List Char) (items : List (Key × Int)) (h : Control s items) :
    ∀ e ∈ items, e.2 ≠ ACT_UNDEF ∧ ∀ c, e.1 = .code c → c < 32 := by
  induction h with
  | nil => simp
  | cons w₁ k w₂ w₃ a rest key act items h₁ h₂ h₃ hk ha hr ih =>
    intro e he
    simp at he
    rcases he with rfl | he
    · constructor
      · cases ha <;> simp [ACT_IGNORE, ACT_OK, ACT_DONE, ACT_BAD, ACT_DIE, ACT_RESET, ACT_UNDEF]
      · intro c hc
        cases hk with
        | code c' n hn =>
          cases hc
          have := (List.getElem?_eq_some_iff.1 hn).1
          simpa [codeNames] using this
        | dflt => cases hc
    · exact ih e he

/-- `assignAll` on a table: explicit entries win (the last one), else a value present before, else
the first default -/
theorem assignAll_spec (items : List (Key × Int)) (hu : ∀ e ∈ items, e.2 ≠ ACT_UNDEF ∧ ∀ c, e.1 = .code c → c < 32)
    (tbl : Nat → Int) (c : Nat) (hc : c < 32) :
    assignAll tbl items c =
      match firstFor (.code c) items.reverse with
      | some a => a
      | none => if tbl c = ACT_UNDEF then (firstFor .dflt items).getD ACT_UNDEF else tbl c := by
  induction items generalizing tbl with
  | nil => simp [assignAll, firstFor]
  | cons e items ih =>
    obtain ⟨k, a⟩ := e
    have hu' : ∀ e ∈ items, e.2 ≠ ACT_UNDEF ∧ ∀ c, e.1 = .code c → c < 32 := fun e he => hu e (by simp [he])
    have hff : ∀ l : List (Key × Int), firstFor (.code c) (l ++ [(k, a)]) =
        match firstFor (.code c) l with
        | some b => some b
        | none => if k = .code c then some a else none := by
      intro l
      induction l with
      | nil => simp [firstFor]
      | cons e l ihl =>
        obtain ⟨k', a'⟩ := e
        simp only [List.cons_append, firstFor]
        split
        · rfl
        · exact ihl
    have hstep : assignAll tbl ((k, a) :: items) = assignAll (assign tbl (keyIndex k) a) items := rfl
    rw [hstep, ih hu' _, List.reverse_cons, hff]
    have ha : a ≠ ACT_UNDEF := (hu (k, a) (by simp)).1
    cases hrev : firstFor (.code c) items.reverse with
    | some b => rfl
    | none =>
      simp only
      cases k with
      | code c' =>
        have hc' : c' < 32 := (hu (.code c', a) (by simp)).2 c' rfl
        simp only [keyIndex, assign, PAM_RETURN_VALUES]
        have hne : c' ≠ 32 := by omega
        by_cases hcc : c' = c
        · subst hcc; simp [ha, hne]
        · simp [firstFor, hcc, Ne.symm hcc, hne]
      | dflt =>
        simp only [keyIndex, assign, PAM_RETURN_VALUES, firstFor]
        by_cases ht : tbl c = ACT_UNDEF
        · simp [setDefault, hc, ht, ha]
        · simp [setDefault, hc, ht]

theorem bracketActions_of (s : List Char) (items : List (Key × Int)) (h : Control s items) (c : Nat) (hc : c < 32) :
    bracketActions s c = meaning items c := by
  unfold bracketActions parseControl
  rw [parseControlLoop_of s items h]
  have hu := control_acts s items h
  simp only [setDefault, PAM_RETURN_VALUES, if_pos hc]
  rw [assignAll_spec items hu _ c hc]
  unfold meaning
  have hff : ∀ (key : Key) (l : List (Key × Int)) (a : Int), (∀ e ∈ l, e.2 ≠ ACT_UNDEF) →
      firstFor key l = some a → a ≠ ACT_UNDEF := by
    intro key l
    induction l with
    | nil => intro a _ h; simp [firstFor] at h
    | cons e l ih =>
      intro a hl h
      obtain ⟨k, b⟩ := e
      rw [firstFor] at h
      split at h
      · cases h; exact hl (k, a) (by simp)
      · exact ih a (fun e he => hl e (by simp [he])) h
  cases hr : firstFor (.code c) items.reverse with
  | some a =>
    have := hff _ _ a (fun e he => (hu e (by simpa using he)).1) hr
    simp [this]
  | none =>
    cases hd : firstFor .dflt items with
    | some a =>
      have := hff _ _ a (fun e he => (hu e he).1) hd
      simp [this]
    | none => simp

theorem bracketActions_error (s : List Char) (h : ¬ ∃ items, Control s items) (c : Nat) (hc : c < 32) :
    bracketActions s c = ACT_BAD := by
  unfold bracketActions parseControl
  cases hp : parseControlLoop (fun _ => ACT_UNDEF) s with
  | some t => exact absurd (parseControlLoop_some _ _ _ hp) h
  | none => simp [setDefault, hc]

theorem parseControlLoop_none_step (tbl : Nat → Int) (s t : List Char) (hs : skipSpace s = t)
    (h : parseEntry t = none) (hne : t ≠ [] := by decide) : parseControlLoop tbl s = none := by
  rw [parseControlLoop]
  split
  · next hs' => rw [hs'] at hs; exact absurd hs.symm hne
  · next c u hs' =>
    rw [hs'] at hs; subst hs
    split
    · rfl
    · next h' => rw [h] at h'; cases h'

theorem parseControlLoop_some_step (tbl : Nat → Int) (s t r : List Char) (p : Nat × Int) (hs : skipSpace s = t)
    (h : parseEntry t = some (p, r)) (hne : t ≠ [] := by decide) :
    parseControlLoop tbl s = parseControlLoop (assign tbl p.1 p.2) r := by
  rw [parseControlLoop]
  split
  · next hs' => rw [hs'] at hs; exact absurd hs.symm hne
  · next c u hs' =>
    rw [hs'] at hs; subst hs
    split
    · next h' => rw [h] at h'; cases h'
    · next h' => rw [h] at h'; cases h'; rfl

end Pam.Config
