import Verif.Access.NetProps
/-
C58 and C59: which words stand for a user and which for an origin.
-/
namespace Pam.Access
open Pam Pam.Access.Spec

/-! ## C58: words for users -/

theorem dropWhile_at {g : Str} (h : '@' ∉ g) : g.dropWhile (· == '@') = g := by
  cases g with
  | nil => rfl
  | cons c g => rw [List.dropWhile_cons_of_neg]; simp only [beq_iff_eq]; rintro rfl; simp at h

theorem dropWhile_ats {ats g : Str} (ha : ∀ c ∈ ats, c = '@') (h : '@' ∉ g) :
    (ats ++ g).dropWhile (· == '@') = g ∧ (ats ++ g).takeWhile (· == '@') = ats := by
  have hg : ∀ c, g.head? = some c → (c == '@') = false := by
    intro c hc
    simp only [beq_eq_false_iff_ne]
    rintro rfl
    exact h (List.mem_of_head? hc)
  exact ⟨dropWhile_gap (fun c hc => by simpa using ha c hc) hg, takeWhile_gap (fun c hc => by simpa using ha c hc) hg⟩

theorem split_none {ats g : Str} (ha : ∀ c ∈ ats, c = '@') (h : '@' ∉ g) : splitToken (ats ++ g) = none := by
  unfold splitToken
  simp only [(dropWhile_ats ha h).1]
  rw [if_neg h]

/-- words that are not split -/
theorem user_plain (sys : Sys) (item : Item) {ats g : Str} (ha : ∀ c ∈ ats, c = '@') (h : '@' ∉ g) :
    userMatch sys item (ats ++ g) = userPlain sys item (ats ++ g) := by
  unfold userMatch userPlain
  rw [split_none ha h]
  by_cases hg : isGroupToken (ats ++ g) = true
  · rw [if_pos hg, if_pos hg]
  · rw [if_neg hg, if_neg hg]

/-- C58: `(name)` is the group of that name, or, if the name is a number, that group. -/
theorem C58_group (sys : Sys) (item : Item) (g : Str) :
    UserWord sys item ('(' :: g ++ [')']) ↔ g ≠ [] ∧ (sys.inGroup item.user g = true ∨
      ((∀ c ∈ g, isDigit c = true) ∧ valueOf 10 g < 2 ^ 32 ∧ sys.inGid item.user (valueOf 10 g) = true)) := by
  have hg : isGroupToken ('(' :: g ++ [')']) = true := by
    unfold isGroupToken
    rw [decide_eq_true_eq]
    exact ⟨rfl, by rw [List.getLast?_append]; rfl⟩
  unfold UserWord userMatch
  rw [if_pos hg]
  unfold groupMatch
  have hd : (('(' :: g ++ [')']).drop 1).dropLast = g := by
    show (g ++ [')']).dropLast = g
    rw [List.dropLast_concat]
  simp only [hd]
  cases g with
  | nil => simp
  | cons c g =>
    rw [if_neg (by simp)]
    cases h1 : sys.inGroup item.user (c :: g) with
    | true => simp
    | false =>
      simp only [Bool.false_eq_true, if_false, false_or]
      by_cases h2 : allDigits (c :: g) = true
      · have h2' : ∀ x ∈ c :: g, isDigit x = true := by
          unfold allDigits at h2
          rwa [List.all_eq_true] at h2
        rw [if_neg (by simp [h2])]
        by_cases h3 : 2 ^ 32 ≤ valueOf 10 (c :: g)
        · rw [if_pos h3]
          exact iff_of_false (by simp) (fun h => Nat.not_lt.mpr h3 h.2.2.1)
        · rw [if_neg h3]
          exact ⟨fun h => ⟨by simp, h2', by omega, h⟩, fun h => h.2.2.2⟩
      · rw [if_pos (by simpa using h2)]
        refine iff_of_false (by simp) (fun h => h2 ?_)
        unfold allDigits
        rw [List.all_eq_true]
        exact h.2.1

/-- C58: `@name` is the netgroup, `@@name` the netgroup together with the name of this host. -/
theorem C58_netgroup (sys : Sys) (item : Item) (g : Str) (h : '@' ∉ g) :
    (UserWord sys item ('@' :: g) ↔ sys.innetgr g none (some item.user) = true) ∧
    (∀ ats, (∀ c ∈ ats, c = '@') → (UserWord sys item ("@@".toList ++ ats ++ g) ↔
      ∃ host, item.hostname = some host ∧ sys.innetgr (ats ++ g) (some host) (some item.user) = true)) := by
  have key : ∀ w : Str, isGroupToken ('@' :: w) = false := by
    intro w
    unfold isGroupToken
    rw [decide_eq_false_iff_not]
    rintro ⟨h, -⟩
    cases h
  constructor
  · unfold UserWord
    rw [show '@' :: g = ['@'] ++ g from rfl, user_plain sys item (by simp) h]
    unfold userPlain
    rw [if_neg (by rw [show ['@'] ++ g = '@' :: g from rfl, key]; simp), if_pos (by rfl)]
    rw [if_neg]
    · rfl
    · intro e
      exact h (List.mem_of_head? e)
  · intro ats ha
    unfold UserWord
    rw [user_plain sys item (ats := "@@".toList ++ ats) _ h]
    · unfold userPlain
      rw [show "@@".toList ++ ats ++ g = '@' :: '@' :: (ats ++ g) from by simp]
      rw [if_neg (by rw [key]; simp), if_pos (by rfl), if_pos (by rfl)]
      cases item.hostname with
      | none => simp
      | some host => simp
    · intro c hc
      rcases List.mem_append.mp hc with hc | hc
      · simpa using hc
      · exact ha c hc

/-- C58: `user@host` is the user on this host: the part before the sign stands for the user and the part behind it for the
name of this host. -/
theorem C58_user_at_host (sys : Sys) (item : Item) (ats u h : Str) (ha : ∀ c ∈ ats, c = '@') (hu : '@' ∉ u) (hne : u ≠ [])
    (hp : ¬ ((ats ++ u).head? = some '(' ∧ (ats ++ u ++ '@' :: h).getLast? = some ')')) :
    UserWord sys item (ats ++ u ++ '@' :: h) ↔
      ∃ host, item.hostname = some host ∧ UserWord sys item (ats ++ u) ∧ OriginWord sys { item with origin := host, remote := true } h := by
  have hg : isGroupToken (ats ++ u ++ '@' :: h) = false := by
    unfold isGroupToken
    rw [decide_eq_false_iff_not]
    rintro ⟨h1, h2⟩
    refine hp ⟨?_, h2⟩
    obtain ⟨x, xs, hx⟩ := List.exists_cons_of_ne_nil (show ats ++ u ≠ [] by simp [hne])
    rw [hx] at h1 ⊢
    exact h1
  obtain ⟨x, xs, hx⟩ := List.exists_cons_of_ne_nil hne
  have hx' : (x == '@') = false := by
    rw [beq_eq_false_iff_ne]
    rintro rfl
    exact hu (by simp [hx])
  have hd : (ats ++ u ++ '@' :: h).dropWhile (· == '@') = u ++ '@' :: h := by
    rw [List.append_assoc]
    exact dropWhile_gap (fun c hc => by simpa using ha c hc) (fun c hc => by rw [hx] at hc; cases hc; exact hx')
  have ht : (ats ++ u ++ '@' :: h).takeWhile (· == '@') = ats := by
    rw [List.append_assoc]
    exact takeWhile_gap (fun c hc => by simpa using ha c hc) (fun c hc => by rw [hx] at hc; cases hc; exact hx')
  have hd2 : (u ++ '@' :: h).dropWhile (· ≠ '@') = '@' :: h :=
    dropWhile_gap (fun c hc => by simp only [ne_eq, decide_not, Bool.not_eq_true', decide_eq_false_iff_not]; rintro rfl; exact hu hc)
      (fun c hc => by cases hc; simp)
  have ht2 : (u ++ '@' :: h).takeWhile (· ≠ '@') = u :=
    takeWhile_gap (fun c hc => by simp only [ne_eq, decide_not, Bool.not_eq_true', decide_eq_false_iff_not]; rintro rfl; exact hu hc)
      (fun c hc => by cases hc; simp)
  have hs : splitToken (ats ++ u ++ '@' :: h) = some (ats ++ u, h) := by
    unfold splitToken
    simp only [hd, ht]
    rw [if_pos (by simp), hd2, ht2]
    rfl
  unfold UserWord OriginWord
  rw [user_plain sys item ha hu]
  unfold userMatch
  rw [hg, hs]
  simp only [Bool.false_eq_true, if_false]
  cases item.hostname with
  | none => simp
  | some host =>
    simp only [Option.some.injEq, exists_eq_left']
    cases userPlain sys item (ats ++ u) <;> simp

theorem lower_digit {c : Char} (h : isDigit c = true) : c.toNat < 65 := by
  simp only [isDigit, decide_eq_true_eq] at h
  have : '9'.toNat = 57 := rfl
  omega

theorem ieq_digits {s : Str} : ∀ {w : Str}, (∀ c ∈ s, c.toNat < 65) → (ieq w s = true ↔ w = s) := by
  unfold ieq
  induction s with
  | nil => intro w _; cases w <;> simp
  | cons d s ih =>
    intro w h
    cases w with
    | nil => simp
    | cons c w =>
      have := ih (w := w) (fun x hx => h x (by simp [hx]))
      rw [beq_iff_eq] at this ⊢
      rw [List.map_cons, List.map_cons, List.cons.injEq, List.cons.injEq, this]
      constructor
      · rintro ⟨h1, h2⟩; exact ⟨lower_low (h d (by simp)) h1, h2⟩
      · rintro ⟨rfl, h2⟩; exact ⟨rfl, h2⟩

theorem toDigits_isDigit (n : Nat) : ∀ c ∈ Nat.toDigits 10 n, isDigit c = true := by
  intro c hc
  have := (toDigits_spec n).2.1 c hc
  unfold isDigitOf digitVal at this
  by_cases hd : isDigit c = true
  · exact hd
  · rw [if_neg hd] at this
    exfalso
    have this : _ < 10 := of_decide_eq_true this
    repeat' split at this
    all_goals omega

/-- C58: any other word is ALL, the name of the user, their user number, or, unless nodefgroup is given, a group of the user. -/
theorem C58_plain (sys : Sys) (item : Item) (w : Str) (h : '@' ∉ w) (hp : ¬ (w.head? = some '(' ∧ w.getLast? = some ')')) :
    UserWord sys item w ↔ ieq w "ALL".toList = true ∨ ieq w item.user = true ∨ w = Nat.toDigits 10 item.uid ∨
      (item.nodefgroup = false ∧ sys.inGroup item.user w = true) := by
  have hg : isGroupToken w = false := by
    unfold isGroupToken
    rw [decide_eq_false_iff_not]
    exact hp
  have ha : w.head? ≠ some '@' := fun e => h (List.mem_of_head? e)
  have hnu : nameOrUid item w = true ↔ ieq w "ALL".toList = true ∨ ieq w item.user = true ∨ w = Nat.toDigits 10 item.uid := by
    unfold nameOrUid stringMatch
    cases h1 : ieq w "ALL".toList with
    | true => simp
    | false =>
      cases h2 : ieq w item.user with
      | true => simp
      | false =>
        simp only [Bool.or_self, Bool.false_eq_true, if_false, Bool.false_or, false_or]
        by_cases h3 : allDigits w = true
        · rw [if_neg (by simp [h3])]
          exact ieq_digits (fun c hc => lower_digit (toDigits_isDigit _ c hc))
        · rw [if_pos (by simpa using h3)]
          refine iff_of_false (by simp) (fun e => h3 ?_)
          unfold allDigits
          rw [List.all_eq_true, e]
          exact toDigits_isDigit _
  unfold UserWord
  rw [← List.nil_append w, user_plain sys item (by simp) h, List.nil_append]
  unfold userPlain
  rw [hg, if_neg ha]
  simp only [Bool.false_eq_true, if_false, Bool.or_eq_true, hnu, Bool.and_eq_true, Bool.not_eq_true']
  constructor
  · rintro ((h | h | h) | h)
    · exact Or.inl h
    · exact Or.inr (Or.inl h)
    · exact Or.inr (Or.inr (Or.inl h))
    · exact Or.inr (Or.inr (Or.inr h))
  · rintro (h | h | h | h)
    · exact Or.inl (Or.inl h)
    · exact Or.inl (Or.inr (Or.inl h))
    · exact Or.inl (Or.inr (Or.inr h))
    · exact Or.inr h

theorem head_drop {p : Char → Bool} {l : Str} {x : Char} {xs : Str} (h : l.dropWhile p = x :: xs) : p x = false := by
  induction l with
  | nil => cases h
  | cons a l ih =>
    rw [List.dropWhile_cons] at h
    split at h
    · exact ih h
    · rename_i hp
      cases h
      simpa using hp

/-- C58: these are all words. -/
theorem C58_forms (w : Str) : (∃ g, w = '(' :: g ++ [')']) ∨
    (∃ ats g, w = '@' :: ats ++ g ∧ (∀ c ∈ ats, c = '@') ∧ '@' ∉ g) ∨
    (∃ ats u h, w = ats ++ u ++ '@' :: h ∧ (∀ c ∈ ats, c = '@') ∧ '@' ∉ u ∧ u ≠ [] ∧
      ¬ ((ats ++ u).head? = some '(' ∧ (ats ++ u ++ '@' :: h).getLast? = some ')')) ∨
    ('@' ∉ w ∧ ¬ (w.head? = some '(' ∧ w.getLast? = some ')')) := by
  by_cases hp : w.head? = some '(' ∧ w.getLast? = some ')'
  · left
    obtain ⟨h1, h2⟩ := hp
    cases w with
    | nil => cases h1
    | cons c t =>
      cases h1
      rcases List.eq_nil_or_concat t with rfl | ⟨g, d, rfl⟩
      · exact absurd h2 (by decide)
      · rw [List.concat_eq_append, ← List.cons_append, List.getLast?_append] at h2
        have hd : d = ')' := by simpa using h2
        exact ⟨g, by simp [hd]⟩
  · right
    refine (Classical.em ('@' ∈ w)).elim (fun hm => ?_) (fun h => Or.inr (Or.inr ⟨h, hp⟩))
    have e : w.takeWhile (· == '@') ++ w.dropWhile (· == '@') = w := List.takeWhile_append_dropWhile
    have ha : ∀ c ∈ w.takeWhile (· == '@'), c = '@' := fun c hc => by simpa using (List.all_eq_true.mp List.all_takeWhile) c hc
    generalize hA : w.takeWhile (· == '@') = A at e ha
    generalize hR : w.dropWhile (· == '@') = R at e
    by_cases hr : '@' ∈ R
    · right; left
      have e2 : R.takeWhile (· ≠ '@') ++ R.dropWhile (· ≠ '@') = R := List.takeWhile_append_dropWhile
      have hu : ∀ c ∈ R.takeWhile (· ≠ '@'), c ≠ '@' := fun c hc => by
        simpa using (List.all_eq_true.mp List.all_takeWhile) c hc
      generalize R.takeWhile (· ≠ '@') = U at e2 hu
      cases hD : R.dropWhile (· ≠ '@') with
      | nil =>
        rw [hD, List.append_nil] at e2
        rw [← e2] at hr
        exact absurd rfl (hu _ hr)
      | cons x xs =>
        have hxa : x = '@' := by simpa using head_drop hD
        rw [hD] at e2
        subst hxa
        have hw : w = A ++ U ++ '@' :: xs := by rw [List.append_assoc, e2, e]
        have hne : U ≠ [] := by
          rintro rfl
          rw [List.nil_append] at e2
          rw [← e2] at hR
          exact absurd (head_drop hR) (by simp)
        refine ⟨A, U, xs, hw, ha, fun h => hu _ h rfl, hne, ?_⟩
        rintro ⟨p1, p2⟩
        refine hp ⟨?_, by rw [hw]; exact p2⟩
        obtain ⟨y, ys, hy⟩ := List.exists_cons_of_ne_nil (show A ++ U ≠ [] by simp [hne])
        rw [hw, hy]
        rw [hy] at p1
        exact p1
    · left
      cases A with
      | nil => rw [List.nil_append] at e; rw [e] at hr; exact absurd hm hr
      | cons c ats =>
        refine ⟨ats, R, ?_, fun d hd => ha d (by simp [hd]), hr⟩
        rw [← e, ha c (by simp)]

/-- the hypotheses of the theorems about words for users: alice and five words, three of which are about alice -/
example : UserWord Example.sys alice "(wheel)".toList ∧ UserWord Example.sys alice "(10)".toList ∧
    UserWord Example.sys alice "@trusted".toList ∧ UserWord Example.sys alice "1000".toList ∧
    ¬ UserWord Example.sys alice "alice@host".toList ∧ ¬ UserWord Example.sys alice "(0)".toList := by
  unfold UserWord; decide +kernel

/-! ## C59: words for origins -/

theorem from_other {sys : Sys} {item : Item} {w : Str} (h1 : w.head? ≠ some '@') (hr : item.remote = true) :
    OriginWord sys item w ↔ ieq w "ALL".toList = true ∨ ieq w item.origin = true ∨
      (ieq w "LOCAL".toList = false ∧ (remoteMatch sys item none w).1 = true) := by
  unfold OriginWord fromMatch stringMatch
  rw [if_neg h1]
  cases h2 : ieq w "ALL".toList with
  | true => simp
  | false =>
    cases h3 : ieq w item.origin with
    | true => simp
    | false =>
      cases h4 : ieq w "LOCAL".toList with
      | true => simp [hr]
      | false => simp [hr]

/-- C59: `@name` is a netgroup of hosts. -/
theorem C59_netgroup (sys : Sys) (item : Item) (g : Str) :
    OriginWord sys item ('@' :: g) ↔ sys.innetgr g (some item.origin) none = true := by
  unfold OriginWord fromMatch
  rw [if_pos (by rfl)]
  rfl

/-- C59: on a terminal the words are ALL, LOCAL and the name of the terminal. -/
theorem C59_local (sys : Sys) (item : Item) (w : Str) (h1 : w.head? ≠ some '@') (hr : item.remote = false) :
    OriginWord sys item w ↔ ieq w "ALL".toList = true ∨ ieq w item.origin = true ∨ ieq w "LOCAL".toList = true := by
  unfold OriginWord fromMatch stringMatch
  rw [if_neg h1]
  cases h2 : ieq w "ALL".toList with
  | true => simp
  | false =>
    cases h3 : ieq w item.origin with
    | true => simp
    | false =>
      cases h4 : ieq w "LOCAL".toList with
      | true => simp [hr]
      | false => simp [hr]

/-- C59: ALL, and the name of the host itself, stand for the host. -/
theorem C59_name (sys : Sys) (item : Item) (w : Str) (h1 : w.head? ≠ some '@') (h2 : ieq w "ALL".toList = true ∨ ieq w item.origin = true) :
    OriginWord sys item w := by
  by_cases hr : item.remote = true
  · rw [from_other h1 hr]
    rcases h2 with h | h
    · exact Or.inl h
    · exact Or.inr (Or.inl h)
  · rw [C59_local sys item w h1 (by simpa using hr)]
    rcases h2 with h | h
    · exact Or.inl h
    · exact Or.inr (Or.inl h)

/-- C59: LOCAL does not stand for a host.  (Partial: unless its name is "local", see the counterexample.) -/
theorem C59_remote_partial (sys : Sys) (item : Item) (w : Str) (hw : ieq w "LOCAL".toList = true) (hr : item.remote = true)
    (ho : ieq w item.origin = false) : ¬ OriginWord sys item w := by
  have h1 : w.head? ≠ some '@' := by
    intro e
    cases w with
    | nil => cases e
    | cons c t =>
      cases e
      unfold ieq at hw
      rw [beq_iff_eq] at hw
      have := congrArg List.head? hw
      exact absurd this (show ¬ some (lower '@') = some (lower 'L') by decide)
  have h2 : ieq w "ALL".toList = false := by
    unfold ieq at hw ⊢
    rw [beq_iff_eq] at hw
    rw [hw]
    decide
  rw [from_other h1 hr]
  rw [ho, hw, h2]
  simp

/-- A host named "local" is let in by the word LOCAL, whatever the system. -/
theorem C59_local_counterexample (sys : Sys) (item : Item) (h : item.origin = "local".toList) :
    OriginWord sys item "LOCAL".toList :=
  C59_name sys item _ (by decide) (Or.inr (by rw [h]; decide))

/-- C59: `.domain` stands for the hosts whose name ends so.  (Partial: for words the resolver does not know.) -/
theorem C59_domain_partial (sys : Sys) (item : Item) (d : Str) (hr : item.remote = true) (hslash : '/' ∉ d)
    (hip : isip sys ('.' :: d) = none) (hres : item.nodns = true ∨ sys.gai .plain ('.' :: d) = none) :
    OriginWord sys item ('.' :: d) ↔ ∃ pre suf, item.origin = pre ++ suf ∧ ieq ('.' :: d) suf = true := by
  have hn : networkMatch sys item none ('.' :: d) = (false, none) := by
    have hrt : resolveToken sys item ('.' :: d) = none := by
      unfold resolveToken
      rw [if_neg (by simpa using hslash), hip, if_neg (by simp)]
      rcases hres with h | h
      · rw [if_pos h]
      · rw [h]
        simp
    unfold networkMatch
    rw [hrt]
  have hALL : ieq ('.' :: d) "ALL".toList = false := by
    unfold ieq
    rw [beq_eq_false_iff_ne]
    intro e
    exact absurd (congrArg List.head? e) (show ¬ some (lower '.') = some (lower 'A') by decide)
  have hLOCAL : ieq ('.' :: d) "LOCAL".toList = false := by
    unfold ieq
    rw [beq_eq_false_iff_ne]
    intro e
    exact absurd (congrArg List.head? e) (show ¬ some (lower '.') = some (lower 'L') by decide)
  rw [from_other (by simp) hr, hALL, hLOCAL]
  unfold remoteMatch
  rw [if_pos (by rfl)]
  have hlen : ∀ {a b : Str}, ieq a b = true → a.length = b.length := by
    intro a b h
    unfold ieq at h
    rw [beq_iff_eq] at h
    simpa using congrArg List.length h
  constructor
  · rintro (h | h | ⟨-, h⟩)
    · cases h
    · exact ⟨[], item.origin, rfl, h⟩
    · split at h
      · rename_i hc
        exact ⟨item.origin.take (item.origin.length - ('.' :: d).length), _, (List.take_append_drop _ _).symm, hc.2⟩
      · rw [hn] at h; cases h
  · rintro ⟨pre, suf, e, h⟩
    have hl := hlen h
    cases pre with
    | nil => right; left; rw [e]; exact h
    | cons p pre =>
      right; right
      refine ⟨rfl, ?_⟩
      rw [if_pos]
      rw [e]
      refine ⟨by simp [hl]; omega, ?_⟩
      rw [hl, List.length_append, Nat.add_sub_cancel, List.drop_left]
      exact h

theorem dotted_head {n : Nat} {p : List Nat} : dotted (n :: p) = Nat.toDigits 10 n ++ '.' :: dotted p := by
  unfold dotted
  simp

theorem no_dot (n : Nat) : '.' ∉ Nat.toDigits 10 n := by
  intro h
  exact absurd ((toDigits_spec n).2.1 _ h) (by decide)

theorem dot_split {u v s t : Str} (hu : '.' ∉ u) (hv : '.' ∉ v) : u ++ '.' :: s <+: v ++ '.' :: t ↔ u = v ∧ s <+: t := by
  induction u generalizing v with
  | nil =>
    cases v with
    | nil => simp
    | cons c v =>
      simp only [List.nil_append, List.cons_append, List.cons_prefix_cons]
      constructor
      · rintro ⟨rfl, -⟩; simp at hv
      · rintro ⟨h, -⟩; cases h
  | cons c u ih =>
    cases v with
    | nil =>
      simp only [List.nil_append, List.cons_append, List.cons_prefix_cons]
      constructor
      · rintro ⟨rfl, -⟩; simp at hu
      · rintro ⟨h, -⟩; cases h
    | cons d v =>
      simp only [List.cons_append, List.cons_prefix_cons, List.cons.injEq]
      rw [ih (fun h => hu (by simp [h])) (fun h => hv (by simp [h])), and_assoc]

theorem dotted_prefix : ∀ {p b : List Nat}, dotted p <+: dotted b ↔ p <+: b
  | [], b => by simp [dotted]
  | n :: p, [] => by
    rw [dotted_head]
    simp [dotted]
  | n :: p, m :: b => by
    rw [dotted_head, dotted_head, dot_split (no_dot n) (no_dot m), dotted_prefix, List.cons_prefix_cons]
    constructor
    · rintro ⟨h, h'⟩
      have := congrArg (valueOf 10) h
      rw [(toDigits_spec n).2.2.1, (toDigits_spec m).2.2.1] at this
      exact ⟨this, h'⟩
    · rintro ⟨rfl, h'⟩; exact ⟨rfl, h'⟩

/-- C59: `10.1.` stands for the hosts that have an IPv4 address beginning with these bytes. -/
theorem C59_subnet (sys : Sys) (item : Item) (p : List Nat) (hp : p ≠ []) (hr : item.remote = true)
    (ho : ieq (dotted p) item.origin = false)
    (hw : ∀ b, b.length = 4 → (∀ x ∈ b, x < 256) → sys.ntop .v4 b ++ ['.'] = dotted b)
    (l : List Entry) (hl : sys.gai .inet item.origin = some l)
    (hok : ∀ e ∈ l, e.fam = .v4 → e.bytes.length = 4 ∧ ∀ x ∈ e.bytes, x < 256) :
    OriginWord sys item (dotted p) ↔ ∃ e ∈ l, e.fam = .v4 ∧ p <+: e.bytes := by
  obtain ⟨n, p', rfl⟩ := List.exists_cons_of_ne_nil hp
  obtain ⟨c, t, hc⟩ := List.exists_cons_of_ne_nil (toDigits_spec n).1
  have hd : isDigit c = true := toDigits_isDigit n c (by simp [hc])
  have hhead : (dotted (n :: p')).head? = some c := by rw [dotted_head, hc]; rfl
  have hlast : (dotted (n :: p')).getLast? = some '.' := by
    obtain ⟨q, m, e⟩ := (List.eq_nil_or_concat (n :: p')).resolve_left (by simp)
    rw [e, List.concat_eq_append]
    unfold dotted
    rw [List.flatMap_append]
    simp
  have hnot : ∀ (s : Str) (d : Char), s.head? = some d → isDigit (lower d) = false → ieq (dotted (n :: p')) s = false := by
    intro s d hs hl
    unfold ieq
    rw [beq_eq_false_iff_ne]
    intro e
    have := congrArg List.head? e
    rw [List.head?_map, List.head?_map, hhead, hs] at this
    have hcl : lower c = c := by
      unfold lower
      have := lower_digit hd
      have ha : 'A'.toNat = 65 := rfl
      rw [if_neg (by omega)]
    simp only [Option.map_some, Option.some.injEq, hcl] at this
    rw [← this, hd] at hl
    cases hl
  rw [from_other (by rw [hhead]; intro e; cases e; exact absurd hd (by decide)) hr,
    hnot "ALL".toList 'A' rfl (by decide), hnot "LOCAL".toList 'L' rfl (by decide), ho]
  unfold remoteMatch
  rw [if_neg (by rw [hhead]; intro e; cases e; exact absurd hd (by decide)), if_pos hlast]
  have hlk : lookup sys .inet item.origin none = (some l, some (some l)) := by
    unfold lookup
    simp only [hl]
  rw [hlk]
  simp only [Bool.false_eq_true, false_or, true_and, List.any_eq_true, Bool.and_eq_true, decide_eq_true_eq, List.isPrefixOf_iff_prefix]
  constructor
  · rintro ⟨e, he, hf, h⟩
    rw [hw _ (hok e he hf).1 (hok e he hf).2, dotted_prefix] at h
    exact ⟨e, he, hf, h⟩
  · rintro ⟨e, he, hf, h⟩
    refine ⟨e, he, hf, ?_⟩
    rw [hw _ (hok e he hf).1 (hok e he hf).2, dotted_prefix]
    exact h

/-- C59: an address as a word stands for that address, and 127.0.0.1 and ::1 for each other. -/
theorem C59_address (sys : Sys) (law : Lawful sys) (item : Item) (hr : item.remote = true) (f g : Fam) (w : Str) (a b : List Nat)
    (hw : sys.pton f w = some a) (ho : sys.pton g item.origin = some b) (hne : ieq w item.origin = false) :
    OriginWord sys item w ↔ if f = g then a = b else item.origin = loopback g ∧ sys.ntop f a = loopback f := by
  obtain ⟨e1, e2, e3⟩ := law.ends f w a hw
  have hmark : ∀ s : Str, '.' ∉ s.map lower → ':' ∉ s.map lower → ieq w s = false := by
    intro s h1 h2
    unfold ieq
    rw [beq_eq_false_iff_ne]
    intro e
    rcases law.marked f w a hw with h | h
    · exact h1 (by rw [← e]; exact List.mem_map.mpr ⟨_, h, by decide⟩)
    · exact h2 (by rw [← e]; exact List.mem_map.mpr ⟨_, h, by decide⟩)
  have hat : w.head? ≠ some '@' := by
    intro e
    have := law.chars f w a hw _ (List.mem_of_head? e)
    revert this
    decide
  have hsl : '/' ∉ w := fun h => no_slash law hw _ h rfl
  have hrt : resolveToken sys item w = (sys.gai .plain w).map (fun ai => (ai, none)) := by
    unfold resolveToken
    rw [if_neg hsl, (isip_iff law).mpr hw, if_pos (by rfl)]
  obtain ⟨l1, l2⟩ := law.size f w a hw
  rw [from_other hat hr, hmark "ALL".toList (by decide) (by decide), hmark "LOCAL".toList (by decide) (by decide), hne]
  unfold remoteMatch
  rw [if_neg e2, if_neg e3, network_address law ho hw hrt none]
  simp only [Bool.false_eq_true, false_or, true_and]
  by_cases hfg : f = g
  · subst hfg
    rw [if_pos rfl, addrEqual_same law ho (law.round f a l1 l2)]
    simp only [Option.bind_none, masked, beq_iff_eq]
    exact eq_comm
  · rw [if_neg hfg, addrEqual_other law (Ne.symm hfg) ho (law.round f a l1 l2)]
    unfold isLocal loopback
    cases f <;> cases g
    · exact absurd rfl hfg
    · simp
    · simp
    · exact absurd rfl hfg

/-- C59: with nodns the resolver is not asked about words: any other word stands for no host but the one of that name. -/
theorem C59_nodns (sys : Sys) (item : Item) (w : Str) (hr : item.remote = true) (hd : item.nodns = true) (h1 : w.head? ≠ some '@')
    (h2 : w.head? ≠ some '.') (h3 : w.getLast? ≠ some '.') (h4 : '/' ∉ w) (h5 : isip sys w = none) :
    OriginWord sys item w ↔ ieq w "ALL".toList = true ∨ ieq w item.origin = true := by
  have hrt : resolveToken sys item w = none := by
    unfold resolveToken
    rw [if_neg h4, h5, if_neg (by simp), if_pos hd]
  rw [from_other h1 hr]
  unfold remoteMatch
  rw [if_neg h2, if_neg h3]
  unfold networkMatch
  rw [hrt]
  simp

/-- the hypotheses of the theorems about origins: 10.1.2.3 and a few words -/
example : guest.remote = true ∧ Example.sys.gai .inet guest.origin = some [Example.gate4] ∧ dotted [10, 1] = "10.1.".toList ∧
    OriginWord Example.sys guest "10.1.".toList ∧ ¬ OriginWord Example.sys guest "10.2.".toList ∧
    OriginWord Example.sys guest "10.1.2.3".toList ∧ ¬ OriginWord Example.sys guest "LOCAL".toList ∧
    OriginWord Example.sys guest "gate".toList ∧ OriginWord Example.sys guest "@trusted".toList := by
  unfold OriginWord; decide +kernel

example : ∀ b : List Nat, b.length = 4 → (∀ x ∈ b, x < 256) → Example.sys.ntop .v4 b ++ ['.'] = dotted b
  | [a, b, c, d], _, _ => by
    show Example.join '.' _ ++ _ = _
    simp [Example.join, dotted]

end Pam.Access
