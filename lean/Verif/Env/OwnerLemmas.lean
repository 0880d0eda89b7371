import Verif.Env.Owner
/-
Lemmas for C198.
-/
namespace Pam.Env.Owner
open Pam Pam.Small Pam.Env

/-- a pointer stands for a value -/
def Rep (m : M) (p : Ptr) : Val → Prop
  | .null => p = .null
  | .quote => p = .quote
  | .text t => ∃ n, p = .blk n ∧ m.live n = some t

/-- The pointers stand for the values, no two for the same block; blocks to come are not there yet; if `q`, there are no other blocks. -/
structure Inv (q : Bool) (x : Slot → Val) (m : M) : Prop where
  rep : ∀ i, Rep m (m.ptr i) (x i)
  distinct : ∀ i j n, m.ptr i = .blk n → m.ptr j = .blk n → i = j
  fresh : ∀ n, m.count ≤ n → m.live n = none
  exact_ : q = true → ∀ n, m.live n ≠ none → ∃ i, m.ptr i = .blk n
  nq : ∀ i, x i = .quote → i = .defval ∨ i = .override

/-- a request fails -/
def Short (ok : Nat → Bool) : Prop := ∃ n, ok n = false

theorem upd_same {α β : Type} [DecidableEq α] (f : α → β) (a : α) (b : β) : upd f a b a = b := if_pos rfl
theorem upd_ne {α β : Type} [DecidableEq α] (f : α → β) {a c : α} (b : β) (h : c ≠ a) : upd f a b c = f c := if_neg h

theorem blk_of {q x m} (h : Inv q x m) {i n} (hp : m.ptr i = .blk n) : ∃ t, x i = .text t ∧ m.live n = some t := by
  have hr := h.rep i
  cases hx : x i with
  | null => rw [hx] at hr; rw [show m.ptr i = .null from hr] at hp; cases hp
  | quote => rw [hx] at hr; rw [show m.ptr i = .quote from hr] at hp; cases hp
  | text t =>
    rw [hx] at hr
    obtain ⟨k, hk, hl⟩ := hr
    rw [hp] at hk; cases hk
    exact ⟨t, rfl, hl⟩

theorem ptr_null {q x m} (h : Inv q x m) {i} (hx : x i = .null) : m.ptr i = .null := by
  have := h.rep i; rw [hx] at this; exact this

theorem ptr_quote {q x m} (h : Inv q x m) {i} (hx : x i = .quote) : m.ptr i = .quote := by
  have := h.rep i; rw [hx] at this; exact this

theorem ptr_text {q x m} (h : Inv q x m) {i t} (hx : x i = .text t) : ∃ n, m.ptr i = .blk n ∧ m.live n = some t := by
  have := h.rep i; rw [hx] at this; exact this

/-- a pointer to no block is set to NULL or `quote` -/
theorem inv_point {q x m} (h : Inv q x m) (i : Slot) (p : Ptr) (v : Val) (hv : (p = .null ∧ v = .null) ∨ (p = .quote ∧ v = .quote ∧ (i = .defval ∨ i = .override)))
    (hq : q = true → ∀ t, x i ≠ .text t) : Inv q (upd x i v) (m.point i p) := by
  have hnb : ∀ n, p ≠ .blk n := by intro n; rcases hv with ⟨rfl, _⟩ | ⟨rfl, _⟩ <;> exact fun e => by cases e
  refine ⟨?_, ?_, h.fresh, ?_, ?_⟩
  · intro j
    by_cases hj : j = i
    · subst hj
      show Rep _ (upd m.ptr j p j) (upd x j v j)
      rw [upd_same, upd_same]
      rcases hv with ⟨rfl, rfl⟩ | ⟨rfl, rfl, _⟩ <;> rfl
    · show Rep _ (upd m.ptr i p j) (upd x i v j)
      rw [upd_ne _ _ hj, upd_ne _ _ hj]
      have := h.rep j
      cases hx : x j <;> rw [hx] at this <;> exact this
  · intro j k n hj hk
    change upd m.ptr i p j = _ at hj
    change upd m.ptr i p k = _ at hk
    by_cases ej : j = i
    · subst ej; rw [upd_same] at hj; exact absurd hj (hnb n)
    · by_cases ek : k = i
      · subst ek; rw [upd_same] at hk; exact absurd hk (hnb n)
      · rw [upd_ne _ _ ej] at hj; rw [upd_ne _ _ ek] at hk; exact h.distinct j k n hj hk
  · intro hqt n hn
    obtain ⟨j, hj⟩ := h.exact_ hqt n hn
    have : j ≠ i := by
      rintro rfl
      obtain ⟨t, ht, _⟩ := blk_of h hj
      exact hq hqt t ht
    exact ⟨j, by show upd m.ptr i p j = _; rw [upd_ne _ _ this]; exact hj⟩
  · intro j hj
    by_cases e : j = i
    · subst e
      rw [upd_same] at hj
      rcases hv with ⟨_, rfl⟩ | ⟨_, _, hi⟩
      · cases hj
      · exact hi
    · rw [upd_ne _ _ e] at hj; exact h.nq j hj

theorem inv_free {q x m} (h : Inv q x m) (i : Slot) (hx : x i ≠ .quote) : ∃ m', m.free i = some m' ∧ Inv q (upd x i .null) m' := by
  cases hxi : x i with
  | quote => exact absurd hxi hx
  | null =>
    have hp := ptr_null h hxi
    refine ⟨m, by unfold M.free; rw [hp], ?_⟩
    have : upd x i .null = x := by funext j; by_cases e : j = i <;> simp [upd, e, hxi]
    rw [this]; exact h
  | text t =>
    obtain ⟨n, hp, hl⟩ := ptr_text h hxi
    refine ⟨{ m.point i .null with live := upd m.live n none }, by unfold M.free; rw [hp]; simp only [hl]; rfl, ?_⟩
    have hne : ∀ j, j ≠ i → m.ptr j ≠ .blk n := fun j hj e => hj (h.distinct j i n e hp)
    refine ⟨?_, ?_, ?_, ?_, ?_⟩
    · intro j
      by_cases hj : j = i
      · subst hj
        show Rep _ (upd m.ptr j .null j) _
        rw [upd_same, upd_same]; rfl
      · show Rep _ (upd m.ptr i .null j) _
        rw [upd_ne _ _ hj, upd_ne _ _ hj]
        cases hxj : x j with
        | null => exact ptr_null h hxj
        | quote => exact ptr_quote h hxj
        | text s =>
          obtain ⟨k, hk, hlk⟩ := ptr_text h hxj
          refine ⟨k, hk, ?_⟩
          show upd m.live n none k = _
          rw [upd_ne _ _ (by rintro rfl; exact hne j hj hk)]; exact hlk
    · intro j k r hj hk
      change upd m.ptr i .null j = _ at hj
      change upd m.ptr i .null k = _ at hk
      by_cases ej : j = i
      · subst ej; rw [upd_same] at hj; cases hj
      · by_cases ek : k = i
        · subst ek; rw [upd_same] at hk; cases hk
        · rw [upd_ne _ _ ej] at hj; rw [upd_ne _ _ ek] at hk; exact h.distinct j k r hj hk
    · intro k hk
      show upd m.live n none k = none
      by_cases e : k = n
      · subst e; exact upd_same _ _ _
      · rw [upd_ne _ _ e]; exact h.fresh k hk
    · intro hq k hk
      change upd m.live n none k ≠ none at hk
      by_cases e : k = n
      · subst e; exact absurd (upd_same _ _ _) hk
      · rw [upd_ne _ _ e] at hk
        obtain ⟨j, hj⟩ := h.exact_ hq k hk
        have : j ≠ i := by rintro rfl; rw [hp] at hj; cases hj; exact e rfl
        exact ⟨j, by show upd m.ptr i .null j = _; rw [upd_ne _ _ this]; exact hj⟩
    · intro j hj
      by_cases e : j = i
      · subst e; rw [upd_same] at hj; cases hj
      · rw [upd_ne _ _ e] at hj; exact h.nq j hj

theorem inv_alloc (ok : Nat → Bool) {q x m} (h : Inv q x m) (i : Slot) (t : Str) (hx : ∀ s, x i ≠ .text s) :
    (∃ m', m.alloc ok i t = (true, m') ∧ Inv q (upd x i (.text t)) m') ∨ (∃ m', m.alloc ok i t = (false, m') ∧ Short ok ∧ Inv q (upd x i .null) m') := by
  unfold M.alloc
  by_cases ho : ok m.count = true
  · rw [if_pos ho]
    refine .inl ⟨_, rfl, ?_⟩
    have hold : ∀ j, j ≠ i → m.ptr j ≠ .blk m.count := by
      intro j _ e
      obtain ⟨s, _, hl⟩ := blk_of h e
      rw [h.fresh _ (Nat.le_refl _)] at hl; cases hl
    refine ⟨?_, ?_, ?_, ?_, ?_⟩
    · intro j
      by_cases hj : j = i
      · subst hj
        show Rep _ (upd m.ptr j _ j) _
        rw [upd_same, upd_same]
        exact ⟨_, rfl, upd_same _ _ _⟩
      · show Rep _ (upd m.ptr i _ j) _
        rw [upd_ne _ _ hj, upd_ne _ _ hj]
        cases hxj : x j with
        | null => exact ptr_null h hxj
        | quote => exact ptr_quote h hxj
        | text s =>
          obtain ⟨k, hk, hlk⟩ := ptr_text h hxj
          refine ⟨k, hk, ?_⟩
          show upd m.live m.count _ k = _
          rw [upd_ne _ _ (by rintro rfl; exact hold j hj hk)]; exact hlk
    · intro j k r hj hk
      change upd m.ptr i _ j = _ at hj
      change upd m.ptr i _ k = _ at hk
      by_cases ej : j = i
      · by_cases ek : k = i
        · rw [ej, ek]
        · subst ej; rw [upd_same] at hj; cases hj
          rw [upd_ne _ _ ek] at hk; exact absurd hk (hold k ek)
      · rw [upd_ne _ _ ej] at hj
        by_cases ek : k = i
        · subst ek; rw [upd_same] at hk; cases hk
          exact absurd hj (hold j ej)
        · rw [upd_ne _ _ ek] at hk; exact h.distinct j k r hj hk
    · intro k hk
      change m.count + 1 ≤ k at hk
      show upd m.live m.count _ k = none
      rw [upd_ne _ _ (by omega)]; exact h.fresh k (by omega)
    · intro hq k hk
      change upd m.live m.count _ k ≠ none at hk
      by_cases e : k = m.count
      · exact ⟨i, by show upd m.ptr i _ i = _; rw [upd_same, e]⟩
      · rw [upd_ne _ _ e] at hk
        obtain ⟨j, hj⟩ := h.exact_ hq k hk
        have : j ≠ i := by
          rintro rfl
          obtain ⟨s, hs, _⟩ := blk_of h hj
          exact hx s hs
        exact ⟨j, by show upd m.ptr i _ j = _; rw [upd_ne _ _ this]; exact hj⟩
    · intro j hj
      by_cases e : j = i
      · subst e; rw [upd_same] at hj; cases hj
      · rw [upd_ne _ _ e] at hj; exact h.nq j hj
  · rw [if_neg ho]
    refine .inr ⟨_, rfl, ⟨m.count, by simpa using ho⟩, ?_⟩
    have h' := inv_point h i .null .null (.inl ⟨rfl, rfl⟩) (fun _ => hx)
    exact ⟨fun j => by
        have := h'.rep j
        cases hv : upd x i .null j <;> rw [hv] at this <;> exact this,
      h'.distinct, fun n hn => h'.fresh n (Nat.le_trans (Nat.le_succ _) hn), h'.exact_, h'.nq⟩

theorem inv_write {q x m} (h : Inv q x m) {i : Slot} {s : Str} (hx : x i = .text s) (t : Str) : ∃ m', m.write i t = some m' ∧ Inv q (upd x i (.text t)) m' := by
  obtain ⟨n, hp, hl⟩ := ptr_text h hx
  refine ⟨{ m with live := upd m.live n (some t) }, by unfold M.write; rw [hp]; simp only [hl]; rfl, ?_⟩
  refine ⟨?_, h.distinct, ?_, ?_, ?_⟩
  · intro j
    by_cases hj : j = i
    · subst hj; rw [upd_same]
      exact ⟨n, hp, upd_same _ _ _⟩
    · rw [upd_ne _ _ hj]
      cases hxj : x j with
      | null => exact ptr_null h hxj
      | quote => exact ptr_quote h hxj
      | text u =>
        obtain ⟨k, hk, hlk⟩ := ptr_text h hxj
        refine ⟨k, hk, ?_⟩
        show upd m.live n _ k = _
        rw [upd_ne _ _ (by rintro rfl; exact hj (h.distinct j i _ hk hp))]; exact hlk
  · intro k hk
    show upd m.live n _ k = none
    have : k ≠ n := by rintro rfl; rw [h.fresh _ hk] at hl; cases hl
    rw [upd_ne _ _ this]; exact h.fresh k hk
  · intro hq k hk
    change upd m.live n _ k ≠ none at hk
    by_cases e : k = n
    · subst e; exact ⟨i, hp⟩
    · rw [upd_ne _ _ e] at hk; exact h.exact_ hq k hk
  · intro j hj
    by_cases e : j = i
    · subst e; rw [upd_same] at hj; cases hj
    · rw [upd_ne _ _ e] at hj; exact h.nq j hj

theorem text_of {q x m} (h : Inv q x m) {i : Slot} {s : Str} (hx : x i = .text s) : m.text i = some s := by
  obtain ⟨n, hp, hl⟩ := ptr_text h hx
  unfold M.text; rw [hp]; exact hl

/-- the values of a variable -/
def ofVar (y : Var) : Slot → Val
  | .name => .text y.name
  | .defval => y.defval
  | .override => y.override
  | .tmp => .null

theorem ofVar_put (y : Var) (o : Bool) (v : Val) : upd (ofVar y) (slotOf o) v = ofVar (y.put o v) := by
  funext j
  cases o <;> cases j <;> rfl

theorem upd_upd {α β : Type} [DecidableEq α] (f : α → β) (a : α) (b c : β) : upd (upd f a b) a c = upd f a c := by
  funext j; by_cases e : j = a <;> simp [upd, e]

theorem upd_id {α β : Type} [DecidableEq α] (f : α → β) (a : α) (b : β) (h : f a = b) : upd f a b = f := by
  funext j; by_cases e : j = a
  · subst e; rw [upd_same, h]
  · rw [upd_ne _ _ e]

theorem slotOf_cases (o : Bool) : slotOf o = .defval ∨ slotOf o = .override := by cases o; exact .inl rfl; exact .inr rfl

theorem takeValue_quote {p : Str} (h : '"' ∉ p) : takeValue p = some (false, p.takeWhile (fun c => !isWordEnd c), p.dropWhile (fun c => !isWordEnd c)) := by
  unfold takeValue
  rw [if_neg]
  intro e
  cases p with
  | nil => cases e
  | cons c r => simp at e; subst e; exact h (List.mem_cons_self ..)

theorem mem_dropWhile {α : Type} (p : α → Bool) (a : α) (l : List α) (h : a ∈ l.dropWhile p) : a ∈ l := (List.dropWhile_sublist p).mem h

theorem skipPrefix_mem {s pre r : Str} (h : skipPrefix s pre = some r) : ∀ c, c ∈ r → c ∈ s := by
  unfold skipPrefix at h
  split at h
  · cases h; exact fun c hc => List.mem_of_mem_drop hc
  · cases h

theorem keyword_mem {p r : Str} {o : Bool} (h : keyword p = some (o, r)) : ∀ c, c ∈ r → c ∈ p := by
  unfold keyword at h
  split at h
  · cases h; rename_i h; exact skipPrefix_mem h
  · split at h
    · cases h; rename_i h; exact skipPrefix_mem h
    · cases h

/-- how often a word occurs in a text -/
def occurs (k : Str) : Str → Nat
  | [] => 0
  | c :: s => (if k.isPrefixOf (c :: s) then 1 else 0) + occurs k s

theorem occurs_suffix (k : Str) {s l : Str} (h : s <:+ l) : occurs k s ≤ occurs k l := by
  obtain ⟨t, rfl⟩ := h
  induction t with
  | nil => exact Nat.le_refl _
  | cons c t ih => rw [List.cons_append, occurs]; exact Nat.le_trans ih (Nat.le_add_left _ _)

/-- the word of a setting -/
def word (o : Bool) : Str := if o then "OVERRIDE=".toList else "DEFAULT=".toList

theorem skipPrefix_occurs {p r : Str} {k : Str} (hk : k ≠ []) (h : skipPrefix p k = some r) : occurs k r + 1 ≤ occurs k p ∧ r <:+ p := by
  unfold skipPrefix at h
  split at h
  · rename_i hp
    cases h
    refine ⟨?_, List.drop_suffix ..⟩
    cases p with
    | nil => cases k with | nil => exact absurd rfl hk | cons a b => simp at hp
    | cons c p =>
      cases k with
      | nil => exact absurd rfl hk
      | cons a b =>
        have h1 : occurs (a :: b) (c :: p) = 1 + occurs (a :: b) p := by rw [occurs, if_pos (by simpa using hp)]
        rw [h1]
        have := occurs_suffix (a :: b) (List.drop_suffix b.length p)
        simp only [List.length_cons, List.drop_succ_cons]
        omega
  · cases h

theorem keyword_occurs {p r : Str} {o : Bool} (h : keyword p = some (o, r)) : occurs (word o) r + 1 ≤ occurs (word o) p ∧ r <:+ p := by
  unfold keyword at h
  split at h
  · cases h; rename_i h; exact skipPrefix_occurs (k := "DEFAULT=".toList) (by decide) h
  · split at h
    · cases h; rename_i h; exact skipPrefix_occurs (k := "OVERRIDE=".toList) (by decide) h
    · cases h

theorem takeValue_suffix {p t rest : Str} {b : Bool} (h : takeValue p = some (b, t, rest)) : rest <:+ p := by
  unfold takeValue at h
  split at h
  · simp only at h
    split at h
    · cases h
    · split at h
      · cases h
      · cases h
        exact ((List.tail_suffix _).trans (List.dropWhile_suffix _)).trans (List.tail_suffix _)
  · cases h; exact List.dropWhile_suffix _

/-- no setting occurs again that has a value -/
def Once (ptr : Str) (y : Var) : Prop := ∀ o, occurs (word o) ptr ≤ 1 ∧ ∀ t, ofVar y (slotOf o) = .text t → occurs (word o) ptr = 0

theorem put_get (y : Var) (o o' : Bool) (v : Val) : ofVar (y.put o v) (slotOf o') = if o' = o then v else ofVar y (slotOf o') := by
  cases o <;> cases o' <;> rfl

theorem once_next {ptr p t rest : Str} {o b : Bool} {y : Var} (h : Once ptr y) (hk : keyword (ptr.dropWhile Config.isLead) = some (o, p)) (ht : takeValue p = some (b, t, rest)) :
    (∀ v, Once rest (y.put o v)) ∧ Once rest y ∧ ∀ t, ofVar y (slotOf o) ≠ .text t := by
  have hs := takeValue_suffix ht
  obtain ⟨h1, h2⟩ := keyword_occurs hk
  have hd : ptr.dropWhile Config.isLead <:+ ptr := List.dropWhile_suffix _
  have e1 := occurs_suffix (word o) hs
  have e2 := occurs_suffix (word o) hd
  have e3 := (h o).1
  have hall : ∀ o', occurs (word o') rest ≤ occurs (word o') ptr := fun o' => occurs_suffix _ ((hs.trans h2).trans hd)
  refine ⟨fun v o' => ⟨?_, ?_⟩, fun o' => ⟨?_, ?_⟩, ?_⟩
  · exact Nat.le_trans (hall o') (h o').1
  · intro t hv
    rw [put_get] at hv
    by_cases e : o' = o
    · subst e; omega
    · rw [if_neg e] at hv
      have := (h o').2 t hv
      have := hall o'
      omega
  · exact Nat.le_trans (hall o') (h o').1
  · intro t hv
    have := (h o').2 t hv
    have := hall o'
    omega
  · intro t hv
    have := (h o).2 t hv
    omega

/-- what `parseLoop` comes to, beside the reading of the text alone -/
def Parsed (q : Bool) (ok : Nat → Bool) (pure : Option Var) (r : Option (Int × M)) : Prop :=
  ∃ c m x, r = some (c, m) ∧ Inv q x m ∧ x .tmp = .null ∧
    ((c = 0 ∧ ∃ y, pure = some y ∧ x = ofVar y) ∨ (c = BAD_LINE ∧ pure = none) ∨ (c = PAM_BUF_ERR ∧ Short ok))

theorem parseLoop_ok (q : Bool) (ok : Nat → Bool) : ∀ (fuel : Nat) (ptr : Str) (flg : Nat) (y : Var) (m : M), Inv q (ofVar y) m → (q = true → ('"' ∉ ptr ∧ flg = 0) ∨ Once ptr y) →
    Parsed q ok (Env.parseLoop fuel ptr flg y) (parseLoop ok fuel ptr flg m)
  | 0, ptr, flg, y, m, h, _ => ⟨0, m, _, rfl, h, rfl, .inl ⟨rfl, y, rfl, rfl⟩⟩
  | fuel + 1, ptr, flg, y, m, h, hq => by
    rw [parseLoop, Env.parseLoop]
    split
    · exact ⟨0, m, _, rfl, h, rfl, .inl ⟨rfl, y, rfl, rfl⟩⟩
    cases hk : keyword (ptr.dropWhile Config.isLead) with
    | none => exact ⟨BAD_LINE, m, _, rfl, h, rfl, .inr (.inl ⟨rfl, rfl⟩)⟩
    | some op =>
      obtain ⟨o, p⟩ := op
      simp only
      cases ht : takeValue p with
      | none => exact ⟨BAD_LINE, m, _, rfl, h, rfl, .inr (.inl ⟨rfl, rfl⟩)⟩
      | some qt =>
        obtain ⟨quoted, t, rest⟩ := qt
        simp only
        have hq' : q = true → ('"' ∉ rest ∧ quoted = false ∧ flg = 0) ∨ ((∀ v, Once rest (y.put o v)) ∧ Once rest y ∧ ∀ t, ofVar y (slotOf o) ≠ .text t) := by
          intro e
          rcases hq e with ⟨h1, h2⟩ | h1
          · have hp : '"' ∉ p := fun hc => h1 (mem_dropWhile _ _ _ (keyword_mem hk _ hc))
            rw [takeValue_quote hp] at ht
            cases ht
            exact .inl ⟨fun hc => hp (mem_dropWhile _ _ _ hc), rfl, h2⟩
          · exact .inr (once_next h1 hk ht)
        by_cases htn : t ≠ []
        · rw [if_pos htn, if_pos htn]
          have hfree : ∃ m' v, (if m.ptr (slotOf o) ≠ .quote then m.free (slotOf o) else some m) = some m' ∧ Inv q (upd (ofVar y) (slotOf o) v) m' ∧ ∀ s, v ≠ .text s := by
            by_cases hx : ofVar y (slotOf o) = .quote
            · rw [if_neg (fun hn => hn (ptr_quote h hx))]
              exact ⟨m, .quote, rfl, by rw [upd_id _ _ _ hx]; exact h, fun s e => by cases e⟩
            · have hp : m.ptr (slotOf o) ≠ .quote := by
                intro e
                cases hv : ofVar y (slotOf o) with
                | quote => exact hx hv
                | null => rw [ptr_null h hv] at e; cases e
                | text s => obtain ⟨n, hn, _⟩ := ptr_text h hv; rw [hn] at e; cases e
              rw [if_pos hp]
              obtain ⟨m', h1, h2⟩ := inv_free h _ hx
              exact ⟨m', .null, h1, h2, fun s e => by cases e⟩
          obtain ⟨m', v, hf, hi, hv⟩ := hfree
          rw [hf]
          simp only
          rcases inv_alloc ok hi (slotOf o) t (by rw [upd_same]; exact hv) with ⟨m2, ha, h2⟩ | ⟨m2, ha, hs, h2⟩
          · rw [ha]
            simp only
            rw [upd_upd, ofVar_put] at h2
            exact parseLoop_ok q ok fuel rest _ _ m2 h2 (fun e => (hq' e).imp (fun hh => ⟨hh.1, by rw [hh.2.1, hh.2.2]; rfl⟩) (fun hh => hh.1 _))
          · rw [ha]
            exact ⟨PAM_BUF_ERR, m2, _, rfl, h2, by rw [upd_upd, ofVar_put]; rfl, .inr (.inr ⟨rfl, hs⟩)⟩
        · rw [if_neg htn, if_neg htn]
          by_cases hfl : (if quoted = true then flg + 1 else flg) ≠ 0
          · rw [if_pos hfl, if_pos hfl]
            have hqf : q = true → (∀ v, Once rest (y.put o v)) ∧ Once rest y ∧ ∀ t, ofVar y (slotOf o) ≠ .text t := by
              intro e
              rcases hq' e with hh | hh
              · exact absurd (by rw [hh.2.1, hh.2.2]; rfl) hfl
              · exact hh
            have h2 := inv_point h (slotOf o) .quote .quote (.inr ⟨rfl, rfl, slotOf_cases o⟩) (fun e => (hqf e).2.2)
            rw [ofVar_put] at h2
            exact parseLoop_ok q ok fuel rest _ _ _ h2 (fun e => .inr ((hqf e).1 _))
          · rw [if_neg hfl, if_neg hfl]
            exact parseLoop_ok q ok fuel rest _ _ m h (fun e => (hq' e).imp (fun hh => ⟨hh.1, by rw [hh.2.1, hh.2.2]; rfl⟩) (fun hh => hh.2.1))

theorem parseLine_ok (q : Bool) (ok : Nat → Bool) (l : Str) (m : M) (h : Inv q (fun _ => .null) m) (hq : q = true → '"' ∉ l ∨ ∀ o, occurs (word o) l ≤ 1) :
    Parsed q ok (Env.parseLine l) (parseLine ok l m) := by
  unfold parseLine Env.parseLine
  simp only
  rcases inv_alloc ok h .name (l.takeWhile (fun c => !isWordEnd c)) (fun s e => by cases e) with ⟨m2, ha, h2⟩ | ⟨m2, ha, hs, h2⟩
  · rw [ha]
    simp only
    refine parseLoop_ok q ok _ _ 0 _ m2 ?_ (fun e => (hq e).imp (fun hh => ⟨fun hc => hh (mem_dropWhile _ _ _ hc), rfl⟩)
      (fun hh o => ⟨Nat.le_trans (occurs_suffix _ (List.dropWhile_suffix _)) (hh o), fun t ht => by cases o <;> cases ht⟩))
    have : upd (fun _ => Val.null) Slot.name (.text (l.takeWhile (fun c => !isWordEnd c))) = ofVar { name := l.takeWhile (fun c => !isWordEnd c) } := by
      funext j; cases j <;> rfl
    rw [← this]; exact h2
  · rw [ha]
    exact ⟨PAM_BUF_ERR, m2, _, rfl, h2, rfl, .inr (.inr ⟨rfl, hs⟩)⟩

/-- the value after its expansion -/
def expVal (v : Val) (s : Str) : Val := match v with | .text _ => .text s | v => v

/-- what `_expand_arg` comes to, beside the text alone -/
def Expd (q : Bool) (ok : Nat → Bool) (x : Slot → Val) (i : Slot) (pure : Expanded) (r : Res (Int × M)) : Prop :=
  match r with
  | .misuse => False
  | .env => pure = .bad
  | .ok (c, m) => ∃ x', Inv q x' m ∧ x' .tmp = .null ∧
    ((c = PAM_SUCCESS ∧ ∃ s, pure = .done s ∧ x' = upd x i (expVal (x i) s)) ∨ (c = PAM_ABORT ∧ pure = .abort) ∨ (c = PAM_BUF_ERR ∧ Short ok))

theorem putBack_ok {q : Bool} {ok moves : Nat → Bool} {i : Slot} {s t : Str} {x : Slot → Val} {m : M} (h : Inv q x m) (hi : i ≠ .tmp) (hx : x i = .text t) (ht : x .tmp = .text s) :
    ∃ c m', putBack ok moves i s m = some (c, m') ∧ ∃ x', Inv q x' m' ∧ x' .tmp = .null ∧
      ((c = PAM_SUCCESS ∧ x' = upd (upd x .tmp .null) i (.text s)) ∨ (c = PAM_BUF_ERR ∧ Short ok)) := by
  have hti : Slot.tmp ≠ i := fun e => hi e.symm
  have comm : ∀ v, upd (upd x i v) .tmp .null = upd (upd x .tmp .null) i v := by
    intro v; funext j
    by_cases e2 : j = .tmp
    · subst e2; rw [upd_same, upd_ne _ _ hti, upd_same]
    · rw [upd_ne _ _ e2]
      by_cases e : j = i
      · subst e; rw [upd_same, upd_same]
      · rw [upd_ne _ _ e, upd_ne _ _ e, upd_ne _ _ e2]
  unfold putBack
  split
  · obtain ⟨m1, h1, i1⟩ := inv_free h i (by rw [hx]; exact fun e => by cases e)
    rw [h1]
    simp only
    rcases inv_alloc ok i1 i s (by rw [upd_same]; exact fun s e => by cases e) with ⟨m2, ha, h2⟩ | ⟨m2, ha, hs, h2⟩
    · rw [ha]
      simp only
      rw [upd_upd] at h2
      obtain ⟨m3, h3, i3⟩ := inv_free h2 .tmp (by rw [upd_ne _ _ hti, ht]; exact fun e => by cases e)
      exact ⟨_, m3, by rw [h3]; rfl, _, i3, upd_same _ _ _, .inl ⟨rfl, comm _⟩⟩
    · rw [ha]
      simp only
      rw [upd_upd] at h2
      obtain ⟨m3, h3, i3⟩ := inv_free h2 .tmp (by rw [upd_ne _ _ hti, ht]; exact fun e => by cases e)
      exact ⟨_, m3, by rw [h3]; rfl, _, i3, upd_same _ _ _, .inr ⟨rfl, hs⟩⟩
  · obtain ⟨m2, ha, h2⟩ := inv_write h hx s
    rw [ha]
    simp only
    obtain ⟨m3, h3, i3⟩ := inv_free h2 .tmp (by rw [upd_ne _ _ hti, ht]; exact fun e => by cases e)
    exact ⟨_, m3, by rw [h3]; rfl, _, i3, upd_same _ _ _, .inl ⟨rfl, comm _⟩⟩

theorem expandVal_ok (q : Bool) (ok moves : Nat → Bool) (e : PEnv) (w : Who) (i : Slot) (hi : i ≠ .tmp) (x : Slot → Val) (m : M) (h : Inv q x m) (hx : x .tmp = .null) :
    Expd q ok x i (Env.expandVal e w (x i)) (expandVal ok moves e w i m) := by
  unfold expandVal
  cases hxi : x i with
  | null =>
    rw [if_neg (fun hn => hn.1 (ptr_null h hxi))]
    exact ⟨x, h, hx, .inl ⟨rfl, [], rfl, by rw [hxi]; exact (upd_id _ _ _ hxi).symm⟩⟩
  | quote =>
    rw [if_neg (fun hn => hn.2 (ptr_quote h hxi))]
    exact ⟨x, h, hx, .inl ⟨rfl, [], rfl, by rw [hxi]; exact (upd_id _ _ _ hxi).symm⟩⟩
  | text t =>
    obtain ⟨n, hp, _⟩ := ptr_text h hxi
    rw [if_pos (by rw [hp]; exact ⟨fun e => (by cases e), fun e => (by cases e)⟩)]
    unfold expandArg
    rw [text_of h hxi]
    simp only
    by_cases hsp : (!(t.any isSpecial)) = true
    · rw [if_pos hsp]
      refine ⟨x, h, hx, .inl ⟨rfl, t, ?_, ?_⟩⟩
      · show Env.expandArg e w t = _
        unfold Env.expandArg; rw [if_pos hsp]
      · rw [hxi]; exact (upd_id _ _ _ hxi).symm
    · rw [if_neg hsp]
      show Expd q ok x i (Env.expandArg e w t) _
      generalize Env.expandArg e w t = ex
      cases ex with
      | bad => exact rfl
      | abort =>
        simp only
        rcases inv_alloc ok h .tmp [] (by rw [hx]; exact fun s e => by cases e) with ⟨m2, ha, h2⟩ | ⟨m2, ha, hs, h2⟩
        · rw [ha]
          simp only
          obtain ⟨m3, h3, i3⟩ := inv_free h2 .tmp (by rw [upd_same]; exact fun e => by cases e)
          rw [h3]
          exact ⟨_, i3, upd_same _ _ _, .inr (.inl ⟨rfl, rfl⟩)⟩
        · rw [ha]
          exact ⟨_, h2, upd_same _ _ _, .inr (.inr ⟨rfl, hs⟩)⟩
      | done s =>
        simp only
        rcases inv_alloc ok h .tmp s (by rw [hx]; exact fun s e => by cases e) with ⟨m2, ha, h2⟩ | ⟨m2, ha, hs, h2⟩
        · rw [ha]
          simp only
          obtain ⟨c, m3, h3, x', i3, t3, hc⟩ := putBack_ok (ok := ok) (moves := moves) (s := s) (t := t) h2 hi (by rw [upd_ne _ _ hi]; exact hxi) (upd_same _ _ _)
          rw [h3]
          refine ⟨x', i3, t3, ?_⟩
          rcases hc with ⟨rfl, hx'⟩ | hc
          · refine .inl ⟨rfl, s, rfl, ?_⟩
            rw [hx', upd_upd, upd_id x .tmp .null hx, hxi]; rfl
          · exact .inr (.inr hc)
        · rw [ha]
          exact ⟨_, h2, upd_same _ _ _, .inr (.inr ⟨rfl, hs⟩)⟩

/-- what a line comes to, beside the model with memory -/
def Lined (q : Bool) (ok : Nat → Bool) (e : PEnv) (pure : Option (Int × PEnv)) (r : Res (Int × PEnv × M)) : Prop :=
  match r with
  | .misuse => False
  | .env => pure = none
  | .ok (c, e', m) => ∃ x, Inv q x m ∧ x .tmp = .null ∧ (pure = some (c, e') ∨ (c = PAM_BUF_ERR ∧ e' = e ∧ Short ok))

theorem text_val {q x m} (h : Inv q x m) (i : Slot) (hn : x i ≠ .null) : ∃ s, m.text i = some s ∧ (x i = .text s ∨ (x i = .quote ∧ s = [])) := by
  cases hx : x i with
  | null => exact absurd hx hn
  | quote => exact ⟨[], by unfold M.text; rw [ptr_quote h hx], .inr ⟨rfl, rfl⟩⟩
  | text s => exact ⟨s, text_of h hx, .inl rfl⟩

theorem define_ok (q : Bool) (ok : Nat → Bool) (e : PEnv) (i : Slot) (x : Slot → Val) (m : M) (h : Inv q x m) (hx : x .tmp = .null) (n s : Str)
    (hn : m.text .name = some n) (hs : m.text i = some s) : Lined q ok e (put e (n ++ '=' :: s)) (define ok e i m) := by
  unfold define
  rw [hn, hs]
  simp only
  rcases inv_alloc ok h .tmp (n ++ '=' :: s) (by rw [hx]; exact fun s e => by cases e) with ⟨m2, ha, h2⟩ | ⟨m2, ha, hsh, h2⟩
  · rw [ha]
    simp only
    rw [text_of h2 (upd_same _ _ _)]
    simp only
    cases put e (n ++ '=' :: s) with
    | none => exact rfl
    | some re =>
      obtain ⟨m3, h3, i3⟩ := inv_free h2 .tmp (by rw [upd_same]; exact fun e => by cases e)
      simp only
      rw [h3]
      exact ⟨_, i3, upd_same _ _ _, .inl rfl⟩
  · rw [ha]
    exact ⟨_, h2, upd_same _ _ _, .inr ⟨rfl, rfl, hsh⟩⟩

theorem confLine_ok (q : Bool) (ok moves : Nat → Bool) (w : Who) (e : PEnv) (l : Str) (m : M) (h : Inv q (fun _ => .null) m) (hq : q = true → '"' ∉ l ∨ ∀ o, occurs (word o) l ≤ 1) :
    Lined q ok e (Env.confLine w e l) (confLine ok moves w e l m) := by
  unfold confLine Env.confLine
  obtain ⟨c, m1, x1, h1, i1, t1, hc⟩ := parseLine_ok q ok l m h hq
  rw [h1]
  simp only
  rcases hc with ⟨rfl, y, hy, rfl⟩ | ⟨rfl, hy⟩ | ⟨rfl, hs⟩
  rotate_left
  · rw [if_pos (by decide), hy]; exact ⟨_, i1, t1, .inl rfl⟩
  · rw [if_pos (by decide)]; exact ⟨_, i1, t1, .inr ⟨rfl, rfl, hs⟩⟩
  rw [if_neg (by decide), hy]
  simp only
  unfold checkVar
  have hd := expandVal_ok q ok moves e w .defval (by decide) _ m1 i1 t1
  change Expd q ok (ofVar y) .defval (Env.expandVal e w y.defval) _ at hd
  generalize hdv : Env.expandVal e w y.defval = dv at hd
  generalize expandVal ok moves e w .defval m1 = rd at hd
  cases rd with
  | misuse => exact hd.elim
  | env => change dv = .bad at hd; subst hd; exact rfl
  | ok cm =>
    obtain ⟨c, m2⟩ := cm
    obtain ⟨x2, i2, t2, hc⟩ := hd
    simp only
    rcases hc with ⟨rfl, d, rfl, hx2⟩ | ⟨rfl, rfl⟩ | ⟨rfl, hs⟩
    rotate_left
    · rw [if_pos (show _ ≠ PAM_SUCCESS by decide)]; exact ⟨_, i2, t2, .inl rfl⟩
    · rw [if_pos (show _ ≠ PAM_SUCCESS by decide)]; exact ⟨_, i2, t2, .inr ⟨rfl, rfl, hs⟩⟩
    rw [if_neg (by decide)]
    simp only
    have ho := expandVal_ok q ok moves e w .override (by decide) _ m2 i2 t2
    have hxo : x2 .override = y.override := by rw [hx2]; rfl
    rw [hxo] at ho
    generalize hov : Env.expandVal e w y.override = ov at ho
    generalize expandVal ok moves e w .override m2 = ro at ho
    cases ro with
    | misuse => exact ho.elim
    | env => change ov = .bad at ho; subst ho; exact rfl
    | ok cm =>
      obtain ⟨c, m3⟩ := cm
      obtain ⟨x3, i3, t3, hc⟩ := ho
      simp only
      rcases hc with ⟨rfl, o, rfl, hx3⟩ | ⟨rfl, rfl⟩ | ⟨rfl, hs⟩
      rotate_left
      · rw [if_pos (show _ ≠ PAM_SUCCESS by decide)]; exact ⟨_, i3, t3, .inl rfl⟩
      · rw [if_pos (show _ ≠ PAM_SUCCESS by decide)]; exact ⟨_, i3, t3, .inr ⟨rfl, rfl, hs⟩⟩
      rw [if_neg (show ¬ PAM_SUCCESS ≠ PAM_SUCCESS by decide)]
      simp only
      have hn : m3.text .name = some y.name := text_of i3 (by rw [hx3, hx2]; rfl)
      have h3o : x3 .override = expVal y.override o := by rw [hx3, hxo]; rfl
      have h3d : x3 .defval = expVal y.defval d := by rw [hx3, hx2]; rfl
      have hdef : y.defval ≠ .null → m3.text .defval = some d := by
        intro hnn
        cases hyd : y.defval with
        | null => exact absurd hyd hnn
        | quote =>
          rw [hyd] at h3d hdv
          cases hdv
          unfold M.text; rw [ptr_quote i3 h3d]
        | text s => rw [hyd] at h3d; exact text_of i3 h3d
      have hpd : m3.ptr .defval = .null ↔ y.defval = .null := by
        cases hyd : y.defval with
        | null => rw [hyd] at h3d; exact ⟨fun _ => rfl, fun _ => ptr_null i3 h3d⟩
        | quote => rw [hyd] at h3d; rw [ptr_quote i3 h3d]; exact ⟨(fun e => by cases e), (fun e => by cases e)⟩
        | text s =>
          rw [hyd] at h3d
          obtain ⟨k, hk, _⟩ := ptr_text i3 h3d
          rw [hk]; exact ⟨(fun e => by cases e), (fun e => by cases e)⟩
      have rest : Lined q ok e (match (if y.defval ≠ .null then Action.define d else .undefine) with
            | .bad => none | .abort => some (PAM_ABORT, e) | .define x => put e (y.name ++ '=' :: x) | .undefine => put e y.name)
          (if m3.ptr .defval ≠ .null then define ok e .defval m3 else undefine e m3) := by
        by_cases hnn : y.defval ≠ .null
        · rw [if_pos hnn, if_pos (fun e => hnn (hpd.mp e))]
          exact define_ok q ok e .defval x3 m3 i3 t3 _ _ hn (hdef hnn)
        · rw [if_neg hnn, if_neg (fun e => hnn (fun e' => e (hpd.mpr e')))]
          unfold undefine
          rw [hn]
          simp only
          cases put e y.name with
          | none => exact rfl
          | some re => exact ⟨x3, i3, t3, .inl rfl⟩
      unfold decide'
      cases hyo : y.override with
      | null =>
        rw [hyo] at h3o hov
        cases hov
        have hA : ¬ (m3.ptr .override ≠ .null ∧ m3.text .override = none) := fun hh => hh.1 (ptr_null i3 h3o)
        have hB : ¬ (m3.ptr .override ≠ .null ∧ m3.text .override ≠ some []) := fun hh => hh.1 (ptr_null i3 h3o)
        rw [if_neg hA, if_neg hB, if_neg (fun hh : ([] : Str) ≠ [] => hh rfl)]
        exact rest
      | quote =>
        rw [hyo] at h3o hov
        cases hov
        have ht : m3.text .override = some [] := by unfold M.text; rw [ptr_quote i3 h3o]
        have hA : ¬ (m3.ptr .override ≠ .null ∧ m3.text .override = none) := fun hh => by rw [ht] at hh; cases hh.2
        have hB : ¬ (m3.ptr .override ≠ .null ∧ m3.text .override ≠ some []) := fun hh => hh.2 ht
        rw [if_neg hA, if_neg hB, if_neg (fun hh : ([] : Str) ≠ [] => hh rfl)]
        exact rest
      | text s =>
        rw [hyo] at h3o
        have ht : m3.text .override = some o := text_of i3 h3o
        obtain ⟨k, hk, _⟩ := ptr_text i3 h3o
        have hA : ¬ (m3.ptr .override ≠ .null ∧ m3.text .override = none) := fun hh => by rw [ht] at hh; cases hh.2
        by_cases hoe : o = []
        · subst hoe
          have hB : ¬ (m3.ptr .override ≠ .null ∧ m3.text .override ≠ some []) := fun hh => hh.2 ht
          rw [if_neg hA, if_neg hB, if_neg (fun hh : ([] : Str) ≠ [] => hh rfl)]
          exact rest
        · have hB : m3.ptr .override ≠ .null ∧ m3.text .override ≠ some [] := ⟨by rw [hk]; exact (fun e => by cases e), by rw [ht]; exact fun e => hoe (Option.some.inj e)⟩
          rw [if_neg hA, if_pos hB, if_pos hoe]
          exact define_ok q ok e .override x3 m3 i3 t3 _ _ hn ht

theorem cleanVal_ok {q x m} (h : Inv q x m) (i : Slot) : ∃ m', cleanVal i m = some m' ∧ Inv q (upd x i .null) m' := by
  unfold cleanVal
  by_cases hp : m.ptr i ≠ .quote
  · rw [if_pos hp]
    exact inv_free h i (fun e => hp (ptr_quote h e))
  · rw [if_neg hp]
    refine ⟨_, rfl, inv_point h i .null .null (.inl ⟨rfl, rfl⟩) ?_⟩
    intro _ t ht
    obtain ⟨n, hn, _⟩ := ptr_text h ht
    exact hp (by rw [hn]; exact fun e => by cases e)

theorem cleanVar_ok {q x m} (h : Inv q x m) (ht : x .tmp = .null) : ∃ m', cleanVar m = some m' ∧ Inv q (fun _ => .null) m' := by
  unfold cleanVar
  obtain ⟨m1, h1, i1⟩ := inv_free h .name (fun e => by cases h.nq _ e with | inl e => cases e | inr e => cases e)
  rw [h1]
  simp only
  obtain ⟨m2, h2, i2⟩ := cleanVal_ok i1 .defval
  rw [h2]
  simp only
  obtain ⟨m3, h3, i3⟩ := cleanVal_ok i2 .override
  refine ⟨m3, h3, ?_⟩
  have : upd (upd (upd x .name .null) .defval .null) .override .null = fun _ => Val.null := by
    funext j
    cases j
    · rfl
    · rfl
    · rfl
    · exact ht
  rw [← this]; exact i3

theorem confLines_ok (q : Bool) (ok moves : Nat → Bool) (w : Who) : ∀ (ls : List Str) (c : Int) (e : PEnv) (m : M), Inv q (fun _ => .null) m → (q = true → ∀ l ∈ ls, '"' ∉ l ∨ ∀ o, occurs (word o) l ≤ 1) →
    match confLines ok moves w c e ls m with
    | .misuse => False
    | .env => Env.confLines w c e ls = none
    | .ok (r, e', m') => ∃ x, Inv q x m' ∧ x .tmp = .null ∧ (Env.confLines w c e ls = some (r, e') ∨ (r = PAM_BUF_ERR ∧ Short ok))
  | [], c, e, m, h, _ => ⟨_, h, rfl, .inl rfl⟩
  | l :: ls, c, e, m, h, hq => by
    have hl := confLine_ok q ok moves w e l m h (fun e => hq e l (List.mem_cons_self ..))
    rw [confLines, Env.confLines]
    generalize confLine ok moves w e l m = rl at hl
    cases rl with
    | misuse => exact hl.elim
    | env => change Env.confLine w e l = none at hl; rw [hl]
    | ok x =>
      obtain ⟨r, e', m'⟩ := x
      obtain ⟨x, hi, ht, hc⟩ := hl
      simp only
      rcases hc with hc | ⟨rfl, rfl, hs⟩
      · rw [hc]
        simp only
        by_cases hb : r ≠ PAM_SUCCESS ∧ r ≠ BAD_LINE ∧ r ≠ PAM_BAD_ITEM
        · rw [if_pos hb, if_pos hb]
          exact ⟨x, hi, ht, .inl rfl⟩
        · rw [if_neg hb, if_neg hb]
          obtain ⟨m2, h2, i2⟩ := cleanVar_ok hi ht
          rw [h2]
          exact confLines_ok q ok moves w ls r e' m2 i2 (fun e l hl => hq e l (List.mem_cons_of_mem _ hl))
      · rw [if_pos (show PAM_BUF_ERR ≠ PAM_SUCCESS ∧ PAM_BUF_ERR ≠ BAD_LINE ∧ PAM_BUF_ERR ≠ PAM_BAD_ITEM by decide)]
        exact ⟨x, hi, ht, .inr ⟨rfl, hs⟩⟩

theorem start_ok (q : Bool) : Inv q (fun _ => .null) M.start :=
  ⟨fun _ => rfl, fun _ _ _ h => (by cases h), fun _ _ => rfl, fun _ _ h => absurd rfl h, fun _ h => by cases h⟩

end Pam.Env.Owner
