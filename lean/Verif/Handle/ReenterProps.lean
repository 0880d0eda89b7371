import Verif.Handle.Reenter
/-
C195: module data whose cleanup functions use the module data.
-/
namespace Pam.Handle.Reenter

namespace Spec

/-- Cleanup functions never come back to the name they clean: names have ranks, and a cleanup function that is stored under a name sets only names of a smaller rank.
    `ok n c` says that the cleanup function `c` may be stored under `n`. -/
structure Ranked (code : Code) where
  rank : Str → Nat
  ok : Str → Nat → Prop
  down : ∀ n c, ok n c → ∀ data status m d c' mem, Op.set m d c' mem ∈ code c data status → rank m < rank n ∧ ∀ c2, c' = some c2 → ok m c2

/-- the calls of the modules keep to the ranks -/
def Keeps {code : Code} (R : Ranked code) (ops : List Op) : Prop := ∀ n d c mem, Op.set n d c mem ∈ ops → ∀ c2, c = some c2 → R.ok n c2

/-- the datum of the last successful call for a name -/
def last (taken : List (Str × Nat × Option Nat)) (n : Str) : Option Nat := ((taken.filter (fun t => t.1 = n)).getLast?).map (·.2.1)

/-- does the call number `k` have a cleanup function -/
def Cleans (taken : List (Str × Nat × Option Nat)) (k : Nat) : Prop := ∃ n d c, taken[k]? = some (n, d, some c)

end Spec

/-- the numbers of the data that still wait for their cleanup function; `P` are the entries whose cleanup function runs -/
def live (P : List Nat) (l : List Entry) : List Nat := (l.filter (fun e => e.cleanup.isSome && !P.contains e.at_)).map (·.id)

/-- 1 if the call number `k` has a cleanup function -/
def due (taken : List (Str × Nat × Option Nat)) (k : Nat) : Nat :=
  match taken[k]? with
  | some (_, _, some _) => 1
  | _ => 0

structure Inv {code : Code} (R : Spec.Ranked code) (P : List Nat) (s : St) : Prop where
  module : s.app = false
  none_freed : s.freed = []
  addr : (s.list.map (·.at_)).Nodup
  names : (s.list.map (·.name)).Nodup
  below : ∀ e ∈ s.list, e.at_ < s.list.length
  pend : ∀ a ∈ P, a < s.list.length
  fits : ∀ e ∈ s.list, ∀ c, e.cleanup = some c → R.ok e.name c
  num : ∀ k, s.log.count k + (live P s.list).count k = due s.taken k
  last : ∀ n, (s.list.find? (fun e => e.name = n)).map (·.data) = Spec.last s.taken n

theorem locate_nil (n : Str) : ∀ l, locate [] n l = .ok (l.find? (fun e => e.name = n))
  | [] => rfl
  | e :: r => by
    rw [locate, List.find?_cons]
    by_cases h : e.name = n
    · simp [h]
    · simp [h, locate_nil n r]

theorem due_append (t : List (Str × Nat × Option Nat)) (x : Str × Nat × Option Nat) (k : Nat) :
    due (t ++ [x]) k = due t k + if k = t.length then (if x.2.2.isSome then 1 else 0) else 0 := by
  unfold due
  by_cases h : k < t.length
  · rw [List.getElem?_append_left h, if_neg (by omega)]
    rfl
  · rw [List.getElem?_append_right (by omega)]
    have h0 : t[k]? = none := List.getElem?_eq_none (by omega)
    rw [h0]
    by_cases hk : k = t.length
    · subst hk
      obtain ⟨a, b, c⟩ := x
      cases c <;> simp
    · have : ([x] : List _)[k - t.length]? = none := List.getElem?_eq_none (by simp only [List.length_singleton]; omega)
      rw [this, if_neg hk]

theorem last_append (t : List (Str × Nat × Option Nat)) (n : Str) (d : Nat) (c : Option Nat) (m : Str) :
    Spec.last (t ++ [(n, d, c)]) m = if n = m then some d else Spec.last t m := by
  unfold Spec.last
  rw [List.filter_append]
  by_cases h : n = m
  · simp [h]
  · simp [h]

theorem live_append (P : List Nat) (l m : List Entry) : live P (l ++ m) = live P l ++ live P m := by
  simp [live]

theorem live_cons (P : List Nat) (e : Entry) (l : List Entry) :
    live P (e :: l) = (if e.cleanup.isSome && !P.contains e.at_ then [e.id] else []) ++ live P l := by
  unfold live
  rw [List.filter_cons]
  split <;> simp

theorem live_other {P : List Nat} {a : Nat} {l : List Entry} (h : ∀ e ∈ l, e.at_ ≠ a) : live (a :: P) l = live P l := by
  unfold live
  congr 1
  apply List.filter_congr
  intro e he
  simp [h e he]

theorem store_other {l : List Entry} {a d : Nat} {c : Option Nat} {i : Nat} (h : ∀ e ∈ l, e.at_ ≠ a) : store l a d c i = l := by
  unfold store
  rw [List.map_congr_left (g := id)]
  · exact List.map_id l
  · intro e he; simp [h e he]

theorem store_split {l1 l2 : List Entry} {e : Entry} {d : Nat} {c : Option Nat} {i : Nat}
    (h1 : ∀ x ∈ l1, x.at_ ≠ e.at_) (h2 : ∀ x ∈ l2, x.at_ ≠ e.at_) :
    store (l1 ++ e :: l2) e.at_ d c i = l1 ++ { e with data := d, cleanup := c, id := i } :: l2 := by
  have e1 := store_other (d := d) (c := c) (i := i) h1
  have e2 := store_other (d := d) (c := c) (i := i) h2
  unfold store at *
  rw [List.map_append, List.map_cons, e1, e2, if_pos rfl]

theorem split_entry {l : List Entry} {e : Entry} (he : e ∈ l) (hn : (l.map (·.at_)).Nodup) :
    ∃ l1 l2, l = l1 ++ e :: l2 ∧ (∀ x ∈ l1, x.at_ ≠ e.at_) ∧ (∀ x ∈ l2, x.at_ ≠ e.at_) := by
  obtain ⟨l1, l2, rfl⟩ := List.append_of_mem he
  refine ⟨l1, l2, rfl, ?_, ?_⟩
  · intro x hx hxe
    rw [List.map_append, List.nodup_append] at hn
    exact hn.2.2 x.at_ (List.mem_map.mpr ⟨x, hx, rfl⟩) e.at_ (by simp) hxe
  · intro x hx hxe
    rw [List.map_append, List.nodup_append, List.map_cons, List.nodup_cons] at hn
    exact hn.2.1.1 (List.mem_map.mpr ⟨x, hx, hxe⟩)

/-- what a call leaves of the list it found: entries of a greater rank stay, and an address keeps its name -/
structure Grows (hi : Str → Prop) (s s' : St) : Prop where
  len : s.list.length ≤ s'.list.length
  stay : ∀ e ∈ s.list, hi e.name → e ∈ s'.list
  name : ∀ e' ∈ s'.list, e'.at_ < s.list.length → ∃ e ∈ s.list, e.at_ = e'.at_ ∧ e.name = e'.name
  taken : s.taken <+: s'.taken

theorem Grows.refl {hi : Str → Prop} (s : St) : Grows hi s s := ⟨Nat.le_refl _, fun _ h _ => h, fun e h _ => ⟨e, h, rfl, rfl⟩, List.prefix_rfl⟩

theorem Grows.trans {hi : Str → Prop} {a b c : St} (h : Grows hi a b) (g : Grows hi b c) : Grows hi a c :=
  ⟨Nat.le_trans h.len g.len, fun e he hr => g.stay e (h.stay e he hr) hr, fun e he hl => by
    obtain ⟨e1, h1, h2, h3⟩ := g.name e he (Nat.lt_of_lt_of_le hl h.len)
    obtain ⟨e2, h4, h5, h6⟩ := h.name e1 h1 (by omega)
    exact ⟨e2, h4, h5.trans h2, h6.trans h3⟩, h.taken.trans g.taken⟩

/-- names of pending entries have a rank above `r` -/
def Above {code : Code} (R : Spec.Ranked code) (P : List Nat) (r : Nat) (s : St) : Prop := ∀ e ∈ s.list, e.at_ ∈ P → r ≤ R.rank e.name

theorem above_grows {code : Code} {R : Spec.Ranked code} {P : List Nat} {r : Nat} {hi : Str → Prop} {s s' : St} (h : Above R P r s) (g : Grows hi s s')
    (hp : ∀ a ∈ P, a < s.list.length) : Above R P r s' := by
  intro e he ha
  obtain ⟨e1, h1, h2, h3⟩ := g.name e he (hp _ ha)
  rw [← h3]
  exact h e1 h1 (h2 ▸ ha)

theorem ops_ok {code : Code} (R : Spec.Ranked code) (P : List Nat) (r : Nat) (set : St → Str → Nat → Option Nat → Bool → Out (Int × St))
    (hset : ∀ (s : St) n d c mem, R.rank n < r → (∀ c2, c = some c2 → R.ok n c2) → Inv R P s → Above R P r s →
      ∃ code s', set s n d c mem = .ok (code, s') ∧ Inv R P s' ∧ Grows (fun n => r ≤ R.rank n) s s') :
    ∀ (ops : List Op) (s : St), (∀ n d c mem, Op.set n d c mem ∈ ops → R.rank n < r ∧ ∀ c2, c = some c2 → R.ok n c2) → Inv R P s → Above R P r s →
      ∃ s', runOps set ops s = .ok s' ∧ Inv R P s' ∧ Grows (fun n => r ≤ R.rank n) s s'
  | [], s, _, hi, _ => ⟨s, rfl, hi, .refl s⟩
  | .set n d c mem :: ops, s, hr, hi, ha => by
    obtain ⟨h1, h2⟩ := hr n d c mem List.mem_cons_self
    obtain ⟨_, s1, e1, i1, g1⟩ := hset s n d c mem h1 h2 hi ha
    obtain ⟨s2, e2, i2, g2⟩ := ops_ok R P r set hset ops s1 (fun n d c mem hm => hr n d c mem (List.mem_cons_of_mem _ hm)) i1 (above_grows ha g1 hi.pend)
    exact ⟨s2, by rw [runOps, e1]; exact e2, i2, g1.trans g2⟩
  | .get n :: ops, s, hr, hi, ha => by
    obtain ⟨s2, e2, i2, g2⟩ := ops_ok R P r set hset ops s (fun n d c mem hm => hr n d c mem (List.mem_cons_of_mem _ hm)) hi ha
    refine ⟨s2, ?_, i2, g2⟩
    rw [runOps]
    have : ∃ x, getData s n = .ok x := by
      unfold getData
      rw [hi.module, hi.none_freed, locate_nil]
      cases s.list.find? (fun e => e.name = n) <;> exact ⟨_, rfl⟩
    obtain ⟨x, hx⟩ := this
    rw [hx]; exact e2

theorem live_count_split (P : List Nat) (l1 l2 : List Entry) (e : Entry) (k : Nat) :
    (live P (l1 ++ e :: l2)).count k = (live P l1).count k + ((if e.cleanup.isSome && !P.contains e.at_ then [e.id] else []).count k + (live P l2).count k) := by
  rw [live_append, live_cons, List.count_append, List.count_append]

/-- The entry is marked as being cleaned. -/
theorem inv_begin {code : Code} {R : Spec.Ranked code} {P : List Nat} {s : St} {e : Entry} {c : Nat} (hi : Inv R P s) (he : e ∈ s.list) (hP : e.at_ ∉ P)
    (hc : e.cleanup = some c) : Inv R (e.at_ :: P) { s with log := s.log ++ [e.id] } where
  module := hi.module
  none_freed := hi.none_freed
  addr := hi.addr
  names := hi.names
  below := hi.below
  pend := by
    intro a ha
    rcases List.mem_cons.mp ha with rfl | h
    · exact hi.below e he
    · exact hi.pend a h
  fits := hi.fits
  num := by
    intro k
    obtain ⟨l1, l2, hl, h1, h2⟩ := split_entry he hi.addr
    have hk := hi.num k
    show (s.log ++ [e.id]).count k + (live (e.at_ :: P) s.list).count k = due s.taken k
    rw [hl] at hk ⊢
    rw [live_count_split] at hk ⊢
    rw [live_other h1, live_other h2, List.count_append]
    have hp : P.contains e.at_ = false := by simpa using hP
    simp only [hc, Option.isSome_some, hp, Bool.not_false, Bool.and_self, if_true, List.contains_cons, beq_self_eq_true, Bool.true_or, Bool.not_true,
      Bool.and_false, Bool.false_eq_true, if_false, List.count_nil] at hk ⊢
    omega
  last := hi.last

/-- The entry gets its new datum. -/
theorem inv_store {code : Code} {R : Spec.Ranked code} {P : List Nat} {s : St} {e : Entry} {n : Str} {d : Nat} {c : Option Nat} (Q : List Nat)
    (hQ : Q = e.at_ :: P ∨ Q = P ∧ e.cleanup = none) (hi : Inv R Q s) (he : e ∈ s.list) (hP : e.at_ ∉ P)
    (hn : e.name = n) (hc : ∀ c2, c = some c2 → R.ok n c2) :
    Inv R P { s with list := store s.list e.at_ d c s.taken.length, taken := s.taken ++ [(n, d, c)] } ∧
      Grows (fun m => m ≠ n) s { s with list := store s.list e.at_ d c s.taken.length, taken := s.taken ++ [(n, d, c)] } := by
  obtain ⟨l1, l2, hl, h1, h2⟩ := split_entry he hi.addr
  have hs : store s.list e.at_ d c s.taken.length = l1 ++ { e with data := d, cleanup := c, id := s.taken.length } :: l2 := by
    rw [hl]; exact store_split h1 h2
  rw [hs]
  have hlen : (l1 ++ { e with data := d, cleanup := c, id := s.taken.length } :: l2).length = s.list.length := by rw [hl]; simp
  refine ⟨⟨hi.module, hi.none_freed, ?_, ?_, ?_, ?_, ?_, ?_, ?_⟩, ?_, ?_, ?_, List.prefix_append _ _⟩
  · have := hi.addr; rw [hl] at this; simpa using this
  · have := hi.names; rw [hl] at this; simpa using this
  · intro x hx
    show x.at_ < (l1 ++ _ :: l2).length
    rw [hlen]
    have hx : x ∈ l1 ++ { e with data := d, cleanup := c, id := s.taken.length } :: l2 := hx
    rw [List.mem_append, List.mem_cons] at hx
    rcases hx with hx | rfl | hx
    · exact hi.below x (by rw [hl]; simp [hx])
    · exact hi.below e he
    · exact hi.below x (by rw [hl]; simp [hx])
  · intro a ha
    show a < (l1 ++ _ :: l2).length
    rw [hlen]
    refine hi.pend a ?_
    rcases hQ with rfl | ⟨rfl, _⟩
    · exact List.mem_cons_of_mem _ ha
    · exact ha
  · intro x hx c2 hx2
    have hx : x ∈ l1 ++ { e with data := d, cleanup := c, id := s.taken.length } :: l2 := hx
    rw [List.mem_append, List.mem_cons] at hx
    rcases hx with hx | rfl | hx
    · exact hi.fits x (by rw [hl]; simp [hx]) c2 hx2
    · show R.ok e.name c2
      rw [hn]; exact hc c2 hx2
    · exact hi.fits x (by rw [hl]; simp [hx]) c2 hx2
  · intro k
    have hk := hi.num k
    show s.log.count k + (live P (l1 ++ _ :: l2)).count k = due (s.taken ++ [(n, d, c)]) k
    rw [due_append, ← hk, hl, live_count_split, live_count_split]
    have q1 : live Q l1 = live P l1 := by
      rcases hQ with rfl | ⟨rfl, _⟩
      · exact live_other h1
      · exact rfl
    have q2 : live Q l2 = live P l2 := by
      rcases hQ with rfl | ⟨rfl, _⟩
      · exact live_other h2
      · exact rfl
    have q3 : (if e.cleanup.isSome && !Q.contains e.at_ then [e.id] else []).count k = 0 := by
      rcases hQ with rfl | ⟨rfl, h⟩
      · simp
      · simp [h]
    have hp : P.contains e.at_ = false := by simpa using hP
    rw [q1, q2, q3]
    simp only [hp, Bool.not_false, Bool.and_true]
    have q4 : (if c.isSome = true then [s.taken.length] else []).count k = if k = s.taken.length then (if c.isSome = true then 1 else 0) else 0 := by
      by_cases hcs : c.isSome = true
      · rw [if_pos hcs, if_pos hcs, List.count_singleton]
        by_cases hk2 : k = s.taken.length
        · simp [hk2]
        · rw [if_neg (by simpa using (fun h => hk2 h.symm)), if_neg hk2]
      · rw [if_neg hcs, if_neg hcs]; simp
    rw [q4]
    omega
  · intro m
    show (List.find? _ (l1 ++ _ :: l2)).map (·.data) = Spec.last (s.taken ++ [(n, d, c)]) m
    rw [last_append]
    have hm := hi.last m
    rw [hl, List.find?_append, List.find?_cons] at hm
    rw [List.find?_append, List.find?_cons]
    by_cases h : n = m
    · rw [if_pos h]
      have hf : l1.find? (fun x => x.name = m) = none := by
        rw [List.find?_eq_none]
        intro x hx hxm
        have hnn := hi.names
        rw [hl, List.map_append, List.nodup_append] at hnn
        refine hnn.2.2 x.name (List.mem_map.mpr ⟨x, hx, rfl⟩) e.name (by simp) ?_
        rw [hn, h]; simpa using hxm
      rw [hf]
      have : decide (e.name = m) = true := by simp [hn, h]
      simp only [this, Option.none_or, Option.map_some]
    · rw [if_neg h, ← hm]
      have : decide (e.name = m) = false := by simp [hn, h]
      simp only [this]
  · show s.list.length ≤ (l1 ++ _ :: l2).length
    rw [hlen]; exact Nat.le_refl _
  · intro x hx hxn
    show x ∈ l1 ++ _ :: l2
    rw [hl, List.mem_append, List.mem_cons] at hx
    rw [List.mem_append, List.mem_cons]
    rcases hx with hx | rfl | hx
    · exact Or.inl hx
    · exact absurd hn hxn
    · exact Or.inr (Or.inr hx)
  · intro x hx _
    have hx : x ∈ l1 ++ { e with data := d, cleanup := c, id := s.taken.length } :: l2 := hx
    rw [List.mem_append, List.mem_cons] at hx
    rcases hx with hx | rfl | hx
    · exact ⟨x, by rw [hl]; simp [hx], rfl, rfl⟩
    · exact ⟨e, he, rfl, rfl⟩
    · exact ⟨x, by rw [hl]; simp [hx], rfl, rfl⟩

/-- A new entry. -/
theorem inv_push {code : Code} {R : Spec.Ranked code} {P : List Nat} {s : St} {n : Str} {d : Nat} {c : Option Nat} (hi : Inv R P s)
    (hf : s.list.find? (fun e => e.name = n) = none) (hc : ∀ c2, c = some c2 → R.ok n c2) :
    Inv R P { s with list := ⟨s.list.length, n, d, c, s.taken.length⟩ :: s.list, taken := s.taken ++ [(n, d, c)] } := by
  refine ⟨hi.module, hi.none_freed, ?_, ?_, ?_, ?_, ?_, ?_, ?_⟩
  · show ((_ :: s.list).map (·.at_)).Nodup
    rw [List.map_cons, List.nodup_cons]
    refine ⟨?_, hi.addr⟩
    intro h
    obtain ⟨x, hx, hxe⟩ := List.mem_map.mp h
    have := hi.below x hx
    simp only at hxe
    omega
  · show ((_ :: s.list).map (·.name)).Nodup
    rw [List.map_cons, List.nodup_cons]
    refine ⟨?_, hi.names⟩
    intro h
    obtain ⟨x, hx, hxe⟩ := List.mem_map.mp h
    have := List.find?_eq_none.mp hf x hx
    simp only at hxe
    simp [hxe] at this
  · intro x hx
    show x.at_ < (_ :: s.list).length
    rw [List.length_cons]
    rcases List.mem_cons.mp hx with rfl | h
    · exact Nat.lt_succ_self _
    · have := hi.below x h; omega
  · intro a ha
    show a < (_ :: s.list).length
    rw [List.length_cons]
    have := hi.pend a ha; omega
  · intro x hx c2 hx2
    rcases List.mem_cons.mp hx with rfl | h
    · exact hc c2 hx2
    · exact hi.fits x h c2 hx2
  · intro k
    show s.log.count k + (live P (_ :: s.list)).count k = due (s.taken ++ [(n, d, c)]) k
    rw [due_append, ← hi.num k, live_cons, List.count_append]
    have hp : P.contains s.list.length = false := by
      have : s.list.length ∉ P := fun h => Nat.lt_irrefl _ (hi.pend _ h)
      simpa using this
    simp only [hp, Bool.not_false, Bool.and_true]
    have q4 : (if c.isSome = true then [s.taken.length] else []).count k = if k = s.taken.length then (if c.isSome = true then 1 else 0) else 0 := by
      by_cases hcs : c.isSome = true
      · rw [if_pos hcs, if_pos hcs, List.count_singleton]
        by_cases hk2 : k = s.taken.length
        · simp [hk2]
        · rw [if_neg (by simpa using (fun h => hk2 h.symm)), if_neg hk2]
      · rw [if_neg hcs, if_neg hcs]; simp
    rw [q4]
    omega
  · intro m
    show ((_ :: s.list).find? _).map (·.data) = Spec.last (s.taken ++ [(n, d, c)]) m
    rw [last_append, List.find?_cons]
    by_cases h : n = m
    · simp [h]
    · simp only [h, decide_false, if_false]
      exact hi.last m

theorem set_ok {code : Code} (R : Spec.Ranked code) : ∀ (fuel : Nat) (P : List Nat) (s : St) (n : Str) (d : Nat) (c : Option Nat) (mem : Bool),
    R.rank n < fuel → (∀ c2, c = some c2 → R.ok n c2) → Inv R P s → Above R P (R.rank n + 1) s →
    ∃ r s', setData code fuel s n d c mem = .ok (r, s') ∧ Inv R P s' ∧ Grows (fun m => R.rank n + 1 ≤ R.rank m) s s' ∧
      ((r = PAM_SUCCESS ∧ ∃ t, s'.taken = t ++ [(n, d, c)]) ∨ (r = PAM_BUF_ERR ∧ mem = false ∧ s' = s))
  | 0, _, _, _, _, _, _, h, _, _, _ => absurd h (Nat.not_lt_zero _)
  | fuel + 1, P, s, n, d, c, mem, hr, hc, hi, ha => by
    have hloc : locate s.freed n s.list = .ok (s.list.find? (fun e => e.name = n)) := by rw [hi.none_freed, locate_nil]
    rw [setData, if_neg (by rw [hi.module]; exact Bool.false_ne_true), hloc]
    cases hf : s.list.find? (fun e => e.name = n) with
    | none =>
      cases mem with
      | false => exact ⟨_, s, rfl, hi, .refl s, Or.inr ⟨rfl, rfl, rfl⟩⟩
      | true =>
        refine ⟨_, _, rfl, inv_push hi hf hc, ⟨?_, ?_, ?_, List.prefix_append _ _⟩, Or.inl ⟨rfl, _, rfl⟩⟩
        · exact Nat.le_succ _
        · intro e he _; exact List.mem_cons_of_mem _ he
        · intro e he hl
          rcases List.mem_cons.mp he with rfl | h
          · exact absurd hl (Nat.lt_irrefl _)
          · exact ⟨e, h, rfl, rfl⟩
    | some e =>
      have he : e ∈ s.list := List.mem_of_find?_eq_some hf
      have hn : e.name = n := by simpa using List.find?_some hf
      have hP : e.at_ ∉ P := fun h => by have := ha e he h; rw [hn] at this; omega
      simp only
      cases hcl : e.cleanup with
      | none =>
        rw [cleanEntry, hcl]
        obtain ⟨i2, g2⟩ := inv_store (d := d) (c := c) P (Or.inr ⟨rfl, hcl⟩) hi he hP hn hc
        exact ⟨_, _, rfl, i2, ⟨g2.len, fun x hx hh => g2.stay x hx (fun h => by rw [h] at hh; omega), g2.name, g2.taken⟩, Or.inl ⟨rfl, _, rfl⟩⟩
      | some c0 =>
        rw [cleanEntry, hcl]
        have i1 := inv_begin hi he hP hcl
        have a1 : Above R (e.at_ :: P) (R.rank n) { s with log := s.log ++ [e.id] } := by
          intro x hx hxa
          rcases List.mem_cons.mp hxa with h | h
          · obtain ⟨l1, l2, hl, h1, h2⟩ := split_entry he hi.addr
            have hx : x ∈ s.list := hx
            rw [hl, List.mem_append, List.mem_cons] at hx
            rcases hx with hx | rfl | hx
            · exact absurd h (h1 x hx)
            · rw [hn]; exact Nat.le_refl _
            · exact absurd h (h2 x hx)
          · exact Nat.le_of_succ_le (ha x hx h)
        have hops : ∀ m d' c' mem', Op.set m d' c' mem' ∈ code c0 e.data 0x20000000 → R.rank m < R.rank n ∧ ∀ c2, c' = some c2 → R.ok m c2 := by
          intro m d' c' mem' hm
          have := R.down e.name c0 (hi.fits e he c0 hcl) e.data 0x20000000 m d' c' mem' hm
          rwa [hn] at this
        obtain ⟨s1, e1, i2, g1⟩ := ops_ok R (e.at_ :: P) (R.rank n) (setData code fuel)
          (fun s n' d c mem h1 h2 h3 h4 => by
            obtain ⟨r, s', x1, x2, x3, _⟩ := set_ok R fuel (e.at_ :: P) s n' d c mem (by omega) h2 h3 (fun x hx hxa => Nat.le_trans h1 (h4 x hx hxa))
            exact ⟨r, s', x1, x2, ⟨x3.len, fun x hx hh => x3.stay x hx (Nat.le_trans h1 hh), x3.name, x3.taken⟩⟩)
          (code c0 e.data 0x20000000) { s with log := s.log ++ [e.id] } hops i1 a1
        simp only [e1]
        have he1 : e ∈ s1.list := g1.stay e he (by rw [hn]; exact Nat.le_refl _)
        obtain ⟨i3, g3⟩ := inv_store (d := d) (c := c) (e.at_ :: P) (Or.inl rfl) i2 he1 hP hn hc
        refine ⟨_, _, rfl, i3, ?_, Or.inl ⟨rfl, _, rfl⟩⟩
        have g1' : Grows (fun m => R.rank n + 1 ≤ R.rank m) s s1 := ⟨g1.len, fun x hx hh => g1.stay x hx (Nat.le_of_succ_le hh), g1.name, g1.taken⟩
        exact g1'.trans ⟨g3.len, fun x hx hh => g3.stay x hx (fun h => by rw [h] at hh; omega), g3.name, g3.taken⟩

theorem inv_empty {code : Code} (R : Spec.Ranked code) : Inv R [] {} :=
  ⟨rfl, rfl, List.nodup_nil, List.nodup_nil, by simp, by simp, by simp, by intro k; simp [live, due], by intro n; rfl⟩

theorem inv_get {code : Code} {R : Spec.Ranked code} {P : List Nat} {s : St} (hi : Inv R P s) (n : Str) :
    getData s n = .ok (match Spec.last s.taken n with | some d => (PAM_SUCCESS, some d) | none => (PAM_NO_MODULE_DATA, none)) := by
  unfold getData
  rw [if_neg (by rw [hi.module]; exact Bool.false_ne_true), hi.none_freed, locate_nil, ← hi.last n]
  cases s.list.find? (fun e => e.name = n) <;> rfl

/-- the names that the modules set have a rank below the stack -/
def Spec.Fits {code : Code} (R : Spec.Ranked code) (fuel : Nat) (ops : List Op) : Prop := ∀ n d c mem, Op.set n d c mem ∈ ops → R.rank n < fuel

theorem top_ok {code : Code} (R : Spec.Ranked code) (fuel : Nat) : ∀ (ops : List Op) (s : St), Spec.Fits R fuel ops → Spec.Keeps R ops → Inv R [] s →
    ∃ s', runOps (setData code fuel) ops s = .ok s' ∧ Inv R [] s' ∧ s.taken <+: s'.taken ∧ ∀ n d c, Op.set n d c true ∈ ops → (n, d, c) ∈ s'.taken
  | [], s, _, _, hi => ⟨s, rfl, hi, List.prefix_rfl, by simp⟩
  | .set n d c mem :: ops, s, hf, hk, hi => by
    obtain ⟨r, s1, x1, x2, x3, x4⟩ := set_ok R fuel [] s n d c mem (hf n d c mem List.mem_cons_self) (hk n d c mem List.mem_cons_self) hi
      (fun x _ hxa => absurd hxa (by simp))
    obtain ⟨s2, y1, y2, y3, y4⟩ := top_ok R fuel ops s1 (fun n d c mem h => hf n d c mem (List.mem_cons_of_mem _ h))
      (fun n d c mem h => hk n d c mem (List.mem_cons_of_mem _ h)) x2
    refine ⟨s2, by rw [runOps, x1]; exact y1, y2, x3.taken.trans y3, ?_⟩
    intro n' d' c' hm
    rcases List.mem_cons.mp hm with h | h
    · cases h
      rcases x4 with ⟨_, t, ht⟩ | ⟨_, h, _⟩
      · exact y3.subset (by rw [ht]; simp)
      · cases h
    · exact y4 n' d' c' h
  | .get n :: ops, s, hf, hk, hi => by
    obtain ⟨s2, y1, y2, y3, y4⟩ := top_ok R fuel ops s (fun n d c mem h => hf n d c mem (List.mem_cons_of_mem _ h))
      (fun n d c mem h => hk n d c mem (List.mem_cons_of_mem _ h)) hi
    refine ⟨s2, by rw [runOps, inv_get hi n]; exact y1, y2, y3, ?_⟩
    intro n' d' c' hm
    rcases List.mem_cons.mp hm with h | h
    · cases h
    · exact y4 n' d' c' h

theorem ops_app (code : Code) (fuel : Nat) {s : St} (ha : s.app = true) : ∀ ops, runOps (setData code (fuel + 1)) ops s = .ok s
  | [] => rfl
  | .set n d c mem :: ops => by
    rw [runOps, setData, if_pos ha]; exact ops_app code fuel ha ops
  | .get n :: ops => by
    rw [runOps, getData, if_pos ha]; exact ops_app code fuel ha ops

theorem clean_app (code : Code) (fuel : Nat) (status : Int) (e : Entry) {s : St} (ha : s.app = true) :
    cleanEntry (setData code (fuel + 1)) code status e s = .ok { s with log := s.log ++ (if e.cleanup.isSome then [e.id] else []) } := by
  unfold cleanEntry
  cases e.cleanup with
  | none => simp
  | some c => simp only [Option.isSome_some, if_true]; exact ops_app code fuel (s := { s with log := s.log ++ [e.id] }) ha _

theorem free_app (code : Code) (fuel : Nat) (status : Int) (s0 : St) (ha : s0.app = true) (hn : (s0.list.map (·.at_)).Nodup) :
    ∀ (l2 l1 : List Entry) (fr lg : List Nat), s0.list = l1 ++ l2 → (∀ e ∈ l2, e.at_ ∉ fr) →
      freeLoop code (fuel + 1) status (l2.map (·.at_)) { s0 with freed := fr, log := lg } =
        .ok { s0 with freed := fr ++ l2.map (·.at_), log := lg ++ (l2.filter (fun e => e.cleanup.isSome)).map (·.id) }
  | [], l1, fr, lg, _, _ => by simp [freeLoop]
  | e :: l2, l1, fr, lg, hl, hfr => by
    have hc : fr.contains e.at_ = false := by simpa using hfr e List.mem_cons_self
    have hfd : s0.list.find? (fun x => x.at_ = e.at_) = some e := by
      rw [hl, List.find?_append, List.find?_cons]
      have : l1.find? (fun x => x.at_ = e.at_) = none := by
        rw [List.find?_eq_none]
        intro x hx hxe
        rw [hl, List.map_append, List.nodup_append] at hn
        exact hn.2.2 x.at_ (List.mem_map.mpr ⟨x, hx, rfl⟩) e.at_ (by simp) (by simpa using hxe)
      rw [this]; simp
    rw [List.map_cons, freeLoop]
    simp only [hc, Bool.false_eq_true, if_false, hfd]
    rw [clean_app code fuel status e (s := { s0 with freed := fr, log := lg }) ha]
    simp only
    rw [free_app code fuel status s0 ha hn l2 (l1 ++ [e]) (fr ++ [e.at_]) (lg ++ if e.cleanup.isSome then [e.id] else []) (by rw [hl]; simp)]
    · rw [List.filter_cons]
      cases e.cleanup <;> simp
    · intro x hx hxf
      rw [List.mem_append, List.mem_singleton] at hxf
      rcases hxf with h | h
      · exact hfr x (List.mem_cons_of_mem _ hx) h
      · rw [hl, List.map_append, List.nodup_append, List.map_cons, List.nodup_cons] at hn
        exact hn.2.1.1 (List.mem_map.mpr ⟨x, hx, h⟩)

/-- C195.  At `pam_end` the cleanup functions may try to set and get whatever they like: each one in the list is called once, in the order of the list, no entry is read after it was
    released, and each is released once.  Their calls change nothing. -/
theorem C195_end (code : Code) (fuel : Nat) (status : Int) (s : St) (ha : s.app = true) (hf : s.freed = []) (hn : (s.list.map (·.at_)).Nodup) :
    ∃ s', endData code (fuel + 1) status s = .ok s' ∧ s'.log = s.log ++ (s.list.filter (fun e => e.cleanup.isSome)).map (·.id) ∧
      s'.freed = s.list.map (·.at_) ∧ s'.list = s.list ∧ s'.taken = s.taken := by
  unfold endData
  rw [if_pos ha]
  have := free_app code fuel status s ha hn s.list [] s.freed s.log rfl (by rw [hf]; simp)
  refine ⟨_, this, rfl, ?_, rfl, rfl⟩
  simp [hf]

/-- C195.  Let cleanup functions set other data, as long as none comes back to a name that is being cleaned.  Then the calls of the modules all return; each of them that has memory is
    carried out; a name has the datum of the last successful call; and when the transaction has ended, each datum that had a cleanup function has been given to it exactly once, those that
    the cleanup functions set included, and each entry has been released once.  In part: without the condition it is false (`C195_self_counterexample`). -/
theorem C195_once_partial (code : Code) (R : Spec.Ranked code) (fuel : Nat) (ops : List Op) (hf : Spec.Fits R (fuel + 1) ops) (hk : Spec.Keeps R ops) (status : Int) :
    ∃ s s', transaction code (fuel + 1) ops = .ok s ∧ endData code (fuel + 1) status s = .ok s' ∧
      (∀ n d c, Op.set n d c true ∈ ops → (n, d, c) ∈ s.taken) ∧
      (∀ n, getData { s with app := false } n =
        .ok (match Spec.last s.taken n with | some d => (PAM_SUCCESS, some d) | none => (PAM_NO_MODULE_DATA, none))) ∧
      (∀ k, Spec.Cleans s.taken k → s'.log.count k = 1) ∧ (∀ k, ¬ Spec.Cleans s.taken k → s'.log.count k = 0) ∧
      s'.freed.Nodup ∧ (∀ e ∈ s.list, e.at_ ∈ s'.freed) := by
  obtain ⟨s, x1, x2, _, x4⟩ := top_ok R (fuel + 1) ops {} hf hk (inv_empty R)
  obtain ⟨s', y1, y2, y3, _, _⟩ := C195_end code fuel status { s with app := true } rfl x2.none_freed x2.addr
  have hs : ({ s with app := false } : St) = s := by have := x2.module; cases s; simp only at this; rw [this]
  have hd : ∀ k, s'.log.count k = due s.taken k := by
    intro k
    rw [y2, ← x2.num k, List.count_append]
    have : live [] s.list = (s.list.filter (fun e => e.cleanup.isSome)).map (·.id) := by simp [live]
    rw [this]
  refine ⟨{ s with app := true }, s', by rw [transaction, x1], y1, x4, ?_, ?_, ?_, ?_, ?_⟩
  · intro n
    show getData { s with app := false } n = _
    rw [hs]; exact inv_get x2 n
  · rintro k ⟨n, d, c, h⟩
    have h : s.taken[k]? = some (n, d, some c) := h
    rw [hd k, due, h]
  · intro k hk
    rw [hd k, due]
    split
    · rename_i n d c h; exact absurd ⟨n, d, c, h⟩ hk
    · rfl
  · rw [y3]; exact x2.addr
  · intro e he
    rw [y3]; exact List.mem_map.mpr ⟨e, he, rfl⟩

/-- C195.  After a successful call the name has the new datum, whatever the old datum's cleanup function did. -/
theorem C195_new_partial (code : Code) (R : Spec.Ranked code) (fuel : Nat) (ops : List Op) (n : Str) (d : Nat) (c : Option Nat)
    (hf : Spec.Fits R (fuel + 1) (ops ++ [.set n d c true])) (hk : Spec.Keeps R (ops ++ [.set n d c true])) :
    ∃ s s', runOps (setData code (fuel + 1)) ops {} = .ok s ∧ setData code (fuel + 1) s n d c true = .ok (PAM_SUCCESS, s') ∧ getData s' n = .ok (PAM_SUCCESS, some d) := by
  obtain ⟨s, x1, x2, _, _⟩ := top_ok R (fuel + 1) ops {} (fun n d c mem h => hf n d c mem (List.mem_append_left _ h))
    (fun n d c mem h => hk n d c mem (List.mem_append_left _ h)) (inv_empty R)
  obtain ⟨r, s', y1, y2, _, y4⟩ := set_ok R (fuel + 1) [] s n d c true (hf n d c true (by simp)) (hk n d c true (by simp)) x2 (fun x _ hxa => absurd hxa (by simp))
  rcases y4 with ⟨rfl, t, ht⟩ | ⟨_, h, _⟩
  · refine ⟨s, s', x1, y1, ?_⟩
    rw [inv_get y2 n, ht, last_append, if_pos rfl]
  · cases h

/-- C195, in full, is false: a cleanup function that clears the name it cleans up, `pam_set_data (pamh, name, NULL, NULL)`, is called again and again by that call; no stack is deep
    enough. -/
theorem C195_self_counterexample :
    ∃ (code : Code) (ops : List Op), ∀ fuel, transaction code fuel ops = .deep := by
  let code : Code := fun _ _ _ => [.set "x".toList 0 none true]
  have key : ∀ (fuel : Nat) (s : St) (d : Nat), s.app = false → s.freed = [] → s.list = [⟨0, "x".toList, 1, some 0, 0⟩] →
      setData code fuel s "x".toList d none true = .deep := by
    intro fuel
    induction fuel with
    | zero => intros; rfl
    | succ k ih =>
      intro s d h1 h2 h3
      rw [setData, if_neg (by rw [h1]; exact Bool.false_ne_true), h2, h3]
      simp only [locate, List.contains_nil, Bool.false_eq_true, if_false, if_true, cleanEntry, code, runOps]
      rw [ih _ 0 (by exact h1) (by exact h2) (by exact h3)]
  refine ⟨code, [.set "x".toList 1 (some 0) true, .set "x".toList 2 none true], fun fuel => ?_⟩
  cases fuel with
  | zero => rfl
  | succ k =>
    unfold transaction
    rw [runOps]
    have h1 : setData code (k + 1) {} "x".toList 1 (some 0) true = .ok (PAM_SUCCESS, { list := [⟨0, "x".toList, 1, some 0, 0⟩], taken := [("x".toList, 1, some 0)] }) := rfl
    rw [h1]
    simp only
    rw [runOps, key (k + 1) _ 2 rfl rfl rfl]

/-! The hypotheses are met: the cleanup function 0, stored under "session", sets "trace" and its cleanup function 1. -/

def exCode : Code := fun c _ _ => if c = 0 then [.get "session".toList, .set "trace".toList 7 (some 1) true] else [.get "trace".toList]

def exRanked : Spec.Ranked exCode where
  rank n := if n = "session".toList then 1 else 0
  ok n c := n = "session".toList ∧ c = 0 ∨ c = 1
  down := by
    rintro n c (⟨rfl, rfl⟩ | rfl) data status m d c' mem hm
    · simp only [exCode, if_true, List.mem_cons, List.not_mem_nil, or_false, reduceCtorEq, false_or, Op.set.injEq] at hm
      obtain ⟨rfl, _, rfl, _⟩ := hm
      exact ⟨by decide, fun c2 h => Or.inr (Option.some.inj h).symm⟩
    · simp [exCode] at hm

def exOps : List Op := [.set "session".toList 1 (some 0) true, .set "session".toList 2 (some 0) true, .get "trace".toList, .set "session".toList 3 none true]

example : Spec.Fits exRanked 2 exOps ∧ Spec.Keeps exRanked exOps := by
  constructor
  · intro n d c mem _
    show (if n = "session".toList then 1 else 0) < 2
    split <;> decide
  · intro n d c mem hm c2 hc
    simp only [exOps, List.mem_cons, List.not_mem_nil, or_false, reduceCtorEq, false_or, Op.set.injEq] at hm
    rcases hm with ⟨rfl, _, rfl, _⟩ | ⟨rfl, _, rfl, _⟩ | ⟨rfl, _, rfl, _⟩
    · exact Or.inl ⟨rfl, (Option.some.inj hc).symm⟩
    · exact Or.inl ⟨rfl, (Option.some.inj hc).symm⟩
    · cases hc

/-- the first two data of "session" are cleaned, then the first of "trace" by the second cleanup function of "session", and the second of "trace" at the end -/
example : (match transaction exCode 2 exOps with
    | .ok s => match endData exCode 2 0 s with | .ok s' => some (s'.log, s'.freed) | _ => none
    | _ => none) = some ([0, 2, 1, 3], [1, 0]) := by decide +kernel

end Pam.Handle.Reenter
