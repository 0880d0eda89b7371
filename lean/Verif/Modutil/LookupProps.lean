import Verif.Modutil.Lookup
/-
C149 and C150: lookups of accounts by modules.
-/
namespace Pam.Modutil
open Pam Pam.Handle

namespace Spec

/-- the numbers that tell the data of a handle apart are right: every datum has its own, which is new, and is not among those cleaned up.  So it is at the start, and
`C150_numbers` shows that it stays so. -/
structure Numbered (h : Inner) : Prop where
  nodup : (h.data.map Datum.id).Nodup
  fresh : ∀ d ∈ h.data, d.id < h.nextId
  cleaned : ∀ c ∈ h.cleaned, c.id < h.nextId ∧ ∀ d ∈ h.data, d.id ≠ c.id

/-- modules give their own data other names -/
def OwnNames {E : Type} (l : List (Ev E)) : Prop := ∀ n d c ok, Ev.set n d c ok ∈ l → ¬ "_pammodutil_".toList <+: n

end Spec
open Spec

/-! ### C149 -/

theorem search_iff {E : Type} (mem : Nat → Bool) (svc : Nat → Nat → Outcome E) (e : E) : search mem svc 4 0 1024 = some e ↔
    ∃ k < 3, (∀ j ≤ k, mem j = true) ∧ (∀ j < k, svc j (1024 * 16 ^ j) = .retry) ∧ svc k (1024 * 16 ^ k) = .found e := by
  have n1 : ¬ mem 0 = true → mem 0 = false := by cases mem 0 <;> simp
  have n2 : ¬ mem 1 = true → mem 1 = false := by cases mem 1 <;> simp
  have n3 : ¬ mem 2 = true → mem 2 = false := by cases mem 2 <;> simp
  constructor
  · intro h
    unfold search at h
    split at h
    · cases h
    · next h0 =>
      have h0 : mem 0 = true := by revert h0; cases mem 0 <;> simp
      split at h
      · next x hx => cases h; exact ⟨0, by omega, by intro j hj; have : j = 0 := by omega
                                                     subst this; exact h0, by intro j hj; omega, hx⟩
      · cases h
      · next hr0 =>
        rw [if_pos (by decide)] at h
        unfold search at h
        split at h
        · cases h
        · next h1 =>
          have h1 : mem 1 = true := by revert h1; cases mem 1 <;> simp
          split at h
          · next x hx =>
            cases h
            refine ⟨1, by omega, ?_, ?_, hx⟩
            · intro j hj; match j, hj with
              | 0, _ => exact h0
              | 1, _ => exact h1
            · intro j hj; have : j = 0 := by omega
              subst this; exact hr0
          · cases h
          · next hr1 =>
            rw [if_pos (by decide)] at h
            unfold search at h
            split at h
            · cases h
            · next h2 =>
              have h2 : mem 2 = true := by revert h2; cases mem 2 <;> simp
              split at h
              · next x hx =>
                cases h
                refine ⟨2, by omega, ?_, ?_, hx⟩
                · intro j hj; match j, hj with
                  | 0, _ => exact h0
                  | 1, _ => exact h1
                  | 2, _ => exact h2
                · intro j hj; match j, hj with
                  | 0, _ => exact hr0
                  | 1, _ => exact hr1
              · cases h
              · rw [if_neg (by decide)] at h; cases h
  · rintro ⟨k, hk, hm, hr, hf⟩
    match k, hk with
    | 0, _ =>
      have hf : svc 0 1024 = .found e := hf
      unfold search
      rw [if_neg (by rw [hm 0 (by omega)]; decide), hf]
    | 1, _ =>
      have hr0 : svc 0 1024 = .retry := hr 0 (by omega)
      have hf : svc (0 + 1) (1024 * 16) = .found e := hf
      unfold search
      rw [if_neg (by rw [hm 0 (by omega)]; decide), hr0]
      dsimp only
      rw [if_pos (by decide)]
      unfold search
      rw [if_neg (by rw [hm 1 (by omega)]; decide), hf]
    | 2, _ =>
      have hr0 : svc 0 1024 = .retry := hr 0 (by omega)
      have hr1 : svc (0 + 1) (1024 * 16) = .retry := hr 1 (by omega)
      have hf : svc (0 + 1 + 1) (1024 * 16 * 16) = .found e := hf
      unfold search
      rw [if_neg (by rw [hm 0 (by omega)]; decide), hr0]
      dsimp only
      rw [if_pos (by decide)]
      unfold search
      rw [if_neg (by rw [hm 1 (by omega)]; decide), hr1]
      dsimp only
      rw [if_pos (by decide)]
      unfold search
      rw [if_neg (by rw [hm 2 (by omega)]; decide), hf]

/-! ### names -/

theorem toDigits_inj {a b : Nat} (h : Nat.toDigits 10 a = Nat.toDigits 10 b) : a = b := by
  rw [← (toDigits_spec a).2.2.1, ← (toDigits_spec b).2.2.1, h]

theorem dataName_inj {k : Kind} {i j : Nat} (h : dataName k i = dataName k j) : i = j := by
  cases k <;> exact toDigits_inj (List.cons.inj (List.append_cancel_left h)).2

theorem dataName_prefix (k : Kind) (i : Nat) : "_pammodutil_".toList <+: dataName k i := by
  cases k <;> exact ⟨_, rfl⟩

/-! ### registration -/

theorem set_new {h : Inner} {n : Str} {d : Nat} {c ok : Bool} (hc : h.caller = .module) (hn : ∀ x ∈ h.data, x.name ≠ n) :
    setData h (some n) d c ok = if ok then (PAM_SUCCESS, { h with data := ⟨n, h.nextId, d, c⟩ :: h.data, nextId := h.nextId + 1 }) else (PAM_BUF_ERR, h) := by
  have hf : h.data.find? (fun d => d.name == n) = none := by
    rw [List.find?_eq_none]
    intro x hx e
    exact hn x hx (by simpa using e)
  unfold setData
  rw [if_neg (by rw [hc]; decide)]
  dsimp only
  rw [hf]

theorem get_iff {h : Inner} {n : Str} (hc : h.caller = .module) : (getData h (some n)).1 ≠ PAM_SUCCESS ↔ ∀ x ∈ h.data, x.name ≠ n := by
  unfold getData
  rw [if_neg (by rw [hc]; decide)]
  dsimp only
  cases hf : h.data.find? (fun d => d.name == n) with
  | none =>
    rw [List.find?_eq_none] at hf
    refine ⟨fun _ x hx e => hf x hx (by simpa using e), fun _ h => by cases h⟩
  | some d =>
    have h1 := List.mem_of_find?_eq_some hf
    have h2 := List.find?_some hf
    refine ⟨fun h => absurd rfl h, fun h => absurd (by simpa using h2) (h d h1)⟩

/-- what a registration does: a new datum in front, under a name that was free -/
theorem register_some {name : Nat → Str} {ptr : Nat} {asp ok : Nat → Bool} {h h' : Inner} (hc : h.caller = .module) : ∀ {f i : Nat},
    (register name ptr asp ok f i h).1 = some h' →
    ∃ j, (∀ x ∈ h.data, x.name ≠ name j) ∧ h' = { h with data := ⟨name j, h.nextId, ptr, true⟩ :: h.data, nextId := h.nextId + 1 }
  | 0, i, e => by cases e
  | f + 1, i, e => by
    unfold register at e
    split at e
    · cases e
    · by_cases hg : (getData h (some (name i))).1 ≠ PAM_SUCCESS
      · rw [if_pos hg] at e
        have hn := (get_iff hc).mp hg
        dsimp only at e
        cases hok : ok i with
        | true =>
          have e2 : setData h (some (name i)) ptr true true = _ := set_new (ok := true) hc hn
          rw [hok, e2, if_pos rfl, if_pos rfl] at e
          exact ⟨i, hn, (Option.some.inj e).symm⟩
        | false =>
          have e2 : setData h (some (name i)) ptr true false = (PAM_BUF_ERR, h) := set_new (ok := false) hc hn
          rw [hok, e2, if_neg (by decide : ¬ PAM_BUF_ERR = PAM_SUCCESS)] at e
          exact register_some hc e
      · rw [if_neg hg] at e
        exact register_some hc e

/-- with memory the first free name is taken -/
theorem register_free {name : Nat → Str} {ptr : Nat} {asp ok : Nat → Bool} {h : Inner} (hc : h.caller = .module) (ha : ∀ i, asp i = true) (ho : ∀ i, ok i = true)
    (j : Nat) (hj : ∀ x ∈ h.data, x.name ≠ name j) : ∀ (f i : Nat), i ≤ j → j < i + f → ∃ h', (register name ptr asp ok f i h).1 = some h'
  | 0, i, h1, h2 => by omega
  | f + 1, i, h1, h2 => by
    unfold register
    rw [if_neg (by rw [ha]; decide)]
    by_cases hg : (getData h (some (name i))).1 ≠ PAM_SUCCESS
    · rw [if_pos hg]
      dsimp only
      rw [set_new hc ((get_iff hc).mp hg), ho, if_pos rfl, if_pos rfl]
      exact ⟨_, rfl⟩
    · rw [if_neg hg]
      refine register_free hc ha ho j hj f (i + 1) ?_ (by omega)
      rcases Nat.lt_or_ge i j with h | h
      · exact h
      · have : i = j := by omega
        subst this
        exact absurd ((get_iff hc).mpr hj) hg

/-- among more names than data one is free -/
theorem free_name (name : Nat → Str) (hi : ∀ i j, name i = name j → i = j) : ∀ (l : List Datum) (n : Nat), l.length < n →
    ∃ j < n, ∀ x ∈ l, x.name ≠ name j
  | [], n, h => ⟨0, h, by intro x hx; cases hx⟩
  | d :: l, n, h => by
    rw [List.length_cons] at h
    by_cases hd : ∃ i < n, d.name = name i
    · obtain ⟨i, hin, hi2⟩ := hd
      -- leave out the name `i`
      obtain ⟨j, hj, hx⟩ := free_name (fun t => name (if t < i then t else t + 1)) (by
        intro a b e
        have := hi _ _ e
        split at this <;> split at this <;> omega) l (n - 1) (by omega)
      refine ⟨if j < i then j else j + 1, by split <;> omega, ?_⟩
      intro x hx2
      rcases List.mem_cons.mp hx2 with rfl | hx2
      · rw [hi2]
        intro e
        have := hi _ _ e
        split at this <;> omega
      · exact hx x hx2
    · obtain ⟨j, hj, hx⟩ := free_name name hi l n (by omega)
      refine ⟨j, hj, ?_⟩
      intro x hx2
      rcases List.mem_cons.mp hx2 with rfl | hx2
      · exact fun e => hd ⟨j, hj, e⟩
      · exact hx x hx2

/-! ### C149, C150 -/

/-- C149: a lookup by a module gives the entry the C library finds with a buffer of 1024, 16384 or 262144 bytes, the next one only if the one before was too small or
the call was interrupted, and NULL otherwise. -/
theorem C149_lookup {E : Type} (e : Env E) (k : Kind) (h : Inner) (hc : h.caller = .module) (hd : h.data.length < 2147483647)
    (ha : ∀ i, e.asp i = true) (ho : ∀ i, e.ok i = true) (x : E) (p : Nat) :
    (lookup e k h).1 = some (x, p) ↔
      p = e.ptr ∧ ∃ t < 3, (∀ j ≤ t, e.mem j = true) ∧ (∀ j < t, e.svc j (1024 * 16 ^ j) = .retry) ∧ e.svc t (1024 * 16 ^ t) = .found x := by
  rw [← search_iff]
  obtain ⟨j, hj, hfree⟩ := free_name (dataName k) (fun _ _ h => dataName_inj h) h.data 2147483647 hd
  obtain ⟨h', hr⟩ := register_free (ptr := e.ptr) hc ha ho j hfree 2147483647 0 (by omega) (by omega)
  unfold lookup
  cases hs : search e.mem e.svc 4 0 1024 with
  | none => simp
  | some y =>
    dsimp only
    rw [hr]
    simp only [Option.some.injEq, Prod.mk.injEq]
    constructor
    · rintro ⟨rfl, rfl⟩; exact ⟨rfl, rfl⟩
    · rintro ⟨rfl, rfl⟩; exact ⟨rfl, rfl⟩

/-- C149, sizes: an entry that needs `n` bytes is found if and only if `n` is at most 262144. -/
theorem C149_size {E : Type} (e : Env E) (k : Kind) (h : Inner) (hc : h.caller = .module) (hd : h.data.length < 2147483647)
    (ha : ∀ i, e.asp i = true) (ho : ∀ i, e.ok i = true) (hm : ∀ i, e.mem i = true) (x : E) (n : Nat)
    (hs : ∀ i len, e.svc i len = if len < n then .retry else .found x) :
    (lookup e k h).1 = if n ≤ 262144 then some (x, e.ptr) else none := by
  have key := fun y p => C149_lookup e k h hc hd ha ho y p
  by_cases hn : n ≤ 262144
  · rw [if_pos hn, key]
    refine ⟨rfl, ?_⟩
    by_cases h1 : n ≤ 1024
    · exact ⟨0, by omega, fun j _ => hm j, by intro j hj; omega, by rw [hs, if_neg (by omega)]⟩
    · by_cases h2 : n ≤ 16384
      · refine ⟨1, by omega, fun j _ => hm j, ?_, by rw [hs, if_neg (by omega)]⟩
        intro j hj
        have : j = 0 := by omega
        subst this
        rw [hs, if_pos (by omega)]
      · refine ⟨2, by omega, fun j _ => hm j, ?_, by rw [hs, if_neg (by omega)]⟩
        intro j hj
        match j, hj with
        | 0, _ => rw [hs, if_pos (by omega)]
        | 1, _ => rw [hs, if_pos (by omega)]
  · rw [if_neg hn]
    cases hl : (lookup e k h).1 with
    | none => rfl
    | some y =>
      exfalso
      obtain ⟨_, t, ht, _, _, hf⟩ := (key y.1 y.2).mp hl
      match t, ht with
      | 0, _ => rw [hs, if_pos (by omega)] at hf; cases hf
      | 1, _ => rw [hs, if_pos (by omega)] at hf; cases hf
      | 2, _ => rw [hs, if_pos (by omega)] at hf; cases hf

/-- what one call does to the data: nothing, or a new datum under a free name, or, for a name of the modules' own, the replacement of one -/
theorem step_cases {E : Type} {h : Inner} (hc : h.caller = .module) (ev : Ev E) :
    step h ev = h ∨ (∃ n d c, (∀ x ∈ h.data, x.name ≠ n) ∧ step h ev = { h with data := ⟨n, h.nextId, d, c⟩ :: h.data, nextId := h.nextId + 1 }) ∨
    (∃ n d c ok o, ev = .set n d c ok ∧ o ∈ h.data ∧ o.name = n ∧ h.data.find? (fun d => d.name == n) = some o ∧
      step h ev = { h with data := setData.replaceFirst n ⟨n, h.nextId, d, c⟩ h.data, nextId := h.nextId + 1, cleaned := h.cleaned ++ runCleanup o PAM_DATA_REPLACE }) := by
  cases ev with
  | look e k =>
    unfold step lookup
    dsimp only
    split
    · exact Or.inl rfl
    · split
      · exact Or.inl rfl
      · next hr =>
        obtain ⟨j, h1, h2⟩ := register_some hc hr
        exact Or.inr (Or.inl ⟨_, _, _, h1, h2⟩)
  | login p ok =>
    unfold step getlogin
    dsimp only
    by_cases hg : (getData h (some loginKey)).1 = PAM_SUCCESS
    · rw [if_pos hg]; exact Or.inl rfl
    · rw [if_neg hg]
      have hn := (get_iff hc).mp hg
      cases p with
      | none => exact Or.inl rfl
      | some p =>
        dsimp only
        rw [set_new hc hn]
        cases ok with
        | true => exact Or.inr (Or.inl ⟨_, _, _, hn, rfl⟩)
        | false => exact Or.inl rfl
  | set n d c ok =>
    by_cases hn : ∀ x ∈ h.data, x.name ≠ n
    · cases ok with
      | true => exact Or.inr (Or.inl ⟨n, d, c, hn, congrArg Prod.snd (set_new (ok := true) hc hn)⟩)
      | false => exact Or.inl (congrArg Prod.snd (set_new (ok := false) hc hn))
    · right; right
      cases hf : h.data.find? (fun d => d.name == n) with
      | none =>
        rw [List.find?_eq_none] at hf
        exact absurd (fun x hx e => hf x hx (by simpa using e)) hn
      | some o =>
        refine ⟨n, d, c, ok, o, rfl, List.mem_of_find?_eq_some hf, by simpa using List.find?_some hf, hf, ?_⟩
        unfold step setData
        dsimp only
        rw [if_neg (by rw [hc]; decide), hf]

theorem step_caller {E : Type} {h : Inner} (hc : h.caller = .module) (ev : Ev E) : (step h ev).caller = .module := by
  rcases step_cases hc ev with e | ⟨n, d, c, _, e⟩ | ⟨n, d, c, ok, o, _, _, _, _, e⟩ <;> rw [e] <;> exact hc

/-- the ids after the replacement of the first datum of a name -/
theorem replace_split {n : Str} {d' o : Datum} : ∀ {l : List Datum}, l.find? (fun d => d.name == n) = some o →
    ∃ a b, l = a ++ o :: b ∧ setData.replaceFirst n d' l = a ++ d' :: b ∧ ∀ x ∈ a, x.name ≠ n
  | [], h => by cases h
  | x :: l, h => by
    rw [List.find?_cons] at h
    by_cases hx : (x.name == n) = true
    · rw [hx] at h
      cases h
      exact ⟨[], l, rfl, by unfold setData.replaceFirst; rw [if_pos hx]; rfl, by intro y hy; cases hy⟩
    · have hx' : (x.name == n) = false := by revert hx; cases (x.name == n) <;> simp
      rw [hx'] at h
      obtain ⟨a, b, h1, h2, h3⟩ := replace_split (d' := d') h
      refine ⟨x :: a, b, by rw [h1]; rfl, by unfold setData.replaceFirst; rw [if_neg hx, h2]; rfl, ?_⟩
      intro y hy
      rcases List.mem_cons.mp hy with rfl | hy
      · intro e; exact hx (by simp [e])
      · exact h3 y hy

/-- C150: the numbers stay right. -/
theorem C150_numbers {E : Type} {h : Inner} (hc : h.caller = .module) (hn : Numbered h) (ev : Ev E) : Numbered (step h ev) := by
  rcases step_cases hc ev with e | ⟨n, d, c, _, e⟩ | ⟨n, d, c, ok, o, _, ho, _, hf, e⟩
  · rw [e]; exact hn
  · rw [e]
    refine ⟨?_, ?_, ?_⟩
    · show ((⟨n, h.nextId, d, c⟩ :: h.data : List Datum).map Datum.id).Nodup
      rw [List.map_cons, List.nodup_cons]
      refine ⟨?_, hn.nodup⟩
      intro hm
      obtain ⟨x, hx, hxe⟩ := List.mem_map.mp hm
      have := hn.fresh x hx
      dsimp only at hxe
      omega
    · intro x hx
      show x.id < h.nextId + 1
      rcases List.mem_cons.mp hx with rfl | hx
      · exact Nat.lt_succ_self _
      · exact Nat.lt_succ_of_lt (hn.fresh x hx)
    · intro y hy
      have hy := hn.cleaned y hy
      refine ⟨Nat.lt_succ_of_lt hy.1, ?_⟩
      intro x hx
      rcases List.mem_cons.mp hx with rfl | hx
      · dsimp only; omega
      · exact hy.2 x hx
  · obtain ⟨a, b, h1, h2, _⟩ := replace_split (d' := ⟨n, h.nextId, d, c⟩) hf
    rw [e, h2]
    have hnd := hn.nodup
    have hfr := hn.fresh
    have hcl := hn.cleaned
    rw [h1] at hnd hfr hcl
    rw [List.map_append, List.map_cons, List.nodup_append, List.nodup_cons] at hnd
    obtain ⟨na, ⟨no, nb⟩, nab⟩ := hnd
    have hob : ∀ x ∈ a ++ b, x.id ≠ o.id := by
      intro x hx
      rcases List.mem_append.mp hx with hx | hx
      · exact fun e => nab x.id (List.mem_map_of_mem hx) o.id (List.mem_cons_self) e
      · exact fun e => no (e ▸ List.mem_map_of_mem hx)
    refine ⟨?_, ?_, ?_⟩
    · show ((a ++ ⟨n, h.nextId, d, c⟩ :: b : List Datum).map Datum.id).Nodup
      rw [List.map_append, List.map_cons, List.nodup_append, List.nodup_cons]
      refine ⟨na, ⟨?_, nb⟩, ?_⟩
      · intro hm
        obtain ⟨x, hx, hxe⟩ := List.mem_map.mp hm
        have := hfr x (by simp [hx])
        dsimp only at hxe
        omega
      · intro i hi j hj
        rcases List.mem_cons.mp hj with rfl | hj
        · obtain ⟨x, hx, rfl⟩ := List.mem_map.mp hi
          have := hfr x (by simp [hx])
          dsimp only
          omega
        · exact nab i hi j (List.mem_cons_of_mem _ hj)
    · intro x hx
      show x.id < h.nextId + 1
      rcases List.mem_append.mp hx with hx | hx
      · exact Nat.lt_succ_of_lt (hfr x (by simp [hx]))
      · rcases List.mem_cons.mp hx with rfl | hx
        · exact Nat.lt_succ_self _
        · exact Nat.lt_succ_of_lt (hfr x (by simp [hx]))
    · intro y hy
      have hy : y ∈ h.cleaned ++ runCleanup o PAM_DATA_REPLACE := hy
      rcases List.mem_append.mp hy with hy | hy
      · have hy := hcl y hy
        refine ⟨Nat.lt_succ_of_lt hy.1, ?_⟩
        intro x hx
        have hx : x ∈ a ++ ⟨n, h.nextId, d, c⟩ :: b := hx
        rcases List.mem_append.mp hx with hx | hx
        · exact hy.2 x (by simp [hx])
        · rcases List.mem_cons.mp hx with rfl | hx
          · dsimp only; omega
          · exact hy.2 x (by simp [hx])
      · have hy : y.id = o.id := by
          unfold runCleanup at hy
          split at hy
          · rw [List.mem_singleton] at hy; rw [hy]
          · cases hy
        rw [hy]
        have hlt := hfr o (by simp)
        refine ⟨Nat.lt_succ_of_lt hlt, ?_⟩
        intro x hx
        have hx : x ∈ a ++ ⟨n, h.nextId, d, c⟩ :: b := hx
        rcases List.mem_append.mp hx with hx | hx
        · exact hob x (by simp [hx])
        · rcases List.mem_cons.mp hx with rfl | hx
          · dsimp only; omega
          · exact hob x (by simp [hx])

/-- a datum of the library stays -/
theorem step_keeps {E : Type} {h : Inner} (hc : h.caller = .module) {ev : Ev E} (hev : OwnNames [ev]) {x : Datum} (hx : x ∈ h.data)
    (hp : "_pammodutil_".toList <+: x.name) : x ∈ (step h ev).data := by
  rcases step_cases hc ev with e | ⟨n, d, c, _, e⟩ | ⟨n, d, c, ok, o, he, _, hon, hf, e⟩
  · rw [e]; exact hx
  · rw [e]; exact List.mem_cons_of_mem _ hx
  · obtain ⟨a, b, h1, h2, _⟩ := replace_split (d' := ⟨n, h.nextId, d, c⟩) hf
    rw [e, h2]
    rw [h1] at hx
    show x ∈ a ++ ⟨n, h.nextId, d, c⟩ :: b
    rcases List.mem_append.mp hx with hx | hx
    · simp [hx]
    · rcases List.mem_cons.mp hx with rfl | hx
      · rw [hon] at hp
        exact absurd hp (hev n d c ok (by rw [he]; simp))
      · simp [hx]

theorem run_keeps {E : Type} : ∀ (l : List (Ev E)) {h : Inner}, h.caller = .module → Numbered h → OwnNames l → ∀ {x : Datum}, x ∈ h.data →
    "_pammodutil_".toList <+: x.name → x ∈ (run h l).data ∧ Numbered (run h l) ∧ (run h l).caller = .module
  | [], h, hc, hn, _, x, hx, _ => ⟨hx, hn, hc⟩
  | ev :: l, h, hc, hn, ho, x, hx, hp =>
    run_keeps l (step_caller hc ev) (C150_numbers hc hn ev) (fun n d c ok hm => ho n d c ok (List.mem_cons_of_mem _ hm))
      (step_keeps hc (fun n d c ok hm => ho n d c ok (by rw [List.mem_singleton] at hm; rw [hm]; exact List.mem_cons_self)) hx hp) hp

theorem flat_cleanup {status : Int} {x : Datum} (hx : x.cleanup = true) : ∀ {l : List Datum}, (l.map Datum.id).Nodup → x ∈ l →
    (l.flatMap (fun d => runCleanup d status)).filter (fun c => c.id = x.id) = [⟨x.id, x.data, status⟩] := by
  have none_of : ∀ {l : List Datum} {i : Nat}, (∀ d ∈ l, d.id ≠ i) → (l.flatMap (fun d => runCleanup d status)).filter (fun c => c.id = i) = [] := by
    intro l i h
    rw [List.filter_eq_nil_iff]
    intro c hcm
    obtain ⟨d, hd, hdc⟩ := List.mem_flatMap.mp hcm
    unfold runCleanup at hdc
    split at hdc
    · rw [List.mem_singleton] at hdc
      rw [hdc]
      simpa using h d hd
    · cases hdc
  intro l hn hm
  induction l with
  | nil => cases hm
  | cons d l ih =>
    rw [List.map_cons, List.nodup_cons] at hn
    rw [List.flatMap_cons, List.filter_append]
    rcases List.mem_cons.mp hm with rfl | hm
    · rw [none_of (fun d hd e => hn.1 (by rw [← e]; exact List.mem_map_of_mem hd)), List.append_nil]
      unfold runCleanup
      rw [if_pos hx]
      simp
    · rw [ih hn.2 hm]
      have hne : d.id ≠ x.id := fun e => hn.1 (by rw [e]; exact List.mem_map_of_mem hm)
      unfold runCleanup
      split
      · simp [hne]
      · rfl

/-- C150: what a lookup gave stays untouched until the end of the handle, whatever modules look up or keep under names of their own afterwards; at the end it is released,
exactly once. -/
theorem C150_lifetime {E : Type} (e : Env E) (k : Kind) (h : Inner) (x : E) (p : Nat) (later : List (Ev E)) (status : Int)
    (hc : h.caller = .module) (hn : Numbered h) (hl : (lookup e k h).1 = some (x, p)) (ho : OwnNames later) :
    ∃ id, (∀ c ∈ (run (lookup e k h).2 later).cleaned, c.id ≠ id) ∧
      (∃ name, (⟨name, id, p, true⟩ : Datum) ∈ (run (lookup e k h).2 later).data) ∧
      (freeData (run (lookup e k h).2 later) status).cleaned.filter (fun c => c.id = id) = [⟨id, p, status⟩] := by
  have hcl := C150_numbers hc hn (.look e k)
  have hcc := step_caller hc (.look e k)
  have key : ∃ name, "_pammodutil_".toList <+: name ∧ (⟨name, h.nextId, p, true⟩ : Datum) ∈ (lookup e k h).2.data := by
    unfold lookup at hl ⊢
    split at hl
    · cases hl
    · split at hl
      · cases hl
      · next hr =>
        cases hl
        obtain ⟨j, _, h2⟩ := register_some hc hr
        dsimp only
        rw [h2]
        exact ⟨dataName k j, dataName_prefix k j, List.mem_cons_self⟩
  obtain ⟨name, hp, hm⟩ := key
  obtain ⟨r1, r2, r3⟩ := run_keeps later hcc hcl ho hm hp
  refine ⟨h.nextId, ?_, ⟨name, r1⟩, ?_⟩
  · intro c hcm e
    exact (r2.cleaned c hcm).2 _ r1 e.symm
  · unfold freeData
    dsimp only
    have e2 : ((run (lookup e k h).2 later).data.flatMap (fun d => runCleanup d status)).filter (fun c => c.id = h.nextId) = [⟨h.nextId, p, status⟩] :=
      flat_cleanup (x := ⟨name, h.nextId, p, true⟩) rfl r2.nodup r1
    rw [List.filter_append, e2]
    have : (run (lookup e k h).2 later).cleaned.filter (fun c => c.id = h.nextId) = [] := by
      rw [List.filter_eq_nil_iff]
      intro c hcm
      have := (r2.cleaned c hcm).2 _ r1
      simpa [eq_comm] using this
    rw [this]
    rfl

/-- C150, getlogin: once it gave a name it gives the same one. -/
theorem C150_getlogin {E : Type} (h : Inner) (l l' : Option Nat) (ok ok' : Bool) (p : Nat) (later : List (Ev E))
    (hc : h.caller = .module) (hn : Numbered h) (hnd : (h.data.map Datum.name).Nodup) (hg : (getlogin l ok h).1 = some p)
    (ho : OwnNames later) : (getlogin l' ok' (run (getlogin l ok h).2 later)).1 = some p := by
  -- the names stay distinct
  have names : ∀ {h : Inner} (ev : Ev E), h.caller = .module → (h.data.map Datum.name).Nodup → ((step h ev).data.map Datum.name).Nodup := by
    intro h ev hc hnd
    rcases step_cases hc ev with e | ⟨n, d, c, hfree, e⟩ | ⟨n, d, c, ok, o, _, _, hon, hf, e⟩
    · rw [e]; exact hnd
    · rw [e]
      show ((⟨n, h.nextId, d, c⟩ :: h.data : List Datum).map Datum.name).Nodup
      rw [List.map_cons, List.nodup_cons]
      refine ⟨?_, hnd⟩
      intro hm
      obtain ⟨x, hx, hxe⟩ := List.mem_map.mp hm
      exact hfree x hx hxe
    · obtain ⟨a, b, h1, h2, _⟩ := replace_split (d' := ⟨n, h.nextId, d, c⟩) hf
      rw [e, h2]
      rw [h1] at hnd
      show ((a ++ ⟨n, h.nextId, d, c⟩ :: b : List Datum).map Datum.name).Nodup
      rw [List.map_append, List.map_cons] at hnd ⊢
      rw [hon] at hnd
      exact hnd
  have names_run : ∀ (l : List (Ev E)) {h : Inner}, h.caller = .module → (h.data.map Datum.name).Nodup → ((run h l).data.map Datum.name).Nodup := by
    intro l
    induction l with
    | nil => intro h _ hnd; exact hnd
    | cons ev l ih => intro h hc hnd; exact ih (step_caller hc ev) (names ev hc hnd)
  have find_mem : ∀ {h : Inner} {id : Nat} {c : Bool}, h.caller = .module → (h.data.map Datum.name).Nodup → (⟨loginKey, id, p, c⟩ : Datum) ∈ h.data →
      getData h (some loginKey) = (PAM_SUCCESS, some p) := by
    intro h id c hc hnd hm
    unfold getData
    rw [if_neg (by rw [hc]; decide)]
    dsimp only
    cases hf : h.data.find? (fun d => d.name == loginKey) with
    | none =>
      rw [List.find?_eq_none] at hf
      exact absurd (by simp) (hf _ hm)
    | some o =>
      have h1 := List.mem_of_find?_eq_some hf
      have h2 : o.name = loginKey := by simpa using List.find?_some hf
      have : o = ⟨loginKey, id, p, c⟩ := by
        have inj : ∀ {l : List Datum}, (l.map Datum.name).Nodup → ∀ {a b : Datum}, a ∈ l → b ∈ l → a.name = b.name → a = b := by
          intro l
          induction l with
          | nil => intro _ a b ha; cases ha
          | cons y l ih =>
            intro hn a b ha hb he
            rw [List.map_cons, List.nodup_cons] at hn
            rcases List.mem_cons.mp ha with ea | ha' <;> rcases List.mem_cons.mp hb with eb | hb'
            · rw [ea, eb]
            · exact absurd (by rw [← ea, he]; exact List.mem_map_of_mem hb') hn.1
            · exact absurd (by rw [← eb, ← he]; exact List.mem_map_of_mem ha') hn.1
            · exact ih hn.2 ha' hb' he
        exact inj hnd h1 hm h2
      rw [this]
  have hcc := step_caller hc (.login l ok : Ev E)
  have hcl := C150_numbers hc hn (.login l ok : Ev E)
  have hcn := names (.login l ok) hc hnd
  have key : ∃ id c, (⟨loginKey, id, p, c⟩ : Datum) ∈ (getlogin l ok h).2.data := by
    unfold getlogin at hg ⊢
    dsimp only at hg ⊢
    by_cases hd : (getData h (some loginKey)).1 = PAM_SUCCESS
    · rw [if_pos hd] at hg ⊢
      unfold getData at hg
      rw [if_neg (by rw [hc]; decide)] at hg
      dsimp only at hg
      cases hf : h.data.find? (fun d => d.name == loginKey) with
      | none => rw [hf] at hg; cases hg
      | some o =>
        rw [hf] at hg
        have h1 := List.mem_of_find?_eq_some hf
        have h2 : o.name = loginKey := by simpa using List.find?_some hf
        obtain ⟨on, oid, od, oc⟩ := o
        cases hg
        dsimp only at h2
        subst h2
        exact ⟨oid, oc, h1⟩
    · rw [if_neg hd] at hg ⊢
      have hfree := (get_iff hc).mp hd
      cases l with
      | none => cases hg
      | some q =>
        dsimp only at hg ⊢
        rw [set_new hc hfree] at hg ⊢
        cases ok with
        | true =>
          cases hg
          exact ⟨h.nextId, true, List.mem_cons_self⟩
        | false => cases hg
  obtain ⟨id, c, hm⟩ := key
  obtain ⟨r1, r2, r3⟩ := run_keeps later hcc hcl ho hm ⟨"getlogin".toList, rfl⟩
  unfold getlogin
  dsimp only
  have e := find_mem r3 (names_run later hcc hcn) r1
  have e' : getData (run (getlogin l ok h).2 later) (some loginKey) = (PAM_SUCCESS, some p) := e
  unfold getlogin at e'
  dsimp only at e'
  rw [e', if_pos rfl]

/-! ### examples, and where more does not hold -/

def h0 : Inner := { caller := .module, service := "su".toList, conv := 0 }

def env (n ptr : Nat) : Env Nat := ⟨fun _ => true, fun _ len => if len < n then .retry else .found 7, fun _ => true, fun _ => true, ptr⟩

example : Numbered h0 := ⟨by decide, nofun, nofun⟩

example : (lookup (env 2000 1) (.pwnam "ann".toList) h0).1 = some (7, 1) ∧
    (run h0 [.look (env 2000 1) (.pwnam "ann".toList), .look (env 10 2) (.pwnam "ann".toList)]).data.map Datum.name =
      ["_pammodutil_getpwnam_ann_1".toList, "_pammodutil_getpwnam_ann_0".toList] := by
  decide +kernel

example : (getlogin (some 3) true h0).1 = some 3 ∧ (getlogin (some 4) true (getlogin (some 3) true h0).2).1 = some 3 := by decide +kernel

theorem register_spins {name : Nat → Str} {ptr : Nat} {asp : Nat → Bool} {h : Inner} (hc : h.caller = .module) (ha : ∀ i, asp i = true)
    (hfree : h.data = []) : ∀ f i, register name ptr asp (fun _ => false) f i h = (none, i + f)
  | 0, i => rfl
  | f + 1, i => by
    unfold register
    have hn : ∀ x ∈ h.data, x.name ≠ name i := by rw [hfree]; intro x hx; cases hx
    rw [if_neg (by rw [ha]; decide), if_pos ((get_iff hc).mpr hn)]
    dsimp only
    have e2 : setData h (some (name i)) ptr true false = (PAM_BUF_ERR, h) := set_new (ok := false) hc hn
    rw [e2, if_neg (by decide : ¬ PAM_BUF_ERR = PAM_SUCCESS), register_spins hc ha hfree f (i + 1)]
    congr 1
    omega

/-- C149: when there is no memory to keep the result, 2147483647 attempts are made before the lookup fails. -/
theorem C149_spins_counterexample (name : Nat → Str) (ptr : Nat) :
    register name ptr (fun _ => true) (fun _ => false) 2147483647 0 h0 = (none, 2147483647) := by
  rw [register_spins rfl (fun _ => rfl) rfl]

/-- C149: a lookup that is interrupted three times fails, although the account exists. -/
theorem C149_interrupted_counterexample (k : Kind) (h : Inner) :
    (lookup (⟨fun _ => true, fun i _ => if i < 3 then .retry else .found 7, fun _ => true, fun _ => true, 1⟩ : Env Nat) k h).1 = none := rfl

end Pam.Modutil
