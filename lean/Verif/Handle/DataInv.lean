import Verif.Handle.Lift
import Verif.Handle.DataSpec
/-
Lemmas about the module data.
-/
namespace Pam.Handle
open Spec

set_option linter.unusedSimpArgs false
set_option maxRecDepth 100000

variable {W : Type}

/-! ### Invariant -/

theorem replaced_append {l : List SetCall} {x s : SetCall} {k : Nat} (hk : l[k]? = some s) :
    replaced (l ++ [x]) k = (replaced l k || decide (x.name = s.name)) := by
  have hlt : k < l.length := by
    rcases Nat.lt_or_ge k l.length with h | h
    · exact h
    · rw [List.getElem?_eq_none h] at hk; exact absurd hk (by simp)
  have h1 : (l ++ [x])[k]? = some s := by rw [List.getElem?_append_left hlt]; exact hk
  have h2 : (l ++ [x]).drop (k + 1) = l.drop (k + 1) ++ [x] := List.drop_append_of_le_length (by omega)
  simp only [replaced, h1, hk, h2, List.any_append, List.any_cons, List.any_nil, Bool.or_false]

theorem replaced_last (l : List SetCall) (x : SetCall) : replaced (l ++ [x]) l.length = false := by
  simp [replaced]

/-- the calls made on the cleanup function of call number `k` -/
def replaceLog (l : List SetCall) (k : Nat) : List Cleaned :=
  match l[k]? with
  | some s => if s.cleanup && replaced l k then [⟨k, s.data, PAM_DATA_REPLACE⟩] else []
  | none => []

/-- the state of the module data after the calls `l` -/
structure DataInv (l : List SetCall) (data : List Datum) (nextId : Nat) (cleaned : List Cleaned) : Prop where
  next : nextId = l.length
  nodup : (data.map Datum.name).Nodup
  mem : ∀ d, d ∈ data ↔ l[d.id]? = some ⟨d.name, d.data, d.cleanup⟩ ∧ replaced l d.id = false
  log : ∀ k, cleaned.filter (fun c => c.id = k) = replaceLog l k

theorem mem_replaceFirst {n : Str} {d' : Datum} {ds : List Datum} (hd : (ds.map Datum.name).Nodup)
    (hn : n ∈ ds.map Datum.name) (d : Datum) :
    d ∈ setData.replaceFirst n d' ds ↔ d = d' ∨ (d ∈ ds ∧ d.name ≠ n) := by
  induction ds with
  | nil => simp at hn
  | cons a t ih =>
    simp only [List.map_cons, List.nodup_cons, List.mem_map, not_exists, not_and] at hd
    unfold setData.replaceFirst
    split
    · next h =>
      have h : a.name = n := by simpa using h
      simp only [List.mem_cons]
      constructor
      · rintro (rfl | hm)
        · exact Or.inl rfl
        · exact Or.inr ⟨Or.inr hm, fun e => hd.1 d hm (by rw [e, h])⟩
      · rintro (rfl | ⟨rfl | hm, hne⟩)
        · exact Or.inl rfl
        · exact absurd h hne
        · exact Or.inr hm
    · next h =>
      have h : a.name ≠ n := by simpa using h
      simp only [List.map_cons, List.mem_cons] at hn
      have := ih hd.2 (hn.resolve_left (fun e => h e.symm))
      simp only [List.mem_cons, this]
      constructor
      · rintro (rfl | rfl | hm)
        · exact Or.inr ⟨Or.inl rfl, h⟩
        · exact Or.inl rfl
        · exact Or.inr ⟨Or.inr hm.1, hm.2⟩
      · rintro (rfl | ⟨rfl | hm, hne⟩)
        · exact Or.inr (Or.inl rfl)
        · exact Or.inl rfl
        · exact Or.inr (Or.inr ⟨hm, hne⟩)

theorem replaceFirst_names {n : Str} {d' : Datum} {ds : List Datum} (hd : d'.name = n) :
    (setData.replaceFirst n d' ds).map Datum.name = ds.map Datum.name := by
  induction ds with
  | nil => rfl
  | cons a t ih =>
    unfold setData.replaceFirst
    split
    · next h => simp only [List.map_cons]; rw [hd, show a.name = n by simpa using h]
    · simp only [List.map_cons, ih]

theorem getElem?_snoc {α : Type} (l : List α) (x : α) (k : Nat) :
    (l ++ [x])[k]? = if k < l.length then l[k]? else if k = l.length then some x else none := by
  rcases Nat.lt_trichotomy k l.length with h | h | h
  · rw [List.getElem?_append_left h, if_pos h]
  · rw [h]; simp
  · rw [if_neg (by omega), if_neg (by omega), List.getElem?_eq_none (by simp; omega)]

theorem inv_mem_snoc {l : List SetCall} {data data' : List Datum} {x : SetCall}
    (hm : ∀ d, d ∈ data ↔ l[d.id]? = some ⟨d.name, d.data, d.cleanup⟩ ∧ replaced l d.id = false)
    (hd : ∀ d, d ∈ data' ↔ d = ⟨x.name, l.length, x.data, x.cleanup⟩ ∨ (d ∈ data ∧ d.name ≠ x.name)) (d : Datum) :
    d ∈ data' ↔ (l ++ [x])[d.id]? = some ⟨d.name, d.data, d.cleanup⟩ ∧ replaced (l ++ [x]) d.id = false := by
  rw [hd]
  constructor
  · rintro (rfl | ⟨h1, h2⟩)
    · exact ⟨by simp, by simpa using replaced_last l x⟩
    · have h3 := (hm d).1 h1
      have hlt : d.id < l.length := by
        rcases Nat.lt_or_ge d.id l.length with h | h
        · exact h
        · rw [List.getElem?_eq_none h] at h3; exact absurd h3.1 (by simp)
      refine ⟨by rw [List.getElem?_append_left hlt]; exact h3.1, ?_⟩
      rw [replaced_append h3.1, h3.2]
      simp only [Bool.false_or, decide_eq_false_iff_not]
      exact fun e => h2 e.symm
  · rintro ⟨h1, h2⟩
    rw [getElem?_snoc] at h1
    split at h1
    · right
      rw [replaced_append h1] at h2
      simp only [Bool.or_eq_false_iff, decide_eq_false_iff_not] at h2
      exact ⟨(hm d).2 ⟨h1, h2.1⟩, fun e => h2.2 e.symm⟩
    · split at h1
      · next hk =>
        left
        simp only [Option.some.injEq] at h1
        cases d
        simp only at hk h1 ⊢
        rw [h1, hk]
      · exact absurd h1 (by simp)

theorem replaceLog_snoc (l : List SetCall) (x : SetCall) (k : Nat) :
    replaceLog (l ++ [x]) k =
      match l[k]? with
      | some s => if s.cleanup && (replaced l k || decide (x.name = s.name)) then [⟨k, s.data, PAM_DATA_REPLACE⟩] else []
      | none => [] := by
  unfold replaceLog
  rw [getElem?_snoc]
  rcases Nat.lt_trichotomy k l.length with h | h | h
  · rw [if_pos h, List.getElem?_eq_getElem h]
    simp only
    rw [replaced_append (List.getElem?_eq_getElem h)]
  · subst h
    simp [replaced_last]
  · rw [if_neg (by omega), if_neg (by omega), List.getElem?_eq_none (by omega)]

theorem setData_inv {l : List SetCall} {h : Inner} (hi : DataInv l h.data h.nextId h.cleaned)
    (n : Option Str) (d : Nat) (c ok : Bool) :
    let r := setData h n d c ok
    DataInv (match n with | some n => if r.1 = PAM_SUCCESS then l ++ [⟨n, d, c⟩] else l | none => l)
      r.2.data r.2.nextId r.2.cleaned := by
  intro r
  have hne : ∀ a b : Int, a ≠ b → ¬ (a = b) := fun _ _ h => h
  cases n with
  | none => show DataInv l _ _ _; simp only [r, setData]; split <;> exact hi
  | some n =>
    by_cases hc : h.caller = .app
    · have : r = (PAM_SYSTEM_ERR, h) := by simp only [r, setData, if_pos hc]
      rw [this]; simp only; rw [if_neg (by decide)]; exact hi
    · cases hf : h.data.find? (fun d => d.name == n) with
      | some d0 =>
        have hr : r = (PAM_SUCCESS, { h with
          data := setData.replaceFirst n ⟨n, h.nextId, d, c⟩ h.data,
          nextId := h.nextId + 1,
          cleaned := h.cleaned ++ runCleanup d0 PAM_DATA_REPLACE }) := by
          simp only [r, setData, if_neg hc, hf]
        rw [hr]
        simp only [if_pos]
        have hd0n : d0.name = n := by simpa using List.find?_some hf
        have hd0 : d0 ∈ h.data := List.mem_of_find?_eq_some hf
        have hin : n ∈ h.data.map Datum.name := List.mem_map.2 ⟨d0, hd0, hd0n⟩
        have hd0l := (hi.mem d0).1 hd0
        refine ⟨by simp [hi.next], ?_, ?_, ?_⟩
        · rw [replaceFirst_names (n := n) rfl]; exact hi.nodup
        · refine inv_mem_snoc hi.mem ?_
          intro d1
          rw [mem_replaceFirst hi.nodup hin, hi.next]
        · intro k
          rw [List.filter_append, hi.log, replaceLog_snoc]
          have huniq : ∀ s : SetCall, l[k]? = some s → replaced l k = false → s.name = n → k = d0.id := by
            intro s hs hr hn
            have hm : (⟨s.name, k, s.data, s.cleanup⟩ : Datum) ∈ h.data := (hi.mem _).2 ⟨hs, hr⟩
            have := nodup_map_inj hi.nodup hm hd0 (by simp only; rw [hn, hd0n])
            rw [← this]
          unfold replaceLog
          cases hk : l[k]? with
          | none =>
            have : d0.id ≠ k := by rintro rfl; rw [hk] at hd0l; exact absurd hd0l.1 (by simp)
            simp only [List.nil_append]
            unfold runCleanup
            split
            · simp [this]
            · rfl
          | some s =>
            simp only
            by_cases hkd : k = d0.id
            · subst hkd
              have : s = ⟨d0.name, d0.data, d0.cleanup⟩ := by rw [hd0l.1] at hk; exact (Option.some.inj hk).symm
              subst this
              simp only [hd0l.2, runCleanup, hd0n]
              cases d0.cleanup <;> simp
            · have h1 : (runCleanup d0 PAM_DATA_REPLACE).filter (fun c => decide (c.id = k)) = [] := by
                unfold runCleanup
                split
                · simp [Ne.symm hkd]
                · rfl
              rw [h1, List.append_nil]
              cases hr1 : replaced l k with
              | true => simp
              | false =>
                have : ¬ n = s.name := fun e => hkd (huniq s hk hr1 e.symm)
                simp [this]
      | none =>
        have hnin : ∀ d1 ∈ h.data, d1.name ≠ n := by
          intro d1 h1
          have := List.find?_eq_none.1 hf d1 h1
          simpa using this
        cases hok : ok with
        | false =>
          have hr : r = (PAM_BUF_ERR, h) := by simp only [r, setData, if_neg hc, hf, hok]; rfl
          rw [hr]; simp only; rw [if_neg (by decide)]; exact hi
        | true =>
          have hr : r = (PAM_SUCCESS, { h with data := ⟨n, h.nextId, d, c⟩ :: h.data, nextId := h.nextId + 1 }) := by
            simp only [r, setData, if_neg hc, hf, hok, if_true]
          rw [hr]
          simp only [if_pos]
          refine ⟨by simp [hi.next], ?_, ?_, ?_⟩
          · simp only [List.map_cons, List.nodup_cons, List.mem_map, not_exists, not_and]
            exact ⟨fun d1 h1 => hnin d1 h1, hi.nodup⟩
          · refine inv_mem_snoc hi.mem ?_
            intro d1
            simp only [List.mem_cons, hi.next]
            constructor
            · rintro (h1 | h1)
              · exact Or.inl h1
              · exact Or.inr ⟨h1, hnin d1 h1⟩
            · rintro (h1 | h1)
              · exact Or.inl h1
              · exact Or.inr h1.1
          · intro k
            rw [hi.log, replaceLog_snoc]
            unfold replaceLog
            cases hk : l[k]? with
            | none => rfl
            | some s =>
              simp only
              cases hr1 : replaced l k with
              | true => simp
              | false =>
                have hm : (⟨s.name, k, s.data, s.cleanup⟩ : Datum) ∈ h.data := (hi.mem _).2 ⟨hk, hr1⟩
                have : ¬ n = s.name := fun e => hnin _ hm e.symm
                simp [this]
where
  nodup_map_inj {ds : List Datum} (hd : (ds.map Datum.name).Nodup) {a b : Datum} (ha : a ∈ ds) (hb : b ∈ ds)
      (h : a.name = b.name) : a = b := by
    induction ds with
    | nil => simp at ha
    | cons x t ih =>
      simp only [List.map_cons, List.nodup_cons, List.mem_map, not_exists, not_and] at hd
      simp only [List.mem_cons] at ha hb
      rcases ha with rfl | ha
      · rcases hb with rfl | hb
        · rfl
        · exact absurd h.symm (hd.1 b hb)
      · rcases hb with rfl | hb
        · exact absurd h (hd.1 a ha)
        · exact ih hd.2 ha hb

theorem getData_inv {l : List SetCall} {h : Inner} (hi : DataInv l h.data h.nextId h.cleaned) (hc : h.caller = .module)
    (n : Str) : getData h (some n) = match lastData n l with
      | some d => (PAM_SUCCESS, some d)
      | none => (PAM_NO_MODULE_DATA, none) := by
  have hc : ¬ h.caller = .app := by rw [hc]; decide
  simp only [getData, if_neg hc]
  cases hf : h.data.find? (fun d => d.name == n) with
  | some d0 =>
    have hd0n : d0.name = n := by simpa using List.find?_some hf
    have hm := (hi.mem d0).1 (List.mem_of_find?_eq_some hf)
    have : lastData n l = some d0.data := by
      obtain ⟨h1, h2⟩ := hm
      have hlt := (List.getElem?_eq_some_iff.1 h1).1
      have hg := (List.getElem?_eq_some_iff.1 h1).2
      have hsplit : l = l.take d0.id ++ ⟨d0.name, d0.data, d0.cleanup⟩ :: l.drop (d0.id + 1) := by
        rw [← hg, ← List.drop_eq_getElem_cons hlt, List.take_append_drop]
      have hdrop : (l.drop (d0.id + 1)).filter (fun s => decide (s.name = n)) = [] := by
        simp only [replaced, h1, List.any_eq_false] at h2
        rw [List.filter_eq_nil_iff]
        intro s hs
        have := h2 s hs
        rwa [hd0n] at this
      unfold lastData
      rw [hsplit, List.filter_append, List.filter_cons, hdrop]
      simp [hd0n]
    rw [this]
  | none =>
    have : lastData n l = none := by
      unfold lastData
      rw [Option.map_eq_none_iff, List.getLast?_eq_none_iff, List.filter_eq_nil_iff]
      intro s hs hsn
      have hsn : s.name = n := by simpa using hsn
      -- the last call with that name would be in the list
      obtain ⟨k, hk, hlast⟩ := last_index (l := l) (n := n) ⟨s, hs, hsn⟩
      obtain ⟨t, ht, htn⟩ := hk
      have hm : (⟨t.name, k, t.data, t.cleanup⟩ : Datum) ∈ h.data := (hi.mem _).2 ⟨ht, hlast⟩
      have := List.find?_eq_none.1 hf _ hm
      simp [htn] at this
    rw [this]
where
  last_index {l : List SetCall} {n : Str} (h : ∃ s ∈ l, s.name = n) :
      ∃ k, (∃ t, l[k]? = some t ∧ t.name = n) ∧ replaced l k = false := by
    induction l with
    | nil => obtain ⟨s, hs, _⟩ := h; simp at hs
    | cons x t ih =>
      by_cases hx : ∃ s ∈ t, s.name = n
      · obtain ⟨k, ⟨u, hu, hun⟩, hr⟩ := ih hx
        refine ⟨k + 1, ⟨u, by simpa using hu, hun⟩, ?_⟩
        simpa [replaced] using hr
      · obtain ⟨s, hs, hsn⟩ := h
        have : s = x := by
          rcases List.mem_cons.1 hs with h | h
          · exact h
          · exact absurd ⟨s, h, hsn⟩ hx
        subst this
        refine ⟨0, ⟨s, rfl, hsn⟩, ?_⟩
        simp only [replaced, List.getElem?_cons_zero, Nat.zero_add, List.drop_one, List.tail_cons, List.any_eq_false,
          decide_eq_true_eq]
        intro y hy hyn
        exact hx ⟨y, hy, by rw [hyn, hsn]⟩

/-- what a pam_get_data event must say -/
def GetLegal (pre : List Event) : Event → Prop
  | .call .module (.getData (some n)) ans _ =>
    match lastData n (setCalls pre) with
    | some d => ans.code = PAM_SUCCESS ∧ ans.data = some d
    | none => ans.code = PAM_NO_MODULE_DATA ∧ ans.data = none
  | .call .app (.getData _) ans _ => ans.code = PAM_SYSTEM_ERR ∧ ans.data = none
  | _ => True

/-- the invariant of the handle -/
def DataOk (m : M W) : Prop :=
  DataInv (setCalls m.hist) m.s.inner.data m.s.inner.nextId m.s.inner.cleaned ∧ Always GetLegal m.hist

theorem setCalls_snoc (h : List Event) (e : Event) : setCalls (h ++ [e]) = setCalls h ++ setCalls [e] := by
  unfold setCalls; rw [List.filterMap_append]

theorem dataOk_closed : Closed (W := W) DataOk where
  step := by
    intro cv op m _ hp
    unfold step
    cases he : effect cv op m.s with
    | none => simp only; split <;> exact hp
    | some r =>
      obtain ⟨a, s'⟩ := r
      simp only
      refine ⟨?_, hp.2.snoc ?_⟩
      · simp only [setCalls_snoc]
        by_cases hset : ∃ n d c ok, op = .setData n d c ok
        · obtain ⟨n, d, c, ok, rfl⟩ := hset
          simp only [effect, Option.some.injEq, Prod.mk.injEq] at he
          obtain ⟨rfl, rfl⟩ := he
          have := setData_inv hp.1 n d c ok
          cases n with
          | none => simpa [setCalls] using this
          | some n =>
            simp only [setCalls, List.filterMap_cons, List.filterMap_nil] at this ⊢
            split at this <;> rename_i hc <;> simp only [hc, if_true, if_false, List.append_nil] <;> exact this
        · have h0 : setCalls [.call m.s.inner.caller op a (s'.talk.drop m.s.talk.length)] = [] := by
            cases op <;> first | rfl | exact absurd ⟨_, _, _, _, rfl⟩ hset
          rw [h0, List.append_nil]
          have : s'.inner.data = m.s.inner.data ∧ s'.inner.nextId = m.s.inner.nextId ∧ s'.inner.cleaned = m.s.inner.cleaned := by
            by_cases h1 : ∃ x y z, op = .putenv x y z
            · obtain ⟨x, y, z, rfl⟩ := h1
              simp only [effect, Option.map_eq_some_iff, Prod.mk.injEq] at he
              obtain ⟨q, _, _, h2⟩ := he
              rw [← h2]; exact ⟨rfl, rfl, rfl⟩
            · by_cases h2 : ∃ x, op = .failDelay x
              · obtain ⟨x, rfl⟩ := h2
                simp only [effect, Option.some.injEq, Prod.mk.injEq] at he
                rw [← he.2]; exact ⟨rfl, rfl, rfl⟩
              · have := effect_frame he (fun x y z e => h1 ⟨x, y, z, e⟩) (fun x y z t e => hset ⟨x, y, z, t, e⟩)
                  (fun x e => h2 ⟨x, e⟩)
                exact ⟨this.data, this.nextId, this.cleaned⟩
          rw [this.1, this.2.1, this.2.2]
          exact hp.1
      · unfold GetLegal
        split
        · next n ans talk heq =>
          simp only [Event.call.injEq] at heq
          obtain ⟨hc, rfl, rfl, _⟩ := heq
          simp only [effect, Option.some.injEq, Prod.mk.injEq] at he
          have := getData_inv hp.1 hc n
          rw [← he.1, this]
          split <;> exact ⟨rfl, rfl⟩
        · next n ans talk heq =>
          simp only [Event.call.injEq] at heq
          obtain ⟨hc, rfl, rfl, _⟩ := heq
          simp only [effect, Option.some.injEq, Prod.mk.injEq, getData, if_pos hc] at he
          rw [← he.1]; exact ⟨rfl, rfl⟩
        · trivial
  world := fun _ _ h => h
  args := fun _ _ h => h
  caller := fun _ _ h => h
  choice := fun _ _ h => h
  loaded := fun _ h => h
  sanitize := by
    intro m h
    unfold DataOk M.sanitize at *
    rw [sanitize_eq]; exact h
  await := by
    intro m st h
    refine ⟨?_, h.2.snoc trivial⟩
    simp only [M.await, setCalls_snoc]
    exact (List.append_nil (setCalls m.hist)).symm ▸ h.1
  pass := by
    intro m p h
    refine ⟨?_, h.2.snoc trivial⟩
    simp only [M.pass, setCalls_snoc]
    exact (List.append_nil (setCalls m.hist)).symm ▸ h.1

theorem dataOk_reach {h : Handle W} (hr : Reach h) : DataOk h.m :=
  dataOk_closed.reach (fun _ _ _ _ => ⟨⟨rfl, List.nodup_nil, by simp [startM, setCalls], by intro k; rfl⟩, Always.nil _⟩) hr

theorem filter_flatMap_cleanup {l : List SetCall} {data : List Datum} {n : Nat} {cl : List Cleaned}
    (hi : DataInv l data n cl) (status : Int) (k : Nat) :
    (data.flatMap (fun d => runCleanup d status)).filter (fun c => decide (c.id = k)) =
      match l[k]? with
      | some s => if s.cleanup && !replaced l k then [⟨k, s.data, status⟩] else []
      | none => [] := by
  have hm := hi.mem
  have hnd := hi.nodup
  -- ids are distinct
  have hid : ∀ a ∈ data, ∀ b ∈ data, a.id = b.id → a = b := by
    intro a ha b hb he
    have h1 := ((hm a).1 ha).1
    have h2 := ((hm b).1 hb).1
    rw [he] at h1
    rw [h1] at h2
    simp only [Option.some.injEq, SetCall.mk.injEq] at h2
    cases a; cases b; simp only at he h2; simp only [Datum.mk.injEq]
    exact ⟨h2.1, he, h2.2.1, h2.2.2⟩
  have key : ∀ ds : List Datum, (∀ a ∈ ds, ∀ b ∈ ds, a.id = b.id → a = b) → ds.Nodup →
      ((∀ d ∈ ds, d.id ≠ k) → (ds.flatMap (fun d => runCleanup d status)).filter (fun c => decide (c.id = k)) = []) ∧
      (∀ d ∈ ds, d.id = k → (ds.flatMap (fun d => runCleanup d status)).filter (fun c => decide (c.id = k)) = runCleanup d status) := by
    intro ds
    induction ds with
    | nil => intro _ _; exact ⟨fun _ => rfl, by simp⟩
    | cons a t ih =>
      intro hu hn
      have ih := ih (fun x hx y hy => hu x (by simp [hx]) y (by simp [hy])) (List.nodup_cons.1 hn).2
      have h1 : a.id ≠ k → (runCleanup a status).filter (fun c => decide (c.id = k)) = [] := by
        intro h; unfold runCleanup; split
        · simp [h]
        · rfl
      have h2 : a.id = k → (runCleanup a status).filter (fun c => decide (c.id = k)) = runCleanup a status := by
        intro h; unfold runCleanup; split
        · simp [h]
        · rfl
      refine ⟨fun hall => ?_, fun d hd hdk => ?_⟩
      · rw [List.flatMap_cons, List.filter_append, h1 (hall a (by simp)), ih.1 (fun d hd => hall d (by simp [hd]))]
        rfl
      · rw [List.flatMap_cons, List.filter_append]
        by_cases hak : a.id = k
        · have : d = a := hu d hd a (by simp) (by rw [hdk, hak])
          subst this
          rw [h2 hak, ih.1, List.append_nil]
          intro e he hek
          have := hu e (by simp [he]) d (by simp) (by rw [hek, hak])
          subst this
          exact (List.nodup_cons.1 hn).1 he
        · rw [h1 hak, List.nil_append]
          rcases List.mem_cons.1 hd with rfl | hd
          · exact absurd hdk hak
          · exact ih.2 d hd hdk
  have hndup : data.Nodup := nodup_of_map hnd
  have key := key data hid hndup
  cases hk : l[k]? with
  | none =>
    refine key.1 (fun d hd he => ?_)
    have := ((hm d).1 hd).1
    rw [he, hk] at this; exact absurd this (by simp)
  | some s =>
    cases hr : replaced l k with
    | true =>
      simp only [Bool.not_true, Bool.and_false]
      refine key.1 (fun d hd he => ?_)
      have := ((hm d).1 hd).2
      rw [he, hr] at this; exact absurd this (by simp)
    | false =>
      have hd : (⟨s.name, k, s.data, s.cleanup⟩ : Datum) ∈ data := (hm _).2 ⟨hk, hr⟩
      rw [key.2 _ hd rfl]
      simp [runCleanup]
where
  nodup_of_map {ds : List Datum} (h : (ds.map Datum.name).Nodup) : ds.Nodup := by
    induction ds with
    | nil => exact List.nodup_nil
    | cons a t ih =>
      simp only [List.map_cons, List.nodup_cons, List.mem_map, not_exists, not_and] at h ⊢
      exact ⟨fun ha => h.1 a ha rfl, ih h.2⟩

end Pam.Handle
