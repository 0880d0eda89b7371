import Verif.Handle.PEnvSpec
namespace Pam.Handle
open Spec

set_option linter.unusedSimpArgs false

/-- the text of a variable -/
def text (v : Str × Str) : Str := v.1 ++ '=' :: v.2

structure GoodVars (vs : List (Str × Str)) : Prop where
  ne : ∀ v ∈ vs, v.1 ≠ []
  noEq : ∀ v ∈ vs, '=' ∉ v.1
  nodup : (vs.map Prod.fst).Nodup

/-- the array holds exactly the variables `vs` -/
structure Rep (e : PEnv) (vs : List (Str × Str)) : Prop where
  slots : ∃ rest, e.slots = vs.map (fun v => some (text v)) ++ none :: rest
  req : e.requested = vs.length + 1

theorem append_eq_cons_inj (c : Char) : ∀ (a b x y : Str), c ∉ a → c ∉ b → a ++ c :: x = b ++ c :: y → a = b ∧ x = y
  | [], [], _, _, _, _, h => by simpa using h
  | [], b :: bs, _, _, _, hb, h => by simp at h; exact absurd (by simp [h.1]) hb
  | a :: as, [], _, _, ha, _, h => by simp at h; exact absurd (by simp [h.1]) ha
  | a :: as, b :: bs, x, y, ha, hb, h => by
    simp at h
    have := append_eq_cons_inj c as bs x y (by simp at ha; exact ha.2) (by simp at hb; exact hb.2) h.2
    exact ⟨by rw [h.1, this.1], this.2⟩

theorem isVar_text (n : Str) (v : Str × Str) (hn : '=' ∉ n) (hv : '=' ∉ v.1) : isVar n (text v) = decide (v.1 = n) := by
  rw [Bool.eq_iff_iff]
  unfold isVar text
  rw [List.isPrefixOf_iff_prefix, decide_eq_true_iff]
  constructor
  · rintro ⟨t, ht⟩
    rw [List.append_assoc] at ht
    exact (append_eq_cons_inj '=' _ _ _ _ hv hn ht.symm).1
  · rintro rfl; exact ⟨v.2, by simp⟩

theorem rep_at {e vs} (h : Rep e vs) (i : Nat) (hi : i < vs.length) : e.at? i = some (text vs[i]) := by
  obtain ⟨rest, hs⟩ := h.slots
  unfold PEnv.at?
  rw [hs, List.getElem?_append_left (by simpa using hi)]
  simp [hi]

theorem searchBelow_spec {e vs} (h : Rep e vs) (hg : GoodVars vs) (n : Str) (hn : '=' ∉ n) :
    ∀ k ≤ vs.length, (∃ i < k, ∃ v, vs[i]? = some v ∧ v.1 = n ∧ e.searchBelow n k = some (some i)) ∨
      ((∀ i < k, ∀ v, vs[i]? = some v → v.1 ≠ n) ∧ e.searchBelow n k = some none)
  | 0, _ => by right; simp [PEnv.searchBelow]
  | k + 1, hk => by
    have ha := rep_at h k (by omega)
    have hmem : vs[k]'(by omega) ∈ vs := List.getElem_mem _
    rw [PEnv.searchBelow, ha]
    simp only [isVar_text n _ hn (hg.noEq _ hmem)]
    by_cases hv : (vs[k]'(by omega)).1 = n
    · left; exact ⟨k, by omega, vs[k], by simp, hv, by simp [hv]⟩
    · have hne : decide ((vs[k]'(by omega)).1 = n) = false := by simp [hv]
      rw [hne]
      rcases searchBelow_spec h hg n hn k (by omega) with ⟨i, hi, v, h1, h2, h3⟩ | ⟨h1, h2⟩
      · left; exact ⟨i, by omega, v, h1, h2, by simpa using h3⟩
      · right
        refine ⟨fun i hi v hv' => ?_, by simpa using h2⟩
        rcases Nat.lt_succ_iff_lt_or_eq.1 hi with hi | rfl
        · exact h1 i hi v hv'
        · rw [List.getElem?_eq_getElem (by omega)] at hv'
          injection hv' with hv'; subst hv'; exact hv

theorem search_spec {e vs} (h : Rep e vs) (hg : GoodVars vs) (n : Str) (hn : '=' ∉ n) :
    (∃ pre v post, vs = pre ++ (n, v) :: post ∧ n ∉ pre.map Prod.fst ∧ n ∉ post.map Prod.fst ∧ e.search n = some (some pre.length)) ∨
    (n ∉ vs.map Prod.fst ∧ e.search n = some none) := by
  have hs : e.search n = e.searchBelow n vs.length := by unfold PEnv.search; rw [h.req]; rfl
  rw [hs]
  rcases searchBelow_spec h hg n hn vs.length (Nat.le_refl _) with ⟨i, hi, v, h1, h2, h3⟩ | ⟨h1, h2⟩
  · left
    have hsplit : vs = vs.take i ++ v :: vs.drop (i + 1) := by
      rw [List.getElem?_eq_getElem hi] at h1
      injection h1 with h1
      rw [← h1, List.getElem_cons_drop, List.take_append_drop]
    have hnd := hg.nodup
    rw [hsplit] at hnd
    simp only [List.map_append, List.map_cons, List.nodup_append, List.nodup_cons] at hnd
    refine ⟨vs.take i, v.2, vs.drop (i + 1), ?_, ?_, ?_, ?_⟩
    · subst h2; exact hsplit
    · intro hm
      exact hnd.2.2 n hm n (by simp [h2]) rfl
    · rw [← h2]; exact hnd.2.1.1
    · rw [h3]; simp [Nat.min_eq_left (Nat.le_of_lt hi)]
  · right
    refine ⟨?_, h2⟩
    intro hm
    obtain ⟨v, hv, hv2⟩ := List.mem_map.1 hm
    obtain ⟨i, hi, hi2⟩ := List.getElem_of_mem hv
    exact h1 i hi v (by rw [List.getElem?_eq_getElem hi, hi2]) hv2

theorem store_set {e : PEnv} {pre : List (Option Str)} {x post v} (h : e.slots = pre ++ x :: post) :
    e.store pre.length v = some { e with slots := pre ++ v :: post } := by
  unfold PEnv.store
  rw [h, if_pos (by simp)]
  simp

theorem remove_rep {e : PEnv} {pre post : List (Option Str)} {x : Option Str} {rest}
    (hs : e.slots = pre ++ x :: (post ++ none :: rest)) (hr : e.requested = pre.length + post.length + 2) :
    e.remove pre.length = some { slots := pre ++ post ++ none :: (none :: rest), requested := pre.length + post.length + 1 } := by
  unfold PEnv.remove
  have hl : e.slots.length = pre.length + 1 + (post.length + 1 + rest.length) := by rw [hs]; simp; omega
  rw [if_pos ⟨by omega, by omega⟩]
  have h1 : e.requested - 1 - pre.length = post.length + 1 := by omega
  rw [h1, hs, hr]
  congr 2
  have e1 : (pre ++ x :: (post ++ none :: rest)).take pre.length = pre := by simp
  have e2 : (pre ++ x :: (post ++ none :: rest)).drop (pre.length + 1) = post ++ none :: rest := by
    rw [← List.drop_drop]; simp
  have e3 : (pre ++ x :: (post ++ none :: rest)).drop (pre.length + (post.length + 1)) = none :: rest := by
    rw [← List.drop_drop, List.drop_left, List.drop_succ_cons, List.drop_left]
  have e4 : (post ++ none :: rest).take (post.length + 1) = post ++ [none] := by
    rw [show (none :: rest : List (Option Str)) = [none] ++ rest from rfl, ← List.append_assoc]
    rw [List.take_left' (by simp)]
  rw [e1, e2, e3, e4]; simp

/-- what a call does to the list of variables (`room`: the array has a free slot) -/
def putVars (room : Bool) (vs : List (Str × Str)) (c : Put) : Int × List (Str × Str) :=
  match c.name with
  | none => (if c.arg = none then PAM_PERM_DENIED else PAM_BAD_ITEM, vs)
  | some n =>
    match c.value with
    | some v =>
      if n ∈ vs.map Prod.fst then
        if c.ok2 then (PAM_SUCCESS, vs.map (fun p => if p.1 = n then (n, v) else p))
        else (PAM_BUF_ERR, vs.filter (fun p => p.1 ≠ n))
      else if c.ok2 ∧ (c.ok1 ∨ room) then (PAM_SUCCESS, vs ++ [(n, v)])
      else (PAM_BUF_ERR, vs)
    | none =>
      if n ∈ vs.map Prod.fst then (PAM_SUCCESS, vs.filter (fun p => p.1 ≠ n)) else (PAM_BAD_ITEM, vs)

theorem map_replace (n v w : Str) (pre post : List (Str × Str)) (h1 : n ∉ pre.map Prod.fst) (h2 : n ∉ post.map Prod.fst) :
    (pre ++ (n, w) :: post).map (fun p => if p.1 = n then (n, v) else p) = pre ++ (n, v) :: post := by
  have aux : ∀ l : List (Str × Str), n ∉ l.map Prod.fst → l.map (fun p => if p.1 = n then (n, v) else p) = l := by
    intro l hl
    conv => rhs; rw [← List.map_id l]
    apply List.map_congr_left
    intro p hp
    rw [if_neg]; rfl
    intro h; exact hl (List.mem_map.2 ⟨p, hp, h⟩)
  simp [aux pre h1, aux post h2]

theorem filter_remove (n w : Str) (pre post : List (Str × Str)) (h1 : n ∉ pre.map Prod.fst) (h2 : n ∉ post.map Prod.fst) :
    (pre ++ (n, w) :: post).filter (fun p => p.1 ≠ n) = pre ++ post := by
  have aux : ∀ l : List (Str × Str), n ∉ l.map Prod.fst → l.filter (fun p => p.1 ≠ n) = l := by
    intro l hl
    rw [List.filter_eq_self]
    intro p hp
    simp only [decide_eq_true_eq, ne_eq, decide_not, Bool.not_eq_true', decide_eq_false_iff_not]
    intro h; exact hl (List.mem_map.2 ⟨p, hp, h⟩)
  rw [List.filter_append, aux pre h1, List.filter_cons]
  simp only [ne_eq, not_true_eq_false, decide_false, Bool.false_eq_true, if_false]
  rw [← aux post h2]
  simp

theorem good_remove {n w : Str} {pre post : List (Str × Str)} (h : GoodVars (pre ++ (n, w) :: post)) : GoodVars (pre ++ post) := by
  refine ⟨fun v hv => h.ne v ?_, fun v hv => h.noEq v ?_, ?_⟩
  · simp at hv ⊢; rcases hv with hv | hv <;> simp [hv]
  · simp at hv ⊢; rcases hv with hv | hv <;> simp [hv]
  · refine List.Nodup.sublist ?_ h.nodup
    exact List.Sublist.map _ (List.Sublist.append (List.Sublist.refl _) (List.sublist_cons_self _ _))

theorem good_replace {n w v : Str} {pre post : List (Str × Str)} (h : GoodVars (pre ++ (n, w) :: post)) :
    GoodVars (pre ++ (n, v) :: post) := by
  have hn := h.ne (n, w) (by simp)
  have he := h.noEq (n, w) (by simp)
  refine ⟨fun u hu => ?_, fun u hu => ?_, ?_⟩
  · simp at hu
    rcases hu with hu | rfl | hu
    · exact h.ne u (by simp [hu])
    · exact hn
    · exact h.ne u (by simp [hu])
  · simp at hu
    rcases hu with hu | rfl | hu
    · exact h.noEq u (by simp [hu])
    · exact he
    · exact h.noEq u (by simp [hu])
  · have := h.nodup
    simpa using this

theorem takeWhile_append_dropWhile_eq (t : Str) : t = t.takeWhile (· ≠ '=') ++ t.dropWhile (· ≠ '=') :=
  (List.takeWhile_append_dropWhile (p := (· ≠ '=')) (l := t)).symm

theorem dropWhile_head (t : Str) (c : Char) (v : Str) (h : t.dropWhile (· ≠ '=') = c :: v) : c = '=' := by
  have := List.head_dropWhile_not (p := (· ≠ '=')) (l := t) (by rw [h]; simp)
  simp only [h, List.head_cons] at this
  simpa using this

theorem putenv_spec {e vs} (h : Rep e vs) (hg : GoodVars vs) (c : Put) :
    ∃ e', e.putenv c.arg c.ok1 c.ok2 = some ((putVars (decide (e.requested < e.slots.length)) vs c).1, e') ∧
      Rep e' (putVars (decide (e.requested < e.slots.length)) vs c).2 ∧
      GoodVars (putVars (decide (e.requested < e.slots.length)) vs c).2 := by
  obtain ⟨arg, ok1, ok2⟩ := c
  cases arg with
  | none => exact ⟨e, by simp [PEnv.putenv, putVars, Put.name], by simpa [putVars, Put.name] using h, by simpa [putVars, Put.name] using hg⟩
  | some nv =>
    by_cases hne : nv.takeWhile (· ≠ '=') = []
    · have hn : Put.name ⟨some nv, ok1, ok2⟩ = none := by simp only [Put.name]; rw [if_pos hne]
      refine ⟨e, ?_, ?_, ?_⟩
      · simp only [PEnv.putenv, putVars, hn]; rw [if_pos hne]; simp
      · simp only [putVars, hn]; exact h
      · simp only [putVars, hn]; exact hg
    · have hn : Put.name ⟨some nv, ok1, ok2⟩ = some (nv.takeWhile (· ≠ '=')) := by simp only [Put.name]; rw [if_neg hne]
      have hsplit := takeWhile_append_dropWhile_eq nv
      generalize hname : nv.takeWhile (· ≠ '=') = n at *
      have hneq : '=' ∉ n := by
        intro hm
        rw [← hname] at hm
        have := List.all_takeWhile (p := fun c : Char => decide (c ≠ '=')) (l := nv)
        rw [List.all_eq_true] at this
        have := this _ hm
        simp at this
      have hput : ∀ x, e.search n = some x → e.putenv (some nv) ok1 ok2 =
          (if nv.length ≠ n.length then
            match x with
            | none =>
              match e.grow ok1 with
              | none => some (PAM_BUF_ERR, e)
              | some e1 =>
                match e1.store e1.requested none with
                | none => none
                | some e2 => PEnv.putenv.insert ok2 { e2 with requested := e2.requested + 1 } (e1.requested - 1) nv
            | some i => PEnv.putenv.insert ok2 e i nv
          else match x with
            | none => some (PAM_BAD_ITEM, e)
            | some i => (e.remove i).map (fun e' => (PAM_SUCCESS, e'))) := by
        intro x hx
        unfold PEnv.putenv
        simp only [hname, hne, if_false, hx]
        rfl
      obtain ⟨rest, hs⟩ := h.slots
      cases hdw : nv.dropWhile (· ≠ '=') with
      | nil =>
        have hval : Put.value ⟨some nv, ok1, ok2⟩ = none := by simp only [Put.value]; rw [hdw]
        have hlen : ¬ (nv.length ≠ n.length) := by rw [hdw] at hsplit; simp at hsplit; simp [hsplit]
        rcases search_spec h hg n hneq with ⟨pre, v, post, hv, h1, h2, h3⟩ | ⟨h1, h3⟩
        · rw [hput _ h3, if_neg hlen]
          have hmem : n ∈ vs.map Prod.fst := by rw [hv]; simp
          have hsl : e.slots = pre.map (fun v => some (text v)) ++ some (text (n, v)) :: (post.map (fun v => some (text v)) ++ none :: rest) := by
            rw [hs, hv]; simp
          have hrm := remove_rep hsl (by rw [h.req, hv]; simp; omega)
          simp only [List.length_map] at hrm
          simp only [putVars, hn, hval, if_pos hmem]
          rw [hrm, hv, filter_remove n v pre post h1 h2]
          exact ⟨_, rfl, ⟨⟨none :: rest, by simp⟩, by simp⟩, good_remove (hv ▸ hg)⟩
        · rw [hput _ h3, if_neg hlen]
          simp only [putVars, hn, hval, if_neg h1]
          exact ⟨e, rfl, h, hg⟩
      | cons c v =>
        have hc := dropWhile_head nv c v hdw
        subst hc
        have hval : Put.value ⟨some nv, ok1, ok2⟩ = some v := by simp only [Put.value]; rw [hdw]
        rw [hdw] at hsplit
        have hlen : nv.length ≠ n.length := by rw [hsplit]; simp
        have htext : nv = text (n, v) := hsplit
        rcases search_spec h hg n hneq with ⟨pre, w, post, hv, h1, h2, h3⟩ | ⟨h1, h3⟩
        · rw [hput _ h3, if_pos hlen]
          have hmem : n ∈ vs.map Prod.fst := by rw [hv]; simp
          have hsl : e.slots = pre.map (fun v => some (text v)) ++ some (text (n, w)) :: (post.map (fun v => some (text v)) ++ none :: rest) := by
            rw [hs, hv]; simp
          have hst := store_set (v := if ok2 then some nv else none) hsl
          simp only [List.length_map] at hst
          simp only [putVars, hn, hval, if_pos hmem, PEnv.putenv.insert, hst]
          cases ok2 with
          | true =>
            simp only [if_true]
            rw [hv, map_replace n v w pre post h1 h2]
            refine ⟨_, rfl, ⟨⟨rest, by simp [htext]⟩, by simp [h.req, hv]⟩, good_replace (hv ▸ hg)⟩
          | false =>
            simp only [Bool.false_eq_true, if_false]
            have hrm := remove_rep (e := { e with slots := pre.map (fun v => some (text v)) ++ none :: (post.map (fun v => some (text v)) ++ none :: rest) }) rfl
              (by rw [h.req, hv]; simp; omega)
            simp only [List.length_map] at hrm
            rw [hrm, hv, filter_remove n w pre post h1 h2]
            exact ⟨_, rfl, ⟨⟨none :: rest, by simp⟩, by simp⟩, good_remove (hv ▸ hg)⟩
        · rw [hput _ h3, if_pos hlen]
          simp only [putVars, hn, hval, if_neg h1]
          have hgnew : GoodVars (vs ++ [(n, v)]) := by
            refine ⟨fun u hu => ?_, fun u hu => ?_, ?_⟩
            · simp at hu; rcases hu with hu | rfl
              · exact hg.ne u hu
              · exact hne
            · simp at hu; rcases hu with hu | rfl
              · exact hg.noEq u hu
              · exact hneq
            · simp only [List.map_append, List.map_cons, List.map_nil, List.nodup_append]
              refine ⟨hg.nodup, by simp, ?_⟩
              intro a ha b hb
              simp at hb; subst hb
              intro hab; exact h1 (hab ▸ ha)
          -- after growing, the array has a second free slot
          have hins : ∀ e1 : PEnv, e1.requested = vs.length + 1 →
              (∃ x rest', e1.slots = vs.map (fun v => some (text v)) ++ none :: x :: rest') →
              ∃ e', (match e1.store e1.requested none with
                | none => none
                | some e2 => PEnv.putenv.insert ok2 { e2 with requested := e2.requested + 1 } (e1.requested - 1) nv)
                  = some (if ok2 then PAM_SUCCESS else PAM_BUF_ERR, e') ∧ Rep e' (if ok2 then vs ++ [(n, v)] else vs) := by
            rintro e1 hr ⟨x, rest', hs1⟩
            have hs1' : e1.slots = (vs.map (fun v => some (text v)) ++ [none]) ++ x :: rest' := by rw [hs1]; simp
            have hst := store_set (v := none) hs1'
            simp only [List.length_append, List.length_map, List.length_cons, List.length_nil] at hst
            rw [hr, hst]
            simp only [PEnv.putenv.insert]
            have hs2 : ({ slots := vs.map (fun v => some (text v)) ++ [none] ++ none :: rest', requested := e1.requested + 1 } : PEnv).slots
                = vs.map (fun v => some (text v)) ++ none :: (none :: rest') := by simp
            have hst2 := store_set (v := if ok2 then some nv else none) hs2
            simp only [List.length_map] at hst2
            rw [show vs.length + 1 - 1 = vs.length from rfl, hst2]
            cases ok2 with
            | true =>
              simp only [if_true]
              exact ⟨_, rfl, ⟨⟨rest', by simp [htext]⟩, by simp [hr]⟩⟩
            | false =>
              simp only [Bool.false_eq_true, if_false]
              have hrm := remove_rep (e := { slots := vs.map (fun v => some (text v)) ++ none :: ([] ++ none :: rest'), requested := e1.requested + 1 }) rfl
                (by simp [hr])
              simp only [List.length_map, List.nil_append] at hrm
              rw [hrm]
              exact ⟨_, rfl, ⟨⟨none :: rest', by simp⟩, by simp⟩⟩
          have hroom : e.slots.length = vs.length + 1 + rest.length := by rw [hs]; simp; omega
          by_cases hfull : e.slots.length ≤ e.requested
          · have hrest : rest = [] := by
              rw [h.req] at hfull
              exact List.eq_nil_of_length_eq_zero (by omega)
            have hd : decide (e.requested < e.slots.length) = false := by simp; omega
            rw [hd]
            simp only [PEnv.grow, hfull, if_true]
            cases ok1 with
            | true =>
              simp only [if_true]
              obtain ⟨e', h4, h5⟩ := hins { e with slots := e.slots.take e.requested ++ List.replicate (e.slots.length + ENV_CHUNK - e.requested) none }
                h.req (by
                  refine ⟨none, List.replicate 9 none, ?_⟩
                  have hl : e.slots.length = e.requested := by rw [h.req, hroom, hrest]; rfl
                  show e.slots.take e.requested ++ List.replicate (e.slots.length + ENV_CHUNK - e.requested) none = _
                  rw [List.take_of_length_le (by omega), hl, show e.requested + ENV_CHUNK - e.requested = 10 by simp [ENV_CHUNK], hs, hrest]
                  simp [List.replicate])
              refine ⟨e', ?_, ?_, ?_⟩
              · rw [h4]; cases ok2 <;> simp
              · cases ok2 <;> simpa using h5
              · cases ok2
                · simpa using hg
                · simpa using hgnew
            | false => exact ⟨e, by simp, by simpa using h, by simpa using hg⟩
          · have hd : decide (e.requested < e.slots.length) = true := by simp; omega
            rw [hd]
            simp only [PEnv.grow, hfull, if_false]
            obtain ⟨e', h4, h5⟩ := hins e h.req (by
              cases rest with
              | nil => simp at hroom; rw [h.req] at hfull; omega
              | cons x rest' => exact ⟨x, rest', hs⟩)
            refine ⟨e', ?_, ?_, ?_⟩
            · rw [h4]; cases ok2 <;> simp
            · cases ok2 <;> simpa using h5
            · cases ok2
              · simpa using hg
              · simpa using hgnew

theorem make_rep : Rep .make [] := ⟨⟨List.replicate 9 none, rfl⟩, rfl⟩
theorem good_nil : GoodVars [] := ⟨by simp, by simp, by simp⟩

end Pam.Handle
