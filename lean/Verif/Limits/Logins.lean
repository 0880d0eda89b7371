import Verif.Limits.Session
/-
C62: the limits on the number of logins.
-/
namespace Pam.Limits
open Pam Pam.Limits.Spec
open Pam.Access hiding Entry

/-! ## the entry that counts -/

theorem wins_uniq {rel : Entry → Src → Prop} (hu : ∀ e k k', rel e k → rel e k' → k = k') {es : List Entry} {e e' : Entry} {k k' : Src}
    (h : Wins rel es e k) (h' : Wins rel es e' k') : e = e' ∧ k = k' := by
  obtain ⟨pre, post, rfl, r, a, b⟩ := h
  obtain ⟨pre', post', he, r', a', b'⟩ := h'
  rcases List.append_eq_append_iff.mp he with ⟨x, hx, hy⟩ | ⟨x, hx, hy⟩
  · cases x with
    | nil => cases hy; exact ⟨rfl, hu _ _ _ r r'⟩
    | cons y x =>
      cases hy
      have h1 := b _ (by simp) _ r'
      have h2 := a' _ (by rw [hx]; simp) _ r
      omega
  · cases x with
    | nil => cases hy; exact ⟨rfl, hu _ _ _ r r'⟩
    | cons y x =>
      cases hy
      have h1 := b' _ (by simp) _ r
      have h2 := a _ (by rw [hx]; simp) _ r'
      omega

theorem meansLogins_uniq {s : Str} {n n' : Int} (h : MeansLogins s n) (h' : MeansLogins s n') : n = n' := by
  rcases h with ⟨a, b⟩ | ⟨a, b, _⟩ <;> rcases h' with ⟨a', b'⟩ | ⟨a', b', _⟩
  · rw [b, b']
  · exact absurd a a'
  · exact absurd a' a
  · have h1 := (strtoInt_signed10 b).1
    rw [(strtoInt_signed10 b').1] at h1
    cases h1
    rfl

/-- the two items -/
def loginName : Item → Str
  | .maxsyslogins => "maxsyslogins".toList
  | _ => "maxlogins".toList

theorem type_logins {it : Item} (hit : it = .maxlogins ∨ it = .maxsyslogins) (s : Str) : ∃ ty, typeOf it s = some ty := by
  unfold typeOf
  split
  · exact ⟨_, rfl⟩
  split
  · exact ⟨_, rfl⟩
  split
  · exact ⟨_, rfl⟩
  rw [if_pos (hit.elim Or.inl (fun h => Or.inr (Or.inl h)))]
  exact ⟨_, rfl⟩

theorem read_logins {it : Item} (hit : it = .maxlogins ∨ it = .maxsyslogins) {s : Str} {n : Int} (h : MeansLogins s n) :
    ∃ m, readValue it s = some (n, m) := by
  have h0 : it ≠ .nonewprivs := by rcases hit with e | e <;> (rw [e]; decide)
  have h1 : it ≠ .priority := by rcases hit with e | e <;> (rw [e]; decide)
  have h2 : it ≠ .rlimit .nice := by rcases hit with e | e <;> (rw [e]; decide)
  unfold readValue
  rw [if_neg h0]
  rcases h with ⟨hw, rfl⟩ | ⟨hw, hs, h3, h4⟩
  · rw [if_pos ⟨h1, h2, unlimited_iff.mpr hw⟩]
    exact ⟨_, rfl⟩
  · obtain ⟨e1, e2⟩ := strtoInt_signed10 hs
    rw [if_neg (fun h => hw (unlimited_iff.mp h.2.2)), if_pos (hit.elim (fun h => Or.inr (Or.inl h)) (fun h => Or.inr (Or.inr (Or.inr h))))]
    simp only [e1]
    rw [if_neg (fun h => e2 h.2.symm), toInt_long]
    have : max (-(2 ^ 31)) (min (2 ^ 31 - 1) n) = n := by omega
    rw [this]
    exact ⟨_, rfl⟩

theorem itemOf_logins {it : Item} (hit : it = .maxlogins ∨ it = .maxsyslogins) : itemOf (loginName it) = some it := by
  rcases hit with e | e <;> (rw [e]; decide)

theorem logins_other {k : Src} {it : Item} {ty : Bool × Bool} {v : Int × Nat} {pl : Pl} (h1 : it ≠ .maxlogins) (h2 : it ≠ .maxsyslogins) :
    (store k it ty v pl).loginDef = pl.loginDef ∧ (store k it ty v pl).loginLimit = pl.loginLimit := by
  cases it with
  | rlimit r =>
    have := rest_rlimit (src := k) (r := r) (ty := ty) (v := v) (pl := pl)
    exact ⟨congrArg (fun x => x.2.1) this, congrArg (fun x => x.1) this⟩
  | maxlogins => exact absurd rfl h1
  | maxsyslogins => exact absurd rfl h2
  | priority => exact ⟨rfl, rfl⟩
  | nonewprivs => exact ⟨rfl, rfl⟩

/-- the limit on logins after a table that has only one of the two items -/
theorem fold_logins (sys : Sys) (u : User) (it other : Item) (hit : it = .maxlogins ∧ other = .maxsyslogins ∨ it = .maxsyslogins ∧ other = .maxlogins)
    (es : List Entry) (hv : ∀ e ∈ es, ∀ k, SetsLogins sys u (loginName it) e k → ∃ n, MeansLogins e.value n)
    (ho : ∀ e ∈ es, (∃ k, Stands sys u e.domain k) → e.item ≠ loginName other) (pl : Pl) :
    (∃ e k, Wins (SetsLogins sys u (loginName it)) es e k ∧ k.rank ≤ pl.loginDef.rank ∧ (es.foldl (apply sys u) pl).loginDef = k ∧
      MeansLogins e.value (es.foldl (apply sys u) pl).loginLimit) ∨
    ((∀ e ∈ es, ∀ k, SetsLogins sys u (loginName it) e k → pl.loginDef.rank < k.rank) ∧
      (es.foldl (apply sys u) pl).loginDef = pl.loginDef ∧ (es.foldl (apply sys u) pl).loginLimit = pl.loginLimit) := by
  have hit' : it = .maxlogins ∨ it = .maxsyslogins := hit.elim (fun h => Or.inl h.1) (fun h => Or.inr h.1)
  refine fold_wins (SetsLogins sys u (loginName it)) (fun e n => MeansLogins e.value n) (fun pl => pl.loginDef) (fun pl => pl.loginLimit)
    (apply sys u) (fun _ => True) (fun e => (∃ k, Stands sys u e.domain k) → e.item ≠ loginName other) (fun _ _ _ _ => trivial) ?_ ?_ ?_ es pl
    ho trivial hv
  · intro e k k' h h'
    exact stands_uniq h.2.1 h'.2.1
  · intro pl e k n _ _ h hm
    obtain ⟨ty, hty⟩ := type_logins hit' e.type
    obtain ⟨m, hr⟩ := read_logins hit' hm
    have hstore : apply sys u pl e = store k it ty (scale sys.nrOpen it (n, m)) (flag it
        (if k = .allgroup then { pl with loginGroup := some (groupOf sys e.domain (parseRange e.domain)) } else pl)) := by
      rw [apply_some h.2.1]
      unfold processLimit
      simp only [h.1, itemOf_logins hit', hty, hr]
      rw [if_neg]
      rintro ⟨hk, hne⟩
      rcases h.2.2 with h' | h'
      · rcases hit' with e' | e'
        · exact hne e'
        · rw [e'] at h'; exact absurd h' (by decide)
      · exact hk.elim h'.1 h'.2
    rw [hstore]
    have hgd : ∀ p : Pl, (flag it p).loginDef = p.loginDef := fun p => (flag_keeps it p).2.2.2.1
    have hgl : ∀ p : Pl, (flag it p).loginLimit = p.loginLimit := fun p => (flag_keeps it p).2.2.1
    have hg := group_keeps pl (k = .allgroup) (some (groupOf sys e.domain (parseRange e.domain)))
    generalize (if k = .allgroup then { pl with loginGroup := some (groupOf sys e.domain (parseRange e.domain)) } else pl) = p at hg
    have hs : store k it ty (scale sys.nrOpen it (n, m)) (flag it p) =
        if (flag it p).loginDef.rank < k.rank then flag it p else { flag it p with loginLimit := n, loginDef := k } := by
      rcases hit' with e' | e' <;> (subst e'; rfl)
    rw [hs]
    by_cases hlt : pl.loginDef.rank < k.rank
    · rw [if_pos hlt, if_pos (by rw [hgd, hg.2.2.2.1]; exact hlt), hgd, hgl, hg.2.2.2.1, hg.2.2.1]
      exact ⟨rfl, rfl⟩
    · rw [if_neg hlt, if_neg (by rw [hgd, hg.2.2.2.1]; exact hlt)]
      exact ⟨rfl, rfl⟩
  · intro pl e hP _ hn
    by_cases hs : ∃ k, Stands sys u e.domain k
    · have hne := hP hs
      obtain ⟨k, hs⟩ := hs
      rw [apply_some hs]
      have hg := group_keeps pl (k = .allgroup) (some (groupOf sys e.domain (parseRange e.domain)))
      generalize (if k = .allgroup then { pl with loginGroup := some (groupOf sys e.domain (parseRange e.domain)) } else pl) = p at hg
      have hf : ∀ i, (flag i p).loginDef = pl.loginDef ∧ (flag i p).loginLimit = pl.loginLimit := fun i =>
        ⟨(flag_keeps i p).2.2.2.1.trans hg.2.2.2.1, (flag_keeps i p).2.2.1.trans hg.2.2.1⟩
      unfold processLimit
      split
      · exact ⟨hg.2.2.2.1, hg.2.2.1⟩
      · rename_i i hi
        simp only
        split
        · exact hf i
        · split
          · exact hf i
          · split
            · exact hf i
            · rename_i hk
              have hname := names_other _ (itemOf_name hi)
              have n2 : i ≠ other := by
                intro e'
                rcases hit with ⟨_, ho⟩ | ⟨_, ho⟩
                · exact hne (by rw [ho]; exact hname.2.1 (e'.trans ho))
                · exact hne (by rw [ho]; exact hname.1 (e'.trans ho))
              have n1 : i ≠ it := by
                intro e'
                refine hn k ⟨?_, hs, ?_⟩
                · rcases hit' with h | h
                  · rw [h]; exact hname.1 (e'.trans h)
                  · rw [h]; exact hname.2.1 (e'.trans h)
                · rcases hit' with h | h
                  · left; rw [h]; rfl
                  · right
                    rw [e', h] at hk
                    exact ⟨fun e => hk ⟨Or.inl e, by decide⟩, fun e => hk ⟨Or.inr e, by decide⟩⟩
              have := logins_other (k := k) (it := i) (ty := by assumption) (v := scale sys.nrOpen i (by assumption)) (pl := flag i p)
                (by rcases hit with ⟨h, h'⟩ | ⟨h, h'⟩
                    · rw [← h]; exact n1
                    · rw [← h']; exact n2)
                (by rcases hit with ⟨h, h'⟩ | ⟨h, h'⟩
                    · rw [← h']; exact n2
                    · rw [← h]; exact n1)
              exact ⟨this.1.trans (hf i).1, this.2.trans (hf i).2⟩
    · rw [apply_none (fun k h => hs ⟨k, h⟩)]
      exact ⟨rfl, rfl⟩

/-! ## what else is kept for logins -/

theorem store_keeps {k : Src} {it : Item} {ty : Bool × Bool} {v : Int × Nat} {pl : Pl} :
    (store k it ty v pl).sysFlag = pl.sysFlag ∧ (store k it ty v pl).loginGroup = pl.loginGroup ∧
    ((store k it ty v pl).loginDef = pl.loginDef ∨ (store k it ty v pl).loginDef = k) := by
  cases it with
  | rlimit r =>
    have := rest_rlimit (src := k) (r := r) (ty := ty) (v := v) (pl := pl)
    exact ⟨congrArg (fun x => x.2.2.1) this, congrArg (fun x => x.2.2.2.2.2) this, Or.inl (congrArg (fun x => x.2.1) this)⟩
  | maxlogins => unfold store; simp only; split <;> simp
  | maxsyslogins => unfold store; simp only; split <;> simp
  | priority => exact ⟨rfl, rfl, Or.inl rfl⟩
  | nonewprivs => exact ⟨rfl, rfl, Or.inl rfl⟩

/-- the flag of the item of an entry, whatever becomes of the entry -/
theorem process_flag {nr : Option Nat} {k : Src} {t i v : Str} {pl : Pl} :
    (processLimit nr k t i v pl).sysFlag = (match itemOf i with
      | none => pl.sysFlag
      | some it => (flag it pl).sysFlag) := by
  unfold processLimit
  cases itemOf i with
  | none => rfl
  | some it =>
    simp only
    split
    · rfl
    · split
      · rfl
      · split
        · rfl
        · exact store_keeps.1

theorem process_group {nr : Option Nat} {k : Src} {t i v : Str} {pl : Pl} :
    (processLimit nr k t i v pl).loginGroup = pl.loginGroup ∧
    ((processLimit nr k t i v pl).loginDef = pl.loginDef ∨ (processLimit nr k t i v pl).loginDef = k) := by
  have hf : ∀ it, (flag it pl).loginGroup = pl.loginGroup ∧ (flag it pl).loginDef = pl.loginDef := fun it =>
    ⟨(flag_keeps it pl).2.2.2.2, (flag_keeps it pl).2.2.2.1⟩
  unfold processLimit
  split
  · exact ⟨rfl, Or.inl rfl⟩
  · rename_i it hi
    simp only
    split
    · exact ⟨(hf it).1, Or.inl (hf it).2⟩
    · split
      · exact ⟨(hf it).1, Or.inl (hf it).2⟩
      · split
        · exact ⟨(hf it).1, Or.inl (hf it).2⟩
        · refine ⟨store_keeps.2.1.trans (hf it).1, ?_⟩
          rcases store_keeps.2.2 with h | h
          · exact Or.inl (h.trans (hf it).2)
          · exact Or.inr h

theorem itemOf_sys {s : Str} : itemOf s = some .maxsyslogins ↔ s = "maxsyslogins".toList :=
  ⟨fun h => (names_other _ (itemOf_name h)).2.1 rfl, fun h => by rw [h]; decide⟩

theorem itemOf_max {s : Str} : itemOf s = some .maxlogins ↔ s = "maxlogins".toList :=
  ⟨fun h => (names_other _ (itemOf_name h)).1 rfl, fun h => by rw [h]; decide⟩

/-- without entries for maxsyslogins the flag stays down -/
theorem fold_flag_down (sys : Sys) (u : User) : ∀ (es : List Entry),
    (∀ e ∈ es, (∃ k, Stands sys u e.domain k) → e.item ≠ "maxsyslogins".toList) → ∀ pl : Pl, pl.sysFlag = false →
    (es.foldl (apply sys u) pl).sysFlag = false := by
  intro es
  induction es with
  | nil => intro _ pl h; exact h
  | cons x es ih =>
    intro ho pl h
    rw [List.foldl_cons]
    refine ih (fun e he => ho e (by simp [he])) _ ?_
    by_cases hs : ∃ k, Stands sys u x.domain k
    · have hne := ho x (by simp) hs
      obtain ⟨k, hs⟩ := hs
      rw [apply_some hs, process_flag]
      have hg := (group_keeps pl (k = .allgroup) (some (groupOf sys x.domain (parseRange x.domain)))).2.2.2.2
      cases hi : itemOf x.item with
      | none => exact hg.trans h
      | some it =>
        simp only
        cases it with
        | maxsyslogins => exact absurd (itemOf_sys.mp hi) hne
        | maxlogins => rfl
        | rlimit r => exact hg.trans h
        | priority => exact hg.trans h
        | nonewprivs => exact hg.trans h
    · rw [apply_none (fun k h => hs ⟨k, h⟩)]
      exact h

/-- without entries for maxlogins the flag goes up and stays up -/
theorem fold_flag_up (sys : Sys) (u : User) : ∀ (es : List Entry),
    (∀ e ∈ es, (∃ k, Stands sys u e.domain k) → e.item ≠ "maxlogins".toList) → ∀ pl : Pl,
    (pl.sysFlag = true ∨ ∃ e ∈ es, (∃ k, Stands sys u e.domain k) ∧ e.item = "maxsyslogins".toList) →
    (es.foldl (apply sys u) pl).sysFlag = true := by
  intro es
  induction es with
  | nil =>
    rintro _ pl (h | ⟨e, he, _⟩)
    · exact h
    · cases he
  | cons x es ih =>
    intro ho pl h
    rw [List.foldl_cons]
    refine ih (fun e he => ho e (by simp [he])) _ ?_
    by_cases hs : ∃ k, Stands sys u x.domain k
    · have hne := ho x (by simp) hs
      have hs0 := hs
      obtain ⟨k, hs⟩ := hs
      rw [apply_some hs, process_flag]
      have hg := (group_keeps pl (k = .allgroup) (some (groupOf sys x.domain (parseRange x.domain)))).2.2.2.2
      have other : ∀ it, it ≠ Item.maxsyslogins → itemOf x.item = some it → (pl.sysFlag = true ∨
          ∃ e ∈ es, (∃ k, Stands sys u e.domain k) ∧ e.item = "maxsyslogins".toList) := by
        intro it hit hi
        rcases h with h | ⟨e, he, h1, h2⟩
        · exact Or.inl h
        · rcases List.mem_cons.mp he with e' | he
          · subst e'
            rw [itemOf_sys.mpr h2] at hi
            exact absurd (Option.some.inj hi).symm hit
          · exact Or.inr ⟨e, he, h1, h2⟩
      cases hi : itemOf x.item with
      | none =>
        simp only
        rcases h with h | ⟨e, he, h1, h2⟩
        · exact Or.inl (hg.trans h)
        · rcases List.mem_cons.mp he with e' | he
          · subst e'
            rw [itemOf_sys.mpr h2] at hi
            cases hi
          · exact Or.inr ⟨e, he, h1, h2⟩
      | some it =>
        simp only
        cases it with
        | maxsyslogins => exact Or.inl rfl
        | maxlogins => exact absurd (itemOf_max.mp hi) hne
        | rlimit r => exact (other _ (by simp) hi).imp (fun h => hg.trans h) id
        | priority => exact (other _ (by simp) hi).imp (fun h => hg.trans h) id
        | nonewprivs => exact (other _ (by simp) hi).imp (fun h => hg.trans h) id
    · rw [apply_none (fun k h => hs ⟨k, h⟩)]
      rcases h with h | ⟨e, he, h1, h2⟩
      · exact Or.inl h
      · rcases List.mem_cons.mp he with rfl | he
        · exact absurd h1 hs
        · exact Or.inr ⟨e, he, h1, h2⟩

theorem groupOf_spec {sys : Sys} {d g : Str} (h : GroupOf sys d g) : groupOf sys d (parseRange d) = g := by
  cases h with
  | name h =>
    have := (parseRange_iff (d := '%' :: g) (rng := .none)).mpr (by rw [body_percent]; exact .none h)
    rw [this.1]
    rfl
  | @gid s n h =>
    have := (parseRange_iff (d := '%' :: ':' :: s) (rng := .one n)).mpr (by rw [body_percent]; exact .one h)
    rw [this.1]
    rfl

/-- if only one group has `%` entries, a limit of that kind is about that group -/
theorem fold_group (sys : Sys) (u : User) (g : Str) : ∀ (es : List Entry),
    (∀ e ∈ es, Stands sys u e.domain .allgroup → GroupOf sys e.domain g) → ∀ pl : Pl, (pl.loginDef = .allgroup → pl.loginGroup = some g) →
    (pl.loginGroup = none ∨ pl.loginGroup = some g) →
    ((es.foldl (apply sys u) pl).loginDef = .allgroup → (es.foldl (apply sys u) pl).loginGroup = some g) := by
  intro es
  induction es with
  | nil => intro _ pl h _; exact h
  | cons x es ih =>
    intro ho pl h h0
    rw [List.foldl_cons]
    by_cases hs : ∃ k, Stands sys u x.domain k
    · obtain ⟨k, hs⟩ := hs
      have hp := process_group (nr := sys.nrOpen) (k := k) (t := x.type) (i := x.item) (v := x.value)
        (pl := if k = .allgroup then { pl with loginGroup := some (groupOf sys x.domain (parseRange x.domain)) } else pl)
      rw [← apply_some hs] at hp
      by_cases hk : k = .allgroup
      · have hg := groupOf_spec (ho x (by simp) (by rw [← hk]; exact hs))
        rw [if_pos hk, hg] at hp
        exact ih (fun e he => ho e (by simp [he])) _ (fun _ => hp.1) (Or.inr hp.1)
      · rw [if_neg hk] at hp
        refine ih (fun e he => ho e (by simp [he])) _ ?_ (by rw [hp.1]; exact h0)
        intro hd
        rw [hp.1]
        rcases hp.2 with h' | h'
        · exact h (h'.symm.trans hd)
        · exact absurd (h'.symm.trans hd) hk
    · rw [apply_none (fun k h => hs ⟨k, h⟩)]
      exact ih (fun e he => ho e (by simp [he])) _ h h0

/-! ## counting -/

theorem countLoop_spec (sys : Sys) (name : Str) (pl : Pl) (limit : Int) : ∀ (es : List Utmp) (count : Int), count ≤ limit →
    (limit < countLoop sys name pl limit count es ↔ limit < count + (es.countP (counts sys name pl) : Nat)) := by
  intro es
  induction es with
  | nil => intro count h; simp [countLoop]
  | cons e es ih =>
    intro count h
    rw [countLoop, List.countP_cons]
    by_cases hc : counts sys name pl e = true
    · rw [if_pos hc, if_pos hc]
      by_cases hl : limit < count + 1
      · rw [if_pos hl]
        constructor
        · intro _; omega
        · intro _; omega
      · rw [if_neg hl, ih (count + 1) (by omega)]
        omega
    · rw [if_neg hc, if_neg hc, ih count h]
      omega

theorem login_full (sys : Sys) (u : User) (early : Bool) (utmp : List Utmp) (pl : Pl) :
    (if u.uid = 0 then false else if 0 < pl.loginLimit then tooMany sys u.name early utmp pl else decide (pl.loginLimit = 0)) = true ↔
      u.uid ≠ 0 ∧ Full early pl.loginLimit (utmp.countP (counts sys u.name pl)) := by
  unfold Full
  by_cases h0 : u.uid = 0
  · rw [if_pos h0]; simp [h0]
  rw [if_neg h0]
  by_cases h1 : 0 < pl.loginLimit
  · rw [if_pos h1]
    unfold tooMany
    rw [if_neg (by omega), if_neg (by omega), decide_eq_true_iff,
      countLoop_spec sys u.name pl pl.loginLimit utmp _ (by cases early <;> simp <;> omega)]
    constructor
    · intro h
      refine ⟨h0, Or.inr ⟨h1, ?_⟩⟩
      cases early <;> simp at h ⊢ <;> omega
    · rintro ⟨_, h | ⟨_, h⟩⟩
      · omega
      · cases early <;> simp at h ⊢ <;> omega
  · rw [if_neg h1, decide_eq_true_iff]
    constructor
    · intro h; exact ⟨h0, Or.inl h⟩
    · rintro ⟨_, h | ⟨h, _⟩⟩
      · exact h
      · omega

theorem session_answer {sys : Sys} {c : Call} {argv : List Str} {u : User} {prio : Int} {lines : List Str} {es : List Entry} (hc : Ready c u prio)
    (hl : ReadsAll c (parseArgs argv) lines) (ht : Table sys u lines es) (pl : Pl)
    (hpl : pl = es.foldl (apply sys u) (initLimits c (parseArgs argv).setAll prio)) :
    ((openSession sys c argv).1 = PAM_SUCCESS ∨ (openSession sys c argv).1 = PAM_PERM_DENIED) ∧
    ((openSession sys c argv).1 = PAM_SUCCESS ↔ (∀ f ∈ (openSession sys c argv).2, c.works f = true) ∧
      ¬ (u.uid ≠ 0 ∧ Full (parseArgs argv).early pl.loginLimit (c.utmp.countP (counts sys u.name pl)))) := by
  have e : openSession sys c argv = (if (setupLimits sys u c.works (parseArgs argv).early c.utmp pl).1 then PAM_SUCCESS else PAM_PERM_DENIED,
      (setupLimits sys u c.works (parseArgs argv).early c.utmp pl).2) := by
    rw [session_lines hc hl, table_fold ht, hpl]
  rw [e]
  have key : (setupLimits sys u c.works (parseArgs argv).early c.utmp pl).1 = true ↔
      (∀ f ∈ (setupLimits sys u c.works (parseArgs argv).early c.utmp pl).2, c.works f = true) ∧
      ¬ (u.uid ≠ 0 ∧ Full (parseArgs argv).early pl.loginLimit (c.utmp.countP (counts sys u.name pl))) := by
    rw [← login_full]
    unfold setupLimits
    simp only [Bool.and_eq_true, Bool.not_eq_true', List.all_eq_true, Bool.not_eq_true]
  constructor
  · simp only
    split
    · exact Or.inl rfl
    · exact Or.inr rfl
  · rw [← key]
    simp only
    split
    · rename_i h
      exact ⟨fun _ => h, fun _ => rfl⟩
    · rename_i h
      exact ⟨fun h' => absurd h' (by decide), fun h' => absurd h' h⟩

/-- **C61** The session is allowed or refused; for the user with number 0 it is allowed exactly if all calls succeeded.  (All calls
are made, even if one fails.) -/
theorem C61_root (sys : Sys) (c : Call) (argv : List Str) (u : User) (prio : Int) (lines : List Str) (es : List Entry) (hc : Ready c u prio)
    (hl : ReadsAll c (parseArgs argv) lines) (ht : Table sys u lines es) :
    ((openSession sys c argv).1 = PAM_SUCCESS ∨ (openSession sys c argv).1 = PAM_PERM_DENIED) ∧
    (u.uid = 0 → ((openSession sys c argv).1 = PAM_SUCCESS ↔ ∀ f ∈ (openSession sys c argv).2, c.works f = true)) := by
  obtain ⟨h1, h2⟩ := session_answer hc hl ht _ rfl
  refine ⟨h1, fun h0 => ?_⟩
  rw [h2]
  exact ⟨fun h => h.1, fun h => ⟨h, fun h' => h'.1 h0⟩⟩

example : Ready (exCallOf exLines) exUser 0 ∧ ReadsAll (exCallOf exLines) (parseArgs []) exLines ∧ Table exSys exUser exLines exEntries :=
  ⟨ex_ready _, ex_reads _, ex_table⟩

theorem counts_eq {sys : Sys} {u : User} {g : Str} {pl : Pl} (hf : pl.sysFlag = false) (hr : pl.loginDef.rank < 5)
    (hg : pl.loginDef = .allgroup → pl.loginGroup = some g) : counts sys u.name pl = counted sys u g pl.loginDef := by
  funext e
  unfold counts counted
  rw [hf]
  have eq : (e.user = u.name) = (u.name = e.user) := propext ⟨Eq.symm, Eq.symm⟩
  cases hp : e.process
  · rfl
  by_cases hu : e.user = []
  · simp [hu]
  · cases hd : pl.loginDef with
    | kernel => rw [hd] at hr; exact absurd hr (by decide)
    | none => rw [hd] at hr; exact absurd hr (by decide)
    | all => simp [hu]
    | allgroup => rw [hg hd]; cases hi : sys.inGroup e.user g <;> cases ha : e.alive <;> simp [hu, hi]
    | user => simp only [eq]; by_cases hn : u.name = e.user <;> simp [hu, hn]
    | group => simp only [eq]; by_cases hn : u.name = e.user <;> simp [hu, hn]
    | default => simp only [eq]; by_cases hn : u.name = e.user <;> simp [hu, hn]

/-- **C62** Apart from failing calls, the session is refused exactly if the entry that counts for maxlogins sets a limit that the
logins would exceed: of the user, or of all of a group, or of everybody, as the kind of the entry says; stale entries of utmp do not count, and
user 0 is not limited.  (Missing: tables with entries for maxsyslogins, or with `%` entries for several groups of the user.) -/
theorem C62_maxlogins_partial (sys : Sys) (c : Call) (argv : List Str) (u : User) (prio : Int) (lines : List Str) (es : List Entry) (g : Str)
    (hc : Ready c u prio) (hl : ReadsAll c (parseArgs argv) lines) (ht : Table sys u lines es)
    (hv : ∀ e ∈ es, ∀ k, SetsLogins sys u "maxlogins".toList e k → ∃ n, MeansLogins e.value n)
    (ho : ∀ e ∈ es, (∃ k, Stands sys u e.domain k) → e.item ≠ "maxsyslogins".toList)
    (hg : ∀ e ∈ es, Stands sys u e.domain .allgroup → GroupOf sys e.domain g) :
    (openSession sys c argv).1 = PAM_SUCCESS ↔ (∀ f ∈ (openSession sys c argv).2, c.works f = true) ∧
      ¬ (u.uid ≠ 0 ∧ ∃ e k n, Wins (SetsLogins sys u "maxlogins".toList) es e k ∧ MeansLogins e.value n ∧
        Full (parseArgs argv).early n (c.utmp.countP (counted sys u g k))) := by
  obtain ⟨_, h2⟩ := session_answer hc hl ht _ rfl
  rw [h2]
  have hfold := fold_logins sys u .maxlogins .maxsyslogins (Or.inl ⟨rfl, rfl⟩) es hv ho (initLimits c (parseArgs argv).setAll prio)
  have hflag := fold_flag_down sys u es ho (initLimits c (parseArgs argv).setAll prio) rfl
  have hgrp := fold_group sys u g es hg (initLimits c (parseArgs argv).setAll prio) (fun h => by (cases h)) (Or.inl rfl)
  generalize es.foldl (apply sys u) (initLimits c (parseArgs argv).setAll prio) = pl at *
  have huniq : ∀ e k k', SetsLogins sys u "maxlogins".toList e k → SetsLogins sys u "maxlogins".toList e k' → k = k' :=
    fun e k k' h h' => stands_uniq h.2.1 h'.2.1
  refine and_congr_right (fun _ => not_congr (and_congr_right (fun _ => ?_)))
  rcases hfold with ⟨e, k, hw, _, hk, hm⟩ | ⟨hno, hd, hlim⟩
  · have hstands : Stands sys u e.domain k := by
      obtain ⟨pre, post, _, hr, _⟩ := hw
      exact hr.2.1
    have hcount : counts sys u.name pl = counted sys u g k := by
      rw [counts_eq hflag (by rw [hk]; exact stands_rank hstands) hgrp, hk]
    rw [hcount]
    constructor
    · intro h; exact ⟨e, k, _, hw, hm, h⟩
    · rintro ⟨e', k', n', hw', hm', h⟩
      obtain ⟨rfl, rfl⟩ := wins_uniq huniq hw hw'
      rw [meansLogins_uniq hm hm']
      exact h
  · constructor
    · intro h
      rw [hlim] at h
      rcases h with h | ⟨h, _⟩
      · exact absurd h (show ¬ ((-2 : Int) = 0) by decide)
      · exact absurd h (show ¬ ((0 : Int) < -2) by decide)
    · rintro ⟨e, k, n, ⟨pre, post, he, hr, _⟩, _⟩
      have := hno e (by rw [he]; simp) k hr
      have h' := stands_rank hr.2.1
      have : (6 : Nat) < k.rank := this
      omega

/-- three logins, one of them stale -/
def exUtmp : List Utmp := [⟨true, "alice".toList, true⟩, ⟨true, "alice".toList, false⟩, ⟨true, "bob".toList, true⟩, ⟨false, "alice".toList, true⟩]

example : exUtmp.countP (counted exSys exUser "staff".toList .user) = 1 ∧ exUtmp.countP (counted exSys exUser [] .all) = 2 ∧
    Full false 1 1 ∧ ¬ Full true 1 1 ∧ MeansLogins "1".toList 1 ∧ GroupOf exSys "%staff".toList "staff".toList :=
  ⟨by decide, by decide, Or.inr ⟨by decide, by decide⟩, by simp [Full],
    Or.inr ⟨by rintro (h | h | h | h) <;> exact absurd h (by decide),
      ⟨[], "1".toList, 1, fun c hc => by (cases hc), ⟨by decide, by decide, by decide⟩, Or.inl ⟨rfl, rfl⟩⟩, by decide, by decide⟩,
    .name (by decide)⟩

/-- a login in utmp, stale or not -/
def Spec.anyLogin (e : Utmp) : Bool := e.process && decide (e.user ≠ [])

/-- **C62** The same for maxsyslogins: all logins in utmp count.  (Missing: tables with entries for maxlogins.) -/
theorem C62_maxsyslogins_partial (sys : Sys) (c : Call) (argv : List Str) (u : User) (prio : Int) (lines : List Str) (es : List Entry)
    (hc : Ready c u prio) (hl : ReadsAll c (parseArgs argv) lines) (ht : Table sys u lines es)
    (hv : ∀ e ∈ es, ∀ k, SetsLogins sys u "maxsyslogins".toList e k → ∃ n, MeansLogins e.value n)
    (ho : ∀ e ∈ es, (∃ k, Stands sys u e.domain k) → e.item ≠ "maxlogins".toList) :
    (openSession sys c argv).1 = PAM_SUCCESS ↔ (∀ f ∈ (openSession sys c argv).2, c.works f = true) ∧
      ¬ (u.uid ≠ 0 ∧ ∃ e k n, Wins (SetsLogins sys u "maxsyslogins".toList) es e k ∧ MeansLogins e.value n ∧
        Full (parseArgs argv).early n (c.utmp.countP Spec.anyLogin)) := by
  obtain ⟨_, h2⟩ := session_answer hc hl ht _ rfl
  rw [h2]
  have hfold := fold_logins sys u .maxsyslogins .maxlogins (Or.inr ⟨rfl, rfl⟩) es hv ho (initLimits c (parseArgs argv).setAll prio)
  have hflag := fold_flag_up sys u es ho (initLimits c (parseArgs argv).setAll prio)
  generalize es.foldl (apply sys u) (initLimits c (parseArgs argv).setAll prio) = pl at *
  have huniq : ∀ e k k', SetsLogins sys u "maxsyslogins".toList e k → SetsLogins sys u "maxsyslogins".toList e k' → k = k' :=
    fun e k k' h h' => stands_uniq h.2.1 h'.2.1
  refine and_congr_right (fun _ => not_congr (and_congr_right (fun _ => ?_)))
  rcases hfold with ⟨e, k, hw, _, hk, hm⟩ | ⟨hno, hd, hlim⟩
  · have hcount : counts sys u.name pl = Spec.anyLogin := by
      have hup : pl.sysFlag = true := by
        obtain ⟨pre, post, he, hr, _⟩ := hw
        exact hflag (Or.inr ⟨e, by rw [he]; simp, ⟨k, hr.2.1⟩, hr.1⟩)
      funext x
      unfold counts Spec.anyLogin
      rw [hup]
      cases x.process
      · rfl
      · by_cases hx : x.user = [] <;> simp [hx]
    rw [hcount]
    constructor
    · intro h; exact ⟨e, k, _, hw, hm, h⟩
    · rintro ⟨e', k', n', hw', hm', h⟩
      obtain ⟨rfl, rfl⟩ := wins_uniq huniq hw hw'
      rw [meansLogins_uniq hm hm']
      exact h
  · constructor
    · intro h
      rw [hlim] at h
      rcases h with h | ⟨h, _⟩
      · exact absurd h (show ¬ ((-2 : Int) = 0) by decide)
      · exact absurd h (show ¬ ((0 : Int) < -2) by decide)
    · rintro ⟨e, k, n, ⟨pre, post, he, hr, _⟩, _⟩
      have := hno e (by rw [he]; simp) k hr
      have h' := stands_rank hr.2.1
      have : (6 : Nat) < k.rank := this
      omega

example : exUtmp.countP Spec.anyLogin = 3 := by decide

/-- A limit on the logins of the user becomes a limit on all logins by a later, less specific entry that does not count: with
`alice - maxlogins 2` and then `* - maxsyslogins 100`, two logins of others shut alice out. -/
theorem C62_mixed_counterexample : ∃ (lines : List Str) (c : Call), Ready c exUser 0 ∧ ReadsAll c (parseArgs []) lines ∧ (∀ f, c.works f = true) ∧
    (∀ x ∈ c.utmp, x.user = "bob".toList) ∧ c.utmp.length = 2 ∧
    Table exSys exUser lines [⟨"alice".toList, "-".toList, "maxlogins".toList, "2".toList⟩, ⟨"*".toList, "-".toList, "maxsyslogins".toList, "100".toList⟩] ∧
    (openSession exSys c []).1 = PAM_PERM_DENIED := by
  have hr := ex_reads [mkLine "alice" "-" "maxlogins" "2", mkLine "*" "-" "maxsyslogins" "100"]
  have hy := ex_ready [mkLine "alice" "-" "maxlogins" "2", mkLine "*" "-" "maxsyslogins" "100"]
  let c : Call := { exCallOf [mkLine "alice" "-" "maxlogins" "2", mkLine "*" "-" "maxsyslogins" "100"] with
    utmp := [⟨true, "bob".toList, true⟩, ⟨true, "bob".toList, true⟩] }
  have hy' : Ready c exUser 0 := hy
  have hr' : ReadsAll c (parseArgs []) [mkLine "alice" "-" "maxlogins" "2", mkLine "*" "-" "maxsyslogins" "100"] := hr
  refine ⟨_, c, hy', hr', fun _ => rfl, ?_, rfl, ?_, ?_⟩
  · intro x hx
    have : x = ⟨true, "bob".toList, true⟩ := by
      have : x ∈ [(⟨true, "bob".toList, true⟩ : Utmp), ⟨true, "bob".toList, true⟩] := hx
      simpa using this
    rw [this]
  · refine .entry (mkLine_entry ?_) (.entry (mkLine_entry ?_) .nil)
    all_goals
      refine ⟨?_, field_of (by decide) (by decide), field_of (by decide) (by decide), field_of (by decide) (by decide),
        field_of (by decide) (by decide)⟩
      intro c hc
      cases hc
      decide
  · rw [session_lines hy' hr']
    decide +kernel

end Pam.Limits
