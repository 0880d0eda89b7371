import Verif.Limits.Spec
import Verif.Access.Lemmas
/-
Lemmas for pam_limits: reading lines, and folding over the entries.
-/
namespace Pam.Limits
open Pam Pam.Limits.Spec
open Pam.Access hiding Entry

/-! ## lines -/

theorem content_eq {pre body tail : Str} (hp : ∀ c ∈ pre, isSpace c = true) (hh : ∀ c, body.head? = some c → isSpace c = false)
    (hb : ∀ c ∈ body, c ≠ '#' ∧ c ≠ '\n' ∧ c ≠ NUL) (hne : body ≠ []) (ht : Tail tail) :
    content (pre ++ (body ++ tail)) = body := by
  have hpn : ∀ c ∈ pre, c ≠ NUL := fun c hc e => by
    have := hp c hc
    rw [e] at this
    exact absurd this (by decide)
  unfold content
  rw [List.takeWhile_append_of_pos (fun c hc => by simpa using hpn c hc),
    List.takeWhile_append_of_pos (fun c hc => by simpa using (hb c hc).2.2),
    dropWhile_gap hp (by
      intro c hc
      cases body with
      | nil => exact absurd rfl hne
      | cons a b => exact hh c hc),
    List.takeWhile_append_of_pos (fun c hc => by simpa using (hb c hc).1),
    List.takeWhile_append_of_pos (fun c hc => by simpa using (hb c hc).2.1)]
  have : ((tail.takeWhile (fun c => decide (c ≠ NUL))).takeWhile (fun c => decide (c ≠ '#'))).takeWhile (fun c => decide (c ≠ '\n')) = [] := by
    cases tail with
    | nil => rfl
    | cons a t =>
      rcases ht with h | h | h
      · cases h
      · cases h; simp [NUL]
      · cases h; simp [NUL]
  rw [this, List.append_nil]

theorem content_ignored {line : Str} (h : IsIgnored line) : content line = [] := by
  obtain ⟨pre, tail, rfl, hp, ht⟩ := h
  have hpn : ∀ c ∈ pre, c ≠ NUL := fun c hc e => by
    have := hp c hc
    rw [e] at this
    exact absurd this (by decide)
  unfold content
  rw [List.takeWhile_append_of_pos (fun c hc => by simpa using hpn c hc)]
  cases tail with
  | nil => rw [List.takeWhile_nil, List.append_nil, dropWhile_all hp]; rfl
  | cons a t =>
    rcases ht with h | h
    · cases h
    · cases h
      rw [List.takeWhile_cons, if_pos (by decide), dropWhile_gap hp (by intro c hc; cases hc; decide)]
      rw [List.takeWhile_cons, if_neg (by decide)]
      rfl

theorem sep_iff {c : Char} : c ∈ " \t".toList ↔ c = ' ' ∨ c = '\t' := by
  show c ∈ [' ', '\t'] ↔ _
  simp

theorem field_sep {w : Str} (h : Field w) : ∀ c ∈ w, c ∉ " \t".toList :=
  fun c hc hm => (sep_iff.mp hm).elim (h.2 c hc).1 (h.2 c hc).2.1

theorem blanks_sep {g : Str} (h : Blanks g) : ∀ c ∈ g, c ∈ " \t".toList := fun c hc => sep_iff.mpr (h c hc)

theorem strtok_field {gap w g rest : Str} (hgap : Blanks gap) (hw : Field w) (hne : g ≠ []) (hg : Blanks g) :
    strtok " \t".toList (gap ++ (w ++ (g ++ rest))) = some (w, g.drop 1 ++ rest) := by
  rw [← List.append_assoc, strtok_word (blanks_sep hgap) hw.1 (field_sep hw) (by
    intro c hc
    cases g with
    | nil => exact absurd rfl hne
    | cons a g => cases hc; exact blanks_sep hg _ (by simp))]
  cases g with
  | nil => exact absurd rfl hne
  | cons a g => rfl

theorem blanks_drop {g : Str} (h : Blanks g) : Blanks (g.drop 1) := fun c hc => h c (List.mem_of_mem_drop hc)

theorem trim_value {g v post : Str} (hg : Blanks g) (hv : Value v) (hp : Blanks post) : trim (g ++ (v ++ post)) = some v := by
  obtain ⟨_, ⟨a, ha, ha1, ha2⟩, ⟨b, hb, hb1, hb2⟩⟩ := hv
  have hne : v ≠ [] := fun h => by rw [h] at ha; cases ha
  have h1 : (g ++ (v ++ post)).dropWhile (fun c => decide (c ∈ " \t".toList)) = v ++ post := by
    refine dropWhile_gap (fun c hc => decide_eq_true (blanks_sep hg c hc)) ?_
    intro c hc
    cases v with
    | nil => cases ha
    | cons x v =>
      cases ha; cases hc
      exact decide_eq_false (fun h => (sep_iff.mp h).elim ha1 ha2)
  have h2 : (post.reverse ++ v.reverse).dropWhile (fun c => decide (c ∈ " \t".toList)) = v.reverse := by
    refine dropWhile_gap (fun c hc => decide_eq_true (blanks_sep hp c (List.mem_reverse.mp hc))) ?_
    intro c hc
    rw [List.head?_reverse, hb] at hc
    cases hc
    exact decide_eq_false (fun h => (sep_iff.mp h).elim hb1 hb2)
  unfold trim
  simp only [h1]
  rw [if_neg (by simp [hne]), List.reverse_append, h2, List.reverse_reverse]

theorem mem_blanks {g : Str} (h : Blanks g) : ∀ c ∈ g, c ≠ '#' ∧ c ≠ '\n' ∧ c ≠ NUL := fun c hc => by
  rcases h c hc with e | e <;> (rw [e]; decide)

theorem mem_field {g : Str} (h : Field g) : ∀ c ∈ g, c ≠ '#' ∧ c ≠ '\n' ∧ c ≠ NUL := fun c hc => (h.2 c hc).2.2

/-- the fields of an entry -/
theorem split_entry {line : Str} {e : Entry} (h : IsEntry line e) : content line ≠ [] ∧ ∃ t i v,
    splitLine (content line) = [e.domain, t, i, v] ∧ t.map lower = e.type ∧ i.map lower = e.item ∧ v.map lower = e.value := by
  obtain ⟨pre, d, g1, t, g2, i, g3, v, post, tail, hl, hp, hh, hd, ht, hi, hv, n1, n2, n3, b1, b2, b3, bp, htl, rfl⟩ := h
  have hc : content line = d ++ (g1 ++ (t ++ (g2 ++ (i ++ (g3 ++ (v ++ post)))))) := by
    have := content_eq (pre := pre) (body := d ++ (g1 ++ (t ++ (g2 ++ (i ++ (g3 ++ (v ++ post))))))) (tail := tail) hp (by
        intro c hc
        have := hd.1
        cases d with
        | nil => exact absurd rfl this
        | cons a d => exact hh c hc) (by
        intro c hc
        simp only [List.mem_append] at hc
        rcases hc with h | h | h | h | h | h | h | h
        · exact mem_field hd c h
        · exact mem_blanks b1 c h
        · exact mem_field ht c h
        · exact mem_blanks b2 c h
        · exact mem_field hi c h
        · exact mem_blanks b3 c h
        · exact hv.1 c h
        · exact mem_blanks bp c h) (by simp [hd.1]) htl
    rw [hl]
    simpa only [List.append_assoc] using this
  refine ⟨by rw [hc]; simp [hd.1], t, i, v, ?_, rfl, rfl, rfl⟩
  rw [hc]
  have e1 := strtok_field (gap := []) (rest := t ++ (g2 ++ (i ++ (g3 ++ (v ++ post))))) (by intro c hc; cases hc) hd n1 b1
  have e2 := strtok_field (rest := i ++ (g3 ++ (v ++ post))) (blanks_drop b1) ht n2 b2
  have e3 := strtok_field (rest := v ++ post) (blanks_drop b2) hi n3 b3
  rw [List.nil_append] at e1
  unfold splitLine
  simp only [e1, e2, e3, trim_value (blanks_drop b3) hv bp]

theorem strtok_last {gap w rest : Str} (hgap : Blanks gap) (hw : Field w) (hg : Blanks rest) :
    ∃ t, strtok " \t".toList (gap ++ (w ++ rest)) = some (w, t) ∧ Blanks t := by
  refine ⟨rest.drop 1, ?_, blanks_drop hg⟩
  rw [← List.append_assoc, strtok_word (blanks_sep hgap) hw.1 (field_sep hw) (by
    intro c hc
    cases rest with
    | nil => cases hc
    | cons a g => cases hc; exact blanks_sep hg _ (by simp))]

/-- the fields of a line without limits -/
theorem split_nolimit {line d : Str} (h : IsNoLimit line d) : content line ≠ [] ∧ splitLine (content line) = [d, "-".toList] := by
  obtain ⟨pre, g, post, tail, hl, hp, hh, hd, hg, bg, bp, ht⟩ := h
  have hc : content line = d ++ (g ++ ("-".toList ++ post)) := by
    have := content_eq (pre := pre) (body := d ++ (g ++ ("-".toList ++ post))) (tail := tail) hp (by
        intro c hc
        have := hd.1
        cases d with
        | nil => exact absurd rfl this
        | cons a d => exact hh c hc) (by
        intro c hc
        simp only [List.mem_append] at hc
        rcases hc with h | h | h | h
        · exact mem_field hd c h
        · exact mem_blanks bg c h
        · have : c = '-' := by simpa using h
          rw [this]; decide
        · exact mem_blanks bp c h) (by simp [hd.1]) ht
    rw [hl]
    simp only [List.append_assoc] at this
    exact this
  refine ⟨by rw [hc]; simp [hd.1], ?_⟩
  rw [hc]
  have e1 := strtok_field (gap := []) (rest := "-".toList ++ post) (by intro c hc; cases hc) hd hg bg
  rw [List.nil_append] at e1
  obtain ⟨t, e2, ht⟩ := strtok_last (blanks_drop bg) (w := "-".toList) (by
    constructor
    · decide
    · intro c hc
      have : c = '-' := by simpa using hc
      rw [this]; decide) bp
  unfold splitLine
  simp only [e1, e2, strtok_none (blanks_sep ht)]

/-! ## the loop over the lines -/

/-- what an entry does -/
def apply (sys : Sys) (u : User) (pl : Pl) (e : Entry) : Pl :=
  if parseRange e.domain = .err then pl
  else match sourceOf sys u e.domain (parseRange e.domain) with
    | none => pl
    | some src =>
      processLimit sys.nrOpen src e.type e.item e.value
        (if src = .allgroup then { pl with loginGroup := some (groupOf sys e.domain (parseRange e.domain)) } else pl)

theorem oneLine_entry {sys : Sys} {u : User} {pl : Pl} {line : Str} {e : Entry} (h : IsEntry line e) :
    oneLine sys u pl line = some (apply sys u pl e) := by
  obtain ⟨h0, t, i, v, h1, h2, h3, h4⟩ := split_entry h
  unfold oneLine apply
  rw [if_neg h0]
  simp only [h1, List.headD_cons, h2, h3, h4]
  by_cases he : parseRange e.domain = .err
  · rw [if_pos he, if_pos he]
  · rw [if_neg he, if_neg he]
    cases sourceOf sys u e.domain (parseRange e.domain) <;> rfl

theorem oneLine_ignored {sys : Sys} {u : User} {pl : Pl} {line : Str} (h : IsIgnored line) : oneLine sys u pl line = some pl := by
  unfold oneLine
  rw [if_pos (content_ignored h)]

theorem lower_dash : ("-".toList.map lower).head? = some '-' := by decide

theorem oneLine_other {sys : Sys} {u : User} {pl : Pl} {line d : Str} (h : IsNoLimit line d) (hx : ¬ Exempts sys u d) :
    oneLine sys u pl line = some pl := by
  obtain ⟨h0, h1⟩ := split_nolimit h
  unfold oneLine
  rw [if_neg h0]
  simp only [h1, List.headD_cons]
  by_cases he : parseRange d = .err
  · rw [if_pos he]
  · rw [if_neg he, if_pos lower_dash, if_neg (fun hh => hx ⟨he, hh⟩)]

theorem oneLine_exempt {sys : Sys} {u : User} {pl : Pl} {line d : Str} (h : IsNoLimit line d) (hx : Exempts sys u d) :
    oneLine sys u pl line = none := by
  obtain ⟨h0, h1⟩ := split_nolimit h
  unfold oneLine
  rw [if_neg h0]
  simp only [h1, List.headD_cons]
  rw [if_neg hx.1, if_pos lower_dash, if_pos hx.2]

theorem table_fold {sys : Sys} {u : User} {lines : List Str} {es : List Entry} (h : Table sys u lines es) :
    ∀ pl, parseLines sys u pl lines = some (es.foldl (apply sys u) pl) := by
  induction h with
  | nil => intro pl; rfl
  | entry h _ ih => intro pl; rw [parseLines, oneLine_entry h]; exact ih _
  | skip h _ ih => intro pl; rw [parseLines, oneLine_ignored h]; exact ih _
  | other h hx _ ih => intro pl; rw [parseLines, oneLine_other h hx]; exact ih _

theorem parseLines_append {sys : Sys} {u : User} : ∀ {a b : List Str} {pl : Pl}, parseLines sys u pl (a ++ b) =
    (parseLines sys u pl a).bind (fun pl => parseLines sys u pl b)
  | [], _, _ => rfl
  | l :: a, b, pl => by
    rw [List.cons_append, parseLines, parseLines]
    cases oneLine sys u pl l with
    | none => rfl
    | some pl => exact parseLines_append

/-! ## precedence -/

theorem level_rank : level = Src.rank := by
  funext k
  cases k <;> rfl

/-- A fold in which an entry of kind `k` replaces what was set by a kind that is not more specific. -/
theorem fold_wins {σ β : Type} (rel : Entry → Src → Prop) (val : Entry → β → Prop) (src : σ → Src) (get : σ → β) (step : σ → Entry → σ)
    (Inv : σ → Prop) (P : Entry → Prop)
    (hinv : ∀ s e, P e → Inv s → Inv (step s e))
    (huniq : ∀ e k k', rel e k → rel e k' → k = k')
    (hrel : ∀ s e k b, P e → Inv s → rel e k → val e b → if (src s).rank < k.rank then src (step s e) = src s ∧ get (step s e) = get s
      else src (step s e) = k ∧ get (step s e) = b)
    (hnot : ∀ s e, P e → Inv s → (∀ k, ¬ rel e k) → src (step s e) = src s ∧ get (step s e) = get s) :
    ∀ (es : List Entry) (s : σ), (∀ e ∈ es, P e) → Inv s → (∀ e ∈ es, ∀ k, rel e k → ∃ b, val e b) →
      (∃ e k, Wins rel es e k ∧ k.rank ≤ (src s).rank ∧ src (es.foldl step s) = k ∧ val e (get (es.foldl step s))) ∨
      ((∀ e ∈ es, ∀ k, rel e k → (src s).rank < k.rank) ∧ src (es.foldl step s) = src s ∧ get (es.foldl step s) = get s) := by
  unfold Wins
  rw [level_rank]
  intro es
  induction es with
  | nil => intro s _ _ _; exact Or.inr ⟨fun e h => by (cases h), rfl, rfl⟩
  | cons x es ih =>
    intro s hP hs hv
    have hx0 := hP x (by simp)
    have ih' := ih (step s x) (fun e he => hP e (by simp [he])) (hinv s x hx0 hs) (fun e he => hv e (by simp [he]))
    rw [List.foldl_cons]
    by_cases hx : ∃ k, rel x k
    · obtain ⟨k, hk⟩ := hx
      obtain ⟨b, hb⟩ := hv x (by simp) k hk
      have hstep := hrel s x k b hx0 hs hk hb
      by_cases hlt : (src s).rank < k.rank
      · rw [if_pos hlt] at hstep
        rcases ih' with ⟨e, k', ⟨pre, post, rfl, hr, hpre, hpost⟩, hle, h1, h2⟩ | ⟨hall, h1, h2⟩
        · left
          rw [hstep.1] at hle
          refine ⟨e, k', ⟨x :: pre, post, rfl, hr, ?_, hpost⟩, hle, h1, h2⟩
          intro y hy k'' hy'
          rcases List.mem_cons.mp hy with e | hy
          · rw [e] at hy'
            rw [huniq x _ _ hy' hk]
            omega
          · exact hpre y hy k'' hy'
        · right
          rw [hstep.1] at hall h1
          rw [hstep.2] at h2
          refine ⟨?_, h1, h2⟩
          intro y hy k'' hy'
          rcases List.mem_cons.mp hy with e | hy
          · rw [e] at hy'
            rwa [huniq x _ _ hy' hk]
          · exact hall y hy k'' hy'
      · rw [if_neg hlt] at hstep
        left
        rcases ih' with ⟨e, k', ⟨pre, post, rfl, hr, hpre, hpost⟩, hle, h1, h2⟩ | ⟨hall, h1, h2⟩
        · rw [hstep.1] at hle
          refine ⟨e, k', ⟨x :: pre, post, rfl, hr, ?_, hpost⟩, by omega, h1, h2⟩
          intro y hy k'' hy'
          rcases List.mem_cons.mp hy with e | hy
          · rw [e] at hy'
            rw [huniq x _ _ hy' hk]
            exact hle
          · exact hpre y hy k'' hy'
        · rw [hstep.1] at hall h1
          rw [hstep.2] at h2
          exact ⟨x, k, ⟨[], es, rfl, hk, fun y hy => by (cases hy), hall⟩, by omega, h1, by rw [h2]; exact hb⟩
    · have hn : ∀ k, ¬ rel x k := fun k h => hx ⟨k, h⟩
      have hstep := hnot s x hx0 hs hn
      rcases ih' with ⟨e, k', ⟨pre, post, rfl, hr, hpre, hpost⟩, hle, h1, h2⟩ | ⟨hall, h1, h2⟩
      · left
        rw [hstep.1] at hle
        refine ⟨e, k', ⟨x :: pre, post, rfl, hr, ?_, hpost⟩, hle, h1, h2⟩
        intro y hy k'' hy'
        rcases List.mem_cons.mp hy with e | hy
        · rw [e] at hy'
          exact absurd hy' (hn _)
        · exact hpre y hy k'' hy'
      · right
        rw [hstep.1] at hall h1
        rw [hstep.2] at h2
        refine ⟨?_, h1, h2⟩
        intro y hy k'' hy'
        rcases List.mem_cons.mp hy with e | hy
        · rw [e] at hy'
          exact absurd hy' (hn _)
        · exact hall y hy k'' hy'

/-! ## one entry and one resource -/

/-- what is kept about a resource -/
def four (pl : Pl) (r : Res) : Nat × Nat × Src × Src := (pl.cur r, pl.max r, pl.srcSoft r, pl.srcHard r)

theorem itemOf_resName (r : Res) : itemOf (resName r) = some (.rlimit r) := by cases r <;> decide

theorem names_res : ∀ n ∈ names, ∀ r, n.2 = .rlimit r → n.1 = resName r := by
  intro n hn r h
  simp only [names, List.mem_cons, List.not_mem_nil, or_false] at hn
  rcases hn with e | e | e | e | e | e | e | e | e | e | e | e | e | e | e | e | e | e | e | e <;> subst e <;> cases h <;> rfl

theorem itemOf_rlimit {s : Str} {r : Res} : itemOf s = some (.rlimit r) ↔ s = resName r := by
  constructor
  · intro h
    unfold itemOf at h
    rw [Option.map_eq_some_iff] at h
    obtain ⟨n, h1, h2⟩ := h
    have h3 := List.find?_some h1
    have h4 := List.mem_of_find?_eq_some h1
    rw [← names_res n h4 r h2]
    exact (by simpa using h3 : n.1 = s).symm
  · rintro rfl
    exact itemOf_resName r

theorem set_eq {α β : Type} [DecidableEq α] (f : α → β) (a : α) (b : β) : set f a b a = b := if_pos rfl

theorem set_ne {α β : Type} [DecidableEq α] (f : α → β) {a x : α} (b : β) (h : x ≠ a) : set f a b x = f x := if_neg h

theorem four_flag (it : Item) (pl : Pl) (r : Res) : four (flag it pl) r = four pl r := by cases it <;> rfl

theorem four_store {src : Src} {it : Item} {ty : Bool × Bool} {v : Int × Nat} {pl : Pl} {r : Res} (h : it ≠ .rlimit r) :
    four (store src it ty v pl) r = four pl r := by
  cases it with
  | rlimit r' =>
    have hr : r ≠ r' := fun e => h (by rw [e])
    unfold store storeSoft storeHard
    rcases ty with ⟨a, b⟩
    cases a <;> cases b <;> simp only [if_true, if_false, Bool.false_eq_true]
    · split
      · rfl
      · simp only [four, set_ne _ _ hr]
    · split
      · rfl
      · rename_i h'
        split at h'
        · cases h'
        · cases h'
          simp only [four, set_ne _ _ hr]
    · split
      · rfl
      · rename_i h'
        split at h'
        · cases h'
        · cases h'
          split
          · simp only [four, set_ne _ _ hr]
          · simp only [four, set_ne _ _ hr]
  | maxlogins => unfold store; simp only; split <;> rfl
  | maxsyslogins => unfold store; simp only; split <;> rfl
  | priority => rfl
  | nonewprivs => rfl

/-- the entry is a setting of the resource -/
def Sets (sys : Sys) (u : User) (r : Res) (e : Entry) (k : Src) (ty : Bool × Bool) : Prop :=
  e.item = resName r ∧ typeOf (.rlimit r) e.type = some ty ∧ Stands sys u e.domain k ∧ k ≠ .all ∧ k ≠ .allgroup

theorem apply_sets {sys : Sys} {u : User} {r : Res} {e : Entry} {k : Src} {ty : Bool × Bool} {v : Int × Nat} {pl : Pl}
    (h : Sets sys u r e k ty) (hv : readValue (.rlimit r) e.value = some v) :
    apply sys u pl e = store k (.rlimit r) ty (scale sys.nrOpen (.rlimit r) v) pl := by
  obtain ⟨h1, h2, ⟨h3, h3'⟩, h4, h5⟩ := h
  unfold apply
  rw [if_neg h3]
  simp only [h3']
  rw [if_neg h5]
  unfold processLimit
  simp only [itemOf_rlimit.mpr h1, flag, h2, hv]
  rw [if_neg (fun h => h.1.elim h4 h5)]

theorem four_group (pl : Pl) (p : Prop) [Decidable p] (g : Option Str) (r : Res) :
    four (if p then { pl with loginGroup := g } else pl) r = four pl r := by split <;> rfl

theorem apply_not {sys : Sys} {u : User} {r : Res} {e : Entry} {pl : Pl}
    (h : ∀ k ty v, Sets sys u r e k ty → readValue (.rlimit r) e.value = some v → False) :
    four (apply sys u pl e) r = four pl r := by
  unfold apply
  by_cases he : parseRange e.domain = .err
  · rw [if_pos he]
  rw [if_neg he]
  cases hs : sourceOf sys u e.domain (parseRange e.domain) with
  | none => rfl
  | some k =>
    simp only
    unfold processLimit
    cases hi : itemOf e.item with
    | none => exact four_group _ _ _ _
    | some it =>
      simp only
      cases ht : typeOf it e.type with
      | none => exact (four_flag _ _ _).trans (four_group _ _ _ _)
      | some ty =>
        simp only
        cases hv : readValue it e.value with
        | none => exact (four_flag _ _ _).trans (four_group _ _ _ _)
        | some v =>
          simp only
          split
          · exact (four_flag _ _ _).trans (four_group _ _ _ _)
          · rename_i hk
            by_cases hr : it = .rlimit r
            · subst hr
              exfalso
              have h6 : ¬ (Item.rlimit r = Item.maxlogins) := by intro h; cases h
              exact h k ty v ⟨itemOf_rlimit.mp hi, ht, ⟨he, hs⟩, fun e => hk ⟨Or.inl e, h6⟩, fun e => hk ⟨Or.inr e, h6⟩⟩ hv
            · exact (four_store hr).trans ((four_flag _ _ _).trans (four_group _ _ _ _))

theorem type_soft {r : Res} {s : Str} : (∃ b, typeOf (.rlimit r) s = some (true, b)) ↔ s = "soft".toList ∨ s = "-".toList := by
  unfold typeOf
  by_cases h1 : s = "soft".toList
  · rw [if_pos h1]; exact ⟨fun _ => Or.inl h1, fun _ => ⟨false, rfl⟩⟩
  rw [if_neg h1]
  by_cases h2 : s = "hard".toList
  · rw [if_pos h2]
    refine ⟨fun ⟨b, h⟩ => by (cases h), ?_⟩
    rintro (h | h)
    · exact absurd h h1
    · rw [h] at h2; exact absurd h2 (by decide)
  rw [if_neg h2]
  by_cases h3 : s = "-".toList
  · rw [if_pos h3]; exact ⟨fun _ => Or.inr h3, fun _ => ⟨true, rfl⟩⟩
  rw [if_neg h3, if_neg (by rintro (h | h | h) <;> cases h)]
  exact ⟨fun ⟨b, h⟩ => by (cases h), fun h => (h.elim h1 h3).elim⟩

theorem type_hard {r : Res} {s : Str} : (∃ b, typeOf (.rlimit r) s = some (b, true)) ↔ s = "hard".toList ∨ s = "-".toList := by
  unfold typeOf
  by_cases h1 : s = "soft".toList
  · rw [if_pos h1]
    refine ⟨fun ⟨b, h⟩ => by (cases h), ?_⟩
    rintro (h | h)
    · rw [h] at h1; exact absurd h1 (by decide)
    · rw [h] at h1; exact absurd h1 (by decide)
  rw [if_neg h1]
  by_cases h2 : s = "hard".toList
  · rw [if_pos h2]; exact ⟨fun _ => Or.inl h2, fun _ => ⟨false, rfl⟩⟩
  rw [if_neg h2]
  by_cases h3 : s = "-".toList
  · rw [if_pos h3]; exact ⟨fun _ => Or.inr h3, fun _ => ⟨true, rfl⟩⟩
  rw [if_neg h3, if_neg (by rintro (h | h | h) <;> cases h)]
  exact ⟨fun ⟨b, h⟩ => by (cases h), fun h => (h.elim h2 h3).elim⟩

theorem setsSoft_iff {sys : Sys} {u : User} {r : Res} {e : Entry} {k : Src} :
    SetsSoft sys u r e k ↔ ∃ b, Sets sys u r e k (true, b) :=
  ⟨fun ⟨a, b, c⟩ => (type_soft.mpr b).elim fun x h => ⟨x, a, h, c⟩, fun ⟨x, a, h, c⟩ => ⟨a, type_soft.mp ⟨x, h⟩, c⟩⟩

theorem setsHard_iff {sys : Sys} {u : User} {r : Res} {e : Entry} {k : Src} :
    SetsHard sys u r e k ↔ ∃ b, Sets sys u r e k (b, true) :=
  ⟨fun ⟨a, b, c⟩ => (type_hard.mpr b).elim fun x h => ⟨x, a, h, c⟩, fun ⟨x, a, h, c⟩ => ⟨a, type_hard.mp ⟨x, h⟩, c⟩⟩

theorem sets_uniq {sys : Sys} {u : User} {r : Res} {e : Entry} {k k' : Src} {ty ty' : Bool × Bool} (h : Sets sys u r e k ty)
    (h' : Sets sys u r e k' ty') : k = k' ∧ ty = ty' := by
  have h1 := h.2.2.1.2
  rw [h'.2.2.1.2] at h1
  have h2 := h.2.1
  rw [h'.2.1] at h2
  exact ⟨(Option.some.inj h1).symm, (Option.some.inj h2).symm⟩

/-! ## values -/

theorem digits_head {s : Str} {v : Nat} (h : Digits 10 s v) : ∃ c, s.head? = some c ∧ isDigitOf 10 c = true := by
  obtain ⟨h1, h2, _⟩ := h
  cases s with
  | nil => exact absurd rfl h1
  | cons a s => exact ⟨a, rfl, h2 a (by simp)⟩

theorem unlimited_iff {s : Str} : unlimited s = true ↔ NoLimitWord s := by
  unfold unlimited NoLimitWord
  simp only [Bool.or_eq_true, beq_iff_eq]
  constructor
  · rintro (((h | h) | h) | h)
    · exact Or.inl h
    · exact Or.inr (Or.inl h)
    · exact Or.inr (Or.inr (Or.inl h))
    · exact Or.inr (Or.inr (Or.inr h))
  · rintro (h | h | h | h)
    · exact Or.inl (Or.inl (Or.inl h))
    · exact Or.inl (Or.inl (Or.inr h))
    · exact Or.inl (Or.inr h)
    · exact Or.inr h

theorem digits_not_unlimited {s : Str} {v : Nat} (h : Digits 10 s v) : ¬ NoLimitWord s := by
  obtain ⟨c, h1, h2⟩ := digits_head h
  rintro (e | e | e | e) <;> (rw [e] at h1; cases h1; exact absurd h2 (by decide))

theorem strtoInt_digits {s : Str} {v : Nat} (h : Digits 10 s v) : strtoInt 10 s = ((v : Int), []) :=
  ((strtoInt_base 10 (by decide) (by decide) (by decide) s v).mpr
    ⟨[], s, v, fun c hc => by (cases hc), h, Or.inl ⟨rfl, rfl⟩⟩).1

theorem strtoInt_signed10 {s : Str} {v : Int} (h : Signed (Digits 10) s v) : strtoInt 10 s = (v, []) ∧ s ≠ [] :=
  (strtoInt_base 10 (by decide) (by decide) (by decide) s v).mpr h

theorem times_spec (v unit : Nat) (hu : 1 < unit) : times v unit = if v < INF / unit then v * unit else INF := by
  unfold times
  by_cases hv : v = INF
  · have h1 : ¬ INF < INF / unit := by
      have := Nat.div_le_self INF unit
      omega
    rw [if_neg (by simp [hv]), if_neg (by rw [hv]; exact h1), hv]
  · rw [if_pos hv]
    by_cases h : INF / unit ≤ v
    · rw [if_pos h, if_neg (by omega)]
    · rw [if_neg h, if_pos (by omega)]

/-- scaling a number of `unit`s, or the word for no limit -/
theorem scale_spec (sys : Sys) (r : Res) (hr : r ≠ .nice) (i : Int) (v : Nat) :
    (scale sys.nrOpen (.rlimit r) (i, ulong v)).2 = if v < INF / unit r then v * unit r else top sys r := by
  have hu : ulong (v : Int) = if v < INF then v else INF := by
    unfold ulong INF
    simp only [Int.natAbs_natCast]
    rw [if_neg (by omega : ¬ (v : Int) < 0)]
    by_cases h : v < 2 ^ 64
    · rw [if_pos h]
      split <;> omega
    · rw [if_neg h, if_neg (by omega)]
  have big : ∀ n, 1 < n → times (ulong (v : Int)) n = if v < INF / n then v * n else INF := by
    intro n hn
    rw [times_spec _ _ hn, hu]
    by_cases h : v < INF
    · rw [if_pos h]
    · have hd := Nat.div_le_self INF n
      rw [if_neg h, if_neg (by omega), if_neg (by omega)]
  have one : ulong (v : Int) = if v < INF / 1 then v * 1 else INF := by rw [hu, Nat.div_one, Nat.mul_one]
  cases r with
  | nice => exact absurd rfl hr
  | nofile =>
    show (if ulong (v : Int) = INF then (i, sys.nrOpen.getD INF) else (i, ulong (v : Int))).2 = if v < INF / 1 then v * 1 else sys.nrOpen.getD INF
    rw [Nat.div_one, Nat.mul_one, hu]
    by_cases h : v < INF
    · rw [if_pos h, if_pos h, if_neg (by omega)]
    · rw [if_neg h, if_neg h, if_pos rfl]
  | cpu => exact big 60 (by decide)
  | fsize => exact big 1024 (by decide)
  | data => exact big 1024 (by decide)
  | stack => exact big 1024 (by decide)
  | core => exact big 1024 (by decide)
  | rss => exact big 1024 (by decide)
  | memlock => exact big 1024 (by decide)
  | as => exact big 1024 (by decide)
  | nproc => exact one
  | locks => exact one
  | sigpending => exact one
  | msgqueue => exact one
  | rtprio => exact one
  | rttime => exact one

theorem scale_top (sys : Sys) (r : Res) (hr : r ≠ .nice) : (scale sys.nrOpen (.rlimit r) (-1, INF)).2 = top sys r := by
  cases r with
  | nice => exact absurd rfl hr
  | _ => rfl

theorem ulong_nat (v : Nat) (h : ulong (v : Int) = 0) : v = 0 := by
  unfold ulong at h
  simp only [Int.natAbs_natCast] at h
  rw [if_neg (by omega : ¬ (v : Int) < 0)] at h
  split at h <;> omega

theorem value_means {sys : Sys} {r : Res} {s : Str} {n : Nat} (h : Means sys r s n) :
    ∃ v, readValue (.rlimit r) s = some v ∧ (scale sys.nrOpen (.rlimit r) v).2 = n := by
  unfold Means at h
  have h0 : Item.rlimit r ≠ .nonewprivs := by intro h; cases h
  have h1 : Item.rlimit r ≠ .priority := by intro h; cases h
  have h2 : Item.rlimit r ≠ .maxlogins := by intro h; cases h
  have h3 : Item.rlimit r ≠ .maxsyslogins := by intro h; cases h
  by_cases hn : r = .nice
  · rw [if_pos hn] at h
    obtain ⟨v, hv, hnv⟩ := h
    obtain ⟨e1, e2⟩ := strtoInt_signed10 hv
    refine ⟨(toInt (long v), 0), ?_, ?_⟩
    · unfold readValue
      rw [if_neg h0, if_neg (fun h => h.2.1 (by rw [hn])), if_pos (Or.inr (Or.inr (Or.inl (by rw [hn]))))]
      simp only [e1]
      rw [if_neg (fun h => e2 h.2.symm)]
    · subst hn
      unfold scale toInt long
      simp only
      have : (20 - max (-20) (min 19 v)) = (n : Int) := hnv.symm
      clear hv e1 hnv h0 h1 h2 h3
      repeat' split
      all_goals omega
  · rw [if_neg hn] at h
    have h4 : Item.rlimit r ≠ .rlimit .nice := by intro h; cases h; exact hn rfl
    rcases h with ⟨hw, rfl⟩ | ⟨v, hd, rfl⟩
    · refine ⟨(-1, INF), ?_, scale_top sys r hn⟩
      unfold readValue
      rw [if_neg h0, if_pos ⟨h1, h4, unlimited_iff.mpr hw⟩]
    · refine ⟨(0, ulong v), ?_, scale_spec sys r hn 0 v⟩
      unfold readValue
      rw [if_neg h0, if_neg (fun h => digits_not_unlimited hd (unlimited_iff.mp h.2.2)),
        if_neg (by rintro (h | h | h | h) <;> contradiction)]
      simp only [strtoInt_digits hd]
      rw [if_neg (fun h => hd.1 h.2.symm)]

end Pam.Limits
