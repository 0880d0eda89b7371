import Verif.Unix.Files
/-
Property theorems C78 (replacing /etc/passwd and /etc/shadow).
-/
namespace Pam.Unix
open Pam Util

/-- the file after some operations -/
def Rep.after {α : Type} (f : Rep α) (ops : List (Op α)) : Rep α := ops.foldl Rep.apply f

/-- nothing goes wrong with a file -/
structure FLuck.Fine (l : FLuck) : Prop where
  mkstemp : l.mkstemp = true
  fdopen : l.fdopen = true
  opens : l.opens = true
  fstat : l.fstat = true
  fchown : l.fchown = true
  fchmod : l.fchmod = true
  put : ∀ n, l.put n = true
  flush : l.flush = true
  close : l.close = true
  rename : l.rename = true

/-- the entries, in their order, where those of the user have the new password field; lines that are no entries are gone -/
def withPasswd (u h : Str) (old : List (Option PwEnt)) : List (Option PwEnt) :=
  (old.filterMap id).map (fun e => some (if e.pw.name = u then ⟨⟨e.pw.name, h, e.pw.uid⟩, e.rest⟩ else e))

/-- an entry for the user -/
def HasPw (u : Str) (file : List (Option PwEnt)) : Prop := ∃ e, some e ∈ file ∧ e.pw.name = u

/-- the entries, in their order, where those of the user have the new hash and the day of the change -/
def withHash (u h : Str) (day : Int) (old : List (Option SpEnt)) : List (Option SpEnt) :=
  (old.filterMap id).map (fun e => some (if e.name = u then { e with hash := h, aging := { e.aging with lstchg := day } } else e))

/-- an entry for the user -/
def HasSp (u : Str) (file : List (Option SpEnt)) : Prop := ∃ e, some e ∈ file ∧ e.name = u

/-- the entry for a user who had none: no aging -/
def newSp (u h : Str) (day : Int) : SpEnt := ⟨u, h, ⟨day, -1, -1, -1, -1, -1⟩, -1⟩

/-- neither the group nor others may open the file -/
def OwnerOnly (a : Attr) : Prop := a.mode % 64 = 0

/-- What is guaranteed while a file `f` is replaced by one with the records `new`, if the operations `ops` are stopped anywhere: the file is
whole, it has its owner, group and mode, and holds what it held or, if the result `ok` is success and everything has been done, all of
`new`; and the temporary file has the same owner, group and mode, or it holds nothing yet and only its owner may open it. -/
def Safe {α : Type} (f : Rep α) (ok : Bool) (ops : List (Op α)) (new : List α) : Prop :=
  (∀ k, (f.after (ops.take k)).torn = false ∧ (f.after (ops.take k)).attr = f.attr ∧
    ((f.after (ops.take k)).main = f.main ∨ (ok = true ∧ ops.length ≤ k ∧ (f.after (ops.take k)).main = some new)) ∧
    (∀ c, (f.after (ops.take k)).tmp = some c → (c = [] ∧ OwnerOnly (f.after (ops.take k)).tattr) ∨ (f.after (ops.take k)).tattr = f.attr)) ∧
  (ok = true → (f.after ops).main = some new) ∧ (ok = false → (f.after ops).main = f.main)

/-! ### helper lemmas -/

theorem Rep.after_append {α : Type} (f : Rep α) (a b : List (Op α)) : f.after (a ++ b) = (f.after a).after b := List.foldl_append ..

/-- a property of every state on the way -/
def Along {α : Type} (P : Rep α → Prop) : Rep α → List (Op α) → Prop
  | f, [] => P f
  | f, o :: os => P f ∧ Along P (f.apply o) os

theorem along_here {α : Type} {P : Rep α → Prop} {f : Rep α} {ops : List (Op α)} (h : Along P f ops) : P f := by
  cases ops with
  | nil => exact h
  | cons o os => exact h.1

theorem along_take {α : Type} {P : Rep α → Prop} : ∀ {f : Rep α} {ops : List (Op α)}, Along P f ops → ∀ k, P (f.after (ops.take k))
  | f, [], h, k => by rw [List.take_nil]; exact h
  | f, o :: os, h, 0 => h.1
  | f, o :: os, h, k + 1 => along_take h.2 k

theorem along_append {α : Type} {P : Rep α → Prop} : ∀ {f : Rep α} {a b : List (Op α)}, Along P f a → Along P (f.after a) b → Along P f (a ++ b)
  | f, [], b, _, h => h
  | f, o :: os, b, h1, h2 => ⟨h1.1, along_append h1.2 h2⟩

/-- the state before the file is replaced -/
def Before {α : Type} (f g : Rep α) : Prop :=
  g.torn = f.torn ∧ g.attr = f.attr ∧ g.main = f.main ∧ (∀ c, g.tmp = some c → (c = [] ∧ OwnerOnly g.tattr) ∨ g.tattr = f.attr)

theorem writes_along {α : Type} {f : Rep α} : ∀ (ws : List α) {g : Rep α}, Before f g → g.tattr = f.attr → Along (Before f) g (ws.map Op.write)
  | [], _, h, _ => h
  | w :: ws, _, h, ha => ⟨h, writes_along ws ⟨h.1, h.2.1, h.2.2.1, fun _ _ => Or.inr ha⟩ ha⟩

theorem after_writes {α : Type} (g : Rep α) (t : List α) (hs : g.tmp = some t) : ∀ (ws : List α), ∃ s,
    g.after (ws.map Op.write) = { g with tmp := some (t ++ ws), synced := s }
  | [] => ⟨g.synced, by cases g; simp only at hs; subst hs; simp [Rep.after]⟩
  | w :: ws => by
    obtain ⟨s, h⟩ := after_writes (g.apply (.write w)) (t ++ [w]) (by simp [Rep.apply, hs]) ws
    refine ⟨s, ?_⟩
    have h' : g.after ((w :: ws).map Op.write) = (g.apply (.write w)).after (ws.map Op.write) := rfl
    rw [h', h]
    simp [Rep.apply]

/-- the operations up to the one that ends the procedure -/
theorem rewrite_shape {α : Type} (l : FLuck) (me : Nat × Nat) (f : Rep α) (body : List α → Bool × List α) (hf : f.torn = false) (ht : f.tmp = none) :
    (∃ pre, (rewrite l me f body).1 = false ∧ Along (Before f) f pre ∧
      ((rewrite l me f body).2 = pre ++ [.unlink] ∨ ((rewrite l me f body).2 = pre ∧ (l.mkstemp = false ∨ l.fdopen = false)))) ∨
    (∃ pre old, (rewrite l me f body).1 = true ∧ Along (Before f) f pre ∧ (rewrite l me f body).2 = pre ++ [.replace] ∧ f.main = some old ∧
      (body old).1 = false ∧ (f.after pre).tmp = some (body old).2 ∧ (f.after pre).tattr = f.attr ∧ (f.after pre).synced = true) := by
  have h0 : Before f f := ⟨rfl, rfl, rfl, fun c hc => by rw [ht] at hc; cases hc⟩
  have hn : ∀ {g : Rep α}, Before f g → ∀ me, Before f (g.apply (.create (freshAttr me))) :=
    fun {g} h me => ⟨h.1, h.2.1, h.2.2.1, fun c hc => Or.inl ⟨by simpa [Rep.apply] using hc.symm, show 0o600 % 64 = 0 from rfl⟩⟩
  have hch : ∀ me, Before f ((f.apply (.create (freshAttr me))).apply (.chown f.attr.uid f.attr.gid)) :=
    fun me => ⟨rfl, rfl, rfl, fun c hc => Or.inl ⟨by simpa [Rep.apply] using hc.symm, show 0o600 % 64 = 0 from rfl⟩⟩
  unfold rewrite
  split
  · next h => exact Or.inl ⟨[], rfl, h0, Or.inr ⟨rfl, Or.inl (by simpa using h)⟩⟩
  split
  · next h => exact Or.inl ⟨[.create _], rfl, ⟨h0, hn h0 _⟩, Or.inr ⟨rfl, Or.inr (by simpa using h)⟩⟩
  split
  · exact Or.inl ⟨[.create _], rfl, ⟨h0, hn h0 _⟩, Or.inl rfl⟩
  next old hold =>
  split
  · exact Or.inl ⟨[.create _], rfl, ⟨h0, hn h0 _⟩, Or.inl rfl⟩
  split
  · exact Or.inl ⟨[.create _], rfl, ⟨h0, hn h0 _⟩, Or.inl rfl⟩
  split
  · exact Or.inl ⟨[.create _], rfl, ⟨h0, hn h0 _⟩, Or.inl rfl⟩
  split
  · exact Or.inl ⟨[.create _, .chown _ _], rfl, ⟨h0, hn h0 _, hch _⟩, Or.inl rfl⟩
  generalize hpre : ([Op.create (freshAttr me), .chown f.attr.uid f.attr.gid, .chmod f.attr.mode] : List (Op α)) = pre
  have hp1 : Along (Before f) f pre := by
    rw [← hpre]
    exact ⟨h0, hn h0 _, hch _, rfl, rfl, rfl, fun _ _ => Or.inr rfl⟩
  have hp2 : f.after pre = { f with tmp := some [], tattr := f.attr, synced := false } := by rw [← hpre]; rfl
  have hw1 : Along (Before f) f (pre ++ (body old).2.map Op.write) := by
    refine along_append hp1 (writes_along _ ?_ ?_)
    · rw [hp2]; exact ⟨rfl, rfl, rfl, fun _ _ => Or.inr rfl⟩
    · rw [hp2]
  obtain ⟨s, hs⟩ := after_writes (f.after pre) [] (by rw [hp2]) (body old).2
  rw [hp2] at hs
  have hw2 : f.after (pre ++ (body old).2.map Op.write) = { f with tmp := some (body old).2, tattr := f.attr, synced := s } := by
    rw [Rep.after_append, hp2, hs]; simp
  have ho1 : Along (Before f) f (pre ++ (body old).2.map Op.write ++ (if l.flush then [Op.sync] else [])) := by
    refine along_append hw1 ?_
    rw [hw2]
    have hb : Before f { f with tmp := some (body old).2, tattr := f.attr, synced := s } := ⟨rfl, rfl, rfl, fun _ _ => Or.inr rfl⟩
    split
    · exact ⟨hb, rfl, rfl, rfl, fun _ _ => Or.inr rfl⟩
    · exact hb
  have hfin : l.flush = true → (f.after (pre ++ (body old).2.map Op.write ++ (if l.flush then [Op.sync] else []))) =
      { f with tmp := some (body old).2, tattr := f.attr, synced := true } := by
    intro hfl
    rw [if_pos hfl, Rep.after_append, hw2]; rfl
  dsimp only
  generalize hops : pre ++ (body old).2.map Op.write ++ (if l.flush then [Op.sync] else []) = ops at ho1 hfin ⊢
  split
  · exact Or.inl ⟨_, rfl, ho1, Or.inl rfl⟩
  next herr =>
  split
  · exact Or.inl ⟨_, rfl, ho1, Or.inl rfl⟩
  simp only [Bool.or_eq_true, Bool.not_eq_true', not_or, Bool.not_eq_true] at herr
  have hfl : l.flush = true := by simpa using herr.1.2
  refine Or.inr ⟨_, old, rfl, ho1, rfl, hold, by simpa using herr.1.1, ?_⟩
  rw [hfin hfl]
  exact ⟨rfl, rfl, rfl⟩

theorem before_weak {α : Type} {f g : Rep α} (hf : f.torn = false) (h : Before f g) (ok : Bool) (new : List α) (b : Prop) : g.torn = false ∧ g.attr = f.attr ∧
    (g.main = f.main ∨ (ok = true ∧ b ∧ g.main = some new)) ∧ (∀ c, g.tmp = some c → (c = [] ∧ OwnerOnly g.tattr) ∨ g.tattr = f.attr) :=
  ⟨by rw [h.1]; exact hf, h.2.1, Or.inl h.2.2.1, h.2.2.2⟩

theorem take_last {α : Type} (pre : List α) (x : α) (k : Nat) : (∃ j, (pre ++ [x]).take k = pre.take j) ∨ ((pre ++ [x]).take k = pre ++ [x] ∧ (pre ++ [x]).length ≤ k) := by
  by_cases h : k ≤ pre.length
  · exact Or.inl ⟨k, List.take_append_of_le_length h⟩
  · exact Or.inr ⟨List.take_of_length_le (by simp; omega), by simp; omega⟩

theorem after_full {α : Type} (f : Rep α) (pre : List (Op α)) : f.after (pre.take pre.length) = f.after pre := by rw [List.take_length]

/-- what `rewrite` guarantees -/
theorem rewrite_safe {α : Type} (l : FLuck) (me : Nat × Nat) (f : Rep α) (body : List α → Bool × List α) (hf : f.torn = false) (ht : f.tmp = none) :
    (∃ new, Safe f (rewrite l me f body).1 (rewrite l me f body).2 new ∧
      ((rewrite l me f body).1 = true → ∃ old, f.main = some old ∧ body old = (false, new))) ∧
    ((f.after (rewrite l me f body).2).tmp = none ∨ l.fdopen = false) := by
  rcases rewrite_shape l me f body hf ht with ⟨pre, hok, hal, hops⟩ | ⟨pre, old, hok, hal, hops, hmain, hb1, hb2, hb3, hb4⟩
  · have hbef := along_take hal
    have hlast : Before f (f.after pre) := by have := hbef pre.length; rw [after_full] at this; exact this
    have hun : Before f (f.after (pre ++ [.unlink])) := by
      rw [Rep.after_append]
      exact ⟨hlast.1, hlast.2.1, hlast.2.2.1, fun c hc => by cases hc⟩
    rcases hops with hops | ⟨hops, hm⟩
    · rw [hok, hops]
      refine ⟨⟨[], ⟨fun k => ?_, nofun, fun _ => hun.2.2.1⟩, fun h => by cases h⟩, Or.inl (by rw [Rep.after_append]; rfl)⟩
      rcases take_last pre .unlink k with ⟨j, hj⟩ | ⟨hj, -⟩
      · rw [hj]; exact before_weak hf (hbef j) _ _ _
      · rw [hj]; exact before_weak hf hun _ _ _
    · rw [hok, hops]
      refine ⟨⟨[], ⟨fun k => before_weak hf (hbef k) _ _ _, nofun, fun _ => hlast.2.2.1⟩, fun h => by cases h⟩, ?_⟩
      rcases hm with hm | hm
      · left
        have : (rewrite l me f body).2 = [] := by unfold rewrite; rw [hm]; rfl
        rw [hops] at this; rw [this]; exact ht
      · exact Or.inr hm
  · have hbef := along_take hal
    have hlast : Before f (f.after pre) := by have := hbef pre.length; rw [after_full] at this; exact this
    have hrep : f.after (pre ++ [.replace]) = { f.after pre with main := some (body old).2, attr := f.attr, tmp := none, torn := false } := by
      rw [Rep.after_append]
      show ({ f.after pre with main := _, attr := _, tmp := none, torn := _ } : Rep α) = _
      rw [hb2, hb3, hb4]; rfl
    rw [hok, hops]
    refine ⟨⟨(body old).2, ⟨fun k => ?_, fun _ => by rw [hrep], fun h => by cases h⟩, fun _ => ⟨old, hmain, ?_⟩⟩, Or.inl (by rw [hrep])⟩
    · rcases take_last pre .replace k with ⟨j, hj⟩ | ⟨hj, hk⟩
      · rw [hj]; exact before_weak hf (hbef j) _ _ _
      · rw [hj, hrep]; exact ⟨rfl, rfl, Or.inr ⟨rfl, hk, rfl⟩, fun c hc => by cases hc⟩
    · rw [← hb1]

/-- if nothing goes wrong, the result is that of the loop -/
theorem rewrite_fine {α : Type} {l : FLuck} (hl : l.Fine) (me : Nat × Nat) (f : Rep α) (body : List α → Bool × List α) {old : List α} (hm : f.main = some old) :
    (rewrite l me f body).1 = !(body old).1 := by
  unfold rewrite
  simp only [hl.mkstemp, hl.fdopen, hl.opens, hl.fstat, hl.fchown, hl.fchmod, hl.flush, hl.close, hl.rename, hm, Bool.not_true, Bool.or_false]
  cases (body old).1 <;> rfl

theorem passwdLoop_out {put : Nat → Bool} {u h : Str} : ∀ {es : List (Option PwEnt)} {i : Nat} {err : Bool} {out : List (Option PwEnt)},
    passwdLoop put u h i err es = (false, out) → out = withPasswd u h es ∧ (err = true → HasPw u es)
  | [], _, err, out, he => by
    rw [passwdLoop] at he; cases he; exact ⟨rfl, fun h => by cases h⟩
  | none :: es, i, err, out, he => by
    rw [passwdLoop] at he
    obtain ⟨h1, h2⟩ := passwdLoop_out he
    exact ⟨by rw [h1]; rfl, fun h => (h2 h).imp (fun e he => ⟨List.mem_cons_of_mem _ he.1, he.2⟩)⟩
  | some e :: es, i, err, out, he => by
    rw [passwdLoop] at he
    simp only at he
    split at he
    · cases hr : passwdLoop put u h (i + 1) (if e.pw.name = u then false else err) es with
      | mk b o =>
        rw [hr] at he
        cases he
        obtain ⟨h1, h2⟩ := passwdLoop_out hr
        refine ⟨by rw [h1]; rfl, fun h => ?_⟩
        by_cases hu : e.pw.name = u
        · exact ⟨e, List.mem_cons_self .., hu⟩
        · rw [if_neg hu] at h2
          exact (h2 h).imp (fun e he => ⟨List.mem_cons_of_mem _ he.1, he.2⟩)
    · cases he

theorem passwdLoop_fine {put : Nat → Bool} (hp : ∀ n, put n = true) {u h : Str} : ∀ {es : List (Option PwEnt)} {i : Nat} {err : Bool},
    (passwdLoop put u h i err es).1 = false ↔ err = false ∨ HasPw u es
  | [], _, err => by
    rw [passwdLoop]
    exact ⟨Or.inl, fun h => h.elim id (fun ⟨e, he, _⟩ => by cases he)⟩
  | none :: es, i, err => by
    rw [passwdLoop, passwdLoop_fine hp]
    refine or_congr Iff.rfl ⟨fun h => h.imp (fun e he => ⟨List.mem_cons_of_mem _ he.1, he.2⟩), fun ⟨e, he, hu⟩ => ⟨e, ?_, hu⟩⟩
    rcases List.mem_cons.mp he with he | he
    · cases he
    · exact he
  | some e :: es, i, err => by
    rw [passwdLoop]
    simp only [hp, if_true]
    rw [passwdLoop_fine hp]
    by_cases hu : e.pw.name = u
    · rw [if_pos hu]
      exact ⟨fun _ => Or.inr ⟨e, List.mem_cons_self .., hu⟩, fun _ => Or.inl rfl⟩
    · rw [if_neg hu]
      refine or_congr Iff.rfl ⟨fun h => h.imp (fun e he => ⟨List.mem_cons_of_mem _ he.1, he.2⟩), fun ⟨x, he, hx⟩ => ⟨x, ?_, hx⟩⟩
      rcases List.mem_cons.mp he with he | he
      · cases he; exact absurd hx hu
      · exact he

theorem shadowLoop_out {put : Nat → Bool} {day : Int} {u h : Str} : ∀ {es : List (Option SpEnt)} {i : Nat} {w w' : Bool} {out : List (Option SpEnt)},
    shadowLoop put day u h i w es = (false, w', out) → out = withHash u h (changeDay day) es ∧ (w' = true ↔ w = true ∨ HasSp u es)
  | [], _, w, w', out, he => by
    rw [shadowLoop] at he; cases he
    exact ⟨rfl, Or.inl, fun h => h.elim id (fun ⟨e, he, _⟩ => by cases he)⟩
  | none :: es, i, w, w', out, he => by
    rw [shadowLoop] at he
    obtain ⟨h1, h2⟩ := shadowLoop_out he
    refine ⟨by rw [h1]; rfl, h2.trans (or_congr Iff.rfl ⟨fun h => h.imp (fun e he => ⟨List.mem_cons_of_mem _ he.1, he.2⟩), fun ⟨e, he, hu⟩ => ⟨e, ?_, hu⟩⟩)⟩
    rcases List.mem_cons.mp he with he | he
    · cases he
    · exact he
  | some e :: es, i, w, w', out, he => by
    rw [shadowLoop] at he
    simp only at he
    split at he
    · cases hr : shadowLoop put day u h (i + 1) (if e.name = u then true else w) es with
      | mk b o =>
        rw [hr] at he
        cases he
        obtain ⟨h1, h2⟩ := shadowLoop_out hr
        refine ⟨by rw [h1]; rfl, ?_⟩
        rw [h2]
        by_cases hu : e.name = u
        · rw [if_pos hu]
          exact ⟨fun _ => Or.inr ⟨e, List.mem_cons_self .., hu⟩, fun _ => Or.inl rfl⟩
        · rw [if_neg hu]
          refine or_congr Iff.rfl ⟨fun h => h.imp (fun e he => ⟨List.mem_cons_of_mem _ he.1, he.2⟩), fun ⟨x, he, hx⟩ => ⟨x, ?_, hx⟩⟩
          rcases List.mem_cons.mp he with he | he
          · cases he; exact absurd hx hu
          · exact he
    · cases he

theorem shadowLoop_fine {put : Nat → Bool} (hp : ∀ n, put n = true) {day : Int} {u h : Str} : ∀ {es : List (Option SpEnt)} {i : Nat} {w : Bool},
    (shadowLoop put day u h i w es).1 = false
  | [], _, w => rfl
  | none :: es, i, w => by rw [shadowLoop]; exact shadowLoop_fine hp
  | some e :: es, i, w => by
    rw [shadowLoop]
    simp only [hp, if_true]
    exact shadowLoop_fine hp

/-- what /etc/shadow becomes -/
def newShadow (u h : Str) (day : Int) (old new : List (Option SpEnt)) : Prop :=
  (HasSp u old ∧ new = withHash u h day old) ∨ (¬ HasSp u old ∧ new = withHash u h day old ++ [some (newSp u h day)])

theorem shadowBody_out {put : Nat → Bool} {day : Int} {u h : Str} {es out : List (Option SpEnt)}
    (he : shadowBody put day u h es = (false, out)) : newShadow u h (changeDay day) es out := by
  unfold shadowBody at he
  cases hr : shadowLoop put day u h 0 false es with
  | mk err r =>
    obtain ⟨wrote, o⟩ := r
    rw [hr] at he
    simp only at he
    cases err with
    | true =>
      simp only [Bool.not_true, Bool.and_false, Bool.false_eq_true, if_false] at he
      cases he
    | false =>
      obtain ⟨h1, h2⟩ := shadowLoop_out hr
      subst h1
      cases wrote with
      | true =>
        cases he
        exact Or.inl ⟨(h2.mp rfl).resolve_left (fun h => by cases h), rfl⟩
      | false =>
        simp only [Bool.not_false, Bool.and_self, if_true] at he
        split at he
        · cases he
          exact Or.inr ⟨fun h => absurd (h2.mpr (Or.inr h)) (by decide), rfl⟩
        · cases he

theorem shadowBody_fine {put : Nat → Bool} (hp : ∀ n, put n = true) {day : Int} {u h : Str} {es : List (Option SpEnt)} :
    (shadowBody put day u h es).1 = false := by
  unfold shadowBody
  simp only [hp, if_true]
  split
  · rfl
  · exact shadowLoop_fine hp

/-! ### C78 -/

/-- C78: However the replacement of /etc/passwd is stopped, the file is whole, with its owner, group and mode, and holds the old entries, or
all of them in the same order with only the password field of the user changed; the latter if and only if success is reported. -/
theorem C78_passwd (e : Etc) (p : Proc) (l : FLuck) (u h : Str) (hf : e.pw.torn = false) (ht : e.pw.tmp = none) :
    Safe e.pw (updatePasswd e p l u h).1 (updatePasswd e p l u h).2 (withPasswd u h (e.pw.main.getD [])) ∧
    ((updatePasswd e p l u h).1 = true → ∃ old, e.pw.main = some old ∧ HasPw u old) ∧
    ((e.pw.after (updatePasswd e p l u h).2).tmp = none ∨ l.fdopen = false) := by
  obtain ⟨⟨new, h1, h2⟩, h3⟩ := rewrite_safe l (p.euid, p.egid) e.pw (passwdLoop l.put u h 0 true) hf ht
  refine ⟨?_, fun hok => ?_, h3⟩
  · cases hok : (updatePasswd e p l u h).1 with
    | true =>
      obtain ⟨old, h4, h5⟩ := h2 hok
      rw [h4]
      show Safe _ _ _ (withPasswd u h old)
      rw [← (passwdLoop_out h5).1]
      unfold updatePasswd at hok
      rw [hok] at h1
      exact h1
    | false =>
      unfold updatePasswd at hok
      rw [hok] at h1
      refine ⟨fun k => ?_, nofun, h1.2.2⟩
      obtain ⟨a, b, c, d⟩ := h1.1 k
      exact ⟨a, b, Or.inl (c.resolve_right (fun h => by cases h.1)), d⟩
  · obtain ⟨old, h4, h5⟩ := h2 hok
    exact ⟨old, h4, (passwdLoop_out h5).2 rfl⟩

/-- C78: If nothing goes wrong, the password field is changed exactly when there is an entry for the user. -/
theorem C78_passwd_works (e : Etc) (p : Proc) (l : FLuck) (hl : l.Fine) (u h : Str) (old : List (Option PwEnt)) (hm : e.pw.main = some old) :
    (updatePasswd e p l u h).1 = true ↔ HasPw u old := by
  unfold updatePasswd
  rw [rewrite_fine hl _ _ _ hm, Bool.not_eq_true', passwdLoop_fine hl.put]
  simp

/-- C78: The same for /etc/shadow, where the day of the change is noted, too, and an entry is added for a user who has none. -/
theorem C78_shadow (w : World) (e : Etc) (p : Proc) (l : FLuck) (u h : Str) (hf : e.sp.torn = false) (ht : e.sp.tmp = none) :
    (∃ new, Safe e.sp (updateShadow w e p l u h).1 (updateShadow w e p l u h).2 new ∧
      ((updateShadow w e p l u h).1 = true → ∃ old, e.sp.main = some old ∧ newShadow u h (if w.today = 0 then -1 else w.today) old new)) ∧
    ((e.sp.after (updateShadow w e p l u h).2).tmp = none ∨ l.fdopen = false) := by
  obtain ⟨⟨new, h1, h2⟩, h3⟩ := rewrite_safe l (p.euid, p.egid) e.sp (shadowBody l.put w.today u h) hf ht
  exact ⟨⟨new, h1, fun hok => (h2 hok).imp (fun old ho => ⟨ho.1, shadowBody_out ho.2⟩)⟩, h3⟩

/-- C78: If nothing goes wrong, it works. -/
theorem C78_shadow_works (w : World) (e : Etc) (p : Proc) (l : FLuck) (hl : l.Fine) (u h : Str) (old : List (Option SpEnt)) (hm : e.sp.main = some old) :
    (updateShadow w e p l u h).1 = true := by
  unfold updateShadow
  rw [rewrite_fine hl _ _ _ hm, shadowBody_fine hl.put]
  rfl

/-- C78: Without an entry for the user, /etc/passwd does not change. -/
theorem C78_passwd_unknown (e : Etc) (p : Proc) (l : FLuck) (u h : Str) (hf : e.pw.torn = false) (ht : e.pw.tmp = none)
    (hu : ¬ HasPw u (e.pw.main.getD [])) (k : Nat) : (e.pw.after ((updatePasswd e p l u h).2.take k)).main = e.pw.main := by
  obtain ⟨h1, h2, -⟩ := C78_passwd e p l u h hf ht
  obtain ⟨-, -, h3, -⟩ := h1.1 k
  refine h3.resolve_right (fun h => ?_)
  obtain ⟨old, ho, hu'⟩ := h2 h.1
  rw [ho] at hu
  exact hu hu'

/-! ### examples -/

/-- a file with a comment, two accounts and a line that is no entry -/
def demoPasswd : Etc where
  pw := { attr := ⟨0, 0, 0o644⟩, main := some [none, some ⟨⟨"root".toList, "x".toList, 0⟩, "0::/root:".toList⟩, some ⟨⟨"bob".toList, "old".toList, 1001⟩, "100::/home/bob:".toList⟩, none] }
  sp := { attr := ⟨0, 42, 0o640⟩, main := some [some ⟨"root".toList, "*".toList, ⟨20000, 0, 99999, 7, -1, -1⟩, -1⟩] }
  op := { attr := ⟨0, 0, 0o600⟩, main := none }

example : demoPasswd.pw.torn = false ∧ demoPasswd.pw.tmp = none ∧ demoPasswd.sp.torn = false ∧ demoPasswd.sp.tmp = none := ⟨rfl, rfl, rfl, rfl⟩
example : ({} : FLuck).Fine := ⟨rfl, rfl, rfl, rfl, rfl, rfl, fun _ => rfl, rfl, rfl, rfl⟩
example : HasPw "bob".toList [none, some ⟨⟨"bob".toList, "old".toList, 1001⟩, []⟩] := ⟨_, List.mem_cons_of_mem _ (List.mem_cons_self ..), rfl⟩
example : (updatePasswd demoPasswd ⟨0, 0, 0, 0, 0, 0⟩ {} "bob".toList "new".toList).1 = true ∧
    (demoPasswd.pw.after (updatePasswd demoPasswd ⟨0, 0, 0, 0, 0, 0⟩ {} "bob".toList "new".toList).2).main =
      some [some ⟨⟨"root".toList, "x".toList, 0⟩, "0::/root:".toList⟩, some ⟨⟨"bob".toList, "new".toList, 1001⟩, "100::/home/bob:".toList⟩] := by decide +kernel
/-- the second record cannot be written -/
example : (updatePasswd demoPasswd ⟨0, 0, 0, 0, 0, 0⟩ { put := fun i => i ≠ 1 } "bob".toList "new".toList).1 = false ∧
    (updatePasswd demoPasswd ⟨0, 0, 0, 0, 0, 0⟩ { put := fun i => i ≠ 1 } "bob".toList "new".toList).2.length = 6 := by decide +kernel
example : (demoPasswd.sp.after (updateShadow ⟨fun _ => none, fun _ => none, fun _ => none, 20010, ⟨fun _ _ => none, fun p _ => p, fun p _ => p⟩⟩ demoPasswd
    ⟨0, 0, 0, 0, 0, 0⟩ {} "bob".toList "new".toList).2).main =
      some [some ⟨"root".toList, "*".toList, ⟨20000, 0, 99999, 7, -1, -1⟩, -1⟩, some ⟨"bob".toList, "new".toList, ⟨20010, -1, -1, -1, -1, -1⟩, -1⟩] := by
  decide +kernel
example : ¬ HasPw "eve".toList [none, some ⟨⟨"bob".toList, "old".toList, 1001⟩, []⟩] := by
  rintro ⟨x, hx, hn⟩
  simp at hx
  subst hx
  exact absurd hn (by decide)

end Pam.Unix
