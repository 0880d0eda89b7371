import Verif.Config.Modules
/-
C154 and C155: loading and unloading of modules.
-/
namespace Pam.Modules
open Pam

namespace Spec

/-- copying the name of a module into the table never fails for lack of memory -/
def NamesKept (es : List Ev) : Prop := ∀ m qs q, Ev.init m qs ∈ es → q ∈ qs → q.oracle.strdup = true

/-- the path with the first `$ISA` in it replaced -/
def IsaOf (isa path p : Str) : Prop := ∃ a b, path = a ++ "$ISA".toList ++ b ∧ (∀ a' b', path = a' ++ "$ISA".toList ++ b' → a.length ≤ a'.length) ∧ p = a ++ isa ++ b

/-- where the module of a configuration line is: an absolute path is taken as it is, others are in the directory of modules -/
def PathOf (dir text p : Str) : Prop := (∃ t, text = '/' :: t ∧ p = text) ∨ ((∀ t, text ≠ '/' :: t) ∧ p = dir ++ text)

end Spec
open Spec

/-! ### the table -/

/-- all is well: the table has room for its entries, handles are known, and what was opened is either closed or in the table -/
structure Good (s : State) : Prop where
  room : s.mods.length ≤ s.allocated
  table : s.mods ≠ [] → s.table = true
  ids : s.opened.map Prod.fst = List.range s.next
  split : (s.closed ++ s.mods.filterMap Mod.handle).Perm (List.range s.next)

theorem splitIsa_some {p a b : Str} (h : splitIsa p = some (a, b)) (isa : Str) : IsaOf isa p (a ++ isa ++ b) := by
  have key : ∀ (p a b : Str), splitIsa p = some (a, b) → p = a ++ "$ISA".toList ++ b ∧ ∀ a' b', p = a' ++ "$ISA".toList ++ b' → a.length ≤ a'.length := by
    intro p
    induction p using splitIsa.induct with
    | case1 t => intro a b h; simp [splitIsa] at h; obtain ⟨rfl, rfl⟩ := h; exact ⟨by simp, by simp⟩
    | case2 => intro a b h; simp [splitIsa] at h
    | case3 c t hne ih =>
      intro a b h
      rw [splitIsa] at h
      · rw [Option.map_eq_some_iff] at h
        obtain ⟨⟨x, y⟩, e1, e2⟩ := h
        injection e2 with e3 e4
        obtain ⟨k1, k2⟩ := ih x y e1
        refine ⟨by rw [← e3, k1, ← e4]; simp, ?_⟩
        intro a' b' hp
        cases a' with
        | nil =>
          exfalso
          simp at hp
          obtain ⟨h1, h2⟩ := hp
          exact hne b' h1 h2
        | cons d a' =>
          simp at hp
          rw [← e3]
          have := k2 a' b' (by rw [hp.2]; simp)
          simp; omega
      · exact hne
  obtain ⟨k1, k2⟩ := key p a b h
  exact ⟨a, b, k1, k2, rfl⟩

theorem fullPath_of (dir text : Str) : PathOf dir text (fullPath dir text) := by
  unfold fullPath
  split
  · next t => exact Or.inl ⟨t, rfl, rfl⟩
  · next hn => exact Or.inr ⟨fun t e => hn t e, rfl⟩

/-- a successful `dlopen` -/
def openedAs (s : State) (p : Str) : State := { s with opened := s.opened ++ [(s.next, p)], next := s.next + 1 }

theorem try_cases (isa : Str) (o : Oracle) (path : Str) (s : State) :
    secondTry isa o path (dlopen o path s) = (s, none) ∨
    ∃ p, (p = path ∨ IsaOf isa path p) ∧ secondTry isa o path (dlopen o path s) = (openedAs s p, some s.next) := by
  unfold secondTry
  by_cases hd : o.dl path = true
  · right
    refine ⟨path, Or.inl rfl, ?_⟩
    have : dlopen o path s = (openedAs s path, some s.next) := by unfold dlopen; rw [if_pos hd]; rfl
    rw [this]
  · have : dlopen o path s = (s, none) := by unfold dlopen; rw [if_neg hd]
    rw [this]
    dsimp only
    cases hi : splitIsa path with
    | none => exact Or.inl rfl
    | some ab =>
      obtain ⟨a, b⟩ := ab
      dsimp only
      by_cases hm : o.isaMem = true
      · rw [if_pos hm]
        by_cases hd2 : o.dl (a ++ isa ++ b) = true
        · right
          refine ⟨a ++ isa ++ b, Or.inr (splitIsa_some hi isa), ?_⟩
          unfold dlopen; rw [if_pos hd2]; rfl
        · left; unfold dlopen; rw [if_neg hd2]
      · rw [if_neg hm]; exact Or.inl rfl

/-- what loading a module does to the table -/
theorem load_cases {isa : Str} {o : Oracle} {path : Str} {s s' : State} {b : Bool} (h : loadModule isa o path s = .ok (s', b)) :
    s' = s ∨ (locate path s.mods = .ok false ∧ ∃ s0 s1 hd, s0.mods = s.mods ∧ s0.opened = s.opened ∧ s0.closed = s.closed ∧ s0.next = s.next ∧ s0.data = s.data ∧
      s0.cleaned = s.cleaned ∧ s0.table = true ∧ s.mods.length < s0.allocated ∧
      ((s1 = s0 ∧ hd = none) ∨ ∃ p, (p = path ∨ IsaOf isa path p) ∧ s1 = openedAs s0 p ∧ hd = some s0.next) ∧
      s' = { s1 with mods := s1.mods ++ [⟨if o.strdup then some path else none, hd⟩] }) := by
  unfold loadModule at h
  split at h
  · cases h
  · cases h; exact Or.inl rfl
  · next hl =>
    split at h
    · cases h; exact Or.inl rfl
    · dsimp only at h
      generalize hs0 : (if s.allocated = s.mods.length then { s with table := true, allocated := s.allocated + CHUNK } else s) = s0 at h
      have e : s0.mods = s.mods ∧ s0.opened = s.opened ∧ s0.closed = s.closed ∧ s0.next = s.next ∧ s0.data = s.data ∧ s0.cleaned = s.cleaned := by
        rw [← hs0]; split <;> exact ⟨rfl, rfl, rfl, rfl, rfl, rfl⟩
      split at h
      · next hc =>
        cases h
        right
        refine ⟨hl, s0, (secondTry isa o path (dlopen o path s0)).1, (secondTry isa o path (dlopen o path s0)).2, e.1, e.2.1, e.2.2.1, e.2.2.2.1, e.2.2.2.2.1,
          e.2.2.2.2.2, hc.1, by rw [← e.1]; exact hc.2, ?_, rfl⟩
        rcases try_cases isa o path s0 with ht | ⟨p, hp, ht⟩
        · rw [ht]; exact Or.inl ⟨rfl, rfl⟩
        · rw [ht]; exact Or.inr ⟨p, hp, rfl, rfl⟩
      · cases h

theorem Good.load {isa : Str} {o : Oracle} {path : Str} {s s' : State} {b : Bool} (g : Good s) (h : loadModule isa o path s = .ok (s', b)) : Good s' := by
  rcases load_cases h with h | ⟨_, s0, s1, hd, e1, e2, e3, e4, _, _, e5, e6, h1, h2⟩
  · rw [h]; exact g
  · rw [h2]
    rcases h1 with ⟨rfl, rfl⟩ | ⟨p, _, rfl, rfl⟩
    · refine ⟨?_, fun _ => e5, by dsimp only; rw [e2, e4]; exact g.ids, ?_⟩
      · dsimp only; rw [List.length_append, e1]; exact e6
      · dsimp only
        rw [e3, e1, e4, List.filterMap_append]
        simpa using g.split
    · refine ⟨?_, fun _ => e5, ?_, ?_⟩
      · show (s0.mods ++ _).length ≤ s0.allocated
        rw [List.length_append, e1]; exact e6
      · show (s0.opened ++ [(s0.next, p)]).map Prod.fst = List.range (s0.next + 1)
        rw [List.map_append, e2, e4, g.ids, List.range_succ]; rfl
      · show (s0.closed ++ (s0.mods ++ [(⟨if o.strdup then some path else none, some s0.next⟩ : Mod)]).filterMap Mod.handle).Perm (List.range (s0.next + 1))
        rw [e3, e1, e4, List.filterMap_append, List.range_succ, ← List.append_assoc]
        exact g.split.append (List.Perm.refl _)

/-- names are in the table -/
def Named (s : State) : Prop := ∀ m ∈ s.mods, m.name ≠ none

theorem locate_named (path : Str) : ∀ (l : List Mod), (∀ m ∈ l, m.name ≠ none) → locate path l = .ok (decide (∃ m ∈ l, m.name = some path))
  | [], _ => by simp [locate]
  | ⟨none, h⟩ :: t, hn => absurd rfl (hn ⟨none, h⟩ (by simp))
  | ⟨some n, h⟩ :: t, hn => by
    unfold locate
    by_cases e : n = path
    · rw [if_pos e]; simp [e]
    · rw [if_neg e, locate_named path t (fun m hm => hn m (by simp [hm]))]
      simp [e]

theorem load_ok (isa : Str) (o : Oracle) (path : Str) {s : State} (g : Good s) (hn : Named s) (ht : s.table = true) (hs : o.strdup = true) :
    ∃ s' b, loadModule isa o path s = .ok (s', b) ∧ Named s' ∧ s'.table = true := by
  have hl := locate_named path s.mods hn
  cases hr : loadModule isa o path s with
  | crash =>
    exfalso
    unfold loadModule at hr
    rw [hl] at hr
    split at hr
    · next h => cases h
    · cases hr
    · split at hr
      · cases hr
      · dsimp only at hr
        generalize hs0 : (if s.allocated = s.mods.length then { s with table := true, allocated := s.allocated + CHUNK } else s) = s0 at hr
        split at hr
        · cases hr
        · next hc =>
          apply hc
          have := g.room
          rw [← hs0]
          split
          · exact ⟨rfl, by unfold CHUNK; dsimp only; omega⟩
          · exact ⟨ht, by omega⟩
  | ok r =>
    obtain ⟨s', b⟩ := r
    refine ⟨s', b, rfl, ?_⟩
    rcases load_cases hr with h | ⟨_, s0, s1, hd, e1, _, _, _, _, _, e5, _, h1, h2⟩
    · rw [h]; exact ⟨hn, ht⟩
    · have hm : s1.mods = s.mods ∧ s1.table = true := by
        rcases h1 with ⟨rfl, _⟩ | ⟨p, _, rfl, _⟩
        · exact ⟨e1, e5⟩
        · exact ⟨e1, e5⟩
      rw [h2, hs]
      refine ⟨?_, hm.2⟩
      intro m hmm
      dsimp only at hmm
      rw [hm.1, List.mem_append] at hmm
      rcases hmm with hmm | hmm
      · exact hn m hmm
      · rw [List.mem_singleton] at hmm; rw [hmm]; simp

theorem Good.request {dir isa : Str} {q : Request} {s s' : State} {b : Bool} (g : Good s) (h : request dir isa q s = .ok (s', b)) : Good s' := by
  unfold Modules.request at h
  split at h
  · cases h; exact g
  · exact g.load h

theorem Good.requests {dir isa : Str} : ∀ {qs : List Request} {s s' : State}, Good s → requests dir isa qs s = .ok s' → Good s'
  | [], s, s', g, h => by cases h; exact g
  | q :: qs, s, s', g, h => by
    unfold Modules.requests at h
    split at h
    · cases h
    · next s1 b hq => exact (g.request hq).requests h

theorem requests_ok (dir isa : Str) : ∀ (qs : List Request) (s : State), Good s → Named s → s.table = true → (∀ q ∈ qs, q.oracle.strdup = true) →
    ∃ s', requests dir isa qs s = .ok s' ∧ Named s'
  | [], s, _, hn, _, _ => ⟨s, rfl, hn⟩
  | q :: qs, s, g, hn, ht, hs => by
    have h1 : ∃ s1 b, request dir isa q s = .ok (s1, b) ∧ Named s1 ∧ s1.table = true := by
      unfold request
      split
      · exact ⟨s, false, rfl, hn, ht⟩
      · exact load_ok isa q.oracle _ g hn ht (hs q (by simp))
    obtain ⟨s1, b, e1, n1, t1⟩ := h1
    obtain ⟨s', e2, n2⟩ := requests_ok dir isa qs s1 (g.request e1) n1 t1 (fun x hx => hs x (by simp [hx]))
    refine ⟨s', ?_, n2⟩
    unfold requests
    rw [e1]; exact e2

theorem Good.free {s : State} (g : Good s) : Good (freeModules s) := by
  refine ⟨by simp [freeModules], by simp [freeModules], g.ids, ?_⟩
  simp [freeModules]
  exact g.split

theorem Good.freeData {s : State} (g : Good s) : Good (freeData s) := ⟨g.room, g.table, g.ids, g.split⟩

theorem Good.step {dir isa : Str} {s s' : State} {e : Ev} (g : Good s) (h : step dir isa s e = .ok s') : Good s' := by
  unfold Modules.step at h
  split at h
  · dsimp only at h
    split at h
    · refine Good.requests (s := { freeModules s with table := true, allocated := CHUNK }) ⟨?_, fun _ => rfl, g.ids, g.free.split⟩ h
      simp [freeModules]
    · cases h; exact g.free
  · split at h <;> (cases h; exact ⟨g.room, g.table, g.ids, g.split⟩)
  · cases h; exact g.freeData.free

theorem step_ok (dir isa : Str) {s : State} (g : Good s) (hn : Named s) (e : Ev) (hs : NamesKept [e]) : ∃ s', step dir isa s e = .ok s' ∧ Named s' := by
  have hf : ∀ t : State, Named (freeModules t) := by intro t m hm; simp [freeModules] at hm
  cases e with
  | init mem qs =>
    unfold step
    dsimp only
    split
    · refine requests_ok dir isa qs _ ⟨?_, fun _ => rfl, g.ids, g.free.split⟩ ?_ rfl ?_
      · simp [freeModules]
      · exact hf s
      · intro q hq; exact hs mem qs q (by simp) hq
    · exact ⟨_, rfl, hf s⟩
  | store k =>
    unfold step
    dsimp only
    split
    · exact ⟨_, rfl, hn⟩
    · exact ⟨_, rfl, hn⟩
  | fin => exact ⟨_, rfl, hf _⟩

theorem good_start : Good {} := ⟨by simp, by simp, rfl, by simp⟩

theorem run_ok (dir isa : Str) : ∀ (es : List Ev) (s : State), Good s → Named s → NamesKept es → ∃ s', run dir isa es s = .ok s' ∧ Good s' ∧ Named s'
  | [], s, g, hn, _ => ⟨s, rfl, g, hn⟩
  | e :: es, s, g, hn, hs => by
    obtain ⟨s1, e1, n1⟩ := step_ok dir isa g hn e (fun m qs q h1 h2 => hs m qs q (by simp at h1; simp [h1]) h2)
    obtain ⟨s', e2, k⟩ := run_ok dir isa es s1 (g.step e1) n1 (fun m qs q h1 h2 => hs m qs q (by simp [h1]) h2)
    refine ⟨s', ?_, k⟩
    unfold run
    rw [e1]; exact e2

theorem run_append (dir isa : Str) (e : Ev) : ∀ (es : List Ev) (s s1 s2 : State), run dir isa es s = .ok s1 → step dir isa s1 e = .ok s2 →
    run dir isa (es ++ [e]) s = .ok s2
  | [], s, s1, s2, h1, h2 => by cases h1; unfold run; simp [h2, run]
  | a :: es, s, s1, s2, h1, h2 => by
    unfold run at h1
    split at h1
    · cases h1
    · next s0 h0 =>
      show run dir isa (a :: (es ++ [e])) s = _
      unfold run
      rw [h0]; exact run_append dir isa e es s0 s1 s2 h1 h2

/-! ### C154 -/

/-- C154: whatever configurations a transaction reads and whatever fails, the table of modules is used within its bounds and no pointer is NULL, and when the
transaction has ended every module that was opened has been closed, exactly once.  (If the name of every module that is opened can be copied.) -/
theorem C154_balanced_partial (dir isa : Str) (es : List Ev) (hs : NamesKept es) :
    ∃ s, run dir isa (es ++ [.fin]) {} = .ok s ∧ (s.opened.map Prod.fst).Nodup ∧ s.closed.Perm (s.opened.map Prod.fst) := by
  obtain ⟨s1, e1, g1, _⟩ := run_ok dir isa es {} good_start (by intro m hm; cases hm) hs
  refine ⟨_, run_append dir isa .fin es {} s1 _ e1 rfl, ?_, ?_⟩
  · show (s1.opened.map Prod.fst).Nodup
    rw [g1.ids]; exact List.nodup_range
  · show (s1.closed ++ _).Perm (s1.opened.map Prod.fst)
    rw [g1.ids]; exact g1.split

/-- one request: what is opened -/
theorem request_opened {dir isa : Str} {q : Request} {s s' : State} {b : Bool} (h : request dir isa q s = .ok (s', b)) :
    (s'.opened = s.opened ∧ (∀ m ∈ s.mods, m ∈ s'.mods)) ∨
    ∃ p fp, PathOf dir q.text fp ∧ (p = fp ∨ IsaOf isa fp p) ∧ locate fp s.mods = .ok false ∧ s'.opened = s.opened ++ [(s.next, p)] ∧
      s'.mods = s.mods ++ [⟨if q.oracle.strdup then some fp else none, some s.next⟩] := by
  unfold request at h
  split at h
  · cases h; exact Or.inl ⟨rfl, fun m hm => hm⟩
  · rcases load_cases h with h | ⟨hl, s0, s1, hd, e1, e2, _, e4, _, _, _, _, h1, h2⟩
    · rw [h]; exact Or.inl ⟨rfl, fun m hm => hm⟩
    · rcases h1 with ⟨rfl, rfl⟩ | ⟨p, hp, rfl, rfl⟩
      · left; rw [h2]; exact ⟨e2, fun m hm => by dsimp only; rw [e1]; simp [hm]⟩
      · right
        refine ⟨p, _, fullPath_of dir q.text, hp, hl, ?_, ?_⟩
        · rw [h2]; show s0.opened ++ [(s0.next, p)] = _; rw [e2, e4]
        · rw [h2]; show s0.mods ++ [_] = _; rw [e1, e4]

theorem requests_opened {dir isa : Str} : ∀ {qs : List Request} {s s' : State}, requests dir isa qs s = .ok s' →
    ∃ new, s'.opened = s.opened ++ new ∧ ∀ x ∈ new, ∃ q ∈ qs, ∃ fp, PathOf dir q.text fp ∧ (x.2 = fp ∨ IsaOf isa fp x.2)
  | [], s, s', h => by cases h; exact ⟨[], by simp, by simp⟩
  | q :: qs, s, s', h => by
    unfold requests at h
    split at h
    · cases h
    · next s1 b hq =>
      obtain ⟨new, h1, h2⟩ := requests_opened h
      rcases request_opened hq with ⟨h3, _⟩ | ⟨p, fp, h3, h4, _, h5, _⟩
      · exact ⟨new, by rw [h1, h3], fun x hx => by obtain ⟨q', hq', r⟩ := h2 x hx; exact ⟨q', by simp [hq'], r⟩⟩
      · refine ⟨(s.next, p) :: new, by rw [h1, h5]; simp, ?_⟩
        intro x hx
        rcases List.mem_cons.mp hx with e | hx
        · rw [e]; exact ⟨q, by simp, fp, h3, h4⟩
        · obtain ⟨q', hq', r⟩ := h2 x hx; exact ⟨q', by simp [hq'], r⟩

/-- C154: only the modules of the configuration are opened: an absolute path as it is written, any other in the directory of modules; with `$ISA` in the path also the
path where that is replaced. -/
theorem C154_paths (dir isa : Str) (s s' : State) (mem : Bool) (qs : List Request) (h : step dir isa s (.init mem qs) = .ok s') :
    ∃ new, s'.opened = s.opened ++ new ∧ ∀ x ∈ new, ∃ q ∈ qs, ∃ fp, PathOf dir q.text fp ∧ (x.2 = fp ∨ IsaOf isa fp x.2) := by
  unfold step at h
  dsimp only at h
  split at h
  · exact requests_opened (s := { freeModules s with table := true, allocated := CHUNK }) h
  · cases h; exact ⟨[], by simp [freeModules], by simp⟩

theorem requests_once {dir isa : Str} : ∀ {qs : List Request} {s s' : State}, Named s → (∀ q ∈ qs, q.oracle.strdup = true) →
    (∀ q ∈ qs, ∀ fp p, PathOf dir q.text fp → ¬ IsaOf isa fp p) → requests dir isa qs s = .ok s' →
    ∃ new, s'.opened = s.opened ++ new ∧ (new.map Prod.snd).Nodup ∧ ∀ x ∈ new, ∀ m ∈ s.mods, m.name ≠ some x.2
  | [], s, s', _, _, _, h => by cases h; exact ⟨[], by simp, by simp, by simp⟩
  | q :: qs, s, s', hn, hs, hi, h => by
    unfold requests at h
    split at h
    · cases h
    · next s1 b hq =>
      have hn1 : Named s1 := by
        have hq2 := hq
        unfold request at hq2
        split at hq2
        · cases hq2; exact hn
        · rcases load_cases hq2 with h | ⟨_, s0, s2, hd, e1, _, _, _, _, _, _, _, h1, h2⟩
          · rw [h]; exact hn
          · have hm : s2.mods = s.mods := by
              rcases h1 with ⟨rfl, _⟩ | ⟨p, _, rfl, _⟩ <;> exact e1
            rw [h2, hs q (by simp)]
            intro m hmm
            dsimp only at hmm
            rw [hm, List.mem_append] at hmm
            rcases hmm with hmm | hmm
            · exact hn m hmm
            · rw [List.mem_singleton] at hmm; rw [hmm]; simp
      obtain ⟨new, h1, h2, h3⟩ := requests_once hn1 (fun x hx => hs x (by simp [hx])) (fun x hx => hi x (by simp [hx])) h
      rcases request_opened hq with ⟨k1, k2⟩ | ⟨p, fp, k1, k2, k3, k4, k5⟩
      · exact ⟨new, by rw [h1, k1], h2, fun x hx m hm => h3 x hx m (k2 m hm)⟩
      · have hp : p = fp := by
          rcases k2 with k2 | k2
          · exact k2
          · exact absurd k2 (hi q (by simp) fp p k1)
        subst hp
        rw [locate_named p s.mods hn] at k3
        injection k3 with k3
        rw [decide_eq_false_iff_not] at k3
        refine ⟨(s.next, p) :: new, by rw [h1, k4]; simp, ?_, ?_⟩
        · rw [List.map_cons, List.nodup_cons]
          refine ⟨?_, h2⟩
          intro hc
          rw [List.mem_map] at hc
          obtain ⟨x, hx, e⟩ := hc
          refine h3 x hx ⟨some p, some s.next⟩ ?_ (by rw [e])
          rw [k5, hs q (by simp)]; simp
        · intro x hx m hm
          rcases List.mem_cons.mp hx with e | hx
          · rw [e]
            intro hc
            exact k3 ⟨m, hm, hc⟩
          · exact h3 x hx m (by rw [k5]; simp [hm])

/-- C154: a module is opened at most once for a configuration, however many lines name it. -/
theorem C154_once (dir isa : Str) (s s' : State) (mem : Bool) (qs : List Request) (hs : ∀ q ∈ qs, q.oracle.strdup = true)
    (hi : ∀ q ∈ qs, ∀ fp p, PathOf dir q.text fp → ¬ IsaOf isa fp p) (h : step dir isa s (.init mem qs) = .ok s') :
    ∃ new, s'.opened = s.opened ++ new ∧ (new.map Prod.snd).Nodup := by
  unfold step at h
  dsimp only at h
  split at h
  · obtain ⟨new, h1, h2, _⟩ := requests_once (s := { freeModules s with table := true, allocated := CHUNK }) (by intro m hm; simp [freeModules] at hm) hs hi h
    exact ⟨new, h1, h2⟩
  · cases h; exact ⟨[], by simp [freeModules], by simp⟩

/-! ### C155 -/

theorem requests_data {dir isa : Str} : ∀ {qs : List Request} {s s' : State}, requests dir isa qs s = .ok s' → s'.data = s.data ∧ s'.cleaned = s.cleaned
  | [], s, s', h => by cases h; exact ⟨rfl, rfl⟩
  | q :: qs, s, s', h => by
    unfold requests at h
    split at h
    · cases h
    · next s1 b hq =>
      have hd : s1.data = s.data ∧ s1.cleaned = s.cleaned := by
        unfold request at hq
        split at hq
        · cases hq; exact ⟨rfl, rfl⟩
        · rcases load_cases hq with h | ⟨_, s0, s2, hd, _, _, _, _, e5, e6, _, _, h1, h2⟩
          · rw [h]; exact ⟨rfl, rfl⟩
          · rw [h2]
            rcases h1 with ⟨rfl, _⟩ | ⟨p, _, rfl, _⟩ <;> exact ⟨e5, e6⟩
      obtain ⟨h1, h2⟩ := requests_data h
      exact ⟨h1.trans hd.1, h2.trans hd.2⟩

/-- C155, the part that holds: if the configuration is read once, cleanup functions of module data are called while their module is still loaded. -/
theorem C155_cleanup_partial (dir isa : Str) (mem : Bool) (qs : List Request) (ks : List Nat) (s : State)
    (h : run dir isa (.init mem qs :: ks.map Ev.store ++ [.fin]) {} = .ok s) : ∀ c ∈ s.cleaned, c.2 = true := by
  have key : ∀ (ks : List Nat) (t s : State), t.cleaned = [] → (∀ x ∈ t.data, loaded t x = true) → run dir isa (ks.map Ev.store ++ [.fin]) t = .ok s →
      ∀ c ∈ s.cleaned, c.2 = true := by
    intro ks
    induction ks with
    | nil =>
      intro t s hc hd h
      simp only [List.map_nil, List.nil_append, run, step] at h
      cases h
      intro c hc2
      simp only [freeModules, freeData, hc, List.nil_append, List.mem_map] at hc2
      obtain ⟨x, hx, e⟩ := hc2
      rw [← e]; exact hd x hx
    | cons k ks ih =>
      intro t s hc hd h
      rw [List.map_cons, List.cons_append] at h
      unfold run at h
      split at h
      · cases h
      · next t1 h1 =>
        unfold step at h1
        dsimp only at h1
        split at h1
        · next x hx =>
          cases h1
          refine ih { t with data := x :: t.data } s hc ?_ h
          intro y hy
          rcases List.mem_cons.mp hy with e | hy
          · rw [e]
            have := List.mem_of_getElem? hx
            rw [List.mem_filterMap] at this
            obtain ⟨m, hm, he⟩ := this
            unfold loaded
            rw [List.any_eq_true]
            exact ⟨m, hm, by simp [he]⟩
          · exact hd y hy
        · cases h1; exact ih t s hc hd h
  rw [List.cons_append] at h
  unfold run at h
  split at h
  · cases h
  · next t h1 =>
    unfold step at h1
    dsimp only at h1
    have hd : t.data = [] ∧ t.cleaned = [] := by
      split at h1
      · exact requests_data (s := { freeModules {} with table := true, allocated := CHUNK }) h1
      · cases h1; exact ⟨rfl, rfl⟩
    exact key ks t s hd.2 (by rw [hd.1]; simp) h

/-! ### examples, and where more does not hold -/

/-- everything works -/
def allOk : Oracle := ⟨true, fun _ => true, true, true⟩
/-- a request for a module -/
def req (m : String) (o : Oracle := allOk) : Request := ⟨m.toList, true, o⟩
def dir0 : Str := "/lib/security/".toList

example : (match run dir0 [] [.init true [req "pam_unix.so", req "/opt/a.so", req "pam_unix.so"]] {} with
    | .ok s => s.opened | .crash => []) = [(0, "/lib/security/pam_unix.so".toList), (1, "/opt/a.so".toList)] := by decide +kernel
example : NamesKept [.init true [req "pam_unix.so"], .store 0, .fin] := by
  intro m qs q h1 h2
  simp at h1
  rw [h1.2] at h2
  simp at h2
  rw [h2]; rfl

example : ∀ fp p, PathOf dir0 (req "pam_unix.so").text fp → ¬ IsaOf [] fp p := by
  rintro fp p hp ⟨a, b, e, _, _⟩
  have hm : '$' ∈ fp := by rw [e]; simp
  rcases hp with ⟨t, e1, _⟩ | ⟨_, e1⟩
  · exact absurd e1 (by simp [req])
  · rw [e1] at hm
    revert hm
    decide +kernel

/-- C154, the NULL name: if the name of a module of an included file cannot be copied for lack of memory, loading goes on after the include, and the next module is
compared with a NULL name. -/
theorem C154_null_counterexample :
    run dir0 [] [.init true [req "a.so" { allOk with strdup := false }, req "b.so"]] {} = .crash := by decide +kernel

/-- C155: if the application sets another service name, the modules are closed when the new configuration is read, but their data stay: the cleanup functions are
called by `pam_end` although the code is gone. -/
theorem C155_service_counterexample :
    ∃ s, run dir0 [] [.init true [req "a.so"], .store 0, .init true [req "b.so"], .fin] {} = .ok s ∧ s.cleaned = [(0, false)] ∧ s.closed = [0, 1] :=
  ⟨_, rfl, by decide +kernel, by decide +kernel⟩

end Pam.Modules
