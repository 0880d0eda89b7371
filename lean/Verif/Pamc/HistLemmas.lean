import Verif.Pamc.ConvLemmas
/-
Lemmas about histories of libpamc calls.
-/
namespace Pam.Pamc
open Pam.Util (Ev Res sysRead sysWrite storeAt)
open Spec

/-- what holds between calls -/
structure Inv (pch : Pch) (w : World) : Prop where
  started : ∀ a ∈ pch.chain, ∃ dir ∈ pch.paths, Event.exec (agentFile dir a.id) a.conn ∈ w.trace
  listed : ∀ path c, Event.exec path c ∈ w.trace →
    ∃ a ∈ pch.chain, a.conn = c ∧ ∃ dir ∈ pch.paths, path = agentFile dir a.id ∧ (47 : UInt8) ∉ a.id
  ids : pch.chain.Pairwise (fun a b => a.id ≠ b.id)
  conns : pch.chain.Pairwise (fun a b => a.conn ≠ b.conn)
  fresh : ∀ a ∈ pch.chain, a.conn < w.next
  cur : ∀ a, pch.current = some a → a ∈ pch.chain
  sents : ∀ c bs, Event.sent c bs ∈ w.trace → ∃ a ∈ pch.chain, a.conn = c
  open_ : ∀ c, Event.closed c ∉ w.trace ∧ Event.reaped c ∉ w.trace
  blocked : ∀ a ∈ pch.chain, a.id ∉ pch.blocked

theorem findAgent_some {env : Env} {id path : Bytes} {ps : List Bytes} (h : findAgent env id ps = some path) :
    ∃ dir ∈ ps, path = agentFile dir id ∧ env.stat path = true := by
  induction ps with
  | nil => cases h
  | cons p ps ih =>
    rw [findAgent] at h
    split at h
    · cases h
    · split at h
      · rename_i hs
        cases h
        refine ⟨p, by simp, ?_, hs⟩
        simp [agentFile, ascii, show Nat.toUInt8 47 = 47 from rfl]
      · obtain ⟨d, h1, h2⟩ := ih h
        exact ⟨d, List.mem_cons_of_mem _ h1, h2⟩

/-- a load either changes nothing or starts one new agent -/
theorem load_cases (pch : Pch) (id : Bytes) (env : Env) (w : World) :
    (load pch id env w = (0, pch, w)) ∨
    (load pch id env w = (1, pch, w) ∧ isDisabled pch id = false ∧ ∃ a ∈ pch.chain, a.id = id) ∨
    (∃ dir ∈ pch.paths, load pch id env w =
      (1, { pch with chain := ⟨id, w.next⟩ :: pch.chain }, ⟨w.next + 1, w.trace ++ [.exec (agentFile dir id) w.next]⟩) ∧
      (47 : UInt8) ∉ id ∧ isDisabled pch id = false ∧ isEnabled pch id = false) := by
  unfold load
  cases h1 : isDisabled pch id with
  | true => left; simp
  | false =>
    cases h2 : isEnabled pch id with
    | true =>
      right; left
      simp only [Bool.false_eq_true, if_false, if_true, true_and]
      unfold isEnabled at h2
      rw [List.any_eq_true] at h2
      obtain ⟨a, ha, hb⟩ := h2
      exact ⟨a, ha, by simpa using hb⟩
    | false =>
      simp only [Bool.false_eq_true, if_false]
      by_cases h3 : env.memAgent = true
      · by_cases h4 : env.memId = true
        · simp only [h3, h4, Bool.not_true, Bool.false_eq_true, if_false, execAgent]
          by_cases h5 : (47 : UInt8) ∈ id
          · simp only [h5, if_true]; left; trivial
          · simp only [h5, if_false]
            cases h6 : findAgent env id pch.paths with
            | none => left; rfl
            | some path =>
              obtain ⟨dir, hd, hpath, _⟩ := findAgent_some h6
              by_cases h7 : env.spawn = true
              · right; right
                refine ⟨dir, hd, ?_, not_false, trivial, trivial⟩
                simp [h7, hpath]
              · left; simp [h7]
        · left; simp [h3, h4]
      · left; simp [h3]

theorem load_paths (pch : Pch) (id : Bytes) (env : Env) (w : World) :
    (load pch id env w).2.1.paths = pch.paths ∧ (load pch id env w).2.1.blocked = pch.blocked ∧
    (load pch id env w).2.1.current = pch.current := by
  rcases load_cases pch id env w with h | ⟨h, _⟩ | ⟨d, _, h, _⟩ <;> rw [h] <;> exact ⟨rfl, rfl, rfl⟩

theorem load_inv {pch : Pch} {w : World} (hi : Inv pch w) (id : Bytes) (env : Env) :
    Inv (load pch id env w).2.1 (load pch id env w).2.2 := by
  rcases load_cases pch id env w with h | ⟨h, _⟩ | ⟨dir, hd, h, h47, hdis, hen⟩
  · rw [h]; exact hi
  · rw [h]; exact hi
  · rw [h]
    have hne : ∀ a ∈ pch.chain, a.id ≠ id := by
      intro a ha heq
      have : isEnabled pch id = true := by
        unfold isEnabled; rw [List.any_eq_true]; exact ⟨a, ha, by simpa using heq⟩
      rw [this] at hen; cases hen
    constructor
    · intro a ha
      simp only [List.mem_cons] at ha
      rcases ha with ha | ha
      · subst ha; exact ⟨dir, hd, by simp⟩
      · obtain ⟨d, h1, h2⟩ := hi.started a ha
        exact ⟨d, h1, by simp [h2]⟩
    · intro path c hc
      simp only [List.mem_append, List.mem_singleton] at hc
      rcases hc with hc | hc
      · obtain ⟨a, h1, h2⟩ := hi.listed path c hc
        exact ⟨a, by simp [h1], h2⟩
      · cases hc
        exact ⟨⟨id, w.next⟩, by simp, rfl, dir, hd, rfl, h47⟩
    · simp only [List.pairwise_cons]
      exact ⟨fun a ha => (hne a ha).symm, hi.ids⟩
    · simp only [List.pairwise_cons]
      exact ⟨fun a ha => by have := hi.fresh a ha; show w.next ≠ a.conn; omega, hi.conns⟩
    · intro a ha
      simp only [List.mem_cons] at ha
      rcases ha with ha | ha
      · subst ha; simp
      · have := hi.fresh a ha; show a.conn < w.next + 1; omega
    · intro a ha
      exact List.mem_cons_of_mem _ (hi.cur a ha)
    · intro c bs hc
      simp only [List.mem_append, List.mem_singleton, reduceCtorEq, or_false] at hc
      obtain ⟨a, h1, h2⟩ := hi.sents c bs hc
      exact ⟨a, List.mem_cons_of_mem _ h1, h2⟩
    · intro c
      simp only [List.mem_append, List.mem_singleton, reduceCtorEq, or_false]
      exact hi.open_ c
    · intro a ha
      simp only [List.mem_cons] at ha
      rcases ha with ha | ha
      · subst ha
        intro hb
        have : isDisabled pch id = true := by
          unfold isDisabled; rw [List.any_eq_true]; exact ⟨id, hb, by simp⟩
        rw [this] at hdis; cases hdis
      · exact hi.blocked a ha

theorem disable_cases (pch : Pch) (id : Bytes) (env : Env) :
    disable (some pch) (some id) env = (0, some pch) ∨
    (disable (some pch) (some id) env = (1, some pch) ∧ isEnabled pch id = false ∧ id ∈ pch.blocked) ∨
    (disable (some pch) (some id) env = (1, some { pch with blocked := id :: pch.blocked }) ∧ isEnabled pch id = false) := by
  unfold disable
  simp only
  cases h1 : isEnabled pch id with
  | true => left; simp
  | false =>
    cases h2 : isDisabled pch id with
    | true =>
      right; left
      simp only [Bool.false_eq_true, if_false, if_true, true_and]
      unfold isDisabled at h2
      rw [List.any_eq_true] at h2
      obtain ⟨b, hb, he⟩ := h2
      rw [beq_iff_eq] at he; subst he; exact hb
    | false =>
      cases env.memBlock with
      | false => left; simp
      | true => right; right; simp

theorem not_enabled {pch : Pch} {id : Bytes} (h : isEnabled pch id = false) : ∀ a ∈ pch.chain, a.id ≠ id := by
  intro a ha heq
  have : isEnabled pch id = true := by
    unfold isEnabled; rw [List.any_eq_true]; exact ⟨a, ha, by simpa using heq⟩
  rw [this] at h; cases h

/-- what `passOn` does to handle and world -/
theorem passOn_cases (p : Bytes) (size : Nat) (pch : Pch) (w : World) (env : Env) (r : Conv)
    (h : passOn p size pch w env = .ret r) :
    r.pch = some pch ∧ (r.world = w ∨ ∃ a bs, pch.current = some a ∧
      r.world = { w with trace := w.trace ++ [.sent a.conn bs] }) := by
  have hu : ∀ (q : Bytes) (w' : World) (u : Bytes) (r : Conv), convUnknown q pch w' env u = .ret r →
      r.pch = some pch ∧ r.world = w' := by
    intro q w' u r h
    unfold convUnknown at h
    split at h <;> cases h
    exact ⟨rfl, rfl⟩
  have hf : ∀ (q : Option (Option Bytes)) (w' : World) (u : Bytes) (r : Conv), convFailure q (some pch) w' u = .ret r →
      r.pch = some pch ∧ r.world = w' := by
    intro q w' u r h
    unfold convFailure at h
    split at h <;> cases h
    exact ⟨rfl, rfl⟩
  have hrr : ∀ (w' : World) (sched : List Ev) (r : Conv), readReply p pch w' env sched = .ret r →
      r.pch = some pch ∧ r.world = w' := by
    intro w' sched r h
    unfold readReply at h
    split at h
    · cases h
    · cases h
    · cases h
    · exact hu _ _ _ _ h
    · exact hf _ _ _ _ h
    · split at h
      · split at h
        · cases h
        · cases h
        · cases h
        · split at h <;> cases h
          exact ⟨rfl, rfl⟩
        · split at h
          · cases h
          · cases h
          · cases h
          · exact hu _ _ _ _ h
          · exact hf _ _ _ _ h
          · cases h; exact ⟨rfl, rfl⟩
      · cases h
  unfold passOn at h
  cases hc : pch.current with
  | none =>
    rw [hc] at h
    obtain ⟨h1, h2⟩ := hu _ _ _ _ h
    exact ⟨h1, Or.inl h2⟩
  | some a =>
    rw [hc] at h
    simp only at h
    split at h
    · cases h
    · cases h
    · cases h
    · obtain ⟨h1, h2⟩ := hu _ _ _ _ h
      exact ⟨h1, Or.inr ⟨a, _, rfl, h2⟩⟩
    · obtain ⟨h1, h2⟩ := hrr _ _ _ h
      exact ⟨h1, Or.inr ⟨a, _, rfl, h2⟩⟩

/-- what `converse` does to handle and world -/
theorem converse_cases (pch : Pch) (pp : Option (Option Bytes)) (env : Env) (w : World) (r : Conv)
    (h : converse (some pch) pp env w = .ret r) :
    (r.pch = some pch ∧ (r.world = w ∨ ∃ a bs, pch.current = some a ∧
      r.world = { w with trace := w.trace ++ [.sent a.conn bs] } ∧
      ∀ p, pp = some (some p) → bpControl p ≠ some bpcSelect)) ∨
    (∃ p size name id, pp = some (some p) ∧ bpSize p = some size ∧ bpControl p = some bpcSelect ∧
      selectName p size = some name ∧ id = name.takeWhile (fun c => c != 0) ∧
      ((r.pch = some (load pch id env w).2.1 ∧ r.world = (load pch id env w).2.2 ∧ (load pch id env w).1 ≠ 1) ∨
       ∃ a, (load pch id env w).2.1.chain.find? (fun a => a.id == id) = some a ∧ (load pch id env w).1 = 1 ∧
        r.pch = some { (load pch id env w).2.1 with current := some a } ∧
        (r.world = (load pch id env w).2.2 ∨ ∃ bs,
          r.world = { (load pch id env w).2.2 with trace := (load pch id env w).2.2.trace ++ [.sent a.conn bs] }))) := by
  have hu : ∀ (q : Bytes) (pch' : Pch) (w' : World) (u : Bytes) (r : Conv), convUnknown q pch' w' env u = .ret r →
      r.pch = some pch' ∧ r.world = w' := by
    intro q pch' w' u r h
    unfold convUnknown at h
    split at h <;> cases h
    exact ⟨rfl, rfl⟩
  have hf : ∀ (q : Option (Option Bytes)) (w' : World) (u : Bytes) (r : Conv), convFailure q (some pch) w' u = .ret r →
      r.pch = some pch ∧ r.world = w' := by
    intro q w' u r h
    unfold convFailure at h
    split at h <;> cases h
    exact ⟨rfl, rfl⟩
  match pp, h with
  | none, h => unfold converse at h; obtain ⟨h1, h2⟩ := hf _ _ _ _ h; exact Or.inl ⟨h1, Or.inl h2⟩
  | some none, h => unfold converse at h; obtain ⟨h1, h2⟩ := hf _ _ _ _ h; exact Or.inl ⟨h1, Or.inl h2⟩
  | some (some p), h =>
    unfold converse at h
    simp only at h
    cases hs : bpSize p with
    | none => rw [hs] at h; cases h
    | some size =>
      rw [hs] at h
      simp only at h
      split at h
      · obtain ⟨h1, h2⟩ := hu _ _ _ _ _ h; exact Or.inl ⟨h1, Or.inl h2⟩
      · cases hc : bpControl p with
        | none => rw [hc] at h; cases h
        | some control =>
          rw [hc] at h
          simp only at h
          split at h
          · obtain ⟨h1, h2⟩ := hu _ _ _ _ _ h; exact Or.inl ⟨h1, Or.inl h2⟩
          · split at h
            · rename_i hsel
              split at h
              · cases h
              · cases hn : selectName p size with
                | none =>
                  rw [hn] at h
                  obtain ⟨h1, h2⟩ := hu _ _ _ _ _ h; exact Or.inl ⟨h1, Or.inl h2⟩
                | some name =>
                  rw [hn] at h
                  simp only at h
                  right
                  refine ⟨p, size, name, _, rfl, hs, by rw [hc, hsel], hn, rfl, ?_⟩
                  split at h
                  · rename_i hl
                    obtain ⟨h1, h2⟩ := hu _ _ _ _ _ h
                    exact Or.inl ⟨h1, h2, hl⟩
                  · rename_i hl
                    have hl : (load pch (name.takeWhile (fun c => c != 0)) env w).1 = 1 := Decidable.of_not_not hl
                    right
                    have hex : ∃ a ∈ (load pch (name.takeWhile (fun c => c != 0)) env w).2.1.chain,
                        a.id = name.takeWhile (fun c => c != 0) := by
                      rcases load_cases pch (name.takeWhile (fun c => c != 0)) env w with h | ⟨h, _, h'⟩ | ⟨dir, _, h, _⟩
                      · rw [h] at hl; cases hl
                      · rw [h]; exact h'
                      · rw [h]; exact ⟨_, List.mem_cons_self, rfl⟩
                    unfold selectAgent at h
                    cases hfind : (load pch (name.takeWhile (fun c => c != 0)) env w).2.1.chain.find?
                        (fun a => a.id == name.takeWhile (fun c => c != 0)) with
                    | none =>
                      rw [List.find?_eq_none] at hfind
                      obtain ⟨a, ha, he⟩ := hex
                      exact absurd (by simpa using he) (hfind a ha)
                    | some a =>
                      rw [hfind] at h
                      simp only [if_true] at h
                      obtain ⟨h1, h2⟩ := passOn_cases _ _ _ _ _ _ h
                      refine ⟨a, rfl, hl, h1, ?_⟩
                      rcases h2 with h2 | ⟨a', bs, h2, h3⟩
                      · exact Or.inl h2
                      · simp only [Option.some.injEq] at h2
                        subst h2
                        exact Or.inr ⟨bs, h3⟩
            · rename_i hsel
              obtain ⟨h1, h2⟩ := passOn_cases _ _ _ _ _ _ h
              refine Or.inl ⟨h1, ?_⟩
              rcases h2 with h2 | ⟨a, bs, h2, h3⟩
              · exact Or.inl h2
              · refine Or.inr ⟨a, bs, h2, h3, fun q hq => ?_⟩
                cases hq
                rw [hc]
                intro h; cases h; exact hsel rfl

theorem inv_sent {pch : Pch} {w : World} (hi : Inv pch w) {a : Agent} (ha : a ∈ pch.chain) (bs : Bytes) :
    Inv pch { w with trace := w.trace ++ [.sent a.conn bs] } := by
  constructor
  · intro b hb
    obtain ⟨d, h1, h2⟩ := hi.started b hb
    exact ⟨d, h1, by simp [h2]⟩
  · intro path c hc
    simp only [List.mem_append, List.mem_singleton, reduceCtorEq, or_false] at hc
    exact hi.listed path c hc
  · exact hi.ids
  · exact hi.conns
  · exact hi.fresh
  · exact hi.cur
  · intro c bs' hc
    simp only [List.mem_append, List.mem_singleton] at hc
    rcases hc with hc | hc
    · exact hi.sents c bs' hc
    · cases hc; exact ⟨a, ha, rfl⟩
  · intro c
    simp only [List.mem_append, List.mem_singleton, reduceCtorEq, or_false]
    exact hi.open_ c
  · exact hi.blocked

theorem inv_current {pch : Pch} {w : World} (hi : Inv pch w) {a : Agent} (ha : a ∈ pch.chain) :
    Inv { pch with current := some a } w :=
  ⟨hi.started, hi.listed, hi.ids, hi.conns, hi.fresh, fun b hb => by cases hb; exact ha, hi.sents, hi.open_, hi.blocked⟩

theorem step_inv {pch : Pch} {w : World} (hi : Inv pch w) {op : Op} {env : Env} {v : Int} {pch' : Pch} {w' : World}
    (h : step pch w op env = some (v, pch', w')) :
    Inv pch' w' ∧ pch'.paths = pch.paths ∧ (∀ id ∈ pch.blocked, id ∈ pch'.blocked) := by
  cases op with
  | load id =>
    simp only [step, Option.some.injEq] at h
    have h1 := load_inv hi id env
    obtain ⟨h2, h3, _⟩ := load_paths pch id env w
    rw [h] at h1 h2 h3
    exact ⟨h1, h2, fun id h => by rw [h3]; exact h⟩
  | disable id =>
    rw [step] at h
    rcases disable_cases pch id env with hd | ⟨hd, _⟩ | ⟨hd, he⟩
    · rw [hd] at h; cases h; exact ⟨hi, rfl, fun _ h => h⟩
    · rw [hd] at h; cases h; exact ⟨hi, rfl, fun _ h => h⟩
    · rw [hd] at h; cases h
      refine ⟨⟨hi.started, hi.listed, hi.ids, hi.conns, hi.fresh, hi.cur, hi.sents, hi.open_, ?_⟩, rfl,
        fun _ h => List.mem_cons_of_mem _ h⟩
      intro a ha hb
      simp only [List.mem_cons] at hb
      rcases hb with hb | hb
      · exact not_enabled he a ha hb
      · exact hi.blocked a ha hb
  | converse pp =>
    rw [step] at h
    cases hc : converse (some pch) pp env w with
    | ub => rw [hc] at h; cases h
    | wait => rw [hc] at h; cases h
    | exit => rw [hc] at h; cases h
    | ret r =>
      rw [hc] at h
      simp only at h
      rcases converse_cases pch pp env w r hc with ⟨h1, h2⟩ | ⟨p, size, name, id, _, _, _, _, _, h2⟩
      · rw [h1] at h
        cases h
        refine ⟨?_, rfl, fun _ h => h⟩
        rcases h2 with h2 | ⟨a, bs, h2, h3, _⟩
        · rw [h2]; exact hi
        · rw [h3]; exact inv_sent hi (hi.cur a h2) bs
      · obtain ⟨l1, l2, l3⟩ := load_paths pch id env w
        have hl := load_inv hi id env
        rcases h2 with ⟨h2, h3, _⟩ | ⟨a, hf, _, h2, h3⟩
        · rw [h2] at h
          cases h
          rw [h3]
          exact ⟨hl, l1, fun _ h => by rw [l2]; exact h⟩
        · rw [h2] at h
          cases h
          have ha : a ∈ (load pch id env w).2.1.chain := List.mem_of_find?_eq_some hf
          have hi' := inv_current hl ha
          refine ⟨?_, l1, fun _ h => by show _ ∈ (load pch id env w).2.1.blocked; rw [l2]; exact h⟩
          rcases h3 with h3 | ⟨bs, h3⟩
          · rw [h3]; exact hi'
          · rw [h3]
            exact inv_sent hi' (a := a) ha bs

theorem run_inv {pch : Pch} {w : World} (hi : Inv pch w) {h : List (Op × Env × Int)} {pch' : Pch} {w' : World}
    (hr : Run pch w h pch' w') : Inv pch' w' ∧ pch'.paths = pch.paths ∧ (∀ id ∈ pch.blocked, id ∈ pch'.blocked) := by
  induction hr with
  | nil => exact ⟨hi, rfl, fun _ h => h⟩
  | snoc _ hs ih =>
    obtain ⟨h1, h2, h3⟩ := step_inv ih.1 hs
    exact ⟨h1, h2.trans ih.2.1, fun id hid => h3 id (ih.2.2 id hid)⟩

theorem start_inv (path : Bytes) (n : Nat) : Inv (start path) ⟨n, []⟩ := by
  constructor <;> simp [start]

theorem agentFile_inj {d d' a b : Bytes} (ha : (47 : UInt8) ∉ a) (hb : (47 : UInt8) ∉ b)
    (h : agentFile d a = agentFile d' b) : d = d' ∧ a = b := by
  unfold agentFile at h
  induction d generalizing d' with
  | nil =>
    cases d' with
    | nil => simp at h; exact ⟨rfl, h⟩
    | cons x xs =>
      simp only [List.nil_append, List.cons_append, List.cons.injEq] at h
      exact absurd (by rw [h.2]; simp) ha
  | cons y ys ih =>
    cases d' with
    | nil =>
      simp only [List.nil_append, List.cons_append, List.cons.injEq] at h
      exact absurd (by rw [← h.2]; simp) hb
    | cons x xs =>
      simp only [List.cons_append, List.cons.injEq] at h
      obtain ⟨h1, h2⟩ := ih h.2
      exact ⟨by rw [h.1, h1], h2⟩

end Pam.Pamc
