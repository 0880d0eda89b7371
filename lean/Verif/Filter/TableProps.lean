import Verif.Filter.Table
/-
C196: the descriptors of the processes of pam_filter.
-/
namespace Pam.Filter.Table
open Pam Pam.Misc Pam.Helper

theorem call_fds (p : Proc) (fd : Option Nat) : (call p fd).2.fds = p.fds := by
  unfold call
  cases fd <;> exact next_fds p

theorem call_open {p : Proc} {fd : Nat} (h : (call p (some fd)).1 = false) : (p.fds.get fd).isSome = true := by
  unfold call at h
  have h : (p.next.1 || (p.next.2.fds.get fd).isNone) = false := h
  rw [next_fds, Bool.or_eq_false_iff] at h
  cases hg : p.fds.get fd with
  | none => rw [hg] at h; exact absurd h.2 (by simp)
  | some _ => rfl

theorem calls_fds : ∀ (l : List (Option Nat)) (p : Proc), (calls l p).2.fds = p.fds
  | [], p => rfl
  | fd :: r, p => by
    have h := call_fds p fd
    rw [calls]
    generalize call p fd = q at h ⊢
    obtain ⟨b, q⟩ := q
    cases b with
    | true => exact h
    | false => exact (calls_fds r q).trans h

theorem calls_open : ∀ (l : List (Option Nat)) (p : Proc), (calls l p).1 = false → ∀ fd, some fd ∈ l → (p.fds.get fd).isSome = true
  | [], p, _, fd, hm => absurd hm (by simp)
  | x :: r, p, h, fd, hm => by
    have h1 := call_fds p x
    have h2 : ∀ fd, x = some fd → (call p x).1 = false → (p.fds.get fd).isSome = true := by
      intro fd hx hc; rw [hx] at hc; exact call_open hc
    rw [calls] at h
    generalize call p x = q at h h1 h2
    obtain ⟨b, q⟩ := q
    cases b with
    | true => cases h
    | false =>
      rcases List.mem_cons.mp hm with hx | hx
      · exact h2 fd hx.symm rfl
      · have := calls_open r q h fd hx
        have h1 : q.fds = p.fds := h1
        rwa [h1] at this

theorem dup2_none {p p' : Proc} {a b : Nat} (h : p.dup2 a b = (none, p')) : p'.fds = p.fds := by
  unfold Proc.dup2 at h
  have hn := next_fds p
  generalize p.next = q at h hn
  obtain ⟨bad, q⟩ := q
  simp only at h hn
  split at h
  · cases h; exact hn
  · split at h
    · cases h; exact hn
    · cases h

/-- Copying a descriptor to others leaves the rest as it was; if it succeeds they are all copies. -/
theorem dups_get {f : File} {fd : Nat} : ∀ (l : List Nat) (p : Proc), p.fds.get fd = some f →
    (∀ j, j ∉ l → (dups fd l p).2.fds.get j = p.fds.get j) ∧ (dups fd l p).2.fds.get fd = some f ∧
      ((dups fd l p).1 = false → ∀ j, j ∈ l → (dups fd l p).2.fds.get j = some f)
  | [], p, h => ⟨fun _ _ => rfl, h, fun _ j hj => absurd hj (by simp)⟩
  | n :: r, p, h => by
    rw [dups]
    generalize hd : p.dup2 fd n = q
    obtain ⟨o, q⟩ := q
    cases o with
    | none =>
      have := dup2_none hd
      exact ⟨fun j _ => by show q.fds.get j = _; rw [this], by show q.fds.get fd = _; rw [this]; exact h, by intro hh; cases hh⟩
    | some u =>
      obtain ⟨g, hg, hall⟩ := dup2_ok hd
      rw [h] at hg
      obtain rfl := Option.some.inj hg
      have hq : q.fds.get fd = some f := by rw [hall]; split <;> first | rfl | exact h
      obtain ⟨i1, i2, i3⟩ := dups_get r q hq
      refine ⟨fun j hj => ?_, i2, fun hs j hj => ?_⟩
      · show (dups fd r q).2.fds.get j = _
        rw [i1 j (fun hh => hj (List.mem_cons_of_mem _ hh)), hall, if_neg (fun hh => hj (by rw [hh]; exact List.mem_cons_self))]
      · by_cases hr : j ∈ r
        · exact i3 hs j hr
        · show (dups fd r q).2.fds.get j = _
          rw [i1 j hr, hall]
          rcases List.mem_cons.mp hj with rfl | hh
          · rw [if_pos rfl]
          · exact absurd hh hr

/-- the line is open: `fd0` is the filter's end, `fd1`, if there is one, the application's; both were free -/
structure Line (t t' : Table) (fd0 : Nat) (fd1 : Option Nat) : Prop where
  free0 : t.get fd0 = none
  free1 : ∀ n, fd1 = some n → t.get n = none ∧ n ≠ fd0 ∧ t'.get n = some appEnd
  is0 : t'.get fd0 = some filterEnd
  rest : ∀ j, j ≠ fd0 → fd1 ≠ some j → t'.get j = t.get j

theorem openLine_ok {tty : Bool} {p p' : Proc} {x : Nat × Option Nat} (h : openLine tty p = (some x, p')) : Line p.fds p'.fds x.1 x.2 := by
  unfold openLine at h
  cases tty with
  | true =>
    simp only [if_true] at h
    have hn := next_fds p
    generalize p.next = q at h hn
    obtain ⟨bad, q⟩ := q
    simp only at h hn
    split at h
    · cases h
    · have hc := calls_fds [some 0, some 0] (q.alloc filterEnd).2
      have ha := alloc_get q filterEnd
      generalize calls [some 0, some 0] (q.alloc filterEnd).2 = r at h hc
      obtain ⟨b, r⟩ := r
      cases b with
      | true => cases h
      | false =>
        cases h
        have hc : p'.fds = _ := hc
        have h1 : (q.alloc filterEnd).1 = q.fds.free := rfl
        refine ⟨?_, ?_, ?_, ?_⟩
        · rw [h1, ← hn]; exact free_none q.fds
        · intro n hh; cases hh
        · rw [hc, ha, h1, if_pos rfl]
        · intro j hj _
          rw [hc, ha, if_neg (by rw [h1] at hj; exact hj), hn]
  | false =>
    simp only [Bool.false_eq_true, if_false] at h
    generalize hp : pipe filterEnd appEnd p = q at h
    obtain ⟨o, q⟩ := q
    cases o with
    | none => cases h
    | some ab =>
      cases h
      have hP := pipe_ok hp
      have hlt := hP.lt
      refine ⟨hP.r0, ?_, ?_, ?_⟩
      · intro n hh
        cases hh
        exact ⟨hP.w0, by simp only; omega, by rw [hP.all, if_pos rfl]⟩
      · simp only
        rw [hP.all, if_neg (by omega), if_pos rfl]
      · intro j h0 h1
        simp only at h0 h1
        rw [hP.all, if_neg (fun e => h1 (by rw [e])), if_neg h0]

theorem openLine_none {tty : Bool} {p p' : Proc} (h : openLine tty p = (none, p')) : ∀ j, p'.fds.get j = p.fds.get j := by
  unfold openLine at h
  cases tty with
  | true =>
    simp only [if_true] at h
    have hn := next_fds p
    generalize p.next = q at h hn
    obtain ⟨bad, q⟩ := q
    simp only at h hn
    split at h
    · cases h; intro j; rw [hn]
    · have hc := calls_fds [some 0, some 0] (q.alloc filterEnd).2
      have ha := alloc_get q filterEnd
      generalize calls [some 0, some 0] (q.alloc filterEnd).2 = r at h hc
      obtain ⟨b, r⟩ := r
      cases b with
      | false => cases h
      | true =>
        cases h
        intro j
        have hc : r.fds = _ := hc
        have h1 : (q.alloc filterEnd).1 = q.fds.free := rfl
        rw [close_get, hc, ha, h1]
        have := free_none q.fds
        by_cases hj : j = q.fds.free
        · rw [if_pos hj, hj, ← hn, this]
        · rw [if_neg hj, if_neg hj, hn]
  | false =>
    simp only [Bool.false_eq_true, if_false] at h
    generalize hp : pipe filterEnd appEnd p = q at h
    obtain ⟨o, q⟩ := q
    cases o with
    | none => cases h; intro j; rw [pipe_none hp]
    | some ab => cases h

theorem leaveTty_get (p : Proc) (j : Nat) : (leaveTty p).fds.get j = p.fds.get j := by
  unfold leaveTty
  have hn := next_fds p
  generalize p.next = q at hn
  obtain ⟨bad, q⟩ := q
  simp only at hn ⊢
  split
  · rw [hn]
  · have h1 : (q.alloc (.inherited 0)).1 = q.fds.free := rfl
    rw [close_get, alloc_get, h1, ← hn]
    by_cases hj : j = q.fds.free
    · rw [if_pos hj, hj, free_none]
    · rw [if_neg hj, if_neg hj]

/-- The application's end, when it is the only one that is left. -/
theorem ownEnd_get {t : Table} {fd0 : Nat} {fd1 : Option Nat} {p p' : Proc} {o : Option Nat} (hL : Line t p.fds fd0 fd1) (h : ownEnd fd0 fd1 p = (o, p')) :
    match o with
    | none => ∀ j, p'.fds.get j = t.get j
    | some n => t.get n = none ∧ p'.fds.get n = some appEnd ∧ ∀ j, j ≠ n → p'.fds.get j = t.get j := by
  unfold ownEnd at h
  cases fd1 with
  | some n =>
    cases h
    obtain ⟨h1, h2, h3⟩ := hL.free1 n rfl
    refine ⟨h1, by rw [close_get, if_neg h2]; exact h3, fun j hj => ?_⟩
    rw [close_get]
    by_cases h0 : j = fd0
    · rw [if_pos h0, h0, hL.free0]
    · rw [if_neg h0]; exact hL.rest j h0 (fun e => hj (Option.some.inj e).symm)
  | none =>
    simp only at h
    have hcl : ∀ q : Proc, q.fds = (leaveTty p).fds → ∀ j, (q.close fd0).fds.get j = t.get j := by
      intro q hq j
      rw [close_get, hq, leaveTty_get]
      by_cases h0 : j = fd0
      · rw [if_pos h0, h0, hL.free0]
      · rw [if_neg h0]; exact hL.rest j h0 (by intro e; cases e)
    have hc := calls_fds [none, some fd0, some fd0, some fd0] (leaveTty p)
    generalize calls [none, some fd0, some fd0, some fd0] (leaveTty p) = r at h hc
    obtain ⟨b, r⟩ := r
    cases b with
    | true => cases h; exact hcl r hc
    | false =>
      have hn := next_fds r
      simp only at h hc hn
      generalize r.next = q at h hn
      obtain ⟨bad, q⟩ := q
      simp only at h hn
      have hq : q.fds = (leaveTty p).fds := hn.trans hc
      split at h
      · cases h; exact hcl q hq
      · have hfree := free_none q.fds
        have h1 : (q.alloc appEnd).1 = q.fds.free := rfl
        rw [h1] at h
        have hne : q.fds.free ≠ fd0 := by
          intro e
          rw [e, hq, leaveTty_get, hL.is0] at hfree
          cases hfree
        have hf0 : t.get q.fds.free = none := by
          rw [← hcl q hq, close_get, if_neg hne]; exact hfree
        have hall : ∀ j, ((q.alloc appEnd).2.close fd0).fds.get j = if j = q.fds.free then some appEnd else t.get j := by
          intro j
          rw [close_get, alloc_get, ← hcl q hq j, close_get]
          by_cases h0 : j = fd0
          · rw [if_pos h0, if_pos h0, if_neg (by rw [h0]; exact fun e => hne e.symm)]
          · rw [if_neg h0, if_neg h0]
        have hc2 := calls_fds [some q.fds.free] ((q.alloc appEnd).2.close fd0)
        generalize calls [some q.fds.free] ((q.alloc appEnd).2.close fd0) = u at h hc2
        obtain ⟨b, u⟩ := u
        have hc2 : u.fds = _ := hc2
        cases b with
        | true =>
          cases h
          intro j
          rw [close_get, hc2, hall]
          by_cases hj : j = q.fds.free
          · rw [if_pos hj, hj, hf0]
          · rw [if_neg hj, if_neg hj]
        | false =>
          cases h
          refine ⟨hf0, by rw [hc2, hall, if_pos rfl], fun j hj => by rw [hc2, hall, if_neg hj]⟩

theorem dups_or {f : File} {fd : Nat} : ∀ (l : List Nat) (p : Proc), p.fds.get fd = some f →
    ∀ j, (dups fd l p).2.fds.get j = p.fds.get j ∨ (dups fd l p).2.fds.get j = some f
  | [], p, _, j => Or.inl rfl
  | n :: r, p, h, j => by
    rw [dups]
    generalize hd : p.dup2 fd n = q
    obtain ⟨o, q⟩ := q
    cases o with
    | none => left; show q.fds.get j = _; rw [dup2_none hd]
    | some u =>
      obtain ⟨g, hg, hall⟩ := dup2_ok hd
      rw [h] at hg
      obtain rfl := Option.some.inj hg
      have hq : q.fds.get fd = some f := by rw [hall]; split <;> first | rfl | exact h
      show (dups fd r q).2.fds.get j = _ ∨ (dups fd r q).2.fds.get j = _
      rcases dups_or r q hq j with hj | hj
      · rw [hj, hall]
        split
        · exact Or.inr rfl
        · exact Or.inl rfl
      · exact Or.inr hj

/-- The application's table. -/
theorem appSide_get {t : Table} {fd0 : Nat} {fd1 : Option Nat} {p p' : Proc} {code : Int} (hL : Line t p.fds fd0 fd1) (h : appSide fd0 fd1 p = (code, p')) :
    (∀ j, 3 ≤ j → p'.fds.get j = t.get j) ∧ (∀ j, p'.fds.get j = t.get j ∨ p'.fds.get j = some appEnd ∨ p'.fds.get j = none) ∧
      (code = PAM_SUCCESS → ∀ j, j < 3 → p'.fds.get j = some appEnd) := by
  unfold appSide at h
  generalize ho : ownEnd fd0 fd1 p = r at h
  obtain ⟨o, q⟩ := r
  have hg := ownEnd_get hL ho
  cases o with
  | none =>
    cases h
    exact ⟨fun j _ => hg j, fun j => Or.inl (hg j), fun e => absurd e (by decide)⟩
  | some n =>
    obtain ⟨h0, h1, h2⟩ := hg
    obtain ⟨d1, d2, d3⟩ := dups_get [0, 1, 2] q h1
    have hdup : ∀ (r : Proc), (∀ j, j ∉ [0, 1, 2] → r.fds.get j = q.fds.get j) → r.fds.get n = some appEnd →
        ∀ j, 3 ≤ j → (r.close n).fds.get j = t.get j := by
      intro r hr _ j hj
      rw [close_get]
      by_cases e : j = n
      · rw [if_pos e, e, h0]
      · rw [if_neg e, hr j (by simp only [List.mem_cons, List.not_mem_nil, or_false]; omega), h2 j e]
    have dany : ∀ j, (dups n [0, 1, 2] q).2.fds.get j = q.fds.get j ∨ (dups n [0, 1, 2] q).2.fds.get j = some appEnd := by
      intro j
      exact dups_or [0, 1, 2] q h1 j
    have hall : ∀ j, ((dups n [0, 1, 2] q).2.close n).fds.get j = t.get j ∨ ((dups n [0, 1, 2] q).2.close n).fds.get j = some appEnd ∨
        ((dups n [0, 1, 2] q).2.close n).fds.get j = none := by
      intro j
      rw [close_get]
      by_cases e : j = n
      · rw [if_pos e]; exact Or.inr (Or.inr rfl)
      · rw [if_neg e]
        rcases dany j with hd | hd
        · rw [hd, h2 j e]; exact Or.inl rfl
        · exact Or.inr (Or.inl hd)
    have hbig := hdup _ d1 d2
    simp only at h
    generalize dups n [0, 1, 2] q = r at h d1 d2 d3 hall hbig
    obtain ⟨b, r⟩ := r
    cases b with
    | true =>
      cases h
      exact ⟨hbig, hall, fun e => absurd e (by decide)⟩
    | false =>
      have hc := calls_fds [some 0, some 1, some 2] (r.close n)
      have hop := calls_open [some 0, some 1, some 2] (r.close n)
      simp only at h
      generalize calls [some 0, some 1, some 2] (r.close n) = u at h hc hop
      obtain ⟨b, u⟩ := u
      have hc : u.fds = _ := hc
      cases b with
      | true =>
        cases h
        exact ⟨fun j hj => by rw [hc]; exact hbig j hj, fun j => by rw [hc]; exact hall j, fun e => absurd e (by decide)⟩
      | false =>
        cases h
        refine ⟨fun j hj => by rw [hc]; exact hbig j hj, fun j => by rw [hc]; exact hall j, fun _ j hj => ?_⟩
        rw [hc]
        have hs := hop rfl j (by
          have : j = 0 ∨ j = 1 ∨ j = 2 := by omega
          rcases this with rfl | rfl | rfl <;> simp)
        rw [close_get] at hs ⊢
        by_cases e : j = n
        · rw [if_pos e] at hs; cases hs
        · rw [if_neg e]
          exact d3 rfl j (by simp only [List.mem_cons, List.not_mem_nil, or_false]; omega)

/-- The filter's table. -/
theorem filterSide_get {fd0 : Nat} {p p' : Proc} (h0 : p.fds.get fd0 = some filterEnd) (h : filterSide fd0 p = some p') :
    ∀ j, p'.fds.get j = if 3 ≤ j ∧ j ≤ 5 then some filterEnd else p.fds.get j := by
  unfold filterSide at h
  obtain ⟨d1, d2, d3⟩ := dups_get [3, 4, 5] p h0
  generalize dups fd0 [3, 4, 5] p = r at h d1 d2 d3
  obtain ⟨b, r⟩ := r
  cases b with
  | true => cases h
  | false =>
    have hc := calls_fds [some 3, some 4, some 5] r
    simp only at h
    generalize calls [some 3, some 4, some 5] r = u at h hc
    obtain ⟨b, u⟩ := u
    have hc : u.fds = _ := hc
    cases b with
    | true => cases h
    | false =>
      cases h
      intro j
      rw [hc]
      by_cases hj : 3 ≤ j ∧ j ≤ 5
      · rw [if_pos hj]; exact d3 rfl j (by simp only [List.mem_cons, List.not_mem_nil, or_false]; omega)
      · rw [if_neg hj]; exact d1 j (by simp only [List.mem_cons, List.not_mem_nil, or_false]; omega)

/-- what there is after the second process has closed the application's end -/
theorem before_get {t : Table} {fd0 : Nat} {fd1 : Option Nat} {p : Proc} (hL : Line t p.fds fd0 fd1) (j : Nat) :
    (beforeFork fd1 p).fds.get j = if j = fd0 then some filterEnd else t.get j := by
  unfold beforeFork
  cases fd1 with
  | none =>
    simp only
    by_cases h : j = fd0
    · rw [if_pos h, h, hL.is0]
    · rw [if_neg h]; exact hL.rest j h (by intro e; cases e)
  | some n =>
    obtain ⟨h1, h2, _⟩ := hL.free1 n rfl
    simp only
    rw [close_get]
    by_cases hn : j = n
    · rw [if_pos hn, if_neg (by rw [hn]; exact h2), hn, h1]
    · rw [if_neg hn]
      by_cases h : j = fd0
      · rw [if_pos h, h, hL.is0]
      · rw [if_neg h]; exact hL.rest j h (fun e => hn (Option.some.inj e).symm)

theorem line_next {t : Table} {fd0 : Nat} {fd1 : Option Nat} {p : Proc} (l : List Bool) (hL : Line t p.fds fd0 fd1) :
    Line t ({ p with faults := l } : Proc).fds fd0 fd1 ∧ Line t p.next.2.fds fd0 fd1 := ⟨hL, by rw [next_fds]; exact hL⟩

theorem running_line {tty : Bool} {cf cf2 : List Bool} {p app waits ends : Proc} {code : Int} {filter : Option Proc}
    (h : setFilter tty cf cf2 p = .running code app filter waits ends) :
    ∃ fd0 fd1 q, Line p.fds q.fds fd0 fd1 ∧ appSide fd0 fd1 { q with faults := cf } = (code, app) ∧ waits.fds = (beforeFork fd1 q).fds ∧
      ends.fds = (waits.close fd0).fds ∧ ∀ f, filter = some f → filterSide fd0 { waits with faults := cf2 } = some f := by
  unfold setFilter at h
  generalize hl : openLine tty p = r at h
  obtain ⟨o, q⟩ := r
  cases o with
  | none => cases h
  | some x =>
    obtain ⟨fd0, fd1⟩ := x
    have hL : Line p.fds q.fds fd0 fd1 := openLine_ok hl
    have hn := next_fds q
    simp only at h
    generalize q.next = q2 at h hn
    obtain ⟨bad, q2⟩ := q2
    simp only at h hn
    split at h
    · cases h
    · refine ⟨fd0, fd1, q2, by rw [hn]; exact hL, ?_⟩
      generalize appSide fd0 fd1 { q2 with faults := cf } = a at h
      obtain ⟨c, a⟩ := a
      have hn2 := next_fds (beforeFork fd1 q2)
      simp only at h
      generalize (beforeFork fd1 q2).next = q3 at h hn2
      obtain ⟨bad2, q3⟩ := q3
      cases h
      refine ⟨rfl, hn2, rfl, ?_⟩
      intro f hf
      split at hf
      · cases hf
      · exact hf

/-- C196.  Where the module returns PAM_SUCCESS, descriptors 0, 1 and 2 of the application lead to the filter, and all its other descriptors are what they were: none of the module's own
    is left. -/
theorem C196_app (tty : Bool) (cf cf2 : List Bool) (p app waits ends : Proc) (filter : Option Proc)
    (h : setFilter tty cf cf2 p = .running PAM_SUCCESS app filter waits ends) :
    ∀ j, app.fds.get j = if j < 3 then some appEnd else p.fds.get j := by
  obtain ⟨fd0, fd1, q, hL, ha, _⟩ := running_line h
  obtain ⟨h1, _, h3⟩ := appSide_get (p := { q with faults := cf }) hL ha
  intro j
  by_cases hj : j < 3
  · rw [if_pos hj]; exact h3 rfl j hj
  · rw [if_neg hj]; exact h1 j (by omega)

/-- C196.  When the filter's program starts, the application is at its descriptors 3, 4 and 5, and the user where the application's input and output were; of the rest it has what the
    application had, and at most one more descriptor of the same line. -/
theorem C196_filter (tty : Bool) (cf cf2 : List Bool) (p app waits ends f : Proc) (code : Int)
    (h : setFilter tty cf cf2 p = .running code app (some f) waits ends) :
    (∀ j, 3 ≤ j → j ≤ 5 → f.fds.get j = some filterEnd) ∧
    ∃ n, p.fds.get n = none ∧ ∀ j, ¬(3 ≤ j ∧ j ≤ 5) → f.fds.get j = if j = n then some filterEnd else p.fds.get j := by
  obtain ⟨fd0, fd1, q, hL, _, hw, _, hf⟩ := running_line h
  have hb := before_get hL
  have h0 : ({ waits with faults := cf2 } : Proc).fds.get fd0 = some filterEnd := by
    show waits.fds.get fd0 = _
    rw [hw, hb, if_pos rfl]
  have hg := filterSide_get h0 (hf f rfl)
  refine ⟨fun j h1 h2 => by rw [hg, if_pos ⟨h1, h2⟩], fd0, hL.free0, fun j hj => ?_⟩
  rw [hg, if_neg hj]
  show waits.fds.get j = _
  rw [hw, hb]

/-- C196.  No process keeps the end of another: neither the filter nor the process that waits can hold the application's end, which would keep the filter from seeing that the application
    has closed it, and the application does not hold the filter's end. -/
theorem C196_ends (tty : Bool) (cf cf2 : List Bool) (p app waits ends : Proc) (code : Int) (filter : Option Proc)
    (h : setFilter tty cf cf2 p = .running code app filter waits ends) (hp : ∀ j, p.fds.get j ≠ some appEnd ∧ p.fds.get j ≠ some filterEnd) :
    (∀ j, app.fds.get j ≠ some filterEnd) ∧ (∀ j, waits.fds.get j ≠ some appEnd) ∧ ∀ f, filter = some f → ∀ j, f.fds.get j ≠ some appEnd := by
  obtain ⟨fd0, fd1, q, hL, ha, hw, _, hf⟩ := running_line h
  have hb := before_get hL
  have hwj : ∀ j, waits.fds.get j ≠ some appEnd := by
    intro j
    rw [hw, hb]
    split
    · decide
    · exact (hp j).1
  refine ⟨fun j => ?_, hwj, fun f hff j => ?_⟩
  · obtain ⟨_, h2, _⟩ := appSide_get (p := { q with faults := cf }) hL ha
    rcases h2 j with e | e | e
    · rw [e]; exact (hp j).2
    · rw [e]; decide
    · rw [e]; decide
  · have h0 : ({ waits with faults := cf2 } : Proc).fds.get fd0 = some filterEnd := by
      show waits.fds.get fd0 = _
      rw [hw, hb, if_pos rfl]
    rw [filterSide_get h0 (hf f hff)]
    split
    · decide
    · exact hwj j

/-- C196.  A process in which the module gives up without a child, and the process that waits when it ends, have the descriptors that the application had; and an application to which the
    module returns an error has them from 3 on. -/
theorem C196_left (tty : Bool) (cf cf2 : List Bool) (p : Proc) :
    match setFilter tty cf cf2 p with
    | .failed q => ∀ j, q.fds.get j = p.fds.get j
    | .running _ app _ _ ends => (∀ j, ends.fds.get j = p.fds.get j) ∧ ∀ j, 3 ≤ j → app.fds.get j = p.fds.get j := by
  generalize hr : setFilter tty cf cf2 p = r
  cases r with
  | running code app filter waits ends =>
    obtain ⟨fd0, fd1, q, hL, ha, hw, he, _⟩ := running_line hr
    refine ⟨fun j => ?_, (appSide_get (p := { q with faults := cf }) hL ha).1⟩
    rw [he, close_get, hw, before_get hL]
    by_cases h : j = fd0
    · rw [if_pos h, h, hL.free0]
    · rw [if_neg h, if_neg h]
  | failed q =>
    unfold setFilter at hr
    generalize hl : openLine tty p = r at hr
    obtain ⟨o, q1⟩ := r
    cases o with
    | none =>
      cases hr
      exact openLine_none hl
    | some x =>
      obtain ⟨fd0, fd1⟩ := x
      have hL : Line p.fds q1.fds fd0 fd1 := openLine_ok hl
      have hn := next_fds q1
      simp only at hr
      generalize q1.next = q2 at hr hn
      obtain ⟨bad, q2⟩ := q2
      simp only at hr hn
      split at hr
      · cases hr
        intro j
        unfold beforeFork
        cases fd1 with
        | none =>
          simp only
          rw [close_get, hn]
          by_cases h : j = fd0
          · rw [if_pos h, h, hL.free0]
          · rw [if_neg h]; exact hL.rest j h (by intro e; cases e)
        | some n =>
          simp only
          rw [close_get, close_get, hn]
          by_cases h : j = n
          · rw [if_pos h, h, (hL.free1 n rfl).1]
          · rw [if_neg h]
            by_cases h : j = fd0
            · rw [if_pos h, h, hL.free0]
            · rw [if_neg h]; exact hL.rest j h (fun e => by cases e; contradiction)
      · cases hr

/-- an application at a terminal with a descriptor of its own, 7 -/
def exProc : Proc := ⟨[some (.inherited 0), some (.inherited 0), some (.inherited 0), none, none, none, none, some (.inherited 7)], []⟩

/-- what the three processes have -/
def exTables (tty : Bool) (p : Proc) : Option (Int × Table × Option Table × Table) :=
  match setFilter tty [] [] p with
  | .running c a f _ e => some (c, a.fds, f.map (·.fds), e.fds)
  | _ => none

/-- C196: that the filter gets nothing but the line and the user is false: it has every descriptor that the application has open, here 7. -/
theorem C196_inherited_counterexample : ∃ a f w e, setFilter true [] [] exProc = .running PAM_SUCCESS a (some f) w e ∧ f.fds.get 7 = some (.inherited 7) := by
  refine ⟨_, _, _, _, rfl, ?_⟩
  decide +kernel

/-- C196: that an application to which an error is returned has its input and output is false: here the second `dup2` fails. -/
theorem C196_error_counterexample : ∃ a f w e, setFilter false [false, true] [] exProc = .running PAM_ABORT a f w e ∧ a.fds.get 0 ≠ exProc.fds.get 0 := by
  refine ⟨_, _, _, _, rfl, ?_⟩
  decide +kernel

/-! The hypotheses are met. -/

example : (exTables true exProc).map (·.1) = some PAM_SUCCESS ∧
    (exTables true exProc).map (·.2.1) = some [some appEnd, some appEnd, some appEnd, none, none, none, none, some (.inherited 7)] ∧
    (exTables true exProc).bind (·.2.2.1) =
      some [some (.inherited 0), some (.inherited 0), some (.inherited 0), some filterEnd, some filterEnd, some filterEnd, none, some (.inherited 7)] ∧
    (exTables true exProc).map (·.2.2.2) = some exProc.fds := by decide +kernel

example : (exTables false exProc).map (·.1) = some PAM_SUCCESS := by decide +kernel

/-- With 0 and 1 closed the application's end is descriptor 1, and the module does not succeed. -/
example : (exTables false ⟨[none, none, some (.inherited 0)], []⟩).map (·.1) = some PAM_ABORT := by decide +kernel

end Pam.Filter.Table
