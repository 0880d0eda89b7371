import Verif.Helper.Model
/-
Property theorems C183 and C184: the descriptors of the helpers that modules run, and what is left of a helper in the application's process.
-/
namespace Pam.Helper
open Pam Pam.Misc

/-! ### specification -/

/-- A program starts with these three descriptors and no others: where `close_range` does not work, no others up to 65535 and below the hard limit. -/
def Starts (c : Closing) (p : Proc) (stdin stdout stderr : File) : Prop :=
  p.fds.get 0 = some stdin ∧ p.fds.get 1 = some stdout ∧ p.fds.get 2 = some stderr ∧
  ∀ fd, 3 ≤ fd → c.range = true ∨ (fd ≤ 65535 ∧ ∀ m, c.lim = some m → fd < m) → p.fds.get fd = none

/-- two tables with the same descriptors -/
def Same (t t' : Table) : Prop := ∀ fd, t.get fd = t'.get fd

/-! ### helper lemmas -/

theorem free_least : ∀ (t : Table) (j : Nat), j < t.free → t.get j ≠ none := by
  intro t
  induction t with
  | nil => intro j hj; exact absurd hj (by unfold Table.free; omega)
  | cons x t ih =>
    intro j hj
    cases x with
    | none => exact absurd hj (by unfold Table.free; omega)
    | some f =>
      cases j with
      | zero => rw [get_zero]; simp
      | succ j => rw [get_succ]; exact ih j (by unfold Table.free at hj; omega)

theorem alloc_get (p : Proc) (f : File) (j : Nat) : (p.alloc f).2.fds.get j = if j = p.fds.free then some f else p.fds.get j := get_put _ _ _ _

theorem close_get (p : Proc) (fd j : Nat) : (p.close fd).fds.get j = if j = fd then none else p.fds.get j := get_put _ _ _ _

structure Piped (t t' : Table) (a b : File) (r w : Nat) : Prop where
  lt : r < w
  r0 : t.get r = none
  w0 : t.get w = none
  low : ∀ j, j < w → j ≠ r → t.get j ≠ none
  all : ∀ j, t'.get j = if j = w then some b else if j = r then some a else t.get j

theorem pipe_ok {a b : File} {p p' : Proc} {x : Nat × Nat} (h : pipe a b p = (some x, p')) : Piped p.fds p'.fds a b x.1 x.2 := by
  unfold pipe at h
  dsimp only at h
  split at h
  · cases h
  · cases h
    have hf := next_fds p
    generalize p.next.2 = q at *
    have h1 := free_none q.fds
    have h2 := free_none (q.alloc a).2.fds
    have l1 := free_least q.fds
    have l2 := free_least (q.alloc a).2.fds
    have h3 : (q.alloc a).1 = q.fds.free := rfl
    have h4 : ((q.alloc a).2.alloc b).1 = (q.alloc a).2.fds.free := rfl
    have e1 := alloc_get q a
    have e2 := alloc_get (q.alloc a).2 b
    rw [h3, h4]
    generalize (q.alloc a).2.fds.free = w at *
    generalize q.fds.free = r at *
    generalize (q.alloc a).2 = q1 at *
    rw [← hf]
    have hne : w ≠ r := by rintro rfl; rw [e1, if_pos rfl] at h2; cases h2
    have hw : q.fds.get w = none := by rw [e1, if_neg hne] at h2; exact h2
    have hlt : r < w := by
      rcases Nat.lt_trichotomy r w with h | h | h
      · exact h
      · exact absurd h.symm hne
      · exact absurd hw (l1 w h)
    refine ⟨hlt, h1, hw, ?_, ?_⟩
    · intro j hj hjr
      have := l2 j hj
      rw [e1, if_neg hjr] at this
      exact this
    · intro j
      rw [e2, e1]

theorem dup_ok {p p' : Proc} {fd n : Nat} (h : dup p fd = (some n, p')) : ∃ f, p.fds.get fd = some f ∧ p.fds.get n = none ∧
    (∀ j, j < n → p.fds.get j ≠ none) ∧ ∀ j, p'.fds.get j = if j = n then some f else p.fds.get j := by
  unfold dup at h
  dsimp only at h
  rw [next_fds] at h
  cases hg : p.fds.get fd with
  | none => rw [hg] at h; cases h
  | some f =>
    rw [hg] at h
    dsimp only at h
    split at h
    · cases h
    · cases h
      refine ⟨f, rfl, ?_, ?_, ?_⟩
      · show p.fds.get p.next.2.fds.free = none
        rw [next_fds]; exact free_none _
      · show ∀ j, j < p.next.2.fds.free → _
        rw [next_fds]; exact free_least _
      · intro j
        rw [alloc_get, next_fds]
        show _ = if j = p.next.2.fds.free then _ else _
        rw [next_fds]

/-- the descriptors below 3 that are free -/
def spare (t : Table) : Nat := (if t.get 0 = none then 1 else 0) + (if t.get 1 = none then 1 else 0) + (if t.get 2 = none then 1 else 0)

theorem spare_less {t t' : Table} {n : Nat} {f : File} (hn : n < 3) (h0 : t.get n = none) (h : ∀ j, t'.get j = if j = n then some f else t.get j) :
    spare t' < spare t := by
  unfold spare
  rw [h 0, h 1, h 2]
  rcases (by omega : n = 0 ∨ n = 1 ∨ n = 2) with rfl | rfl | rfl
  all_goals simp [h0]
  all_goals omega

theorem spare_three {t : Table} {fd : Nat} (hfd : fd < 3) (h : t.get fd ≠ none) : spare t < 3 := by
  unfold spare
  rcases (by omega : fd = 0 ∨ fd = 1 ∨ fd = 2) with rfl | rfl | rfl
  all_goals rw [if_neg h]
  all_goals repeat' split
  all_goals omega

structure Moved (t t' : Table) (f : File) (fd' : Nat) : Prop where
  high : 3 ≤ fd'
  file : t'.get fd' = some f
  keeps : ∀ j, t.get j ≠ none → t'.get j = t.get j
  copies : ∀ j, t.get j = none → t'.get j = none ∨ t'.get j = some f

theorem move_ok {f : File} : ∀ (n : Nat) {p p' : Proc} {fd fd' : Nat}, p.fds.get fd = some f → (3 ≤ fd ∨ spare p.fds < n) →
    moveOff n p fd = (some fd', p') → Moved p.fds p'.fds f fd' := by
  intro n
  induction n with
  | zero =>
    intro p p' fd fd' hf hs h
    unfold moveOff at h
    cases h
    exact ⟨by omega, hf, fun _ _ => rfl, fun _ h => Or.inl h⟩
  | succ n ih =>
    intro p p' fd fd' hf hs h
    unfold moveOff at h
    by_cases hlt : fd < 3
    · rw [if_pos hlt] at h
      generalize hd : dup p fd = q at h
      obtain ⟨x, q⟩ := q
      cases x with
      | none => cases h
      | some m =>
        dsimp only at h
        obtain ⟨g, g1, g2, g3, g4⟩ := dup_ok hd
        rw [hf] at g1
        cases g1
        have hm : q.fds.get m = some f := by rw [g4, if_pos rfl]
        have := ih hm (by
          by_cases h3 : 3 ≤ m
          · exact Or.inl h3
          · right
            have := spare_less (by omega) g2 g4
            omega) h
        refine ⟨this.high, this.file, ?_, ?_⟩
        · intro j hj
          have hjm : j ≠ m := fun e => hj (e ▸ g2)
          rw [this.keeps j (by rw [g4, if_neg hjm]; exact hj), g4, if_neg hjm]
        · intro j hj
          by_cases hjm : j = m
          · rw [hjm, this.keeps m (by rw [hm]; simp), hm]; exact Or.inr rfl
          · exact this.copies j (by rw [g4, if_neg hjm]; exact hj)
    · rw [if_neg hlt] at h
      cases h
      exact ⟨by omega, hf, fun _ _ => rfl, fun _ h => Or.inl h⟩

/-- C183: the bound on the rounds of pam_exec's loop does not matter: three are enough to come to a descriptor above 2. -/
theorem C183_moved (p p' : Proc) (fd fd' : Nat) (f : File) (hf : p.fds.get fd = some f) (h : moveOff 3 p fd = (some fd', p')) :
    3 ≤ fd' ∧ p'.fds.get fd' = some f := by
  have := move_ok 3 hf (by
    by_cases h3 : 3 ≤ fd
    · exact Or.inl h3
    · exact Or.inr (spare_three (fd := fd) (by omega) (by rw [hf]; simp))) h
  exact ⟨this.high, this.file⟩

theorem moved {p p' : Proc} {fd fd' : Nat} {f : File} (hf : p.fds.get fd = some f) (h : moveOff 3 p fd = (some fd', p')) : Moved p.fds p'.fds f fd' :=
  move_ok 3 hf (by
    by_cases h3 : 3 ≤ fd
    · exact Or.inl h3
    · exact Or.inr (spare_three (fd := fd) (by omega) (by rw [hf]; simp))) h

theorem tidy_ok {im om em : RMode} {c : Closing} {p p' : Proc} (h : tidy im om em c p = some p') {a b d : File}
    (h0 : (if im = .ignore then p.fds.get 0 else some .pipeRead) = some a) (h1 : wanted om (p.fds.get 1) = some b) (h2 : wanted em (p.fds.get 2) = some d) :
    Starts c p' a b d := by
  have hs : sanitize im om em c.range c.lim p = (0, p') := by
    unfold tidy at h
    generalize hq : sanitize im om em c.range c.lim p = q at h
    obtain ⟨code, q⟩ := q
    dsimp only at h
    split at h
    · cases h
    · rename_i hc
      cases h
      have : code = 0 := by
        unfold sanitize at hq
        dsimp only at hq
        repeat' split at hq
        all_goals cases hq
        all_goals first | rfl | exact absurd (show (-1 : Int) < 0 by decide) hc
      rw [this]
  refine ⟨?_, ?_, ?_, ?_⟩
  · rw [sanitize_get hs, if_pos rfl]; exact h0
  · rw [sanitize_get hs, if_neg (by omega), if_pos rfl]; exact h1
  · rw [sanitize_get hs, if_neg (by omega), if_neg (by omega), if_pos rfl]; exact h2
  · intro fd hfd hc
    rw [sanitize_get hs, if_neg (by omega), if_neg (by omega), if_neg (by omega)]
    rw [if_pos]
    rcases hc with hc | ⟨hc, hm⟩
    · exact Or.inl hc
    · right
      unfold lastFd
      cases hl : c.lim with
      | none => exact hc
      | some m =>
        have := hm m hl
        dsimp only
        by_cases ha : m > 65535
        · rw [if_pos ha]; exact hc
        · rw [if_neg ha]
          by_cases hb : m < 20
          · rw [if_pos hb]; omega
          · rw [if_neg hb]; omega

theorem bind2 {α β : Type} {x : Option α} {f : α → Option β} {y : β} (h : x.bind f = some y) : ∃ a, x = some a ∧ f a = some y :=
  Option.bind_eq_some_iff.mp h

/-! ### C183 -/

/-- C183: unix_chkpwd and unix_update as run by pam_unix, and pwhistory_helper when it checks a password: stdin is the pipe the password comes
through, stdout and stderr are pipes without a writer; whatever descriptors the application has open or closed. -/
theorem C183_reader (reap : Bool) (c : Closing) (cf : List Bool) (p q : Proc) (h : (runReader reap c cf p).child = some q) :
    Starts c q (.ours .toRead) .pipeRead .pipeRead := by
  unfold runReader at h
  generalize hp : pipe (.ours .toRead) (.ours .toWrite) p = r at h
  obtain ⟨x, p1⟩ := r
  cases x with
  | none => cases h
  | some fds =>
    dsimp only at h
    split at h
    · cases h
    · have hP := pipe_ok hp
      unfold readerChild at h
      generalize hd : Proc.dup2 { p1.next.2 with faults := cf } fds.1 0 = d at h
      obtain ⟨y, p2⟩ := d
      cases y with
      | none => cases h
      | some u =>
        obtain ⟨f, f1, f2⟩ := dup2_ok hd
        have f1' : p1.next.2.fds.get fds.1 = some f := f1
        rw [next_fds, hP.all, if_neg (by have := hP.lt; omega), if_pos rfl] at f1'
        cases f1'
        exact tidy_ok h (by rw [if_pos rfl, f2, if_pos rfl]) rfl rfl

/-- C183: unix_chkpwd when pam_unix asks it about the age of a password: its answer goes into the pipe pam_unix reads. -/
theorem C183_writer (reap : Bool) (c : Closing) (cf : List Bool) (p q : Proc) (h : (runWriter reap c cf p).child = some q) :
    Starts c q .pipeRead (.ours .fromWrite) .pipeRead := by
  unfold runWriter at h
  generalize hp : pipe (.ours .fromRead) (.ours .fromWrite) p = r at h
  obtain ⟨x, p1⟩ := r
  cases x with
  | none => cases h
  | some fds =>
    dsimp only at h
    split at h
    · cases h
    · have hP := pipe_ok hp
      unfold writerChild at h
      generalize hd : Proc.dup2 { p1.next.2 with faults := cf } fds.2 1 = d at h
      obtain ⟨y, p2⟩ := d
      cases y with
      | none => cases h
      | some u =>
        obtain ⟨f, f1, f2⟩ := dup2_ok hd
        have f1' : p1.next.2.fds.get fds.2 = some f := f1
        rw [next_fds, hP.all, if_pos rfl] at f1'
        cases f1'
        exact tidy_ok h rfl (by show p2.fds.get 1 = _; rw [f2, if_pos rfl]) rfl

/-- C183: pwhistory_helper when it saves a password, and mkhomedir_helper. -/
theorem C183_silent (c : Closing) (cf : List Bool) (p q : Proc) (h : (runSilent c cf p).child = some q) : Starts c q .pipeRead .pipeRead .pipeRead := by
  unfold runSilent at h
  dsimp only at h
  split at h
  · cases h
  · exact tidy_ok h rfl rfl rfl

/-- C183: xauth as run by pam_xauth. -/
theorem C183_xauth (drops : Bool) (c : Closing) (cf : List Bool) (p q : Proc) (h : (runXauth drops c cf p).child = some q) :
    Starts c q (.ours .toRead) (.ours .fromWrite) .null := by
  unfold runXauth at h
  generalize hp : pipe (.ours .toRead) (.ours .toWrite) p = r at h
  obtain ⟨x, p1⟩ := r
  cases x with
  | none => cases h
  | some i =>
    dsimp only at h
    generalize hp2 : pipe (.ours .fromRead) (.ours .fromWrite) p1 = r2 at h
    obtain ⟨x2, p2⟩ := r2
    cases x2 with
    | none => cases h
    | some o =>
      dsimp only at h
      split at h
      · cases h
      · split at h
        · cases h
        · have hP := pipe_ok hp
          have hQ := pipe_ok hp2
          unfold xauthChild at h
          split at h
          · cases h
          · generalize hd : Proc.dup2 { p2.next.2.next.2 with faults := cf } i.1 0 = d at h
            obtain ⟨y, p3⟩ := d
            cases y with
            | none => cases h
            | some u =>
              dsimp only at h
              generalize hd2 : Proc.dup2 p3 o.2 1 = d2 at h
              obtain ⟨y2, p4⟩ := d2
              cases y2 with
              | none => cases h
              | some u2 =>
                have ho : 3 ≤ o.2 := by
                  have z1 := hP.lt
                  have z2 := hQ.lt
                  have n1 : p1.fds.get i.1 ≠ none := by rw [hP.all, if_neg (by omega), if_pos rfl]; simp
                  have n2 : p1.fds.get i.2 ≠ none := by rw [hP.all, if_pos rfl]; simp
                  have m1 := hQ.r0
                  -- the read end of the second pipe is above both ends of the first
                  have : i.2 < o.1 := by
                    rcases Nat.lt_trichotomy i.2 o.1 with h | h | h
                    · exact h
                    · exact absurd (h ▸ m1) n2
                    · have hne : o.1 ≠ i.1 := fun e => n1 (e ▸ m1)
                      have := hP.low o.1 h hne
                      rw [hP.all, if_neg (by omega), if_neg hne] at m1
                      exact absurd m1 this
                  omega
                obtain ⟨f, f1, f2⟩ := dup2_ok hd
                obtain ⟨g, g1, g2⟩ := dup2_ok hd2
                have f1' : p2.next.2.next.2.fds.get i.1 = some f := f1
                have hi : i.1 ≠ o.1 ∧ i.1 ≠ o.2 := by
                  have n1 : p1.fds.get i.1 ≠ none := by rw [hP.all, if_neg (by have := hP.lt; omega), if_pos rfl]; simp
                  exact ⟨fun e => n1 (e ▸ hQ.r0), fun e => n1 (e ▸ hQ.w0)⟩
                rw [next_fds, next_fds, hQ.all, if_neg hi.2, if_neg hi.1, hP.all, if_neg (by have := hP.lt; omega), if_pos rfl] at f1'
                cases f1'
                rw [f2, if_neg (by omega)] at g1
                have g1' : p2.next.2.next.2.fds.get o.2 = some g := g1
                rw [next_fds, next_fds, hQ.all, if_pos rfl] at g1'
                cases g1'
                exact tidy_ok h (by rw [if_pos rfl, g2, if_neg (by omega), f2, if_pos rfl]) (by show p4.fds.get 1 = _; rw [g2, if_pos rfl]) rfl

theorem moveIn_ok {o : Wants} {fds : Nat × Nat} {p p1 : Proc} {r : Nat} (h : moveIn o fds p = some (r, p1))
    (hin : o.expose = true → p.fds.get fds.1 = some (.ours .toRead) ∧ p.fds.get fds.2 = some (.ours .toWrite)) :
    (o.expose = true → 3 ≤ r ∧ p1.fds.get r = some (.ours .toRead)) ∧
      ∀ j f, p.fds.get j = some f → f ≠ .ours .toWrite → p1.fds.get j = some f := by
  unfold moveIn at h
  split at h
  · rename_i ho
    obtain ⟨a, b⟩ := hin ho
    generalize hm : moveOff 3 p fds.1 = q at h
    obtain ⟨x, q⟩ := q
    cases x with
    | none => cases h
    | some r' =>
      cases h
      have hM := moved a hm
      have hw : q.fds.get fds.2 = some (.ours .toWrite) := by rw [hM.keeps _ (by rw [b]; simp), b]
      refine ⟨fun _ => ⟨hM.high, ?_⟩, ?_⟩
      · rw [close_get, if_neg, hM.file]
        intro e
        have := hM.file
        rw [e, hw] at this
        cases this
      · intro j f hj hf
        rw [close_get, if_neg, hM.keeps _ (by rw [hj]; simp), hj]
        intro e
        rw [e, b] at hj
        exact hf (Option.some.inj hj).symm
  · rename_i ho
    cases h
    exact ⟨fun h => absurd h ho, fun j f hj _ => hj⟩

theorem moveOut_ok {o : Wants} {out : Nat × Nat} {p p1 : Proc} {w : Nat} (h : moveOut o out p = some (w, p1))
    (hout : o.stdout = true → p.fds.get out.1 = some (.ours .fromRead) ∧ p.fds.get out.2 = some (.ours .fromWrite)) :
    (o.stdout = true → 3 ≤ w ∧ p1.fds.get w = some (.ours .fromWrite)) ∧
      ∀ j f, p.fds.get j = some f → f ≠ .ours .fromRead → p1.fds.get j = some f := by
  unfold moveOut at h
  split at h
  · rename_i ho
    obtain ⟨a, b⟩ := hout ho
    generalize hm : moveOff 3 p out.2 = q at h
    obtain ⟨x, q⟩ := q
    cases x with
    | none => cases h
    | some r' =>
      cases h
      have hM := moved b hm
      have hw : q.fds.get out.1 = some (.ours .fromRead) := by rw [hM.keeps _ (by rw [a]; simp), a]
      refine ⟨fun _ => ⟨hM.high, ?_⟩, ?_⟩
      · rw [close_get, if_neg, hM.file]
        intro e
        have := hM.file
        rw [e, hw] at this
        cases this
      · intro j f hj hf
        rw [close_get, if_neg, hM.keeps _ (by rw [hj]; simp), hj]
        intro e
        rw [e, a] at hj
        exact hf (Option.some.inj hj).symm
  · rename_i ho
    cases h
    exact ⟨fun h => absurd h ho, fun j f hj _ => hj⟩

theorem setIn_ok {o : Wants} {r : Nat} {p p1 : Proc} (h : setIn o r p = some p1) {f : File} (hr : o.expose = true → p.fds.get r = some f) :
    (o.expose = true → p1.fds.get 0 = some f) ∧ ∀ j, 0 < j → p1.fds.get j = p.fds.get j := by
  unfold setIn at h
  split at h
  · rename_i ho
    generalize hd : p.dup2 r 0 = d at h
    obtain ⟨y, q⟩ := d
    cases y with
    | none => cases h
    | some u =>
      cases h
      obtain ⟨g, g1, g2⟩ := dup2_ok hd
      rw [hr ho] at g1
      cases g1
      exact ⟨fun _ => by rw [g2, if_pos rfl], fun j hj => by rw [g2, if_neg (by omega)]⟩
  · rename_i ho
    cases h
    exact ⟨fun h => absurd h ho, fun _ _ => rfl⟩

theorem openLog_ok {p p1 : Proc} (h : openLog p = some p1) : p1.fds.get 1 = some (.ours .log) ∧ ∀ f, p.fds.get 0 = some f → p1.fds.get 0 = some f := by
  unfold openLog at h
  dsimp only at h
  split at h
  · cases h
  · have hf := next_fds (p.close 1)
    have hc := close_get p 1
    rw [← hf] at hc
    generalize (p.close 1).next.2 = q at *
    have ha := alloc_get q (.ours .log)
    have hfree : (q.alloc (.ours .log)).1 = q.fds.free := rfl
    have hn := free_none q.fds
    have hl := free_least q.fds
    rw [hfree] at h
    have h1 : q.fds.get 1 = none := by rw [hc, if_pos rfl]
    have hle : q.fds.free ≤ 1 := by
      rcases Nat.lt_or_ge 1 q.fds.free with h | h
      · exact absurd h1 (hl 1 h)
      · exact h
    generalize q.fds.free = i at *
    have h0 : ∀ f, p.fds.get 0 = some f → i ≠ 0 := by
      intro f hp e
      rw [e, hc, if_neg (by omega), hp] at hn
      cases hn
    split at h
    · rename_i hi
      generalize hd : Proc.dup2 (q.alloc (.ours .log)).2 i 1 = d at h
      obtain ⟨y, q2⟩ := d
      cases y with
      | none => cases h
      | some u =>
        cases h
        obtain ⟨g, g1, g2⟩ := dup2_ok hd
        rw [ha, if_pos rfl] at g1
        cases g1
        refine ⟨by rw [close_get, if_neg (fun e => hi e.symm), g2, if_pos rfl], ?_⟩
        intro f hp
        exact absurd (show i = 0 by omega) (h0 f hp)
    · rename_i hi
      have hi : i = 1 := Decidable.not_not.mp hi
      cases h
      refine ⟨by rw [ha, if_pos hi.symm], ?_⟩
      intro f hp
      rw [ha, if_neg (by omega), hc, if_neg (by omega), hp]

theorem setErr_ok {o : Wants} {p p1 : Proc} (h : setErr o p = some p1) :
    (∀ f, p.fds.get 1 = some f → (o.stdout = true ∨ o.log = true) → p1.fds.get 2 = some f) ∧ p1.fds.get 0 = p.fds.get 0 ∧ p1.fds.get 1 = p.fds.get 1 := by
  unfold setErr at h
  split at h
  · generalize hd : p.dup2 1 2 = d at h
    obtain ⟨y, q⟩ := d
    cases y with
    | none => cases h
    | some u =>
      cases h
      obtain ⟨g, g1, g2⟩ := dup2_ok hd
      refine ⟨fun f hf _ => by rw [g2, if_pos rfl, ← g1, hf], by rw [g2, if_neg (by omega)], by rw [g2, if_neg (by omega)]⟩
  · rename_i ho
    cases h
    exact ⟨fun _ _ h => absurd h ho, rfl, rfl⟩

theorem execChild_ok {o : Wants} {c : Closing} {fds out : Nat × Nat} {p q : Proc} (h : execChild o c fds out p = some q)
    (hin : o.expose = true → p.fds.get fds.1 = some (.ours .toRead) ∧ p.fds.get fds.2 = some (.ours .toWrite))
    (hout : o.stdout = true → p.fds.get out.1 = some (.ours .fromRead) ∧ p.fds.get out.2 = some (.ours .fromWrite)) :
    Starts c q (if o.expose then .ours .toRead else .pipeRead)
      (if o.stdout then .ours .fromWrite else if o.log then .ours .log else .null)
      (if o.stdout then .ours .fromWrite else if o.log then .ours .log else .null) := by
  unfold execChild at h
  obtain ⟨⟨r, p1⟩, a1, h⟩ := bind2 h
  obtain ⟨⟨w, p2⟩, a2, h⟩ := bind2 h
  obtain ⟨p3, a3, h⟩ := bind2 h
  obtain ⟨p4, a4, h⟩ := bind2 h
  obtain ⟨p5, a5, h⟩ := bind2 h
  dsimp only at h
  obtain ⟨b1, b2⟩ := moveIn_ok a1 hin
  obtain ⟨c1, c2⟩ := moveOut_ok a2 (fun ho => ⟨b2 _ _ (hout ho).1 (by decide), b2 _ _ (hout ho).2 (by decide)⟩)
  obtain ⟨d1, d2⟩ := setIn_ok a3 (fun ho => c2 _ _ (b1 ho).2 (by decide))
  obtain ⟨e1, e2, e3⟩ := setErr_ok a5
  -- the descriptors before the last step
  have k : (o.expose = true → p4.fds.get 0 = some (.ours .toRead)) ∧ (o.stdout = true → p4.fds.get 1 = some (.ours .fromWrite)) ∧
      (o.stdout = false → o.log = true → p4.fds.get 1 = some (.ours .log)) := by
    unfold setOut at a4
    split at a4
    · rename_i ho
      generalize hd : p3.dup2 w 1 = d at a4
      obtain ⟨y, q4⟩ := d
      cases y with
      | none => cases a4
      | some u =>
        cases a4
        obtain ⟨g, g1, g2⟩ := dup2_ok hd
        obtain ⟨w1, w2⟩ := c1 ho
        rw [d2 _ (by omega), w2] at g1
        cases g1
        exact ⟨fun hx => by rw [g2, if_neg (by omega)]; exact d1 hx, fun _ => by rw [g2, if_pos rfl], fun hn => by rw [ho] at hn; cases hn⟩
    · rename_i ho
      split at a4
      · obtain ⟨l1, l2⟩ := openLog_ok a4
        exact ⟨fun hx => l2 _ (d1 hx), fun hn => absurd hn ho, fun _ _ => l1⟩
      · rename_i hl
        cases a4
        exact ⟨d1, fun hn => absurd hn ho, fun _ hn => absurd hn hl⟩
  obtain ⟨k0, k1, k2⟩ := k
  refine tidy_ok h ?_ ?_ ?_
  · cases he : o.expose with
    | true => rw [if_pos rfl, if_pos rfl, if_pos rfl, e2]; exact k0 he
    | false => rfl
  · cases hs : o.stdout with
    | true => rw [if_pos (Or.inl rfl), if_pos rfl]; show p5.fds.get 1 = _; rw [e3]; exact k1 hs
    | false =>
      cases hg : o.log with
      | true => rw [if_pos (Or.inr rfl), if_neg (by decide), if_pos rfl]; show p5.fds.get 1 = _; rw [e3]; exact k2 hs hg
      | false => rfl
  · cases hs : o.stdout with
    | true => rw [if_pos (Or.inl rfl), if_pos rfl]; exact e1 _ (k1 hs) (Or.inl hs)
    | false =>
      cases hg : o.log with
      | true => rw [if_pos (Or.inr rfl), if_neg (by decide), if_pos rfl]; exact e1 _ (k2 hs hg) (Or.inr hg)
      | false => rfl

/-- C183: the command pam_exec runs: with `expose_authtok` stdin is the pipe the password comes through, otherwise a pipe without a writer; stdout
and stderr are the pipe pam_exec reads, with `stdout`, or else the log file, with `log=`, or else /dev/null. -/
theorem C183_exec (o : Wants) (path stream : Bool) (c : Closing) (cf : List Bool) (p q : Proc) (h : (runExec o path stream c cf p).child = some q) :
    Starts c q (if o.expose then .ours .toRead else .pipeRead)
      (if o.stdout then .ours .fromWrite else if o.log then .ours .log else .null)
      (if o.stdout then .ours .fromWrite else if o.log then .ours .log else .null) := by
  unfold runExec at h
  generalize hp : (if o.expose = true then pipe (.ours .toRead) (.ours .toWrite) p else (some (0, 0), p)) = r at h
  obtain ⟨x, p1⟩ := r
  cases x with
  | none => cases h
  | some i =>
    dsimp only at h
    generalize hp2 : (if o.stdout = true then pipe (.ours .fromRead) (.ours .fromWrite) p1 else (some (0, 0), p1)) = r2 at h
    obtain ⟨x2, p2⟩ := r2
    cases x2 with
    | none => cases h
    | some out =>
      dsimp only at h
      split at h
      · cases h
      split at h
      · cases h
      split at h
      · cases h
      split at h
      · cases h
      refine execChild_ok h ?_ ?_
      · intro he
        show p2.next.2.next.2.fds.get _ = _ ∧ p2.next.2.next.2.fds.get _ = _
        rw [next_fds, next_fds]
        rw [if_pos he] at hp
        have hP := pipe_ok hp
        have n1 : p1.fds.get i.1 = some (.ours .toRead) := by rw [hP.all, if_neg (by have := hP.lt; omega), if_pos rfl]
        have n2 : p1.fds.get i.2 = some (.ours .toWrite) := by rw [hP.all, if_pos rfl]
        by_cases hs : o.stdout = true
        · rw [if_pos hs] at hp2
          have hQ := pipe_ok hp2
          have hne : ∀ j f, p1.fds.get j = some f → p2.fds.get j = some f := by
            intro j f hj
            rw [hQ.all, if_neg (fun e => by rw [e, hQ.w0] at hj; cases hj), if_neg (fun e => by rw [e, hQ.r0] at hj; cases hj), hj]
          exact ⟨hne _ _ n1, hne _ _ n2⟩
        · rw [if_neg hs] at hp2
          cases hp2
          exact ⟨n1, n2⟩
      · intro hs
        show p2.next.2.next.2.fds.get _ = _ ∧ p2.next.2.next.2.fds.get _ = _
        rw [next_fds, next_fds]
        rw [if_pos hs] at hp2
        have hQ := pipe_ok hp2
        exact ⟨by rw [hQ.all, if_neg (by have := hQ.lt; omega), if_pos rfl], by rw [hQ.all, if_pos rfl]⟩

/-! ### C184 -/

theorem pipe_none {a b : File} {p p' : Proc} (h : pipe a b p = (none, p')) : p'.fds = p.fds := by
  unfold pipe at h
  dsimp only at h
  split at h
  · cases h; exact next_fds p
  · cases h

theorem closed_pipe {a b : File} {t : Table} {q : Proc} {x : Nat × Nat} (hP : Piped t q.fds a b x.1 x.2) :
    Same ((q.close x.1).close x.2).fds t ∧ Same ((q.close x.2).close x.1).fds t := by
  refine ⟨fun j => ?_, fun j => ?_⟩
  · rw [close_get, close_get, hP.all]
    by_cases h1 : j = x.2
    · rw [if_pos h1, h1, hP.w0]
    · rw [if_neg h1, if_neg h1]
      by_cases h2 : j = x.1
      · rw [if_pos h2, h2, hP.r0]
      · rw [if_neg h2, if_neg h2]
  · rw [close_get, close_get, hP.all]
    by_cases h2 : j = x.1
    · rw [if_pos h2, h2, hP.r0]
    · rw [if_neg h2, if_neg h2]
      by_cases h1 : j = x.2
      · rw [if_pos h1, h1, hP.w0]
      · rw [if_neg h1, if_neg h1]

/-- C184: pam_unix, pam_pwhistory and pam_mkhomedir leave the application the descriptors it had and its own action for SIGCHLD, whatever
fails. -/
theorem C184_reader (reap : Bool) (c : Closing) (cf : List Bool) (p : Proc) :
    Same (runReader reap c cf p).fds p.fds ∧ (runReader reap c cf p).handler = true := by
  unfold runReader
  generalize hp : pipe (.ours .toRead) (.ours .toWrite) p = r
  obtain ⟨x, p1⟩ := r
  cases x with
  | none => exact ⟨fun j => by show p1.fds.get j = _; rw [pipe_none hp], rfl⟩
  | some fds =>
    have hP := pipe_ok hp
    rw [← next_fds p1] at hP
    exact ⟨(closed_pipe hP).1, by cases reap <;> rfl⟩

theorem C184_writer (reap : Bool) (c : Closing) (cf : List Bool) (p : Proc) :
    Same (runWriter reap c cf p).fds p.fds ∧ (runWriter reap c cf p).handler = true := by
  unfold runWriter
  generalize hp : pipe (.ours .fromRead) (.ours .fromWrite) p = r
  obtain ⟨x, p1⟩ := r
  cases x with
  | none => exact ⟨fun j => by show p1.fds.get j = _; rw [pipe_none hp], rfl⟩
  | some fds =>
    have hP := pipe_ok hp
    rw [← next_fds p1] at hP
    exact ⟨(closed_pipe hP).2, by cases reap <;> rfl⟩

theorem C184_silent (c : Closing) (cf : List Bool) (p : Proc) : Same (runSilent c cf p).fds p.fds ∧ (runSilent c cf p).handler = true := by
  refine ⟨fun j => ?_, rfl⟩
  show p.next.2.fds.get j = _
  rw [next_fds]

/-- two pipes made and closed again -/
theorem closed_pipes {a b a' b' : File} {t t1 t2 : Table} {i o : Nat × Nat} (hP : Piped t t1 a b i.1 i.2) (hQ : Piped t1 t2 a' b' o.1 o.2) :
    ∀ j, t2.get j = if j = o.2 then some b' else if j = o.1 then some a' else if j = i.2 then some b else if j = i.1 then some a else t.get j := by
  intro j
  rw [hQ.all, hP.all]

/-- C184: pam_xauth leaves the application its descriptors, whatever fails, and its own action for SIGCHLD, unless fork fails. -/
theorem C184_xauth_partial (drops : Bool) (c : Closing) (cf : List Bool) (p : Proc) :
    Same (runXauth drops c cf p).fds p.fds ∧ ((runXauth drops c cf p).forked = true → (runXauth drops c cf p).handler = true) := by
  unfold runXauth
  generalize hp : pipe (.ours .toRead) (.ours .toWrite) p = r
  obtain ⟨x, p1⟩ := r
  cases x with
  | none => exact ⟨fun j => by show p1.fds.get j = _; rw [pipe_none hp], fun _ => rfl⟩
  | some i =>
    have hP := pipe_ok hp
    dsimp only
    generalize hp2 : pipe (.ours .fromRead) (.ours .fromWrite) p1 = r2
    obtain ⟨x2, p2⟩ := r2
    cases x2 with
    | none =>
      refine ⟨?_, fun _ => rfl⟩
      have hP' := hP
      rw [← pipe_none hp2] at hP'
      exact (closed_pipe hP').1
    | some o =>
      have hQ := pipe_ok hp2
      have hall := closed_pipes hP hQ
      have hi1 := hP.r0
      have hi2 := hP.w0
      have ho1 : p.fds.get o.1 = none := by
        have := hQ.r0
        rw [hP.all] at this
        split at this
        · cases this
        · split at this
          · cases this
          · exact this
      have ho2 : p.fds.get o.2 = none := by
        have := hQ.w0
        rw [hP.all] at this
        split at this
        · cases this
        · split at this
          · cases this
          · exact this
      dsimp only
      split
      · refine ⟨fun j => ?_, fun _ => rfl⟩
        dsimp only
        simp only [close_get, next_fds, hall]
        grind
      · split
        · refine ⟨fun j => ?_, fun h => by cases h⟩
          dsimp only
          simp only [close_get, next_fds, hall]
          grind
        · refine ⟨fun j => ?_, fun _ => rfl⟩
          dsimp only
          simp only [close_get, next_fds, hall]
          grind

/-- C184: the full claim is false of pam_xauth: when fork fails the application is left with the default action for SIGCHLD. -/
theorem C184_xauth_counterexample : (runXauth true ⟨true, none⟩ [] ⟨[], [false, false, false, true]⟩).handler = false := by decide

/-- C184: pam_exec leaves the application its descriptors and its own action for SIGCHLD, if it could start the child. -/
theorem C184_exec_partial (o : Wants) (path stream : Bool) (c : Closing) (cf : List Bool) (p : Proc) (h : (runExec o path stream c cf p).forked = true) :
    Same (runExec o path stream c cf p).fds p.fds ∧ (runExec o path stream c cf p).handler = true := by
  unfold runExec at h ⊢
  generalize hp : (if o.expose = true then pipe (.ours .toRead) (.ours .toWrite) p else (some (0, 0), p)) = r at h ⊢
  obtain ⟨x, p1⟩ := r
  cases x with
  | none => cases h
  | some i =>
    dsimp only at h ⊢
    generalize hp2 : (if o.stdout = true then pipe (.ours .fromRead) (.ours .fromWrite) p1 else (some (0, 0), p1)) = r2 at h ⊢
    obtain ⟨x2, p2⟩ := r2
    cases x2 with
    | none => cases h
    | some out =>
      dsimp only at h ⊢
      split at h
      · cases h
      rename_i n1
      rw [if_neg n1]
      split at h
      · cases h
      rename_i n2
      rw [if_neg n2]
      split at h
      · cases h
      rename_i n3
      rw [if_neg n3]
      split at h
      · cases h
      rename_i n4
      rw [if_neg n4]
      clear h
      refine ⟨fun j => ?_, rfl⟩
      dsimp only
      by_cases he : o.expose = true
      · rw [if_pos he] at hp
        have hP := pipe_ok hp
        by_cases hs : o.stdout = true
        · rw [if_pos hs] at hp2
          have hQ := pipe_ok hp2
          have hall := closed_pipes hP hQ
          have hi1 := hP.r0
          have hi2 := hP.w0
          have ho1 : p.fds.get out.1 = none := by
            have := hQ.r0
            rw [hP.all] at this
            split at this
            · cases this
            · split at this
              · cases this
              · exact this
          have ho2 : p.fds.get out.2 = none := by
            have := hQ.w0
            rw [hP.all] at this
            split at this
            · cases this
            · split at this
              · cases this
              · exact this
          rw [if_pos he, if_pos hs]
          simp only [close_get, next_fds, hall]
          grind
        · rw [if_neg hs] at hp2
          cases hp2
          rw [if_pos he, if_neg hs]
          rw [← next_fds p1, ← next_fds p1.next.2] at hP
          exact (closed_pipe hP).1 j
      · rw [if_neg he] at hp
        cases hp
        rw [if_neg he]
        by_cases hs : o.stdout = true
        · rw [if_pos hs] at hp2
          have hQ := pipe_ok hp2
          rw [if_pos hs]
          rw [← next_fds p2, ← next_fds p2.next.2] at hQ
          exact (closed_pipe hQ).2 j
        · rw [if_neg hs] at hp2
          cases hp2
          rw [if_neg hs, next_fds, next_fds]

/-- C184: the full claim is false of pam_exec: when fork fails both pipes stay open, the one for the password among them, and the application is
left with the default action for SIGCHLD; when no command is given the pipes stay open, too. -/
theorem C184_exec_counterexample :
    runExec ⟨true, true, false⟩ true true ⟨true, none⟩ [] ⟨[some (.inherited 0), some (.inherited 1), some (.inherited 2)], [false, false, false, true]⟩ =
      ⟨none, [some (.inherited 0), some (.inherited 1), some (.inherited 2), some (.ours .toRead), some (.ours .toWrite), some (.ours .fromRead),
        some (.ours .fromWrite)], false, false⟩ ∧
    (runExec ⟨true, false, false⟩ false true ⟨true, none⟩ [] ⟨[], []⟩).fds = [some (.ours .toRead), some (.ours .toWrite)] := by decide

/-! ### examples: the programs do start, also when the application has closed its standard descriptors -/

example : (runReader true ⟨true, none⟩ [] ⟨[], []⟩).child.map (·.fds) = some [some (.ours .toRead), some .pipeRead, some .pipeRead] := by decide
example : (runWriter false ⟨true, none⟩ [] ⟨[some (.inherited 0)], []⟩).child.map (·.fds) = some [some .pipeRead, some (.ours .fromWrite), some .pipeRead] := by decide
example : (runXauth true ⟨true, none⟩ [] ⟨[none, some (.inherited 1)], []⟩).child.map (·.fds) = some [some (.ours .toRead), some (.ours .fromWrite), some .null] := by
  decide
example : (runExec ⟨true, true, false⟩ true true ⟨true, none⟩ [] ⟨[], []⟩).child.map (·.fds) =
    some [some (.ours .toRead), some (.ours .fromWrite), some (.ours .fromWrite)] := by decide
example : (runExec ⟨false, false, true⟩ true true ⟨true, none⟩ [] ⟨[], []⟩).child.map (·.fds) = some [some .pipeRead, some (.ours .log), some (.ours .log)] := by
  decide
example : (runExec ⟨false, false, false⟩ true true ⟨false, some 1024⟩ [] ⟨[none, none, some (.inherited 2), some (.inherited 3)], []⟩).child.map (fun p => (p.fds.get 0, p.fds.get 1, p.fds.get 2, p.fds.get 3)) =
    some (some .pipeRead, some .null, some .null, none) := by decide +kernel

end Pam.Helper
