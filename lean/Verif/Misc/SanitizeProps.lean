import Verif.Misc.Sanitize
/-
C104: pam_modutil_sanitize_helper_fds.
-/
namespace Pam.Misc
open Pam

/-! ### specification -/

/-- what one of the descriptors 0 to 2 refers to afterwards: what it did before, or the read end of a pipe no one writes to, or /dev/null -/
def wanted (mode : RMode) (before : Option File) : Option File :=
  match mode with
  | .ignore => before
  | .pipe => some .pipeRead
  | .null => some .null

/-! ### lemmas -/

theorem get_nil (j : Nat) : Table.get [] j = none := rfl
theorem get_zero (x : Option File) (t : Table) : Table.get (x :: t) 0 = x := rfl
theorem get_succ (x : Option File) (t : Table) (j : Nat) : Table.get (x :: t) (j + 1) = Table.get t j := rfl

theorem get_put (v : Option File) : ∀ (fd : Nat) (t : Table) (j : Nat), (t.put fd v).get j = if j = fd then v else t.get j := by
  intro fd
  induction fd with
  | zero =>
    intro t j
    cases t with
    | nil => cases j with
      | zero => rfl
      | succ j => simp [Table.put, get_succ, get_nil]
    | cons x t => cases j with
      | zero => rfl
      | succ j => simp [Table.put, get_succ]
  | succ fd ih =>
    intro t j
    cases t with
    | nil => cases j with
      | zero => simp [Table.put, get_zero, get_nil]
      | succ j => simp only [Table.put, get_succ, ih, get_nil]; simp
    | cons x t => cases j with
      | zero => simp [Table.put, get_zero]
      | succ j => simp only [Table.put, get_succ, ih]; simp

theorem free_none : ∀ t : Table, t.get t.free = none := by
  intro t
  induction t with
  | nil => rfl
  | cons x t ih => cases x with
    | none => rfl
    | some f => exact ih

theorem next_fds (p : Proc) : p.next.2.fds = p.fds := by
  unfold Proc.next; split <;> rfl

theorem dup2_ok {p p' : Proc} {old new : Nat} (h : p.dup2 old new = (some (), p')) : ∃ f, p.fds.get old = some f ∧ ∀ j, p'.fds.get j = if j = new then some f else p.fds.get j := by
  unfold Proc.dup2 at h
  dsimp only at h
  rw [next_fds] at h
  cases hg : p.fds.get old with
  | none => rw [hg] at h; cases h
  | some f =>
    rw [hg] at h
    dsimp only at h
    by_cases hb : p.next.1 = true
    · rw [if_pos hb] at h; cases h
    · rw [if_neg hb] at h
      cases h
      exact ⟨f, rfl, fun j => get_put _ _ _ _⟩

/-- moving a new descriptor `old` to `fd` changes only `fd` -/
theorem moveTo_ok {p p' : Proc} {old fd : Nat} {f : File} (hf : p.fds.get old = some f) (h : p.moveTo old fd = (some (), p')) (j : Nat) :
    p'.fds.get j = if j = fd then some f else if j = old then none else p.fds.get j := by
  unfold Proc.moveTo at h
  by_cases he : old = fd
  · rw [if_pos he] at h; cases h
    subst he
    by_cases hj : j = old
    · rw [if_pos hj, hj, hf]
    · rw [if_neg hj, if_neg hj]
  · rw [if_neg he] at h
    obtain ⟨⟨r, q⟩, hq⟩ : ∃ t, p.dup2 old fd = t := ⟨_, rfl⟩
    rw [hq] at h
    dsimp only at h
    cases h
    obtain ⟨f', h1, h2⟩ := dup2_ok hq
    rw [hf] at h1; cases h1
    show (q.fds.put old none).get j = _
    rw [get_put, h2]
    by_cases hj : j = fd
    · rw [if_pos hj, if_neg (by omega)]
      rw [if_pos hj]
    · rw [if_neg hj, if_neg hj]

theorem inPipe_ok {p p' : Proc} {fd : Nat} (h : redirectInPipe p fd = (some (), p')) (j : Nat) :
    p'.fds.get j = if j = fd then some .pipeRead else p.fds.get j := by
  unfold redirectInPipe at h
  dsimp only at h
  by_cases hb : p.next.1 = true
  · rw [if_pos hb] at h; cases h
  · rw [if_neg hb] at h
    unfold Proc.alloc Proc.close at h
    dsimp only at h
    rw [next_fds] at h
    have hr := free_none p.fds
    generalize p.fds.free = r at h hr
    have hw := free_none (p.fds.put r (some .pipeRead))
    generalize (p.fds.put r (some .pipeRead)).free = w at h hw
    have hrw : w ≠ r := by rintro rfl; rw [get_put, if_pos rfl] at hw; cases hw
    have hw0 : p.fds.get w = none := by rw [get_put, if_neg hrw] at hw; exact hw
    rw [moveTo_ok (f := .pipeRead) (by rw [get_put, if_neg (fun e => hrw e.symm), get_put, if_neg (fun e => hrw e.symm), get_put, if_pos rfl]) h j]
    by_cases hj : j = fd
    · rw [if_pos hj, if_pos hj]
    rw [if_neg hj, if_neg hj]
    by_cases hjr : j = r
    · rw [if_pos hjr, hjr, hr]
    rw [if_neg hjr]
    dsimp only
    rw [get_put]
    by_cases hjw : j = w
    · rw [if_pos hjw, hjw, hw0]
    · rw [if_neg hjw, get_put, if_neg hjw, get_put, if_neg hjr]

theorem outNull_ok {p p' : Proc} {fd : Nat} (h : redirectOutNull p fd = (some (), p')) (j : Nat) :
    p'.fds.get j = if j = fd then some .null else p.fds.get j := by
  unfold redirectOutNull at h
  dsimp only at h
  by_cases hb : p.next.1 = true
  · rw [if_pos hb] at h; cases h
  · rw [if_neg hb] at h
    unfold Proc.alloc at h
    dsimp only at h
    rw [next_fds] at h
    have hr := free_none p.fds
    generalize p.fds.free = r at h hr
    rw [moveTo_ok (f := .null) (by rw [get_put, if_pos rfl]) h j]
    by_cases hj : j = fd
    · rw [if_pos hj, if_pos hj]
    rw [if_neg hj, if_neg hj]
    by_cases hjr : j = r
    · rw [if_pos hjr, hjr, hr]
    · rw [if_neg hjr]
      dsimp only
      rw [get_put, if_neg hjr]

theorem out_ok {mode : RMode} {p p' : Proc} {fd : Nat} (h : redirectOut mode p fd = (some (), p')) (j : Nat) :
    p'.fds.get j = if j = fd then wanted mode (p.fds.get j) else p.fds.get j := by
  unfold redirectOut at h
  cases mode with
  | ignore => cases h; unfold wanted; simp
  | pipe => exact inPipe_ok h j
  | null => exact outNull_ok h j

theorem closeDown_get : ∀ (fd : Nat) (p : Proc) (j : Nat), (closeDown fd p).fds.get j = if 2 < j ∧ j ≤ fd then none else p.fds.get j := by
  intro fd
  induction fd with
  | zero => intro p j; rw [if_neg (by omega)]; rfl
  | succ fd ih =>
    intro p j
    unfold closeDown
    by_cases h : fd + 1 > 2
    · rw [if_pos h, ih]
      unfold Proc.close
      dsimp only
      rw [get_put]
      by_cases h1 : 2 < j ∧ j ≤ fd
      · rw [if_pos h1, if_pos (by omega)]
      · rw [if_neg h1]
        by_cases h2 : j = fd + 1
        · rw [if_pos h2, if_pos (by omega)]
        · rw [if_neg h2, if_neg (by omega)]
    · rw [if_neg h, if_neg (by omega)]

theorem get_take (t : Table) (j : Nat) : Table.get (t.take 3) j = if j < 3 then t.get j else none := by
  unfold Table.get
  by_cases h : j < 3
  · rw [if_pos h, List.getElem?_take_of_lt h]
  · rw [if_neg h, List.getElem?_eq_none (by simp; omega)]; rfl

theorem closeFds_get (range : Bool) (lim : Option Nat) (p : Proc) (j : Nat) :
    (closeFds range lim p).fds.get j = if j < 3 then p.fds.get j else if range = true ∨ j ≤ lastFd lim then none else p.fds.get j := by
  unfold closeFds
  cases range with
  | true =>
    rw [if_pos rfl]
    dsimp only
    rw [get_take]; simp
  | false =>
    rw [if_neg (by simp), closeDown_get]
    by_cases h : j < 3
    · rw [if_pos h, if_neg (by omega)]
    · rw [if_neg h]
      by_cases h2 : j ≤ lastFd lim
      · rw [if_pos (by omega), if_pos (.inr h2)]
      · rw [if_neg (by omega), if_neg (by simp; omega)]

theorem sanitize_get {im om em : RMode} {range : Bool} {lim : Option Nat} {p p' : Proc} (h : sanitize im om em range lim p = (0, p')) (j : Nat) :
    p'.fds.get j = if j = 0 then (if im = .ignore then p.fds.get 0 else some .pipeRead) else if j = 1 then wanted om (p.fds.get 1) else if j = 2 then wanted em (p.fds.get 2)
      else if range = true ∨ j ≤ lastFd lim then none else p.fds.get j := by
  unfold sanitize at h
  obtain ⟨⟨r0, p0⟩, h0⟩ : ∃ t, (if im ≠ .ignore then redirectInPipe p 0 else (some (), p)) = t := ⟨_, rfl⟩
  rw [h0] at h
  dsimp only at h
  cases r0 with
  | none => rw [if_pos rfl] at h; cases h
  | some u0 =>
  rw [if_neg (by simp)] at h
  have g0 : ∀ j, p0.fds.get j = if j = 0 then (if im = .ignore then p.fds.get 0 else some .pipeRead) else p.fds.get j := by
    intro j
    by_cases hi : im = .ignore
    · rw [if_neg (by simp [hi])] at h0; cases h0
      rw [if_pos hi]
      by_cases hj : j = 0
      · rw [if_pos hj, hj]
      · rw [if_neg hj]
    · rw [if_pos hi] at h0
      rw [inPipe_ok h0, if_neg hi]
  obtain ⟨⟨r1, p1⟩, h1⟩ : ∃ t, redirectOut om p0 1 = t := ⟨_, rfl⟩
  rw [h1] at h
  dsimp only at h
  cases r1 with
  | none => rw [if_pos rfl] at h; cases h
  | some u1 =>
  rw [if_neg (by simp)] at h
  have g1 := out_ok h1
  obtain ⟨⟨r2, p2⟩, h2⟩ : ∃ t, (if em ≠ .ignore ∧ om = em then p1.dup2 1 2 else redirectOut em p1 2) = t := ⟨_, rfl⟩
  rw [h2] at h
  dsimp only at h
  cases r2 with
  | none => rw [if_pos rfl] at h; cases h
  | some u2 =>
  rw [if_neg (by simp)] at h
  have g2 : ∀ j, p2.fds.get j = if j = 2 then wanted em (p1.fds.get 2) else p1.fds.get j := by
    intro j
    by_cases hc : em ≠ .ignore ∧ om = em
    · rw [if_pos hc] at h2
      obtain ⟨f, f1, f2⟩ := dup2_ok h2
      rw [f2]
      have := g1 1
      rw [if_pos rfl, f1] at this
      have hw : wanted em (p1.fds.get 2) = some f := by
        rw [this, hc.2]
        cases em with
        | ignore => exact absurd rfl hc.1
        | pipe => rfl
        | null => rfl
      rw [hw]
    · rw [if_neg hc] at h2
      rw [out_ok h2]
      by_cases hj : j = 2
      · rw [if_pos hj, if_pos hj, hj]
      · rw [if_neg hj, if_neg hj]
  have hp : p' = closeFds range lim p2 := by cases h; rfl
  rw [hp, closeFds_get]
  by_cases j0 : j = 0
  · subst j0
    rw [if_pos (by omega), g2, if_neg (by omega), g1, if_neg (by omega), g0, if_pos rfl, if_pos rfl]
  rw [if_neg j0]
  by_cases j1 : j = 1
  · subst j1
    rw [if_pos (by omega), g2, if_neg (by omega), g1, if_pos rfl, g0, if_neg (by omega), if_pos rfl]
  rw [if_neg j1]
  by_cases j2 : j = 2
  · subst j2
    rw [if_pos (by omega), g2, if_pos rfl, g1, if_neg (by omega), g0, if_neg (by omega), if_pos rfl]
  rw [if_neg j2, if_neg (by omega), g2, if_neg j2, g1, if_neg j1, g0, if_neg j0]

/-! ### C104 -/

/-- C104: When the function succeeds, each of the standard descriptors that was to be redirected is redirected, each that was not refers to what it
did before (or is closed as before); and where `close_range` works all other descriptors are closed.  This holds also when some of the standard descriptors
were closed before. -/
theorem C104_sanitized (im om em : RMode) (lim : Option Nat) (p p' : Proc) (h : sanitize im om em true lim p = (0, p')) :
    p'.fds.get 0 = (if im = .ignore then p.fds.get 0 else some .pipeRead) ∧ p'.fds.get 1 = wanted om (p.fds.get 1) ∧ p'.fds.get 2 = wanted em (p.fds.get 2) ∧
    ∀ fd, 3 ≤ fd → p'.fds.get fd = none := by
  refine ⟨sanitize_get h 0, sanitize_get h 1, sanitize_get h 2, fun fd hfd => ?_⟩
  rw [sanitize_get h fd, if_neg (by omega), if_neg (by omega), if_neg (by omega), if_pos (.inl rfl)]

/-- C104, where descriptors are closed one by one, as far as it is true: the same for the descriptors below the hard limit and not above 65535. -/
theorem C104_one_by_one_partial (im om em : RMode) (lim : Option Nat) (p p' : Proc) (h : sanitize im om em false lim p = (0, p'))
    (hopen : ∀ fd f, p.fds.get fd = some f → fd ≤ 65535 ∧ ∀ m, lim = some m → fd < m) :
    p'.fds.get 0 = (if im = .ignore then p.fds.get 0 else some .pipeRead) ∧ p'.fds.get 1 = wanted om (p.fds.get 1) ∧ p'.fds.get 2 = wanted em (p.fds.get 2) ∧
    ∀ fd, 3 ≤ fd → p'.fds.get fd = none := by
  refine ⟨sanitize_get h 0, sanitize_get h 1, sanitize_get h 2, fun fd hfd => ?_⟩
  rw [sanitize_get h fd, if_neg (by omega), if_neg (by omega), if_neg (by omega)]
  by_cases hl : fd ≤ lastFd lim
  · rw [if_pos (.inr hl)]
  · rw [if_neg (by simp [hl])]
    cases hg : p.fds.get fd with
    | none => rfl
    | some f =>
      exfalso
      obtain ⟨h1, h2⟩ := hopen fd f hg
      apply hl
      unfold lastFd
      cases lim with
      | none => exact h1
      | some m =>
        have := h2 m rfl
        dsimp only
        by_cases ha : m > 65535
        · rw [if_pos ha]; exact h1
        · rw [if_neg ha]
          by_cases hb : m < 20
          · rw [if_pos hb]; omega
          · rw [if_neg hb]; omega

/-- C104: In no case is a write end of a pipe left open. -/
theorem C104_no_writer (im om em : RMode) (range : Bool) (lim : Option Nat) (p p' : Proc) (h : sanitize im om em range lim p = (0, p'))
    (hw : ∀ fd, p.fds.get fd ≠ some .pipeWrite) (fd : Nat) : p'.fds.get fd ≠ some .pipeWrite := by
  have hwant : ∀ m b, b ≠ some File.pipeWrite → wanted m b ≠ some .pipeWrite := by
    intro m b hb; cases m with
    | ignore => exact hb
    | pipe => simp [wanted]
    | null => simp [wanted]
  rw [sanitize_get h fd]
  by_cases j0 : fd = 0
  · rw [if_pos j0]; split
    · exact hw 0
    · simp
  rw [if_neg j0]
  by_cases j1 : fd = 1
  · rw [if_pos j1]; exact hwant _ _ (hw 1)
  rw [if_neg j1]
  by_cases j2 : fd = 2
  · rw [if_pos j2]; exact hwant _ _ (hw 2)
  rw [if_neg j2]
  split
  · simp
  · exact hw fd

theorem moveTo_succeeds {p : Proc} {old fd : Nat} {f : File} (hf : p.fds.get old = some f) (hn : p.faults = []) : ∃ p', p.moveTo old fd = (some (), p') ∧ p'.faults = [] := by
  unfold Proc.moveTo
  by_cases he : old = fd
  · rw [if_pos he]; exact ⟨p, rfl, hn⟩
  · rw [if_neg he]
    unfold Proc.dup2 Proc.next
    rw [hn]
    dsimp only
    rw [hf]
    exact ⟨_, rfl, hn⟩

theorem redirectOut_succeeds {p : Proc} (mode : RMode) (fd : Nat) (hn : p.faults = []) : ∃ p', redirectOut mode p fd = (some (), p') ∧ p'.faults = [] := by
  have hnx : p.next = (false, p) := by unfold Proc.next; rw [hn]
  cases mode with
  | ignore => exact ⟨p, rfl, hn⟩
  | pipe =>
    unfold redirectOut redirectInPipe
    dsimp only
    rw [hnx]
    dsimp only
    rw [if_neg (by simp)]
    refine moveTo_succeeds (f := .pipeRead) ?_ hn
    unfold Proc.alloc Proc.close
    dsimp only
    have hw := free_none (p.fds.put p.fds.free (some .pipeRead))
    generalize (p.fds.put p.fds.free (some .pipeRead)).free = w at hw
    have hrw : p.fds.free ≠ w := by rintro e; rw [← e, get_put, if_pos rfl] at hw; cases hw
    rw [get_put, if_neg hrw, get_put, if_neg hrw, get_put, if_pos rfl]
  | null =>
    unfold redirectOut redirectOutNull
    dsimp only
    rw [hnx]
    dsimp only
    rw [if_neg (by simp)]
    refine moveTo_succeeds (f := .null) ?_ hn
    unfold Proc.alloc
    dsimp only
    rw [get_put, if_pos rfl]

/-- C104: If no system call fails, the function succeeds. -/
theorem C104_succeeds (im om em : RMode) (range : Bool) (lim : Option Nat) (fds : Table) : ∃ p', sanitize im om em range lim ⟨fds, []⟩ = (0, p') := by
  unfold sanitize
  obtain ⟨p0, h0, f0⟩ : ∃ p0, (if im ≠ .ignore then redirectInPipe ⟨fds, []⟩ 0 else (some (), ⟨fds, []⟩)) = (some (), p0) ∧ p0.faults = [] := by
    by_cases hi : im ≠ .ignore
    · rw [if_pos hi]; exact redirectOut_succeeds (p := ⟨fds, []⟩) .pipe 0 rfl
    · rw [if_neg hi]; exact ⟨_, rfl, rfl⟩
  rw [h0]
  dsimp only
  rw [if_neg (by simp)]
  obtain ⟨p1, h1, f1⟩ := redirectOut_succeeds om 1 f0
  rw [h1]
  dsimp only
  rw [if_neg (by simp)]
  obtain ⟨p2, h2, f2⟩ : ∃ p2, (if em ≠ .ignore ∧ om = em then p1.dup2 1 2 else redirectOut em p1 2) = (some (), p2) ∧ p2.faults = [] := by
    by_cases hc : em ≠ .ignore ∧ om = em
    · rw [if_pos hc]
      obtain ⟨f, hf⟩ : ∃ f, p1.fds.get 1 = some f := by
        rw [out_ok h1, if_pos rfl, hc.2]
        cases em with
        | ignore => exact absurd rfl hc.1
        | pipe => exact ⟨_, rfl⟩
        | null => exact ⟨_, rfl⟩
      unfold Proc.dup2 Proc.next
      rw [f1]
      dsimp only
      rw [hf]
      exact ⟨_, rfl, f1⟩
    · rw [if_neg hc]; exact redirectOut_succeeds em 2 f1
  rw [h2]
  dsimp only
  rw [if_neg (by simp)]
  exact ⟨_, rfl⟩

/-- the helper of a daemon that has standard input closed, a socket on 3 and a file on 5 -/
example : sanitize .pipe .ignore .null true none ⟨[none, some (.inherited 1), some (.inherited 2), some (.inherited 3), none, some (.inherited 5)], []⟩ =
    (0, ⟨[some .pipeRead, some (.inherited 1), some .null], []⟩) := by decide
example : sanitize .ignore .pipe .pipe true none ⟨[none, none, none, some (.inherited 3)], []⟩ = (0, ⟨[none, some .pipeRead, some .pipeRead], []⟩) := by decide
example : (sanitize .pipe .null .null false (some 30) ⟨[none, some (.inherited 1), some (.inherited 2), some (.inherited 3)], []⟩).2.fds.take 4 =
    [some .pipeRead, some .null, some .null, none] := by decide
/-- a `dup2` that fails -/
example : (sanitize .pipe .ignore .ignore true none ⟨[some (.inherited 0)], [false, true]⟩).1 = -1 := by decide

/-- Without a working `close_range`, a descriptor above 65535 stays open. -/
theorem C104_high_counterexample : ∃ fds p', sanitize .ignore .ignore .ignore false (some 100000) ⟨fds, []⟩ = (0, p') ∧
    p'.fds.get 65536 = some (.inherited 65536) := by
  obtain ⟨p', h⟩ := C104_succeeds .ignore .ignore .ignore false (some 100000) (Table.put [] 65536 (some (.inherited 65536)))
  refine ⟨_, p', h, ?_⟩
  rw [sanitize_get h, if_neg (by omega), if_neg (by omega), if_neg (by omega), if_neg (by simp [lastFd]), get_put, if_pos rfl]

end Pam.Misc
