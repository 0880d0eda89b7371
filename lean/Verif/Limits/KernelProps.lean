import Verif.Limits.Kernel
import Verif.Limits.Props
/-
C156: with set_all the limits are those of the first process, as the kernel reports them.
-/
namespace Pam.Limits.Kernel
open Pam Pam.Access Pam.Limits Pam.Limits.Spec

namespace Spec

/-- `%-ns` -/
def pad (n : Nat) (s : Str) : Str := s ++ List.replicate (n - s.length) ' '

/-- a limit as the kernel writes it -/
def text (v : Nat) : Str := if v = 18446744073709551615 then "unlimited".toList else Nat.toDigits 10 v

/-- the names and units of limits in the kernel (fs/proc/base.c, `lnames`) -/
def title : Res → Str × Option Str
  | .cpu => ("Max cpu time".toList, some "seconds".toList)
  | .fsize => ("Max file size".toList, some "bytes".toList)
  | .data => ("Max data size".toList, some "bytes".toList)
  | .stack => ("Max stack size".toList, some "bytes".toList)
  | .core => ("Max core file size".toList, some "bytes".toList)
  | .rss => ("Max resident set".toList, some "bytes".toList)
  | .nproc => ("Max processes".toList, some "processes".toList)
  | .nofile => ("Max open files".toList, some "files".toList)
  | .memlock => ("Max locked memory".toList, some "bytes".toList)
  | .as => ("Max address space".toList, some "bytes".toList)
  | .locks => ("Max file locks".toList, some "locks".toList)
  | .sigpending => ("Max pending signals".toList, some "signals".toList)
  | .msgqueue => ("Max msgqueue size".toList, some "bytes".toList)
  | .nice => ("Max nice priority".toList, none)
  | .rtprio => ("Max realtime priority".toList, none)
  | .rttime => ("Max realtime timeout".toList, some "us".toList)

/-- `"%-25s %-20s %-20s %-10s\n"` -/
def header : Str := pad 25 "Limit".toList ++ ' ' :: (pad 20 "Soft Limit".toList ++ ' ' :: (pad 20 "Hard Limit".toList ++ ' ' :: (pad 10 "Units".toList ++ ['\n'])))

/-- the line of a limit -/
def row (r : Res) (soft hard : Nat) : Str :=
  pad 25 (title r).1 ++ ' ' :: (pad 20 (text soft) ++ ' ' :: (pad 20 (text hard) ++ ' ' :: (((title r).2.map (pad 10)).getD [] ++ ['\n'])))

/-- the report of the kernel: the limits in any order -/
def report (rows : List (Res × Nat × Nat)) : List Str := header :: rows.map (fun x => row x.1 x.2.1 x.2.2)

end Spec
open Spec

/-! ### words and blanks from the end -/

/-- a word: no blanks -/
def Word (w : Str) : Prop := w ≠ [] ∧ ∀ c ∈ w, c ≠ ' '

theorem back_all (go : Char → Bool) (w : Str) (c d : Char) (r : Str) (hw : ∀ x ∈ w, go x = true) (hc : go c = false) :
    back go (w ++ c :: d :: r) = (w, c :: d :: r) := by
  induction w with
  | nil => simp [back, hc]
  | cons a t ih =>
    have ih := ih (fun x hx => hw x (List.mem_cons_of_mem _ hx))
    have ha := hw a List.mem_cons_self
    cases h : t ++ c :: d :: r with
    | nil => simp at h
    | cons b u =>
      rw [List.cons_append, h, back, if_pos ha, ← h, ih]

theorem skip_spec (x : Char) (n : Nat) (c d : Char) (r : Str) (hc : c ≠ ' ') :
    skipWhitespace (x :: (List.replicate n ' ' ++ c :: d :: r)) = .ok (c :: d :: r) := by
  have hb : back (fun c => c == ' ') (List.replicate n ' ' ++ c :: d :: r) = (List.replicate n ' ', c :: d :: r) :=
    back_all _ _ _ _ _ (by intro y hy; rw [List.eq_of_mem_replicate hy]; rfl) (by simpa using hc)
  cases h : List.replicate n ' ' ++ c :: d :: r with
  | nil => simp at h
  | cons a t =>
    rw [skipWhitespace, ← h, hb, if_neg (by simp only [List.length_cons]; omega)]
    intro h'; simp at h'

theorem mark_spec (w : Str) (hw : Word w) (d : Char) (r : Str) :
    markItem (w.reverse ++ ' ' :: d :: r) = .ok (w, ' ' :: d :: r) := by
  cases h : w.reverse with
  | nil => exact absurd (by simpa using h) hw.1
  | cons c t =>
    have hm : ∀ x ∈ c :: t, x ≠ ' ' := by
      intro x hx; rw [← h] at hx; exact hw.2 x (by simpa using hx)
    have hb : back (fun c => c != ' ') (t ++ ' ' :: d :: r) = (t, ' ' :: d :: r) :=
      back_all _ _ _ _ _ (by intro y hy; simpa using hm y (List.mem_cons_of_mem _ hy)) (by decide)
    have hr : (c :: t).reverse = w := by rw [← h, List.reverse_reverse]
    cases h' : t ++ ' ' :: d :: r with
    | nil => simp at h'
    | cons a u =>
      rw [List.cons_append, h', markItem, ← h', hb, if_neg (by simp only [List.length_cons]; omega), hr]
      intro e; simp at e

/-- a word behind which blanks stand, from the end -/
theorem skip_word (x : Char) (w : Str) (hw : Word w) (n : Nat) (d : Char) (r : Str) :
    skipWhitespace (x :: (List.replicate n ' ' ++ (w.reverse ++ d :: r))) = .ok (w.reverse ++ d :: r) := by
  cases h : w.reverse with
  | nil => exact absurd (by simpa using h) hw.1
  | cons c t =>
    have hc : c ≠ ' ' := hw.2 c (by rw [← List.mem_reverse, h]; exact List.mem_cons_self)
    cases ht : t ++ d :: r with
    | nil => simp at ht
    | cons e u =>
      rw [List.cons_append, ht]
      exact skip_spec x n c e u hc

theorem pad_rev (n : Nat) (s : Str) : (pad n s).reverse = List.replicate (n - s.length) ' ' ++ s.reverse := by
  rw [pad, List.reverse_append, List.reverse_replicate]

theorem rev3 (a b c : Str) : (a ++ ' ' :: (b ++ ' ' :: c)).reverse = c.reverse ++ ' ' :: (b.reverse ++ ' ' :: a.reverse) := by
  simp

/-- the tail of the reversed line, from the hard limit down -/
theorem fields_core (x : Char) (m : Str) (soft hard name : Str) (hs : Word soft) (hh : Word hard)
    (hn : 2 ≤ name.length) (hl : ∀ c, name.getLast? = some c → c ≠ ' ') (i j k : Nat) (_ : m = List.replicate k ' ') :
    (do
      let r2 ← skipWhitespace (x :: (List.replicate i ' ' ++ (hard.reverse ++ ' ' :: (List.replicate j ' ' ++ (soft.reverse ++ ' ' :: (m ++ name.reverse))))))
      let hard ← markItem r2
      let r3 ← skipWhitespace hard.2
      let soft ← markItem r3
      let name ← skipWhitespace soft.2
      pure (name.reverse, soft.1, hard.1) : Except Stop (Str × Str × Str)) = .ok (name, soft, hard) := by
  subst_vars
  have cons_of : ∀ (n : Nat) (w : Str) (z : Char) (r : Str), ∃ d u, List.replicate n ' ' ++ (w ++ z :: r) = d :: u := by
    intro n w z r
    cases h : List.replicate n ' ' ++ (w ++ z :: r) with
    | nil => simp at h
    | cons d u => exact ⟨d, u, rfl⟩
  have hnr : ∃ c d u, name.reverse = c :: d :: u ∧ c ≠ ' ' := by
    cases h : name.reverse with
    | nil => have := congrArg List.length h; simp at this; subst this; simp at hn
    | cons c t =>
      cases t with
      | nil => have := congrArg List.length h; simp at this; omega
      | cons d u =>
        refine ⟨c, d, u, rfl, hl c ?_⟩
        rw [← List.head?_reverse, h]; rfl
  obtain ⟨c, d, u, hnr, hc⟩ := hnr
  have hname : name = (c :: d :: u).reverse := by rw [← hnr, List.reverse_reverse]
  rw [hnr]
  rw [skip_word x hard hh i ' ' _]
  obtain ⟨d1, u1, e1⟩ := cons_of j soft.reverse ' ' (List.replicate k ' ' ++ c :: d :: u)
  obtain ⟨d2, u2, e2⟩ := cons_of k [c] d u
  rw [show List.replicate k ' ' ++ ([c] ++ d :: u) = List.replicate k ' ' ++ c :: d :: u from rfl] at e2
  simp only [bind, Except.bind, pure, Except.pure]
  rw [e1, mark_spec hard hh]
  simp only
  rw [← e1, skip_word ' ' soft hs j ' ' _]
  simp only
  rw [e2, mark_spec soft hs]
  simp only
  rw [← e2, skip_spec ' ' k c d u hc]
  simp only
  rw [hname]

theorem fields_units (name soft hard units : Str) (hs : Word soft) (hh : Word hard) (hu : Word units)
    (hn : 2 ≤ name.length) (hl : ∀ c, name.getLast? = some c → c ≠ ' ') (a b c d : Nat) :
    fields true (pad a name ++ ' ' :: (pad b soft ++ ' ' :: (pad c hard ++ ' ' :: pad d units))) = .ok (name, soft, hard) := by
  have e : (pad a name ++ ' ' :: (pad b soft ++ ' ' :: (pad c hard ++ ' ' :: pad d units))).reverse =
      List.replicate (d - units.length) ' ' ++ (units.reverse ++ ' ' :: (List.replicate (c - hard.length) ' ' ++ (hard.reverse ++ ' ' ::
        (List.replicate (b - soft.length) ' ' ++ (soft.reverse ++ ' ' :: (List.replicate (a - name.length) ' ' ++ name.reverse)))))) := by
    simp only [List.reverse_append, List.reverse_cons, pad_rev, List.append_assoc, List.cons_append, List.nil_append]
  unfold fields
  simp only [if_true, e]
  rw [skip_word NUL units hu]
  obtain ⟨d1, u1, e1⟩ : ∃ d1 u1, List.replicate (c - hard.length) ' ' ++ (hard.reverse ++ ' ' ::
        (List.replicate (b - soft.length) ' ' ++ (soft.reverse ++ ' ' :: (List.replicate (a - name.length) ' ' ++ name.reverse)))) = d1 :: u1 := by
    cases h : List.replicate (c - hard.length) ' ' ++ (hard.reverse ++ ' ' ::
        (List.replicate (b - soft.length) ' ' ++ (soft.reverse ++ ' ' :: (List.replicate (a - name.length) ' ' ++ name.reverse)))) with
    | nil => simp at h
    | cons p q => exact ⟨p, q, rfl⟩
  have := fields_core ' ' (List.replicate (a - name.length) ' ') soft hard name hs hh hn hl (c - hard.length) (b - soft.length) (a - name.length) rfl
  rw [e1] at this
  rw [e1]
  simp only [bind, Except.bind, pure, Except.pure]
  rw [mark_spec units hu]
  simp only
  exact this

theorem fields_nounits (name soft hard : Str) (hs : Word soft) (hh : Word hard)
    (hn : 2 ≤ name.length) (hl : ∀ c, name.getLast? = some c → c ≠ ' ') (a b c : Nat) :
    fields false (pad a name ++ ' ' :: (pad b soft ++ ' ' :: (pad c hard ++ [' ']))) = .ok (name, soft, hard) := by
  have e : (pad a name ++ ' ' :: (pad b soft ++ ' ' :: (pad c hard ++ [' ']))).reverse =
      List.replicate (c - hard.length + 1) ' ' ++ (hard.reverse ++ ' ' ::
        (List.replicate (b - soft.length) ' ' ++ (soft.reverse ++ ' ' :: (List.replicate (a - name.length) ' ' ++ name.reverse)))) := by
    simp only [List.reverse_append, List.reverse_cons, pad_rev, List.append_assoc, List.replicate_succ, List.reverse_nil,
      List.nil_append, List.cons_append]
  have := fields_core NUL (List.replicate (a - name.length) ' ') soft hard name hs hh hn hl (c - hard.length + 1) (b - soft.length) (a - name.length) rfl
  unfold fields
  simp only [Bool.false_eq_true, if_false, e]
  exact this

/-! ### numbers -/

theorem digit_not_blank {c : Char} (h : isDigitOf 10 c) : c ≠ ' ' := by
  intro e; subst e; revert h; decide

theorem text_word (v : Nat) : Word (text v) := by
  unfold text
  split
  · exact ⟨by decide, by decide⟩
  · obtain ⟨h1, h2, _, _⟩ := toDigits_spec v
    exact ⟨h1, fun c hc => digit_not_blank (h2 c hc)⟩

theorem text_len (v : Nat) (h : v ≤ INF) : (text v).length ≤ 20 := by
  unfold text
  split
  · decide
  · rw [Nat.length_toDigits_le_iff (by decide) (by decide)]
    simp only [INF] at h
    omega

theorem text_value (v : Nat) (h : v ≤ INF) : str2rlim (text v) = v := by
  unfold str2rlim text
  split
  · rename_i e; rw [if_pos rfl, e]; rfl
  · obtain ⟨h1, h2, h3, _⟩ := toDigits_spec v
    rw [if_neg]
    · have := (strtoInt_base 10 (by decide) (by decide) (by decide) (Nat.toDigits 10 v) (v : Int)).mpr
        ⟨[], Nat.toDigits 10 v, v, by simp, ⟨h1, h2, h3.symm⟩, Or.inl ⟨rfl, rfl⟩⟩
      rw [this.1]
      have e0 : ((v : Int), ([] : Str)).1 = v := rfl
      rw [e0]
      unfold ulong
      simp only [INF] at h
      repeat' split
      all_goals omega
    · intro e
      have := h2 'u' (by rw [e]; decide)
      revert this; decide

theorem title_spec (r : Res) : lname r = (title r).1 ∧ 2 ≤ (title r).1.length ∧ (title r).1.length ≤ 25 ∧
    (∀ c, (title r).1.getLast? = some c → c ≠ ' ') ∧ str2rlimit (title r).1 = some r ∧
    (∀ u, (title r).2 = some u → Word u ∧ u.length ≤ 10) ∧ (title r).1.head? = some 'M' := by
  cases r <;> refine ⟨rfl, by decide, by decide, ?_, by decide +kernel, ?_, rfl⟩
  all_goals first
    | (intro u hu; cases hu; exact ⟨⟨by decide, by decide⟩, by decide⟩)
    | (intro u hu; cases hu; done)
    | (intro c hc; cases hc; decide)

theorem pad_length (n : Nat) (s : Str) (h : s.length ≤ n) : (pad n s).length = n := by
  simp [pad]; omega

/-! ### one line -/

theorem strip (l : Str) : (if (l ++ ['\n']).getLast? = some '\n' then (l ++ ['\n']).dropLast else l ++ ['\n']) = l := by
  rw [if_pos (by simp), List.dropLast_concat]

theorem step_row (t : Res → Option (Nat × Nat)) (r : Res) (soft hard : Nat) (hs : soft ≤ INF) (hh : hard ≤ INF) :
    step ⟨78, t⟩ (row r soft hard) = some ⟨78, fun x => if x = r then some (soft, hard) else t x⟩ := by
  obtain ⟨h1, h2, h3, h4, h5, h6, h7⟩ := title_spec r
  have l1 := pad_length 25 _ h3
  have l2 := pad_length 20 _ (text_len soft hs)
  have l3 := pad_length 20 _ (text_len hard hh)
  obtain ⟨body, hbody, hlen, hf⟩ : ∃ body, row r soft hard = body ++ ['\n'] ∧ 2 ≤ body.length ∧
      fields (decide (body.length = 78)) body = .ok ((title r).1, text soft, text hard) := by
    cases hu : (title r).2 with
    | some u =>
      obtain ⟨hw, hl⟩ := h6 u hu
      have l4 := pad_length 10 _ hl
      refine ⟨pad 25 (title r).1 ++ ' ' :: (pad 20 (text soft) ++ ' ' :: (pad 20 (text hard) ++ ' ' :: pad 10 u)), ?_, ?_, ?_⟩
      · simp [row, hu]
      · simp [l1, l2, l3, l4]
      · rw [decide_eq_true (by simp [l1, l2, l3, l4])]
        exact fields_units _ _ _ _ (text_word _) (text_word _) hw h2 h4 _ _ _ _
    | none =>
      refine ⟨pad 25 (title r).1 ++ ' ' :: (pad 20 (text soft) ++ ' ' :: (pad 20 (text hard) ++ [' '])), ?_, ?_, ?_⟩
      · simp [row, hu]
      · simp [l1, l2, l3]
      · rw [decide_eq_false (by simp [l1, l2, l3])]
        exact fields_nounits _ _ _ (text_word _) (text_word _) h2 h4 _ _ _
  unfold step
  rw [hbody, strip, if_neg (by simp; omega)]
  simp only
  rw [if_neg (by intro h; exact absurd h.1 (by decide)), hf]
  simp only [h5, text_value _ hs, text_value _ hh]

theorem step_header (t : Res → Option (Nat × Nat)) : step ⟨0, t⟩ header = some ⟨78, t⟩ := by
  unfold step
  rw [if_neg (by decide)]
  simp only
  rw [if_pos (by exact ⟨trivial, by decide⟩)]
  rfl

theorem loop_rows : ∀ (rows : List (Res × Nat × Nat)) (t : Res → Option (Nat × Nat)), (∀ x ∈ rows, x.2.1 ≤ INF ∧ x.2.2 ≤ INF) →
    ∃ s, loop ⟨78, t⟩ (rows.map (fun x => row x.1 x.2.1 x.2.2)) = some s ∧
      ∀ r, s.table r = ((rows.filter (fun x => decide (x.1 = r))).getLast?.map (·.2)).or (t r)
  | [], t, _ => ⟨⟨78, t⟩, rfl, fun r => by simp⟩
  | x :: rows, t, h => by
    have hx := h x List.mem_cons_self
    obtain ⟨s, h1, h2⟩ := loop_rows rows (fun y => if y = x.1 then some (x.2.1, x.2.2) else t y) (fun y hy => h y (List.mem_cons_of_mem _ hy))
    refine ⟨s, ?_, ?_⟩
    · rw [List.map_cons, loop, step_row t _ _ _ hx.1 hx.2]
      exact h1
    · intro r
      rw [h2]
      by_cases hr : x.1 = r
      · rw [List.filter_cons_of_pos (by simpa using hr), if_pos hr.symm]
        cases hl : rows.filter (fun x => decide (x.1 = r)) with
        | nil => rfl
        | cons a b => rw [List.getLast?_cons_cons]; cases hg : (a :: b).getLast? with
          | none => simp at hg
          | some z => rfl
      · rw [List.filter_cons_of_neg (by simpa using hr), if_neg (fun e => hr e.symm)]

/-! ### C156 -/

/-- **C156** What the kernel reports is read back: for whatever limits, in whatever order and even if one is reported twice (the last
counts), each limit in the report is found with its soft and hard value, and no other is found. -/
theorem C156_report (rows : List (Res × Nat × Nat)) (h : ∀ x ∈ rows, x.2.1 ≤ 18446744073709551615 ∧ x.2.2 ≤ 18446744073709551615) :
    ∃ t, parseKernel (some (report rows)) = some t ∧ ∀ r, t r = (rows.filter (fun x => decide (x.1 = r))).getLast?.map (·.2) := by
  obtain ⟨s, h1, h2⟩ := loop_rows rows (fun _ => none) h
  refine ⟨s.table, ?_, ?_⟩
  · simp only [parseKernel, report, loop, step_header, h1, Option.map_some]
  · intro r; rw [h2]; simp

theorem back_len (go : Char → Bool) : ∀ r : Str, r ≠ [] → (back go r).2 ≠ []
  | [], h => absurd rfl h
  | [_], _ => by simp [back]
  | c :: d :: r, _ => by
    rw [back]
    split
    · exact back_len go (d :: r) (by simp)
    · simp

theorem skip_safe (r : Str) (h : 2 ≤ r.length) : skipWhitespace r = .error .again ∨ ∃ x, skipWhitespace r = .ok x ∧ 2 ≤ x.length := by
  match r, h with
  | a :: b :: t, _ =>
    rw [skipWhitespace]
    · split
      · exact Or.inl rfl
      · exact Or.inr ⟨_, rfl, by omega⟩
    · intro e; cases e

theorem mark_safe (r : Str) (h : 2 ≤ r.length) : markItem r = .error .again ∨ ∃ x, markItem r = .ok x ∧ 2 ≤ x.2.length := by
  match r, h with
  | a :: b :: t, _ =>
    rw [markItem]
    · split
      · exact Or.inl rfl
      · exact Or.inr ⟨_, rfl, by simp only; omega⟩
    · intro e; cases e

theorem fields_safe (u : Bool) (line : Str) (h : line ≠ []) : fields u line ≠ .error .wild := by
  have hl : 2 ≤ (NUL :: line.reverse).length := by
    have := List.length_pos_iff.mpr h
    simp; omega
  have core : ∀ r1 : Str, 2 ≤ r1.length → (do
      let r2 ← skipWhitespace r1
      let hard ← markItem r2
      let r3 ← skipWhitespace hard.2
      let soft ← markItem r3
      let name ← skipWhitespace soft.2
      pure (name.reverse, soft.1, hard.1) : Except Stop (Str × Str × Str)) ≠ .error .wild := by
    intro r1 h1
    rcases skip_safe r1 h1 with e | ⟨r2, e, h2⟩
    · rw [e]; simp [bind, Except.bind]
    rcases mark_safe r2 h2 with e' | ⟨x, e', h3⟩
    · rw [e]; simp [bind, Except.bind, e']
    rcases skip_safe x.2 h3 with e3 | ⟨r3, e3, h4⟩
    · rw [e]; simp [bind, Except.bind, e', e3]
    rcases mark_safe r3 h4 with e4 | ⟨y, e4, h5⟩
    · rw [e]; simp [bind, Except.bind, e', e3, e4]
    rcases skip_safe y.2 h5 with e5 | ⟨z, e5, _⟩
    · rw [e]; simp [bind, Except.bind, e', e3, e4, e5]
    · rw [e]; simp [bind, Except.bind, e', e3, e4, e5, pure, Except.pure]
  unfold fields
  cases u with
  | false => exact core _ hl
  | true =>
    rcases skip_safe _ hl with e | ⟨r2, e, h2⟩
    · simp [bind, Except.bind, e]
    rcases mark_safe r2 h2 with e' | ⟨x, e', h3⟩
    · simp [bind, Except.bind, e, e']
    · have := core x.2 h3
      simp only [bind, Except.bind, if_true, e, e', pure, Except.pure] at this ⊢
      exact this

/-- **C156** Whatever is in the file, the reader stays inside its lines. -/
theorem C156_safe (file : Option (List Str)) : parseKernel file ≠ none := by
  have hstep : ∀ s l, step s l ≠ none := by
    intro s l
    unfold step
    by_cases hlen : l.length < 2
    · rw [if_pos hlen]; simp
    rw [if_neg hlen]
    have hne : (if l.getLast? = some '\n' then l.dropLast else l) ≠ [] := by
      intro e
      have := congrArg List.length e
      split at this
      · rw [List.length_dropLast] at this; simp only [List.length_nil] at this; omega
      · simp only [List.length_nil] at this; omega
    generalize (if l.getLast? = some '\n' then l.dropLast else l) = line at hne
    simp only
    split
    · nofun
    split
    · rename_i e; exact absurd e (fields_safe _ _ hne)
    · nofun
    · split <;> nofun
  have hloop : ∀ ls s, loop s ls ≠ none := by
    intro ls
    induction ls with
    | nil => intro s; simp [loop]
    | cons l ls ih =>
      intro s
      rw [loop]
      cases h : step s l with
      | none => exact absurd h (hstep s l)
      | some s' => exact ih s'
  cases file with
  | none => simp [parseKernel]
  | some ls =>
    cases h : loop ⟨0, fun _ => none⟩ ls with
    | none => exact absurd h (hloop _ _)
    | some s => simp [parseKernel, h]

/-- **C156** With set_all and files that say nothing, the session gets the limits of the first process: for each resource the kernel
knows and reports, its hard limit is set to the reported one, and its soft limit to the reported one or the hard limit if that is
smaller. -/
theorem C156_session (sys : Sys) (c : Call) (argv : List Str) (u : User) (prio : Int) (lines : List Str)
    (hc : Ready c u prio) (hl : ReadsAll c (parseArgs argv) lines) (ht : Table sys u lines [])
    (ha : (parseArgs argv).setAll = true)
    (rows : List (Res × Nat × Nat)) (h : ∀ x ∈ rows, x.2.1 ≤ 18446744073709551615 ∧ x.2.2 ≤ 18446744073709551615)
    (hk : parseKernel (some (report rows)) = some c.kernel) (r : Res) (l : Nat × Nat) (hr : c.getrlimit r = some l) (cur max : Nat) :
    Effect.setrlimit r cur max ∈ (openSession sys c argv).2 ↔
      ∃ soft hard, (rows.filter (fun x => decide (x.1 = r))).getLast?.map (·.2) = some (soft, hard) ∧ max = hard ∧ cur = min soft hard := by
  obtain ⟨t, h1, h2⟩ := C156_report rows h
  have hkr : c.kernel r = (rows.filter (fun x => decide (x.1 = r))).getLast?.map (·.2) := by
    rw [h1] at hk; rw [← h2]; cases hk; rfl
  obtain ⟨soft, hard, hs, hh, he⟩ := C42_limits_partial sys c argv u prio lines [] hc hl ht r l hr (by nofun)
  rw [he]
  rcases hs with ⟨e, k, ⟨pre, post, hw, _⟩, _⟩ | ⟨_, hs⟩
  · simp at hw
  rcases hh (Or.inl (by nofun)) with ⟨e, k, ⟨pre, post, hw, _⟩, _⟩ | ⟨_, hh⟩
  · simp at hw
  rw [hs, hh, ← hkr]
  simp only [before, ha, if_true]
  constructor
  · rintro ⟨⟨e, he, _⟩ | ⟨_, hsome⟩, h3, h4⟩
    · cases he
    · cases hv : c.kernel r with
      | none => rw [hv] at hsome; cases hsome
      | some v => rw [hv] at h3 h4; exact ⟨v.1, v.2, rfl, h4, h3⟩
  · rintro ⟨soft, hard, hv, h3, h4⟩
    rw [hv]
    exact ⟨Or.inr ⟨trivial, rfl⟩, h4, h3⟩

/-- the limits of a first process -/
def exRows : List (Res × Nat × Nat) := [(.cpu, 18446744073709551615, 18446744073709551615), (.nofile, 1024, 524288), (.nice, 0, 0)]

example : row .nofile 1024 524288 = "Max open files            1024                 524288               files     \n".toList := by decide +kernel
example : row .nice 0 0 = "Max nice priority         0                    0                    \n".toList := by decide +kernel
example : (parseKernel (some (report exRows))).map (fun t => (t .cpu, t .nofile, t .nice, t .core)) =
    some (some (18446744073709551615, 18446744073709551615), some (1024, 524288), some (0, 0), none) := by decide +kernel
/-- a file of another kind is no harm -/
example : (parseKernel (some ["\n".toList, "x\n".toList, "  \n".toList, "Max open files 7".toList, "Max open files 7 8".toList])).map (fun t => t .nofile) =
    some (some (7, 8)) := by decide +kernel
/-- the session of C156_session: an empty file, the report above -/
example : Effect.setrlimit .nofile 1024 524288 ∈ (openSession exSys { exCallOf [] with
    kernel := fun r => ((parseKernel (some (report exRows))).bind (fun t => t r)) } ["set_all".toList]).2 := by decide +kernel

theorem takeBase_10 (u : Str) : takeBase 10 u = (10, u) := by
  unfold takeBase; rw [if_neg (by decide)]

theorem magnitude_tail (tail : Str) (ht : ∀ c, tail.head? = some c → isDigitOf 10 c = false) : ∀ (ds : Str) (acc : Nat), (∀ c ∈ ds, isDigitOf 10 c) →
    magnitude 10 acc (ds ++ tail) = (ds.foldl (fun a c => a * 10 + digitVal c) acc, tail)
  | [], acc, _ => by
    cases tail with
    | nil => rfl
    | cons c r =>
      have := ht c rfl
      simp only [List.nil_append, List.foldl_nil, magnitude, this, Bool.false_eq_true, if_false]
  | c :: r, acc, h => by
    rw [List.cons_append, magnitude, if_pos (h c (by simp)), magnitude_tail tail ht r _ (fun d hd => h d (by simp [hd]))]
    rfl

theorem number_tail (n : Nat) (tail : Str) (ht : ∀ c, tail.head? = some c → isDigitOf 10 c = false) :
    strtoInt 10 (Nat.toDigits 10 n ++ tail) = ((n : Int), tail) := by
  obtain ⟨h1, h2, h3, _⟩ := toDigits_spec n
  have hm := magnitude_tail tail ht (Nat.toDigits 10 n) 0 h2
  have hv : (Nat.toDigits 10 n).foldl (fun a c => a * 10 + digitVal c) 0 = n := h3
  rw [hv] at hm
  cases hd : Nat.toDigits 10 n with
  | nil => exact absurd hd h1
  | cons c r =>
    have hc := h2 c (by rw [hd]; exact List.mem_cons_self)
    have hsp : isSpace c = false := (digit_not_space (by decide) hc).1
    have hs1 : c ≠ '-' := by intro e; subst e; revert hc; decide
    have hs2 : c ≠ '+' := by intro e; subst e; revert hc; decide
    rw [hd] at hm
    rw [List.cons_append] at hm ⊢
    simp only [strtoInt, List.dropWhile_cons, hsp, takeSign, if_neg hs1, if_neg hs2, takeBase_10, beginsNumber, hc, hm, Bool.false_eq_true,
      if_false, if_true]

/-- **C156** The number in /proc/sys/fs/nr_open is what an unlimited number of files stands for: a decimal number of 64 bits, with anything
that is not a digit behind it, is read as that number. -/
theorem C156_number (n : Nat) (h : n ≤ 18446744073709551615) (tail : Str) (ht : ∀ c, tail.head? = some c → isDigitOf 10 c = false) :
    valueFromFile (some (Nat.toDigits 10 n ++ tail)) = some n := by
  obtain ⟨h1, h2, h3, _⟩ := toDigits_spec n
  have key := number_tail n tail ht
  have hne : tail ≠ Nat.toDigits 10 n ++ tail := by
    intro e
    have := congrArg List.length e
    have := List.length_pos_iff.mpr h1
    simp only [List.length_append] at *
    omega
  unfold valueFromFile
  simp only [key]
  rw [if_neg hne, if_neg]
  · unfold ulong
    repeat' split
    all_goals first | omega | (congr 1; done) | (congr 1; omega)
  · rintro ⟨_, h⟩
    simp only [overflows, decide_eq_true_eq] at h
    omega

/-- **C156** Nothing is read from a file that does not begin with a number, or whose number has more than 64 bits. -/
theorem C156_no_number : valueFromFile none = none ∧ (∀ s : Str, (∀ c, s.head? = some c → isSpace c = false ∧ c ≠ '+' ∧ c ≠ '-' ∧ isDigitOf 10 c = false) →
      valueFromFile (some s) = none) ∧
    ∀ (n : Nat) (tail : Str), 18446744073709551615 < n → (∀ c, tail.head? = some c → isDigitOf 10 c = false) →
      valueFromFile (some (Nat.toDigits 10 n ++ tail)) = none := by
  refine ⟨rfl, ?_, ?_⟩
  · intro s hs
    have : strtoInt 10 s = (0, s) := by
      cases s with
      | nil => rfl
      | cons c r =>
        obtain ⟨h1, h2, h3, h4⟩ := hs c rfl
        simp only [strtoInt, List.dropWhile_cons, h1, takeSign, if_neg h2, if_neg h3, takeBase_10, beginsNumber, h4, Bool.false_eq_true, if_false]
    simp only [valueFromFile, this, if_true]
  · intro n tail hn ht
    unfold valueFromFile
    simp only [number_tail n tail ht]
    split
    · rfl
    · have h1 : ¬ ((n : Int).natAbs < 2 ^ 64) := by omega
      rw [if_pos]
      exact ⟨by rw [ulong, if_neg h1], by simp only [overflows, decide_eq_true_eq]; omega⟩

example : valueFromFile (some "1048576\n".toList) = some 1048576 := by decide +kernel
example : valueFromFile (some "18446744073709551616\n".toList) = none := by decide +kernel

end Pam.Limits.Kernel
