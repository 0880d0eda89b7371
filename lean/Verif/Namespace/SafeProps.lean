import Verif.Namespace.Setup
import Verif.Namespace.ConfigProps
/-
C168: when the script that initialises an instance is told that a path is safe.
-/
namespace Pam.Namespace.Spec
open Pam

/-- group or others may write -/
def OthersWrite (mode : Nat) : Prop := mode.testBit 4 = true ∨ mode.testBit 1 = true

/-- only owners may remove files: the sticky bit -/
def Sticky (mode : Nat) : Prop := mode.testBit 9 = true

/-- a directory of root in which nobody else may replace what is in it, unless it is theirs -/
structure OwnedByRoot (a : Stat) : Prop where
  dir : a.kind = .dir
  owner : a.uid = 0
  write : OthersWrite a.mode → Sticky a.mode

/-- a directory of root, or a link of root to one -/
def Trusted (lstat stat : Str → Option Stat) (d : Str) : Prop :=
  (∃ a, lstat d = some a ∧ a.kind ≠ .link ∧ OwnedByRoot a) ∨ (∃ a b, lstat d = some a ∧ a.kind = .link ∧ a.uid = 0 ∧ stat d = some b ∧ OwnedByRoot b)

/-- `d` is a directory on the way to `t`: below the root, and not `t` itself -/
def Above (d t : Str) : Prop := d ≠ [] ∧ ∃ r, t = d ++ '/' :: r

/-- a path all of whose directories can be trusted, but for the last part -/
def SafePath (lstat stat : Str → Option Stat) (path : Str) : Prop := Absolute path ∧ ∀ t, Stripped path t → ∀ d, Above d t → Trusted lstat stat d

end Pam.Namespace.Spec

namespace Pam.Namespace
open Pam

theorem and18 (m : Nat) : m &&& 0o22 ≠ 0 ↔ Spec.OthersWrite m := by
  constructor
  · intro h
    rw [Spec.OthersWrite]
    apply Classical.byContradiction
    intro hn
    apply h
    apply Nat.eq_of_testBit_eq
    intro i
    rw [Nat.testBit_and, Nat.zero_testBit]
    by_cases h1 : i = 1
    · subst h1; simp only [not_or, Bool.not_eq_true] at hn; rw [hn.2]; rfl
    · by_cases h4 : i = 4
      · subst h4; simp only [not_or, Bool.not_eq_true] at hn; rw [hn.1]; rfl
      · have : (0o22 : Nat).testBit i = false := by
          by_cases hi : i < 5
          · have : i = 0 ∨ i = 2 ∨ i = 3 := by omega
            rcases this with rfl | rfl | rfl <;> rfl
          · apply Nat.testBit_lt_two_pow
            calc (0o22 : Nat) < 2 ^ 5 := by decide
              _ ≤ 2 ^ i := Nat.pow_le_pow_right (by decide) (by omega)
        rw [this, Bool.and_false]
  · rintro (h | h) h0
    · have := congrArg (·.testBit 4) h0
      simp only [Nat.testBit_and, h, Nat.zero_testBit] at this
      exact absurd this (by decide)
    · have := congrArg (·.testBit 1) h0
      simp only [Nat.testBit_and, h, Nat.zero_testBit] at this
      exact absurd this (by decide)

theorem and512 (m : Nat) : m &&& 0o1000 = 0 ↔ ¬ Spec.Sticky m := by
  constructor
  · intro h0 h
    have := congrArg (·.testBit 9) h0
    simp only [Nat.testBit_and, Nat.zero_testBit] at this
    rw [show m.testBit 9 = true from h] at this
    exact absurd this (by decide)
  · intro h
    apply Nat.eq_of_testBit_eq
    intro i
    rw [Nat.testBit_and, Nat.zero_testBit]
    by_cases h9 : i = 9
    · subst h9; rw [show m.testBit 9 = false from by simpa [Spec.Sticky] using h]; rfl
    · have : (0o1000 : Nat).testBit i = false := by
        rw [show (0o1000 : Nat) = 2 ^ 9 from rfl, Nat.testBit_two_pow]
        simp; omega
      rw [this, Bool.and_false]

theorem rootDir_iff (a : Stat) : rootDir a = true ↔ Spec.OwnedByRoot a := by
  unfold rootDir
  have h1 := and18 a.mode
  have h2 := and512 a.mode
  simp only [Bool.and_eq_true, decide_eq_true_eq, Bool.not_eq_true', Bool.or_eq_false_iff, Bool.and_eq_false_iff, decide_eq_false_iff_not]
  constructor
  · rintro ⟨hd, hu, hm⟩
    refine ⟨hd, by simpa using hu, fun hw => ?_⟩
    rcases hm with hm | hm
    · exact absurd (h1.2 hw) hm
    · exact Classical.byContradiction fun hs => hm (h2.2 hs)
  · rintro ⟨hd, hu, hm⟩
    refine ⟨hd, by simpa using hu, ?_⟩
    by_cases hw : Spec.OthersWrite a.mode
    · exact .inr fun hs => h2.1 hs (hm hw)
    · exact .inl fun hs => hw (h1.1 hs)

theorem segOk_iff (lstat stat : Str → Option Stat) (d : Str) : segOk lstat stat d = true ↔ Spec.Trusted lstat stat d := by
  unfold segOk Spec.Trusted
  cases hl : lstat d with
  | none => simp
  | some a =>
    by_cases hk : a.kind = .link
    · by_cases hu : a.uid = 0
      · cases hs : stat d with
        | none => simp [hk]
        | some b => simp [hk, hu, rootDir_iff]
      · simp [hk, hu]
    · simp [hk, rootDir_iff]

theorem cutSlash_of {u v : Str} (h : '/' ∉ v) : cutSlash (u ++ '/' :: v) = u := by
  unfold cutSlash
  have : (u ++ '/' :: v).reverse.dropWhile (· ≠ '/') = '/' :: u.reverse := by
    rw [List.reverse_append, List.reverse_cons, List.append_assoc, List.dropWhile_append_of_pos]
    · rfl
    · intro c hc
      have : c ≠ '/' := fun e => h (by rw [← e]; exact List.mem_reverse.1 hc)
      simpa using this
  rw [this, List.tail_cons, List.reverse_reverse]

theorem lastSlash {d : Str} (h : '/' ∈ d) : ∃ u v, d = u ++ '/' :: v ∧ '/' ∉ v := by
  induction d with
  | nil => cases h
  | cons c r ih =>
    by_cases hr : '/' ∈ r
    · obtain ⟨u, v, e, hv⟩ := ih hr
      exact ⟨c :: u, v, by rw [e]; rfl, hv⟩
    · rcases List.mem_cons.1 h with rfl | h
      · exact ⟨[], r, rfl, hr⟩
      · exact absurd h hr

/-- where the slashes of a path are -/
theorem slash_at {u v q r : Str} (hv : '/' ∉ v) : u ++ '/' :: v = q ++ '/' :: r → q = u ∨ ∃ r', u = q ++ '/' :: r' := by
  intro h
  rcases List.append_eq_append_iff.1 h with ⟨a, e1, e2⟩ | ⟨a, e1, e2⟩
  · cases a with
    | nil => left; rw [e1, List.append_nil]
    | cons x a =>
      injection e2 with _ e2
      exact absurd (by rw [e2]; exact List.mem_append.2 (.inr (List.mem_cons_self ..))) hv
  · cases a with
    | nil => left; rw [e1, List.append_nil]
    | cons x a =>
      injection e2 with e _
      right; exact ⟨a, by rw [e1, e]⟩

theorem safeLoop_iff (lstat stat : Str → Option Stat) (n : Nat) (d : Str) (hn : d.length < n) :
    safeLoop lstat stat n d = true ↔ ∀ q, '/' ∈ q → (q = d ∨ ∃ r, d = q ++ '/' :: r) → Spec.Trusted lstat stat q := by
  induction n generalizing d with
  | zero => omega
  | succ n ih =>
    rw [safeLoop]
    by_cases hs : '/' ∈ d
    · rw [if_pos hs]
      obtain ⟨u, v, e, hv⟩ := lastSlash hs
      have hl : u.length < n := by rw [e] at hn; simp at hn; omega
      rw [Bool.and_eq_true, segOk_iff, show cutSlash d = u by rw [e]; exact cutSlash_of hv, ih u hl]
      constructor
      · rintro ⟨h1, h2⟩ q hq (rfl | ⟨r, hr⟩)
        · exact h1
        · rcases slash_at hv (e.symm.trans hr) with rfl | h
          · exact h2 q hq (.inl rfl)
          · exact h2 q hq (.inr h)
      · intro h
        refine ⟨h d hs (.inl rfl), fun q hq hr => h q hq (.inr ?_)⟩
        rcases hr with rfl | ⟨r, hr⟩
        · exact ⟨v, e⟩
        · exact ⟨r ++ '/' :: v, by rw [e, hr, List.append_assoc]; rfl⟩
    · rw [if_neg hs]
      refine ⟨fun _ q hq hr => ?_, fun _ => rfl⟩
      rcases hr with rfl | ⟨r, hr⟩
      · exact absurd hq hs
      · exact absurd (by rw [hr]; exact List.mem_append.2 (.inl hq)) hs

/-- C168: the script is told that a path is safe exactly if the path is absolute and every directory on the way to its last part is a directory of root (or a link of root
to one) in which nobody but root may write, or which has the sticky bit.  The part with the sticky bit is what is missing from the claim. -/
theorem C168_safe_partial (lstat stat : Str → Option Stat) (path : Str) :
    checkSafePath lstat stat path = true ↔ Spec.SafePath lstat stat path := by
  unfold checkSafePath Spec.SafePath
  by_cases ha : path.head? = some '/'
  · rw [if_neg (by simpa using ha)]
    obtain ⟨c, rest, e⟩ : ∃ c rest, stripSlashes path = c :: rest ∧ c = '/' ∧ rest.length ≤ path.length := by
      cases path with
      | nil => cases ha
      | cons c r =>
        refine ⟨c, _, rfl, by simpa using ha, ?_⟩
        rw [List.length_reverse]
        have := (List.dropWhile_sublist (p := (decide <| · = '/')) (l := r.reverse)).length_le
        simp at this ⊢; omega
    obtain ⟨e, rfl, hlen⟩ := e
    have hs : '/' ∈ stripSlashes path := by rw [e]; exact List.mem_cons_self ..
    obtain ⟨u, v, euv, hv⟩ := lastSlash hs
    have hu : u.length < path.length + 1 := by
      have := congrArg List.length (e.symm.trans euv)
      simp at this; omega
    rw [show cutSlash (stripSlashes path) = u by rw [euv]; exact cutSlash_of hv, safeLoop_iff _ _ _ _ hu]
    constructor
    · intro h
      refine ⟨ha, fun t ht d hd => ?_⟩
      have et := stripped_unique ht (strip_stripped path)
      subst et
      obtain ⟨hne, r, hr⟩ := hd
      have hd' : '/' ∈ d := by
        cases d with
        | nil => exact absurd rfl hne
        | cons x d =>
          rw [e] at hr
          injection hr with hx _
          rw [hx]; exact List.mem_cons_self ..
      refine h d hd' ?_
      exact slash_at hv (euv.symm.trans hr)
    · rintro ⟨_, h⟩ q hq hr
      refine h _ (strip_stripped path) q ⟨fun e => (by rw [e] at hq; cases hq), ?_⟩
      rcases hr with rfl | ⟨r, hr⟩
      · exact ⟨v, euv⟩
      · exact ⟨r ++ '/' :: v, by rw [euv, hr, List.append_assoc]; rfl⟩
  · rw [if_pos (by simpa using ha)]
    exact ⟨nofun, fun h => absurd h.1 ha⟩

/-- C168: where no directory has the sticky bit, a safe path is one whose directories are root's, and writable by root only. -/
theorem C168_root_only (lstat stat : Str → Option Stat) (path t d : Str) (hp : checkSafePath lstat stat path = true) (ht : Spec.Stripped path t) (hd : Spec.Above d t)
    (hs : ∀ q a, lstat q = some a ∨ stat q = some a → ¬ Spec.Sticky a.mode) :
    ∃ a, (lstat d = some a ∨ stat d = some a) ∧ a.kind = .dir ∧ a.uid = 0 ∧ ¬ Spec.OthersWrite a.mode := by
  rcases ((C168_safe_partial lstat stat path).1 hp).2 t ht d hd with ⟨a, h1, _, h2⟩ | ⟨a, b, _, _, _, h1, h2⟩
  · exact ⟨a, .inl h1, h2.dir, h2.owner, fun hw => hs d a (.inl h1) (h2.write hw)⟩
  · exact ⟨b, .inr h1, h2.dir, h2.owner, fun hw => hs d b (.inr h1) (h2.write hw)⟩

/-- a usual file system: /tmp is for everybody, /home and /var of root, /home/ann of the user, /data is a link of root to /srv -/
def demoLstat (d : Str) : Option Stat :=
  if d = "/tmp".toList then some ⟨.dir, 0, 0o1777⟩
  else if d = "/home".toList ∨ d = "/var".toList ∨ d = "/srv".toList then some ⟨.dir, 0, 0o755⟩
  else if d = "/home/ann".toList then some ⟨.dir, 1000, 0o755⟩
  else if d = "/data".toList then some ⟨.link, 0, 0o777⟩
  else none

/-- the same, through links -/
def demoStat (d : Str) : Option Stat := if d = "/data".toList then some ⟨.dir, 0, 0o755⟩ else demoLstat d

example : checkSafePath demoLstat demoStat "/home/ann//".toList = true := by decide +kernel
example : checkSafePath demoLstat demoStat "/home/ann/tmp".toList = false := by decide +kernel
example : checkSafePath demoLstat demoStat "/data/x".toList = true := by decide +kernel
example : checkSafePath demoLstat demoStat "/nowhere/x".toList = false := by decide +kernel
example : checkSafePath demoLstat demoStat "tmp".toList = false := by decide +kernel

/-- The full claim (namespace.init: all directories are "owned by root and are writable by root only") is false: a directory for everybody with the sticky bit passes. -/
theorem C168_sticky_counterexample : checkSafePath demoLstat demoStat "/tmp/x".toList = true ∧ Spec.Above "/tmp".toList "/tmp/x".toList ∧
    (∃ a, demoLstat "/tmp".toList = some a ∧ Spec.OthersWrite a.mode) :=
  ⟨by decide +kernel, ⟨by decide, "x".toList, by decide⟩, ⟨.dir, 0, 0o1777⟩, by decide +kernel, .inl (by decide)⟩

end Pam.Namespace
