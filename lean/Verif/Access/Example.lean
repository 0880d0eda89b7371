import Verif.Access.Spec
/-
A system that is `Lawful`: addresses are decimal bytes, with dots for AF_INET (which is what inet_ntop does) and with
colons for AF_INET6 (which is simpler than what it does).
-/
namespace Pam.Access.Example
open Pam Pam.Access Pam.Access.Spec

/-- the words between the characters `c` -/
def split (c : Char) : Str → List Str
  | [] => [[]]
  | x :: s =>
    if x = c then [] :: split c s
    else match split c s with
      | w :: ws => (x :: w) :: ws
      | [] => [[x]]

def join (c : Char) : List Str → Str
  | [] => []
  | [w] => w
  | w :: v :: ws => w ++ c :: join c (v :: ws)

theorem split_word {c : Char} {w : Str} (h : c ∉ w) : split c w = [w] := by
  induction w with
  | nil => rfl
  | cons x w ih =>
    rw [split, if_neg (fun e => h (by simp [e])), ih (fun hm => h (by simp [hm]))]

theorem split_app {c : Char} {w : Str} (h : c ∉ w) (s : Str) : split c (w ++ c :: s) = w :: split c s := by
  induction w with
  | nil => rw [List.nil_append, split, if_pos rfl]
  | cons x w ih =>
    rw [List.cons_append, split, if_neg (fun e => h (by simp [e])), ih (fun hm => h (by simp [hm]))]

theorem split_join {c : Char} : ∀ {ws : List Str}, ws ≠ [] → (∀ w ∈ ws, c ∉ w) → split c (join c ws) = ws
  | [], h, _ => absurd rfl h
  | [w], _, h => split_word (h w (by simp))
  | w :: v :: ws, _, h => by
    rw [join, split_app (h w (by simp)), split_join (by simp) (fun u hu => h u (by simp at hu ⊢; exact Or.inr hu))]

theorem join_split (c : Char) : ∀ s : Str, join c (split c s) = s ∧ split c s ≠ []
  | [] => ⟨rfl, by simp [split]⟩
  | x :: s => by
    obtain ⟨h1, h2⟩ := join_split c s
    obtain ⟨w, ws, hw⟩ := List.exists_cons_of_ne_nil h2
    rw [hw] at h1
    rw [split]
    by_cases hx : x = c
    · rw [if_pos hx, hw]
      refine ⟨?_, by simp⟩
      rw [join, h1, hx]
      rfl
    · rw [if_neg hx, hw]
      refine ⟨?_, by simp⟩
      cases ws with
      | nil => simpa [join] using h1
      | cons v vs => simpa [join] using h1

def mark : Fam → Char
  | .v4 => '.'
  | .v6 => ':'

def ntop (f : Fam) (b : List Nat) : Str := join (mark f) (b.map (Nat.toDigits 10))

/-- what `ntop` writes, read back -/
def pton (f : Fam) (s : Str) : Option (List Nat) :=
  let b := (split (mark f) s).map (valueOf 10)
  if b.length = f.size ∧ (∀ x ∈ b, x < 256) ∧ ntop f b = s then some b else none

theorem value_digits (n : Nat) : valueOf 10 (Nat.toDigits 10 n) = n := (toDigits_spec n).2.2.1

theorem mark_digits (f : Fam) (n : Nat) : mark f ∉ Nat.toDigits 10 n := by
  intro h
  have := (toDigits_spec n).2.1 _ h
  cases f <;> exact absurd this (by decide)

theorem join_chars {c : Char} {P : Char → Prop} (hc : P c) : ∀ {ws : List Str}, (∀ w ∈ ws, ∀ x ∈ w, P x) → ∀ x ∈ join c ws, P x
  | [], _, x, hx => by cases hx
  | [w], h, x, hx => h w (by simp) x hx
  | w :: v :: ws, h, x, hx => by
    rw [join, List.mem_append, List.mem_cons] at hx
    rcases hx with hx | rfl | hx
    · exact h w (by simp) x hx
    · exact hc
    · exact join_chars hc (fun u hu => h u (by simp at hu ⊢; exact Or.inr hu)) x hx

theorem join_mem {c : Char} {w v : Str} {ws : List Str} : c ∈ join c (w :: v :: ws) := by
  rw [join]; simp

theorem join_head {c : Char} {w : Str} {ws : List Str} (h : w ≠ []) : (join c (w :: ws)).head? = w.head? := by
  obtain ⟨x, xs, rfl⟩ := List.exists_cons_of_ne_nil h
  cases ws <;> rfl

theorem join_last {c : Char} : ∀ {ws : List Str}, ws ≠ [] → (∀ w ∈ ws, w ≠ []) → ∃ w ∈ ws, (join c ws).getLast? = w.getLast?
  | [], h, _ => absurd rfl h
  | [w], _, _ => ⟨w, by simp, rfl⟩
  | w :: v :: ws, _, h => by
    obtain ⟨u, hu, e⟩ := join_last (c := c) (ws := v :: ws) (by simp) (fun u hu => h u (by simp at hu ⊢; exact Or.inr hu))
    refine ⟨u, by simp at hu ⊢; exact Or.inr hu, ?_⟩
    have hne := h u (by simp at hu ⊢; exact Or.inr hu)
    rw [join, List.getLast?_append, List.getLast?_cons, e, List.getLast?_eq_some_getLast hne]
    rfl

theorem digit_alnum {c : Char} (h : isDigitOf 10 c) : c.isAlphanum = true ∧ c ≠ '.' ∧ c ≠ ':' := by
  refine ⟨?_, ?_, ?_⟩
  · have h : digitVal c < 10 := of_decide_eq_true h
    unfold digitVal at h
    split at h
    · rename_i hd
      have : c.isDigit = true := by
        simp only [isDigit, decide_eq_true_eq] at hd
        simp only [Char.isDigit, Bool.and_eq_true, decide_eq_true_eq]
        exact hd
      simp [Char.isAlphanum, this]
    · repeat' split at h
      all_goals omega
  · rintro rfl; revert h; decide
  · rintro rfl; revert h; decide

theorem ntop_cons {f : Fam} {b : List Nat} (h : b.length = f.size) : ∃ x y t, b = x :: y :: t := by
  match b with
  | [] => cases f <;> cases h
  | [_] => cases f <;> cases h
  | x :: y :: t => exact ⟨x, y, t, rfl⟩

theorem pton_ntop {f : Fam} {b : List Nat} (h : b.length = f.size) (h' : ∀ x ∈ b, x < 256) : pton f (ntop f b) = some b := by
  have hs : (split (mark f) (ntop f b)).map (valueOf 10) = b := by
    unfold ntop
    rw [split_join]
    · rw [List.map_map]
      exact (List.map_congr_left (fun n _ => value_digits n)).trans (List.map_id b)
    · obtain ⟨x, y, t, rfl⟩ := ntop_cons h; simp
    · intro w hw
      obtain ⟨n, -, rfl⟩ := List.mem_map.mp hw
      exact mark_digits f n
  unfold pton
  simp only [hs]
  exact if_pos ⟨h, h', trivial⟩

theorem pton_some {f : Fam} {s : Str} {b : List Nat} (h : pton f s = some b) :
    b.length = f.size ∧ (∀ x ∈ b, x < 256) ∧ s = ntop f b := by
  unfold pton at h
  simp only at h
  split at h
  · rename_i hc
    cases h
    exact ⟨hc.1, hc.2.1, hc.2.2.symm⟩
  · cases h

/-- entries of the resolver for a text that is an address -/
def literal (s : Str) : Option (List Entry) :=
  match pton .v4 s with
  | some b => some [⟨.v4, b, some (ntop .v4 b)⟩]
  | none =>
    match pton .v6 s with
    | some b => some [⟨.v6, b, some (ntop .v6 b)⟩]
    | none => none

def gate4 : Entry := ⟨.v4, [10, 1, 2, 3], some "10.1.2.3".toList⟩
def gate6 : Entry := ⟨.v6, [32, 1, 0, 0, 0, 0, 0, 0, 0, 0, 0, 0, 0, 0, 0, 5], some "32:1:0:0:0:0:0:0:0:0:0:0:0:0:0:5".toList⟩

/-- a system that knows one name, "gate", which has an address in each family -/
def sys : Sys where
  pton := pton
  ntop := ntop
  gai := fun h s =>
    match literal s with
    | some l => some l
    | none =>
      if s = "gate".toList then (match h with | .inet => some [gate4] | _ => some [gate4, gate6])
      else none
  innetgr := fun g _ _ => g == "trusted".toList
  inGroup := fun u g => u == "alice".toList && g == "wheel".toList
  inGid := fun u g => u == "alice".toList && g == 10
  isDevice := fun s => s == "tty1".toList
  garbage := []

theorem lawful : Lawful sys where
  chars f s b h := by
    obtain ⟨h1, -, rfl⟩ := pton_some h
    refine join_chars (P := fun c => c.isAlphanum ∨ c = '.' ∨ c = ':') (by cases f <;> simp [mark]) ?_
    intro w hw x hx
    obtain ⟨n, -, rfl⟩ := List.mem_map.mp hw
    exact Or.inl (digit_alnum ((toDigits_spec n).2.1 _ hx)).1
  ends f s b h := by
    obtain ⟨h1, -, rfl⟩ := pton_some h
    obtain ⟨x, y, t, rfl⟩ := ntop_cons h1
    have hne := (toDigits_spec x).1
    have hhead : (ntop f (x :: y :: t)).head? = (Nat.toDigits 10 x).head? := join_head hne
    obtain ⟨w, hw, hl⟩ := join_last (c := mark f) (ws := (x :: y :: t).map (Nat.toDigits 10)) (by simp)
      (fun w hw => by obtain ⟨n, -, rfl⟩ := List.mem_map.mp hw; exact (toDigits_spec n).1)
    obtain ⟨n, -, rfl⟩ := List.mem_map.mp hw
    refine ⟨?_, ?_, ?_⟩
    · intro e
      rw [e] at hhead
      exact hne (List.head?_eq_none_iff.mp hhead.symm)
    · rw [hhead]
      intro e
      exact (digit_alnum ((toDigits_spec x).2.1 _ (List.mem_of_head? e))).2.1 rfl
    · show (join (mark f) _).getLast? ≠ _
      rw [hl]
      intro e
      exact (digit_alnum ((toDigits_spec n).2.1 _ (List.mem_of_getLast? e))).2.1 rfl
  marked f s b h := by
    obtain ⟨h1, -, rfl⟩ := pton_some h
    obtain ⟨x, y, t, rfl⟩ := ntop_cons h1
    have : mark f ∈ ntop f (x :: y :: t) := join_mem
    cases f
    · exact Or.inl this
    · exact Or.inr this
  size f s b h := ⟨(pton_some h).1, (pton_some h).2.1⟩
  family s b h := by
    cases h4 : sys.pton .v4 s with
    | none => rfl
    | some a =>
      exfalso
      obtain ⟨h1, -, rfl⟩ := pton_some h
      obtain ⟨x, y, t, rfl⟩ := ntop_cons h1
      have hm : ':' ∈ ntop .v6 (x :: y :: t) := join_mem
      obtain ⟨-, -, e⟩ := pton_some h4
      rw [e] at hm
      refine (join_chars (c := '.') (P := fun c => c ≠ ':') (by decide) ?_ ':' hm) rfl
      intro w hw x hx
      obtain ⟨n, -, rfl⟩ := List.mem_map.mp hw
      exact (digit_alnum ((toDigits_spec n).2.1 _ hx)).2.2
  round f b h h' := pton_ntop h h'
  literal f s b h := by
    refine ⟨[⟨f, b, some (ntop f b)⟩], ?_, by simp, by simp [sys]⟩
    have hf : pton f s = some b := h
    have : literal s = some [⟨f, b, some (ntop f b)⟩] := by
      unfold literal
      cases f with
      | v4 => rw [hf]
      | v6 => 
        have h4 : pton .v4 s = none := by
          cases h4 : pton .v4 s with
          | none => rfl
          | some a =>
            exfalso
            obtain ⟨h1, -, rfl⟩ := pton_some hf
            obtain ⟨x, y, t, rfl⟩ := ntop_cons h1
            have hm : ':' ∈ ntop .v6 (x :: y :: t) := join_mem
            obtain ⟨-, -, e⟩ := pton_some h4
            rw [e] at hm
            refine (join_chars (c := '.') (P := fun c => c ≠ ':') (by decide) ?_ ':' hm) rfl
            intro w hw x hx
            obtain ⟨n, -, rfl⟩ := List.mem_map.mp hw
            exact (digit_alnum ((toDigits_spec n).2.1 _ hx)).2.2
        rw [h4, hf]
    show (match literal s with | some l => some l | none => _) = _
    rw [this]

end Pam.Access.Example
