import Verif.Show.Motd
import Verif.Show.EchoProps
import Verif.Namespace.ConfigProps
/-
C131: pam_motd.
-/
namespace Pam.Show
open Pam
open Pam.Small (skipPrefix cstr Last Without)
open Pam.Simple (strtok)
open Pam.Namespace (strLe strLe_total strLe_trans)

namespace Spec

/-- the texts between the colons -/
def pieces : Str → List Str
  | [] => [[]]
  | c :: r =>
    if c = ':' then [] :: pieces r
    else match pieces r with
      | [] => [[c]]
      | p :: ps => (c :: p) :: ps

/-- the elements of a list written with colons; empty ones do not count -/
def elements (s : Option Str) : List Str := match s with
  | none => []
  | some s => (pieces s).filter (· ≠ [])

/-- the value of the last such argument, if that is not empty -/
def Given (key : String) (argv : List Str) (v : Option Str) : Prop :=
  (∃ s, Last key argv s ∧ s ≠ [] ∧ v = some s) ∨ ((Without key argv ∨ Last key argv []) ∧ v = none)

/-- the lists that count: those that are given, the default ones if neither is -/
def Lists (argv : List Str) (files dirs : Option Str) : Prop :=
  (Given "motd=" argv none ∧ Given "motd_dir=" argv none ∧ files = some "/etc/motd:/run/motd:/usr/lib/motd".toList ∧ dirs = some "/etc/motd.d:/run/motd.d:/usr/lib/motd.d".toList) ∨
  (Given "motd=" argv files ∧ Given "motd_dir=" argv dirs ∧ (files ≠ none ∨ dirs ≠ none))

/-- the first file of a list that can be opened, if there is one -/
inductive FirstOpen (openFile : Str → Option File) : List Str → Option File → Prop
  | none {l : List Str} : (∀ p ∈ l, openFile p = none) → FirstOpen openFile l none
  | some {a : List Str} {p : Str} {b : List Str} {f : File} : (∀ q ∈ a, openFile q = none) → openFile p = some f → FirstOpen openFile (a ++ p :: b) (some f)

/-- what is told for it: its text, without a newline at the end and up to the first NUL, if it has 1 to 65536 bytes and can be read -/
inductive Message : Option File → List Str → Prop
  | none : Message none []
  | text {f : File} {n : Nat} {l : Str} : f.size = some n → 1 ≤ n → n ≤ 65536 → n ≤ f.text.length → Line (f.text.take n) l → Message (some f) [l.takeWhile (· ≠ NUL)]
  | nothing {f : File} : (∀ n, f.size = some n → n = 0 ∨ 65536 < n ∨ f.text.length < n) → Message (some f) []

/-- the path of a name in a directory -/
def Path (d n p : Str) : Prop := (∃ e, d = e ++ ['/'] ∧ p = d ++ n) ∨ ((∀ e, d ≠ e ++ ['/']) ∧ p = d ++ '/' :: n)

/-- one text comes before another, byte by byte -/
inductive Before : Str → Str → Prop
  | nil (c : Char) (r : Str) : Before [] (c :: r)
  | lt {a b : Char} (r s : Str) : a.toNat < b.toNat → Before (a :: r) (b :: s)
  | eq (a : Char) {r s : Str} : Before r s → Before (a :: r) (a :: s)

/-- the names in the directories: regular files and links, each once and in order -/
structure DirNames (w : MWorld) (dirs ns : List Str) : Prop where
  sorted : ns.Pairwise Before
  mem : ∀ n, n ∈ ns ↔ ∃ d ∈ dirs, ∃ es k, w.scan d = some es ∧ (n, k) ∈ es ∧ (k = .regular ∨ k = .link ∨ (k = .unknown ∧ ∃ p, Path d n p ∧ w.lstat p = true))

/-- what is told for the names: for each the first file of that name in the directories that can be opened -/
inductive Messages (w : MWorld) (dirs : List Str) : List Str → List Str → Prop
  | nil : Messages w dirs [] []
  | cons {n : Str} {ps : List Str} {f : Option File} {m : List Str} {ns ms : List Str} : ps.length = dirs.length → (∀ x ∈ dirs.zip ps, Path x.1 n x.2) → FirstOpen w.openFile ps f → Message f m →
      Messages w dirs ns ms → Messages w dirs (n :: ns) (m ++ ms)

/-- what the application is told -/
def told (ops : List Op) : List Str := ops.filterMap (fun o => match o with | .say t => some t | _ => none)

end Spec
open Spec

/-! ### lists written with colons -/

theorem pieces_ne (s : Str) : pieces s ≠ [] := by
  cases s with
  | nil => simp [pieces]
  | cons c r =>
    rw [pieces]
    split
    · simp
    · split <;> simp

theorem pieces_length : ∀ s : Str, (pieces s).length = colons s + 1
  | [] => rfl
  | c :: r => by
    rw [pieces, colons]
    have ih := pieces_length r
    split
    · simp [ih]
    · cases h : pieces r with
      | nil => exact absurd h (pieces_ne r)
      | cons p ps => rw [h] at ih; simpa using ih

/-- the elements of a text -/
def elems (s : Str) : List Str := (pieces s).filter (· ≠ [])

theorem elems_colon (r : Str) : elems (':' :: r) = elems r := by simp [elems, pieces]

theorem pieces_append : ∀ (p r : Str), ':' ∉ p → pieces (p ++ ':' :: r) = p :: pieces r
  | [], r, _ => by simp [pieces]
  | c :: p, r, h => by
    have hc : c ≠ ':' := fun e => h (by simp [e])
    rw [List.cons_append, pieces, if_neg hc, pieces_append p r (fun hm => h (List.mem_cons_of_mem _ hm))]

theorem pieces_one : ∀ p : Str, ':' ∉ p → pieces p = [p]
  | [], _ => rfl
  | c :: p, h => by
    have hc : c ≠ ':' := fun e => h (by simp [e])
    rw [pieces, if_neg hc, pieces_one p (fun hm => h (List.mem_cons_of_mem _ hm))]

theorem split_colon (s : Str) : ':' ∉ s ∨ ∃ p r, s = p ++ ':' :: r ∧ ':' ∉ p := by
  by_cases h : ':' ∈ s
  · obtain ⟨p, r, e, hp⟩ := List.append_of_mem h |> fun _ => List.eq_append_cons_of_mem h
    exact Or.inr ⟨p, r, e, hp⟩
  · exact Or.inl h

theorem strtok_colon (r : Str) : strtok ':' (':' :: r) = strtok ':' r := by
  unfold strtok
  rw [List.dropWhile_cons_of_pos (by simp)]

theorem strtok_first (c : Char) (p r : Str) (hc : c ≠ ':') (hp : ':' ∉ p) : strtok ':' (c :: p ++ ':' :: r) = some (c :: p, r) ∧ strtok ':' (c :: p) = some (c :: p, []) := by
  have hall : ∀ x ∈ c :: p, decide (x ≠ ':') = true := by
    intro x hx
    apply decide_eq_true
    rcases List.mem_cons.mp hx with rfl | hx
    · exact hc
    · rintro rfl; exact hp hx
  unfold strtok
  have e1 : ∀ l : Str, (c :: l).dropWhile (fun x => decide (x = ':')) = c :: l := fun l => List.dropWhile_cons_of_neg (by simpa using hc)
  constructor
  · rw [List.cons_append, e1]
    dsimp only
    rw [← List.cons_append, List.takeWhile_append_of_pos hall, List.dropWhile_append_of_pos hall]
    simp
  · rw [e1]
    dsimp only
    have h1 := List.takeWhile_append_of_pos (l₂ := []) hall
    have h2 := List.dropWhile_append_of_pos (l₂ := []) hall
    rw [List.append_nil] at h1 h2
    rw [h1, h2]; simp

theorem tokens_elems : ∀ (k : Nat) (s : Str) (n : Nat), s.length ≤ k → (elems s).length ≤ n → tokens n s = elems s
  | _, [], n, _, _ => by cases n <;> rfl
  | 0, c :: r, _, h, _ => by simp at h
  | k + 1, c :: r, n, h, hn => by
    simp only [List.length_cons] at h
    by_cases hc : c = ':'
    · subst hc
      rw [elems_colon] at hn ⊢
      rw [← tokens_elems k r n (by omega) hn]
      cases n with
      | zero => rfl
      | succ n => rw [tokens, tokens, strtok_colon]
    · rcases split_colon r with hr | ⟨p, q, rfl, hp⟩
      · have hno : ':' ∉ c :: r := by simp only [List.mem_cons, not_or]; exact ⟨fun e => hc e.symm, hr⟩
        have e : elems (c :: r) = [c :: r] := by unfold elems; rw [pieces_one _ hno]; simp
        rw [e] at hn ⊢
        cases n with
        | zero => simp at hn
        | succ n =>
          rw [tokens, (strtok_first c r [] hc hr).2]
          dsimp only
          cases n with
          | zero => rfl
          | succ n => rfl
      · have hno : ':' ∉ c :: p := by simp only [List.mem_cons, not_or]; exact ⟨fun e => hc e.symm, hp⟩
        have e : elems (c :: (p ++ ':' :: q)) = (c :: p) :: elems q := by
          unfold elems
          rw [← List.cons_append, pieces_append _ _ hno]; simp
        rw [e] at hn ⊢
        simp only [List.length_append, List.length_cons] at h hn
        cases n with
        | zero => omega
        | succ n =>
          rw [tokens, ← List.cons_append, (strtok_first c p q hc hp).1]
          dsimp only
          rw [tokens_elems k q n (by omega) (by omega)]

theorem elems_length (s : Str) : (elems s).length ≤ colons (s.drop 1) + 1 := by
  have gen : ∀ s : Str, (elems s).length ≤ colons s + 1 := fun s => by
    rw [← pieces_length]; exact List.length_filter_le _ _
  cases s with
  | nil => simp [elems, pieces]
  | cons c r =>
    rw [List.drop_succ_cons, List.drop_zero]
    by_cases hc : c = ':'
    · subst hc; rw [elems_colon]; exact gen r
    · have := gen (c :: r)
      rwa [colons, if_neg hc] at this

theorem split_eq (s : Str) : ∃ k, split s = (elems s).map some ++ List.replicate k none := by
  unfold split
  dsimp only
  rw [tokens_elems s.length s _ (Nat.le_refl _) (elems_length s)]
  exact ⟨_, rfl⟩

theorem split_full (s : Str) (h : ∀ p ∈ pieces s, p ≠ []) : split s = (elems s).map some := by
  unfold split
  dsimp only
  rw [tokens_elems s.length s _ (Nat.le_refl _) (elems_length s)]
  have he : elems s = pieces s := by
    unfold elems
    rw [List.filter_eq_self]
    intro p hp
    exact decide_eq_true (h p hp)
  have hl : colons (s.drop 1) + 1 - (elems s).length = 0 := by
    rw [he, pieces_length]
    cases s with
    | nil => exact absurd rfl (h [] (by simp [pieces]))
    | cons c r =>
      have hc : c ≠ ':' := by rintro rfl; exact h [] (by simp [pieces]) rfl
      rw [colons, if_neg hc, List.drop_succ_cons, List.drop_zero]; omega
  rw [hl]; simp

/-! ### files -/

theorem told_append (a b : List Op) : told (a ++ b) = told a ++ told b := List.filterMap_append ..

theorem display_message {f : File} {m : List Str} (h : Message (some f) m) : told (display f) = m := by
  cases h with
  | @text _ n l h1 h2 h3 h4 h5 =>
    unfold display
    rw [h1]
    dsimp only
    rw [if_neg (by omega), if_pos h4, line_noNewline h5]
    rfl
  | nothing h =>
    unfold display
    cases hs : f.size with
    | none => rfl
    | some n =>
      dsimp only
      rcases h n hs with h | h | h
      · rw [if_pos (Or.inl h)]; rfl
      · rw [if_pos (Or.inr h)]; rfl
      · by_cases hn : n = 0 ∨ n > 0x10000
        · rw [if_pos hn]; rfl
        · rw [if_neg hn, if_neg (by omega)]; rfl

theorem showFirst_told (w : MWorld) {l : List (Option Str)} {f : Option File} {m : List Str} (h : FirstOpen w.openFile (l.filterMap id) f) (hm : Message f m) : told (showFirst w l) = m := by
  induction l with
  | nil =>
    cases f with
    | none => cases hm; rfl
    | some f =>
      generalize hq : ([] : List (Option Str)).filterMap id = q at h
      cases h
      simp at hq
  | cons x l ih =>
    cases x with
    | none => exact ih h
    | some p =>
      simp only [List.filterMap_cons, id_eq] at h
      rw [showFirst]
      have hd : ∀ x, told (Op.open_ p :: x) = told x := fun x => rfl
      rw [hd]
      cases ho : w.openFile p with
      | none =>
        dsimp only
        refine ih ?_
        generalize hq : p :: l.filterMap id = q at h
        cases h with
        | none h1 => subst hq; exact .none (fun q hq => h1 q (List.mem_cons_of_mem _ hq))
        | @some a p' b f h1 h2 =>
          cases a with
          | nil =>
            simp only [List.nil_append, List.cons.injEq] at hq
            rw [← hq.1, ho] at h2; cases h2
          | cons y a =>
            simp only [List.cons_append, List.cons.injEq] at hq
            rw [hq.2]
            exact .some (fun q hq => h1 q (List.mem_cons_of_mem _ hq)) h2
      | some g =>
        dsimp only
        generalize hq : p :: l.filterMap id = q at h
        cases h with
        | none h1 => subst hq; rw [h1 p (by simp)] at ho; cases ho
        | @some a p' b f h1 h2 =>
          cases a with
          | nil =>
            simp only [List.nil_append, List.cons.injEq] at hq
            rw [← hq.1, ho] at h2; cases h2
            exact display_message hm
          | cons y a =>
            simp only [List.cons_append, List.cons.injEq] at hq
            have := h1 y (by simp)
            rw [← hq.1, ho] at this; cases this

theorem firstOpen_total (o : Str → Option File) : ∀ l : List Str, ∃ f, FirstOpen o l f
  | [] => ⟨none, .none (by simp)⟩
  | p :: l => by
    cases ho : o p with
    | some f => exact ⟨some f, .some (a := []) (by simp) ho⟩
    | none =>
      obtain ⟨f, hf⟩ := firstOpen_total o l
      cases hf with
      | none h =>
        refine ⟨none, .none fun q hq => ?_⟩
        rcases List.mem_cons.mp hq with rfl | hq
        · exact ho
        · exact h q hq
      | @some a p' b f h1 h2 =>
        refine ⟨some f, .some (a := p :: a) (fun q hq => ?_) h2⟩
        rcases List.mem_cons.mp hq with rfl | hq
        · exact ho
        · exact h1 q hq

theorem line_total (s : Str) : ∃ l, Line s l := by
  by_cases h : ∃ t, s = t ++ ['\n']
  · obtain ⟨t, ht⟩ := h; exact ⟨t, Or.inl ht⟩
  · exact ⟨s, Or.inr ⟨rfl, fun u hu => h ⟨u, hu⟩⟩⟩

theorem message_total : ∀ f : Option File, ∃ m, Message f m
  | none => ⟨[], .none⟩
  | some f => by
    cases hs : f.size with
    | none => exact ⟨[], .nothing (by rw [hs]; simp)⟩
    | some n =>
      by_cases h : n = 0 ∨ 65536 < n ∨ f.text.length < n
      · exact ⟨[], .nothing (by rw [hs]; intro m e; cases e; exact h)⟩
      · obtain ⟨l, hl⟩ := line_total (f.text.take n)
        exact ⟨_, .text hs (by omega) (by omega) (by omega) hl⟩

/-! ### names -/

theorem strLe_before : ∀ a b : Str, strLe a b = true ↔ Before a b ∨ a = b
  | [], [] => by simp [strLe]
  | [], c :: r => by simp only [strLe, true_iff]; exact Or.inl (.nil c r)
  | c :: r, [] => by
    simp only [strLe, Bool.false_eq_true, false_iff]
    rintro (h | h) <;> cases h
  | a :: r, b :: s => by
    rw [strLe]
    by_cases h : a = b
    · subst h
      rw [if_pos rfl, strLe_before r s]
      constructor
      · rintro (h | rfl)
        · exact Or.inl (.eq a h)
        · exact Or.inr rfl
      · rintro (h | h)
        · cases h with
          | lt _ _ h => exact absurd h (Nat.lt_irrefl _)
          | eq _ h => exact Or.inl h
        · cases h; exact Or.inr rfl
    · rw [if_neg h, decide_eq_true_eq]
      constructor
      · exact fun h => Or.inl (.lt r s h)
      · rintro (h2 | h2)
        · cases h2 with
          | lt _ _ h => exact h
          | eq _ _ => exact absurd rfl h
        · cases h2; exact absurd rfl h

theorem before_trans {a b c : Str} (h1 : Before a b) (h2 : Before b c) : Before a c := by
  induction h1 generalizing c with
  | nil => cases h2 <;> exact .nil ..
  | lt r s h =>
    cases h2 with
    | lt _ _ h' => exact .lt _ _ (by omega)
    | eq _ _ => exact .lt _ _ h
  | eq a _ ih =>
    cases h2 with
    | lt _ _ h' => exact .lt _ _ h'
    | eq _ h' => exact .eq _ (ih h')

theorem dedup_mem : ∀ (l : List Str) (x : Str), x ∈ dedup l ↔ x ∈ l
  | [], _ => Iff.rfl
  | [a], _ => Iff.rfl
  | a :: b :: r, x => by
    rw [dedup]
    split
    · next h => subst h; rw [dedup_mem (a :: r)]; simp
    · rw [List.mem_cons, dedup_mem (b :: r), List.mem_cons (a := x) (b := a)]

theorem dedup_sorted : ∀ l : List Str, l.Pairwise (fun a b => strLe a b = true) → (dedup l).Pairwise Before
  | [], _ => .nil
  | [a], _ => List.pairwise_singleton _ _
  | a :: b :: r, h => by
    rw [dedup]
    have ht := dedup_sorted (b :: r) (List.Pairwise.of_cons h)
    split
    · exact ht
    · next hne =>
      refine List.pairwise_cons.mpr ⟨fun x hx => ?_, ht⟩
      rw [dedup_mem] at hx
      have hab : Before a b := by
        rcases (strLe_before a b).mp ((List.pairwise_cons.mp h).1 b (by simp)) with h | h
        · exact h
        · exact absurd h hne
      rcases List.mem_cons.mp hx with rfl | hx
      · exact hab
      · rcases (strLe_before b x).mp ((List.pairwise_cons.mp (List.Pairwise.of_cons h)).1 x hx) with h | rfl
        · exact before_trans hab h
        · exact hab

theorem joinDir_path {d n : Str} (hd : d ≠ []) (hn : '/' ∉ n) : ∃ p, joinDir d n = some p ∧ Path d n p := by
  unfold joinDir
  rw [if_neg hd]
  by_cases hs : d.getLast? = some '/'
  · rw [if_pos (Or.inl hs)]
    obtain ⟨e, he⟩ := List.getLast?_eq_some_iff.mp hs
    exact ⟨_, rfl, Or.inl ⟨e, he, by simp⟩⟩
  · rw [if_neg]
    · refine ⟨_, rfl, Or.inr ⟨fun e he => hs (List.getLast?_eq_some_iff.mpr ⟨e, he⟩), by simp⟩⟩
    · rintro (h | h)
      · exact hs h
      · cases n with
        | nil => cases h
        | cons c r => simp only [List.head?_cons, Option.some.injEq] at h; exact hn (by simp [h])

theorem path_unique {d n p q : Str} (h1 : Path d n p) (h2 : Path d n q) : p = q := by
  rcases h1 with ⟨e, he, rfl⟩ | ⟨h1, rfl⟩ <;> rcases h2 with ⟨e', he', rfl⟩ | ⟨h2, rfl⟩
  · rfl
  · exact absurd he (h2 e)
  · exact absurd he' (h1 e')
  · rfl

/-- no name in a directory has a slash -/
def Plain (w : MWorld) : Prop := ∀ d es n k, w.scan d = some es → (n, k) ∈ es → '/' ∉ n

theorem names_spec (w : MWorld) (ds : List Str) (hd : ∀ d ∈ ds, d ≠ []) (hp : Plain w) : DirNames w ds (dedup ((ds.flatMap (namesIn w)).mergeSort strLe)) := by
  refine ⟨dedup_sorted _ (List.pairwise_mergeSort (le := strLe) strLe_trans strLe_total _), fun n => ?_⟩
  rw [dedup_mem, List.mem_mergeSort, List.mem_flatMap]
  have key : ∀ d ∈ ds, (n ∈ namesIn w d ↔ ∃ es k, w.scan d = some es ∧ (n, k) ∈ es ∧ (k = .regular ∨ k = .link ∨ (k = .unknown ∧ ∃ p, Path d n p ∧ w.lstat p = true))) := by
    intro d hdm
    unfold namesIn
    cases hs : w.scan d with
    | none => simp
    | some es =>
      simp only [Option.getD_some, List.mem_filterMap, Option.some.injEq, exists_eq_left', Prod.exists]
      have hw : ∀ k, (n, k) ∈ es → (wanted w d (n, k) = true ↔ (k = .regular ∨ k = .link ∨ (k = .unknown ∧ ∃ p, Path d n p ∧ w.lstat p = true))) := by
        intro k hk
        obtain ⟨p, h1, h2⟩ := joinDir_path (hd d hdm) (hp d es n k hs hk)
        unfold wanted
        cases k with
        | regular => simp
        | link => simp
        | other => simp
        | unknown =>
          dsimp only
          rw [h1]
          simp only [reduceCtorEq, false_or, true_and]
          exact ⟨fun h => ⟨p, h2, h⟩, fun ⟨q, hq, h⟩ => by rw [path_unique h2 hq]; exact h⟩
      constructor
      · rintro ⟨a, k, hk, h⟩
        split at h
        · next hwk =>
          simp only [Option.some.injEq] at h
          subst h
          exact ⟨es, k, rfl, hk, (hw k hk).mp hwk⟩
        · cases h
      · rintro ⟨es', k, rfl, hk, h⟩
        exact ⟨n, k, hk, by rw [if_pos ((hw k hk).mpr h)]⟩
  constructor
  · rintro ⟨d, hdm, h⟩; exact ⟨d, hdm, (key d hdm).mp h⟩
  · rintro ⟨d, hdm, h⟩; exact ⟨d, hdm, (key d hdm).mpr h⟩

theorem messages_spec (w : MWorld) (ds : List Str) (hd : ∀ d ∈ ds, d ≠ []) : ∀ ns : List Str, (∀ n ∈ ns, '/' ∉ n) →
    Messages w ds ns (told (ns.flatMap (fun n => showFirst w (ds.map (fun d => joinDir d n)))))
  | [], _ => .nil
  | n :: ns, h => by
    rw [List.flatMap_cons, told_append]
    have hpaths : ∀ ds : List Str, (∀ d ∈ ds, d ≠ []) → ∃ ps : List Str, ds.map (fun d => joinDir d n) = ps.map some ∧ ps.length = ds.length ∧ ∀ x ∈ ds.zip ps, Path x.1 n x.2 := by
      intro ds
      induction ds with
      | nil => intro _; exact ⟨[], rfl, rfl, by simp⟩
      | cons d ds ih =>
        intro hd
        obtain ⟨ps, h1, h2, h3⟩ := ih (fun d hm => hd d (List.mem_cons_of_mem _ hm))
        obtain ⟨p, hp1, hp2⟩ := joinDir_path (hd d (by simp)) (h n (by simp))
        refine ⟨p :: ps, by rw [List.map_cons, hp1, h1]; rfl, by simp [h2], fun x hx => ?_⟩
        simp only [List.zip_cons_cons, List.mem_cons] at hx
        rcases hx with rfl | hx
        · exact hp2
        · exact h3 x hx
    obtain ⟨ps, h1, h2, h3⟩ := hpaths ds hd
    obtain ⟨f, hf⟩ := firstOpen_total w.openFile ps
    obtain ⟨m, hm⟩ := message_total f
    have ht : told (showFirst w (ds.map (fun d => joinDir d n))) = m := by
      rw [h1]
      refine showFirst_told w ?_ hm
      have : (ps.map some).filterMap id = ps := by induction ps <;> simp_all
      rw [this]; exact hf
    rw [ht]
    exact .cons h2 h3 hf hm (messages_spec w ds hd ns (fun n hn => h n (List.mem_cons_of_mem _ hn)))

/-! ### arguments -/

theorem given_unique {k : String} {argv : List Str} {v u : Option Str} (h1 : Given k argv v) (h2 : Given k argv u) : v = u := by
  rcases h1 with ⟨s, h1, hs, rfl⟩ | ⟨h1, rfl⟩ <;> rcases h2 with ⟨t, h2, ht, rfl⟩ | ⟨h2, rfl⟩
  · rw [Small.last_unique h1 h2]
  · rcases h2 with h2 | h2
    · exact absurd h1 (Small.without_last h2)
    · exact absurd (Small.last_unique h1 h2) hs
  · rcases h1 with h1 | h1
    · exact absurd h2 (Small.without_last h1)
    · exact absurd (Small.last_unique h2 h1) ht
  · rfl

theorem motdArg_given (argv : List Str) : Given "motd=" argv (argv.foldl motdArg (none, none)).1 ∧ Given "motd_dir=" argv (argv.foldl motdArg (none, none)).2 := by
  constructor
  · have h := Small.foldl_last motdArg Prod.fst "motd=" (by
        intro s a ha
        unfold motdArg
        rw [Small.skipPrefix_none.mpr ha]
        dsimp only
        split <;> rfl) argv (none, none)
    rcases Small.last_or_without "motd=" argv with hw | ⟨v, hv⟩
    · rw [h.1 hw]; exact Or.inr ⟨Or.inl hw, rfl⟩
    · obtain ⟨pre, -, e⟩ := h.2 v hv
      rw [e]
      unfold motdArg
      rw [Small.skipPrefix_some.mpr rfl]
      dsimp only
      by_cases hn : v = []
      · rw [if_pos hn, ]; rw [hn] at hv; exact Or.inr ⟨Or.inr hv, rfl⟩
      · rw [if_neg hn]; exact Or.inl ⟨v, hv, hn, rfl⟩
  · have h := Small.foldl_last motdArg Prod.snd "motd_dir=" (by
        intro s a ha
        unfold motdArg
        split
        · rfl
        · rw [Small.skipPrefix_none.mpr ha]) argv (none, none)
    rcases Small.last_or_without "motd_dir=" argv with hw | ⟨v, hv⟩
    · rw [h.1 hw]; exact Or.inr ⟨Or.inl hw, rfl⟩
    · obtain ⟨pre, -, e⟩ := h.2 v hv
      rw [e]
      unfold motdArg
      have : skipPrefix ("motd_dir=".toList ++ v) "motd=".toList = none := by
        rw [Small.skipPrefix_none]
        rintro ⟨t, ht⟩
        have := congrArg (List.take 5) ht
        simp at this
      rw [this]
      dsimp only
      rw [Small.skipPrefix_some.mpr rfl]
      dsimp only
      by_cases hn : v = []
      · rw [if_pos hn]; rw [hn] at hv; exact Or.inr ⟨Or.inr hv, rfl⟩
      · rw [if_neg hn]; exact Or.inl ⟨v, hv, hn, rfl⟩

/-- the model's lists -/
def lists (argv : List Str) : Option Str × Option Str :=
  if (argv.foldl motdArg (none, none)).1 = none ∧ (argv.foldl motdArg (none, none)).2 = none then (some defaultMotd, some defaultMotdDir) else argv.foldl motdArg (none, none)

theorem lists_eq {argv : List Str} {files dirs : Option Str} (h : Lists argv files dirs) : lists argv = (files, dirs) := by
  obtain ⟨h1, h2⟩ := motdArg_given argv
  unfold lists
  rcases h with ⟨g1, g2, rfl, rfl⟩ | ⟨g1, g2, g3⟩
  · rw [if_pos ⟨given_unique h1 g1, given_unique h2 g2⟩]; rfl
  · have e1 := given_unique h1 g1
    have e2 := given_unique h2 g2
    rw [if_neg]
    · rw [← e1, ← e2]
    · rintro ⟨a, b⟩
      rw [e1] at a; rw [e2] at b
      rcases g3 with g | g
      · exact g a
      · exact g b

/-! ### the property -/

/-- opening a file and telling something -/
def Showing (ops : List Op) : Prop := ∀ x ∈ ops, (∃ p, x = .open_ p) ∨ ∃ t, x = .say t

theorem showFirst_showing (w : MWorld) : ∀ l : List (Option Str), Showing (showFirst w l)
  | [] => by intro x hx; cases hx
  | none :: l => showFirst_showing w l
  | some p :: l => by
    intro x hx
    rw [showFirst] at hx
    rcases List.mem_cons.mp hx with rfl | hx
    · exact Or.inl ⟨p, rfl⟩
    · split at hx
      · unfold display at hx
        split at hx
        · cases hx
        · split at hx
          · cases hx
          · split at hx
            · simp only [List.mem_singleton] at hx; exact Or.inr ⟨_, hx⟩
            · cases hx
      · exact showFirst_showing w l x hx

theorem showDirs_showing {w : MWorld} {l : List (Option Str)} {ops : List Op} (h : showDirs w l = some ops) : Showing ops := by
  unfold showDirs at h
  split at h
  · cases h
  · dsimp only at h
    cases h
    intro x hx
    rw [List.mem_flatMap] at hx
    obtain ⟨n, -, hx⟩ := hx
    exact showFirst_showing w _ x hx

/-- what is done for the files -/
def filesOps (w : MWorld) (f : Option Str) : List Op := match f with
  | none => []
  | some p => showFirst w (split p)

/-- what is done for the directories -/
def dirsOps (w : MWorld) (d : Option Str) : Option (List Op) := match d with
  | none => some []
  | some p => showDirs w (split p)

theorem motd_eq (w : MWorld) (argv : List Str) : motd w false argv =
    if w.drop = false then some (PAM_SESSION_ERR, [])
    else match dirsOps w (lists argv).2 with
      | none => none
      | some b =>
        if w.regain = false then some (PAM_SESSION_ERR, .drop :: filesOps w (lists argv).1 ++ b)
        else some (if w.putenv = PAM_SUCCESS then PAM_IGNORE else w.putenv, .drop :: filesOps w (lists argv).1 ++ b ++ [.regain, .env]) := by
  unfold motd
  rw [if_neg (by decide)]
  rfl

theorem filesOps_told (w : MWorld) (f : Option Str) : ∃ g m, FirstOpen w.openFile (elements f) g ∧ Message g m ∧ told (filesOps w f) = m := by
  cases f with
  | none => exact ⟨none, [], .none (by simp [elements]), .none, rfl⟩
  | some s =>
    obtain ⟨g, hg⟩ := firstOpen_total w.openFile (elements (some s))
    obtain ⟨m, hm⟩ := message_total g
    refine ⟨g, m, hg, hm, ?_⟩
    unfold filesOps
    obtain ⟨k, hk⟩ := split_eq s
    dsimp only
    rw [hk]
    refine showFirst_told w ?_ hm
    have e1 : ∀ l : List Str, (l.map some).filterMap id = l := by intro l; induction l <;> simp_all
    have e2 : (List.replicate k (none : Option Str)).filterMap id = [] := by induction k <;> simp_all [List.replicate_succ]
    rw [List.filterMap_append, e1, e2, List.append_nil]
    exact hg

/-- **C131** (for lists of directories without empty elements; false otherwise): the files and directories are looked at with the privileges of the user.  The first file of the list that can be opened is told; then, for each
name in the directories, in order and once, the first file of that name.  Then privileges are regained, MOTD_SHOWN is set and the module is ignored. -/
theorem C131_session_partial (w : MWorld) (argv : List Str) (files dirs : Option Str) (hl : Lists argv files dirs) (hd : w.drop = true) (hr : w.regain = true) (he : w.putenv = PAM_SUCCESS)
    (hp : Plain w) (hne : ∀ d, dirs = some d → ∀ p ∈ pieces d, p ≠ []) :
    ∃ ops f m ns ms, motd w false argv = some (PAM_IGNORE, .drop :: ops ++ [.regain, .env]) ∧ Showing ops ∧
      FirstOpen w.openFile (elements files) f ∧ Message f m ∧ DirNames w (elements dirs) ns ∧ Messages w (elements dirs) ns ms ∧ told ops = m ++ ms := by
  obtain ⟨f, m, hf, hm, ht⟩ := filesOps_told w files
  have hdirs : ∃ b, dirsOps w dirs = some b ∧ ∃ ns, DirNames w (elements dirs) ns ∧ Messages w (elements dirs) ns (told b) := by
    cases dirs with
    | none => exact ⟨[], rfl, [], ⟨.nil, by simp [elements]⟩, .nil⟩
    | some d =>
      have hs := split_full d (hne d rfl)
      have hel : ∀ x ∈ elems d, x ≠ [] := by
        intro x hx
        unfold elems at hx
        rw [List.mem_filter] at hx
        exact of_decide_eq_true hx.2
      have e1 : ∀ l : List Str, (l.map some).filterMap id = l := by intro l; induction l <;> simp_all
      have hn := names_spec w (elems d) hel hp
      refine ⟨_, by unfold dirsOps showDirs; dsimp only; rw [hs, if_neg (by simp), e1], _, hn, ?_⟩
      refine messages_spec w (elems d) hel _ fun n hnm => ?_
      obtain ⟨dd, -, es, k, h1, h2, -⟩ := (hn.mem n).mp hnm
      exact hp dd es n k h1 h2
  obtain ⟨b, hb, ns, hn, hms⟩ := hdirs
  refine ⟨filesOps w files ++ b, f, m, ns, told b, ?_, ?_, hf, hm, hn, hms, by rw [told_append, ht]⟩
  · rw [motd_eq, if_neg (by rw [hd]; decide), lists_eq hl]
    dsimp only
    rw [hb]
    dsimp only
    rw [if_neg (by rw [hr]; decide), if_pos he, List.cons_append]
  · intro x hx
    rcases List.mem_append.mp hx with hx | hx
    · unfold filesOps at hx
      split at hx
      · cases hx
      · exact showFirst_showing w _ x hx
    · unfold dirsOps at hb
      split at hb
      · cases hb; cases hx
      · exact showDirs_showing hb x hx

/-- **C131**: with PAM_SILENT nothing is done; if the user is not known or privileges cannot be dropped, nothing is looked at and the session fails. -/
theorem C131_nothing (w : MWorld) (argv : List Str) : motd w true argv = some (PAM_IGNORE, []) ∧ (w.drop = false → motd w false argv = some (PAM_SESSION_ERR, [])) := by
  refine ⟨rfl, fun h => ?_⟩
  rw [motd_eq, if_pos h]

/-- **C131**: if privileges cannot be regained, the session fails. -/
theorem C131_regain (w : MWorld) (argv : List Str) (r : Int) (ops : List Op) (hr : w.regain = false) (h : motd w false argv = some (r, ops)) : r = PAM_SESSION_ERR ∧ .env ∉ ops := by
  rw [motd_eq] at h
  split at h
  · cases h; exact ⟨rfl, by simp⟩
  · split at h
    · cases h
    · next b hb =>
      cases h
      refine ⟨rfl, fun hm => ?_⟩
      have hb' : Showing b := by
        unfold dirsOps at hb
        split at hb
        · cases hb; intro x hx; cases hx
        · exact showDirs_showing hb
      have ha' : Showing (filesOps w (lists argv).1) := by
        unfold filesOps
        split
        · intro x hx; cases hx
        · exact showFirst_showing w _
      rw [List.cons_append, List.mem_cons] at hm
      rcases hm with hm | hm
      · cases hm
      · rcases List.mem_append.mp hm with hm | hm
        · rcases ha' _ hm with ⟨p, h⟩ | ⟨t, h⟩ <;> cases h
        · rcases hb' _ hm with ⟨p, h⟩ | ⟨t, h⟩ <;> cases h

/-- **C131** is false if the list of directories has an empty element, as `motd_dir=/etc/motd.d:` has: a null pointer is given to `scandir`. -/
theorem C131_empty_counterexample (w : MWorld) (h : w.drop = true) : motd w false ["motd_dir=/etc/motd.d:".toList] = none := by
  rw [motd_eq, if_neg (by rw [h]; decide)]
  rw [show (lists ["motd_dir=/etc/motd.d:".toList]).2 = some "/etc/motd.d:".toList by decide +kernel]
  dsimp only [dirsOps]
  unfold showDirs
  rw [if_pos (by decide +kernel)]

/-- A directory in the first of the directories hides the file of the same name in the second, although directories do not count. -/
def shadowed : MWorld := ⟨true, true, fun p => if p = "/a/x".toList then some ⟨some 4096, []⟩ else if p = "/b/x".toList then some ⟨some 2, "hi".toList⟩ else none,
  fun d => if d = "/a".toList then some [("x".toList, .other)] else if d = "/b".toList then some [("x".toList, .regular)] else none, fun _ => false, PAM_SUCCESS⟩

theorem dirsOps_shadowed : dirsOps shadowed (some "/a:/b".toList) = some [.open_ "/a/x".toList] := by
  unfold dirsOps showDirs
  dsimp only
  have h1 : split "/a:/b".toList = [some "/a".toList, some "/b".toList] := by decide +kernel
  rw [h1, if_neg (by decide)]
  have h2 : ([some "/a".toList, some "/b".toList].filterMap id) = ["/a".toList, "/b".toList] := rfl
  rw [h2]
  have h3 : (["/a".toList, "/b".toList].flatMap (namesIn shadowed)) = ["x".toList] := by decide +kernel
  rw [h3, List.mergeSort_singleton]
  decide +kernel

/-- **C131** (directories do not count): the file /b/x is not told, as the directory /a/x is opened in its place. -/
theorem C131_directory_counterexample : motd shadowed false ["motd_dir=/a:/b".toList] = some (PAM_IGNORE, [.drop, .open_ "/a/x".toList, .regain, .env]) := by
  rw [motd_eq, if_neg (by decide)]
  rw [show lists ["motd_dir=/a:/b".toList] = (none, some "/a:/b".toList) by decide +kernel]
  dsimp only
  rw [dirsOps_shadowed]
  decide +kernel

example : Plain shadowed := by
  intro d es n k h hm
  unfold shadowed at h
  dsimp only at h
  split at h
  · cases h; simp at hm; rw [hm.1]; decide
  · split at h
    · cases h; simp at hm; rw [hm.1]; decide
    · cases h
example : Lists ["motd_dir=/a:/b".toList] none (some "/a:/b".toList) := by
  refine Or.inr ⟨Or.inr ⟨Or.inl ?_, rfl⟩, Or.inl ⟨"/a:/b".toList, ⟨[], [], rfl, ?_⟩, by decide, rfl⟩, Or.inr (by simp)⟩
  · intro a ha; simp only [List.mem_singleton] at ha; subst ha; decide
  · intro a ha; cases ha
example : ∀ p ∈ pieces "/a:/b".toList, p ≠ [] := by decide +kernel

end Pam.Show
