import Verif.Core.Codes
import Verif.Config.LineLemmas
/-
What the small modules share: accounts, groups, the lines of a text file and the arguments of a module.
Models libpam/pam_modutil_ingroup.c and libpam/include/pam_inline.h:40-60.
-/
namespace Pam.Small
open Pam

abbrev Str := List Char

/-- `pam_str_skip_prefix`: libpam/include/pam_inline.h:40-60 -/
def skipPrefix (s pre : Str) : Option Str := if pre.isPrefixOf s then some (s.drop pre.length) else none

/-- a C string in a buffer -/
def cstr (s : Str) : Str := s.takeWhile (· ≠ NUL)

/-- an account as `getpwnam` gives it -/
structure User where
  name : Str
  uid : Nat
  gid : Nat
  shell : Str
deriving DecidableEq, Repr

/-- a group as `getgrnam` gives it -/
structure Group where
  name : Str
  gid : Nat
  mem : List Str
deriving DecidableEq, Repr

/-- the accounts and groups of the system; `grouplist` is what `getgrouplist` finds for a user, the given group included -/
structure Accounts where
  pwnam : Str → Option User
  pwuid : Nat → Option User
  grnam : Str → Option Group
  grgid : Nat → Option Group
  grouplist : Str → Nat → List Nat

/-- The loop of `checkgrouplist`: libpam/pam_modutil_ingroup.c:24-43.  `getgrouplist` with room for fewer than there are fails and says how
many there are, which do not change meanwhile.  `none`: more than `fuel` rounds.  Memory is available. -/
def groupLoop (gl : List Nat) (target : Nat) : (fuel : Nat) → (ngroups : Nat) → Option Bool
  | 0, _ => none
  | fuel + 1, ngroups =>
    if gl.length ≤ ngroups then some (gl.contains target)
    else if 0 < gl.length ∧ gl.length ≠ ngroups ∧ gl.length ≤ 65536 then groupLoop gl target fuel gl.length
    else some false

/-- `pam_modutil_user_in_group_common`: libpam/pam_modutil_ingroup.c:48-79.  Three rounds are more than enough (`groupLoop_some`). -/
def inGroup (a : Accounts) (pwd : Option User) (grp : Option Group) : Bool :=
  match pwd, grp with
  | some u, some g =>
    u.gid = g.gid || g.mem.contains u.name || (groupLoop (a.grouplist u.name u.gid) g.gid 3 100).getD false
  | _, _ => false

/-- `pam_modutil_user_in_group_nam_nam`: libpam/pam_modutil_ingroup.c:81-92 -/
def inGroupNamNam (a : Accounts) (user group : Str) : Bool := inGroup a (a.pwnam user) (a.grnam group)

/-- `pam_modutil_user_in_group_uid_gid`: libpam/pam_modutil_ingroup.c:120-131 -/
def inGroupUidGid (a : Accounts) (uid gid : Nat) : Bool := inGroup a (a.pwuid uid) (a.grgid gid)

/-! ### vocabulary -/

/-- an account belongs to a group: it is the account's own group, it lists the account, or the C library says so.  Beyond 65536 groups of a
user the library is not asked. -/
def Belongs (a : Accounts) (u : User) (g : Group) : Prop :=
  u.gid = g.gid ∨ u.name ∈ g.mem ∨ (g.gid ∈ a.grouplist u.name u.gid ∧ (a.grouplist u.name u.gid).length ≤ 65536)

/-- a line of a text: what is between newlines.  What follows the last newline is a line only if there is something. -/
def TextLine (s l : Str) : Prop :=
  ∃ a b, s = a ++ l ++ b ∧ '\n' ∉ l ∧ (a = [] ∨ ∃ a', a = a' ++ ['\n']) ∧ (b = [] ∨ ∃ b', b = '\n' :: b') ∧ (l ≠ [] ∨ b ≠ [])

/-- the last argument that begins with `k` continues with `v` -/
def Last (k : String) (argv : List Str) (v : Str) : Prop :=
  ∃ pre post, argv = pre ++ (k.toList ++ v) :: post ∧ ∀ x ∈ post, ¬ k.toList <+: x

/-- no argument begins with `k` -/
def Without (k : String) (argv : List Str) : Prop := ∀ x ∈ argv, ¬ k.toList <+: x

/-! ### lemmas -/

theorem skipPrefix_some {s pre r : Str} : skipPrefix s pre = some r ↔ s = pre ++ r := by
  unfold skipPrefix
  constructor
  · intro h
    split at h
    · next hp =>
      obtain ⟨t, rfl⟩ := List.isPrefixOf_iff_prefix.mp hp
      cases h
      rw [List.drop_left]
    · cases h
  · rintro rfl
    rw [if_pos (List.isPrefixOf_iff_prefix.mpr ⟨r, rfl⟩), List.drop_left]

theorem skipPrefix_none {s pre : Str} : skipPrefix s pre = none ↔ ¬ pre <+: s := by
  unfold skipPrefix
  constructor
  · intro h hp
    rw [if_pos (List.isPrefixOf_iff_prefix.mpr hp)] at h
    cases h
  · intro h
    exact if_neg (fun hp => h (List.isPrefixOf_iff_prefix.mp hp))

theorem groupLoop_some (gl : List Nat) (t : Nat) :
    groupLoop gl t 3 100 = some (decide (t ∈ gl ∧ gl.length ≤ 65536)) := by
  unfold groupLoop
  split
  · next h => simp; omega
  · split
    · next h1 h2 =>
      unfold groupLoop
      rw [if_pos (Nat.le_refl _)]
      simp [h2.2.2]
    · next h1 h2 =>
      have : ¬ gl.length ≤ 65536 := by omega
      simp [this]

/-- `pam_modutil_user_in_group_*` say what they are asked -/
theorem inGroup_iff (a : Accounts) (pwd : Option User) (grp : Option Group) :
    inGroup a pwd grp = true ↔ ∃ u g, pwd = some u ∧ grp = some g ∧ Belongs a u g := by
  unfold inGroup Belongs
  cases pwd with
  | none => simp
  | some u =>
    cases grp with
    | none => simp
    | some g => simp [groupLoop_some, or_assoc]

theorem physLines_only : ∀ l : Str, '\n' ∉ l → l ≠ [] → Config.physLines l = [l]
  | [], _, h => absurd rfl h
  | [c], h, _ => by
    have : c ≠ '\n' := by rintro rfl; exact h (by simp)
    simp [Config.physLines, this]
  | c :: d :: t, h, _ => by
    have hc : c ≠ '\n' := by rintro rfl; exact h (by simp)
    have := physLines_only (d :: t) (fun hm => h (List.mem_cons_of_mem _ hm)) nofun
    rw [Config.physLines, if_neg hc, this]

theorem upto_newline : ∀ s : Str, '\n' ∉ s ∨ ∃ l r, s = l ++ '\n' :: r ∧ '\n' ∉ l
  | [] => Or.inl (by simp)
  | c :: t => by
    by_cases hc : c = '\n'
    · exact Or.inr ⟨[], t, by rw [hc]; rfl, by simp⟩
    · rcases upto_newline t with h | ⟨l, r, rfl, h⟩
      · left; intro hm; rcases List.mem_cons.mp hm with hm | hm
        · exact hc hm.symm
        · exact h hm
      · refine Or.inr ⟨c :: l, r, rfl, fun hm => ?_⟩
        rcases List.mem_cons.mp hm with hm | hm
        · exact hc hm.symm
        · exact h hm

theorem newline_unique : ∀ {u v r s : Str}, '\n' ∉ u → '\n' ∉ v → u ++ '\n' :: r = v ++ '\n' :: s → u = v ∧ r = s
  | [], [], _, _, _, _, h => by cases h; exact ⟨rfl, rfl⟩
  | [], x :: v, _, _, _, hv, h => by cases h; exact absurd (by simp) hv
  | x :: u, [], _, _, hu, _, h => by cases h; exact absurd (by simp) hu
  | x :: u, y :: v, r, s, hu, hv, h => by
    rw [List.cons_append, List.cons_append, List.cons.injEq] at h
    obtain ⟨h1, h2⟩ := newline_unique (fun hm => hu (List.mem_cons_of_mem _ hm)) (fun hm => hv (List.mem_cons_of_mem _ hm)) h.2
    exact ⟨by rw [h.1, h1], h2⟩

theorem textLine_nil (l : Str) : ¬ TextLine [] l := by
  rintro ⟨a, b, h, -, -, -, h1⟩
  have h := h.symm
  simp only [List.append_eq_nil_iff] at h
  rcases h1 with h1 | h1
  · exact h1 h.1.2
  · exact h1 h.2

theorem textLine_only {s : Str} (hs : '\n' ∉ s) (hne : s ≠ []) (l : Str) : TextLine s l ↔ l = s := by
  constructor
  · rintro ⟨a, b, rfl, -, h1, h2, h3⟩
    rcases h1 with rfl | ⟨a', rfl⟩
    · rcases h2 with rfl | ⟨b', rfl⟩
      · simp
      · exact absurd (by simp) hs
    · exact absurd (by simp) hs
  · rintro rfl
    exact ⟨[], [], by simp, hs, Or.inl rfl, Or.inl rfl, Or.inl hne⟩

theorem textLine_cons {l0 r : Str} (h0 : '\n' ∉ l0) (l : Str) : TextLine (l0 ++ '\n' :: r) l ↔ l = l0 ∨ TextLine r l := by
  constructor
  · rintro ⟨a, b, h, h1, h2, h3, h4⟩
    rcases h2 with rfl | ⟨a', rfl⟩
    · left
      rcases h3 with rfl | ⟨b', rfl⟩
      · rw [List.nil_append, List.append_nil] at h
        exact absurd (by rw [← h]; simp) h1
      · exact (newline_unique h0 h1 h).1.symm
    · right
      rcases upto_newline a' with ha | ⟨p, q, rfl, hp⟩
      · rw [show a' ++ ['\n'] ++ l ++ b = a' ++ '\n' :: (l ++ b) by simp] at h
        obtain ⟨-, rfl⟩ := newline_unique h0 ha h
        exact ⟨[], b, rfl, h1, Or.inl rfl, h3, h4⟩
      · rw [show p ++ '\n' :: q ++ ['\n'] ++ l ++ b = p ++ '\n' :: (q ++ ['\n'] ++ l ++ b) by simp] at h
        obtain ⟨-, rfl⟩ := newline_unique h0 hp h
        exact ⟨q ++ ['\n'], b, rfl, h1, Or.inr ⟨q, rfl⟩, h3, h4⟩
  · rintro (rfl | ⟨a, b, rfl, h1, h2, h3, h4⟩)
    · exact ⟨[], '\n' :: r, rfl, h0, Or.inl rfl, Or.inr ⟨r, rfl⟩, Or.inr nofun⟩
    · refine ⟨l0 ++ '\n' :: a, b, by simp, h1, Or.inr ?_, h3, h4⟩
      rcases h2 with rfl | ⟨a', rfl⟩
      · exact ⟨l0, rfl⟩
      · exact ⟨l0 ++ '\n' :: a', by simp⟩

theorem takeWhile_line {l : Str} (h : '\n' ∉ l) : l.takeWhile (· ≠ '\n') = l ∧ (l ++ ['\n']).takeWhile (· ≠ '\n') = l := by
  have ha : ∀ x ∈ l, decide (x ≠ '\n') = true := fun x hx => by
    have : x ≠ '\n' := by rintro rfl; exact h hx
    simpa using this
  have h2 : ∀ r, (l ++ r).takeWhile (· ≠ '\n') = l ++ r.takeWhile (· ≠ '\n') := fun r => List.takeWhile_append_of_pos ha
  refine ⟨?_, by rw [h2]; simp⟩
  have := h2 []
  simpa using this

/-- the lines of a text are what `getline` gives, without the newline -/
theorem physLines_iff (s l : Str) : (∃ x ∈ Config.physLines s, x.takeWhile (· ≠ '\n') = l) ↔ TextLine s l := by
  induction hn : s.length using Nat.strongRecOn generalizing s with | _ n ih =>
  rcases upto_newline s with h | ⟨l0, r, rfl, h0⟩
  · by_cases hs : s = []
    · subst hs
      exact ⟨nofun, fun h => absurd h (textLine_nil l)⟩
    · rw [textLine_only h hs, physLines_only s h hs]
      simp only [List.mem_singleton, exists_eq_left]
      rw [(takeWhile_line h).1]
      exact eq_comm
  · rw [textLine_cons h0, Config.physLines_line l0 r h0, ← ih r.length (by rw [← hn]; simp; omega) r rfl]
    simp only [List.mem_cons, exists_eq_or_imp]
    rw [(takeWhile_line h0).2]
    constructor
    · rintro (h | h)
      · exact Or.inl h.symm
      · exact Or.inr h
    · rintro (h | h)
      · exact Or.inl h.symm
      · exact Or.inr h

theorem last_cons {k : String} {x : Str} {argv : List Str} {v : Str} : Last k (x :: argv) v ↔ Last k argv v ∨ (Without k argv ∧ x = k.toList ++ v) := by
  constructor
  · rintro ⟨pre, post, h, hp⟩
    cases pre with
    | nil =>
      rw [List.nil_append, List.cons.injEq] at h
      exact Or.inr ⟨by rw [h.2]; exact hp, h.1⟩
    | cons y pre =>
      rw [List.cons_append, List.cons.injEq] at h
      exact Or.inl ⟨pre, post, h.2, hp⟩
  · rintro (⟨pre, post, rfl, hp⟩ | ⟨hw, rfl⟩)
    · exact ⟨x :: pre, post, rfl, hp⟩
    · exact ⟨[], argv, rfl, hw⟩

theorem last_mem {k : String} {argv : List Str} {v : Str} (h : Last k argv v) : k.toList ++ v ∈ argv := by
  obtain ⟨pre, post, rfl, -⟩ := h
  simp

theorem without_last {k : String} {argv : List Str} (h : Without k argv) {v : Str} : ¬ Last k argv v :=
  fun hl => h _ (last_mem hl) ⟨v, rfl⟩

theorem last_unique {k : String} : ∀ {argv : List Str} {v w : Str}, Last k argv v → Last k argv w → v = w
  | [], _, _, h, _ => by obtain ⟨pre, post, h, -⟩ := h; simp at h
  | x :: argv, v, w, h1, h2 => by
    rcases last_cons.mp h1 with h1 | ⟨h0, rfl⟩
    · rcases last_cons.mp h2 with h2 | ⟨h2, -⟩
      · exact last_unique h1 h2
      · exact absurd h1 (without_last h2)
    · rcases last_cons.mp h2 with h2 | ⟨-, h2⟩
      · exact absurd h2 (without_last h0)
      · exact List.append_cancel_left h2

theorem last_or_without (k : String) : ∀ argv : List Str, Without k argv ∨ ∃ v, Last k argv v
  | [] => Or.inl (fun _ h => by cases h)
  | x :: argv => by
    rcases last_or_without k argv with h | ⟨v, h⟩
    · by_cases hx : k.toList <+: x
      · obtain ⟨v, rfl⟩ := hx
        exact Or.inr ⟨v, last_cons.mpr (Or.inr ⟨h, rfl⟩)⟩
      · left
        intro y hy
        rcases List.mem_cons.mp hy with rfl | hy
        · exact hx
        · exact h y hy
    · exact Or.inr ⟨v, last_cons.mpr (Or.inl h)⟩

/-- going through the arguments, a value only arguments with a key can change is what the last of them makes it -/
theorem foldl_last {σ β : Type} (step : σ → Str → σ) (get : σ → β) (k : String) (hother : ∀ s a, ¬ k.toList <+: a → get (step s a) = get s) :
    ∀ (argv : List Str) (s : σ), (Without k argv → get (argv.foldl step s) = get s) ∧
      (∀ v, Last k argv v → ∃ pre : List Str, pre <+: argv ∧ get (argv.foldl step s) = get (step (pre.foldl step s) (k.toList ++ v)))
  | [], s => ⟨fun _ => rfl, fun v h => by have := last_mem h; cases this⟩
  | x :: argv, s => by
    obtain ⟨h1, h2⟩ := foldl_last step get k hother argv (step s x)
    refine ⟨fun hw => ?_, fun v hl => ?_⟩
    · rw [List.foldl_cons, h1 (fun y hy => hw y (by simp [hy])), hother _ _ (hw x (by simp))]
    · rcases last_cons.mp hl with hl | ⟨hw, rfl⟩
      · obtain ⟨pre, hp, h⟩ := h2 v hl
        refine ⟨x :: pre, ?_, h⟩
        rw [List.cons_prefix_cons]
        exact ⟨rfl, hp⟩
      · exact ⟨[], List.nil_prefix, by rw [List.foldl_cons, h1 hw]; rfl⟩

end Pam.Small
