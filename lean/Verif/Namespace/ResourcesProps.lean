import Verif.Namespace.Resources
/-
C189: descriptors and protecting mounts of pam_namespace.
-/
namespace Pam.Namespace

namespace Spec

/-- besides the descriptors that were open before, just these are open; a new number is above all of them; and none was closed that was not open -/
def Open (before own : List Nat) (s : Res) : Prop :=
  (∀ n, n ∈ s.fds ↔ n ∈ before ∨ n ∈ own) ∧ (∀ n ∈ s.fds, n < s.next) ∧ (∀ n ∈ own, n ∉ before) ∧ s.wild = false

/-- the directories that are protected now and were not before: all are on the way to `path`, none is there twice, and each is mounted -/
def Protects (path : List Name) (s s' : Res) : Prop :=
  ∃ new, s'.prot = new ++ s.prot ∧ s'.mounts = new ++ s.mounts ∧ new.Nodup ∧ ∀ d ∈ new, d ∉ s.prot ∧ d ≠ [] ∧ ∃ r, path = d ++ r

end Spec
open Spec

/-! ### descriptors -/

theorem opens_open (y : Sys) {B own : List Nat} {s : Res} (h : Spec.Open B own s) :
    (∃ s1, s.opens y = (none, s1) ∧ Spec.Open B own s1) ∨
    ∃ n s1, s.opens y = (some n, s1) ∧ Spec.Open B (n :: own) s1 ∧ n ∉ own := by
  obtain ⟨h1, h2, h3, h4⟩ := h
  unfold Res.opens
  split
  · right
    refine ⟨_, _, rfl, ⟨?_, ?_, ?_, h4⟩, ?_⟩
    · intro n
      simp only [List.mem_cons, h1]
      constructor
      · rintro (x | x | x)
        · exact Or.inr (Or.inl x)
        · exact Or.inl x
        · exact Or.inr (Or.inr x)
      · rintro (x | x | x)
        · exact Or.inr (Or.inl x)
        · exact Or.inl x
        · exact Or.inr (Or.inr x)
    · intro n hn
      rcases List.mem_cons.mp hn with x | x
      · dsimp only; omega
      · have := h2 n x; dsimp only; omega
    · intro n hn hb
      rcases List.mem_cons.mp hn with x | x
      · have := h2 n ((h1 n).mpr (Or.inl hb)); omega
      · exact h3 n x hb
    · intro hn
      have := h2 _ ((h1 _).mpr (Or.inr hn))
      omega
  · exact Or.inl ⟨_, rfl, h1, h2, h3, h4⟩

theorem closes_open {B own : List Nat} {s : Res} (h : Spec.Open B own s) {fd : Nat} (hfd : fd ∈ own) : Spec.Open B (own.filter (· ≠ fd)) (s.closes fd) := by
  obtain ⟨h1, h2, h3, h4⟩ := h
  refine ⟨?_, ?_, ?_, ?_⟩
  · intro n
    unfold Res.closes
    dsimp only
    rw [List.mem_filter, List.mem_filter, h1]
    constructor
    · rintro ⟨x | x, y⟩
      · exact Or.inl x
      · exact Or.inr ⟨x, y⟩
    · rintro (x | ⟨x, y⟩)
      · refine ⟨Or.inl x, ?_⟩
        simp only [ne_eq, decide_eq_true_eq]
        intro e
        exact h3 fd hfd (e ▸ x)
      · exact ⟨Or.inr x, y⟩
  · intro n hn
    exact h2 n ((List.mem_filter.mp hn).1)
  · intro n hn
    exact h3 n ((List.mem_filter.mp hn).1)
  · unfold Res.closes
    dsimp only
    rw [h4, show s.fds.contains fd = true by simpa using (h1 fd).mpr (Or.inr hfd)]
    rfl

/-- closing the only one -/
theorem closes_one {B : List Nat} {s : Res} {fd : Nat} (h : Spec.Open B [fd] s) : Spec.Open B [] (s.closes fd) := by
  have := closes_open h (fd := fd) (by simp)
  simpa using this

/-- closing the first of two -/
theorem closes_first {B : List Nat} {s : Res} {a b : Nat} (h : Spec.Open B [a, b] s) (hne : a ≠ b) : Spec.Open B [b] (s.closes a) := by
  have := closes_open h (fd := a) (by simp)
  rw [show [a, b].filter (· ≠ a) = [b] by simp [hne.symm]] at this
  exact this

/-- closing the second of two -/
theorem closes_second {B : List Nat} {s : Res} {a b : Nat} (h : Spec.Open B [a, b] s) (hne : a ≠ b) : Spec.Open B [a] (s.closes b) := by
  have := closes_open h (fd := b) (by simp)
  rw [show [a, b].filter (· ≠ b) = [a] by simp [hne]] at this
  exact this

theorem call_open (y : Sys) {B own : List Nat} {s : Res} (h : Spec.Open B own s) : ∃ r s1, s.call y = (r, s1) ∧ Spec.Open B own s1 :=
  ⟨_, _, rfl, h⟩

theorem protect_open (y : Sys) (path : List Name) {B own : List Nat} {s : Res} (h : Spec.Open B own s) :
    ∃ r s1, protectMount y path s = (r, s1) ∧ Spec.Open B own s1 := by
  unfold protectMount
  split
  · exact ⟨_, _, rfl, h⟩
  · obtain ⟨r1, s1, e1, h1⟩ := call_open y h
    rw [e1]
    cases r1 with
    | false => exact ⟨_, _, rfl, h1⟩
    | true =>
      obtain ⟨r2, s2, e2, h2⟩ := call_open y h1
      dsimp only
      rw [e2]
      cases r2 with
      | false => exact ⟨_, _, rfl, h2⟩
      | true =>
        obtain ⟨r3, s3, e3, h3⟩ := call_open y h2
        dsimp only
        rw [e3]
        cases r3 with
        | false => exact ⟨_, _, rfl, h3⟩
        | true => exact ⟨_, _, rfl, h3⟩

theorem last_open (y : Sys) (protect mkdir nofollow : Bool) (pre : List Name) (c : Name) {B : List Nat} {s : Res} {dfd : Nat} (h : Spec.Open B [dfd] s) :
    ∃ r s1, openLast y protect mkdir nofollow dfd pre c s = (r, s1) ∧ Spec.Open B r.toList s1 := by
  have first : ∃ r s1, openOrMake y mkdir s = (r, s1) ∧ ((r = none ∧ Spec.Open B [dfd] s1) ∨ ∃ n, r = some n ∧ Spec.Open B [n, dfd] s1 ∧ n ≠ dfd) := by
    unfold openOrMake
    rcases opens_open y h with ⟨s1, e, h1⟩ | ⟨n, s1, e, h1, hn⟩
    · rw [e]
      dsimp only
      split
      · obtain ⟨r2, s2, e2, h2⟩ := call_open y h1
        rw [e2]
        cases r2 with
        | false => exact ⟨_, _, rfl, Or.inl ⟨rfl, h2⟩⟩
        | true =>
          dsimp only
          rcases opens_open y h2 with ⟨s3, e, h3⟩ | ⟨n, s3, e, h3, hn⟩
          · rw [e]; exact ⟨_, _, rfl, Or.inl ⟨rfl, h3⟩⟩
          · rw [e]; exact ⟨_, _, rfl, Or.inr ⟨n, rfl, h3, by simpa using hn⟩⟩
      · exact ⟨_, _, rfl, Or.inl ⟨rfl, h1⟩⟩
    · rw [e]
      exact ⟨_, _, rfl, Or.inr ⟨n, rfl, h1, by simpa using hn⟩⟩
  obtain ⟨r, s1, e, hr⟩ := first
  unfold openLast
  rw [e]
  rcases hr with ⟨rfl, h1⟩ | ⟨n, rfl, h1, hn⟩
  · exact ⟨_, _, rfl, closes_one h1⟩
  · dsimp only
    split
    · obtain ⟨r2, s2, e2, h2⟩ := protect_open y (pre ++ [c]) h1
      rw [e2]
      cases r2 with
      | false => exact ⟨_, _, rfl, closes_one (closes_first h2 hn)⟩
      | true =>
        dsimp only
        rcases opens_open y (closes_first h2 hn) with ⟨s3, e3, h3⟩ | ⟨m, s3, e3, h3, hm⟩
        · rw [e3]
          exact ⟨_, _, rfl, closes_one h3⟩
        · rw [e3]
          exact ⟨_, _, rfl, closes_second h3 (by simpa using hm)⟩
    · exact ⟨_, _, rfl, closes_second h1 hn⟩

theorem parts_open (y : Sys) (protect mkdir : Bool) {B : List Nat} : ∀ (path : List Name) (nofollow : Bool) (dfd : Nat) (pre : List Name) (s : Res), Spec.Open B [dfd] s →
    ∃ r s1, openParts y protect mkdir nofollow dfd pre path s = (r, s1) ∧ Spec.Open B r.toList s1 := by
  intro path
  induction path with
  | nil => intro nofollow dfd pre s h; exact ⟨_, _, rfl, h⟩
  | cons c r ih =>
    intro nofollow dfd pre s h
    cases r with
    | nil => exact last_open y protect mkdir nofollow pre c h
    | cons d r =>
      unfold openParts
      rcases opens_open y h with ⟨s1, e, h1⟩ | ⟨n, s1, e, h1, hn⟩
      · rw [e]; exact ⟨_, _, rfl, closes_one h1⟩
      · have hn : n ≠ dfd := by simpa using hn
        rw [e]
        dsimp only
        obtain ⟨r2, s2, e2, h2⟩ := call_open y h1
        rw [e2]
        cases r2 with
        | false => exact ⟨_, _, rfl, closes_one (closes_first h2 hn)⟩
        | true =>
          dsimp only
          split
          · obtain ⟨r3, s3, e3, h3⟩ := protect_open y (pre ++ [c]) h2
            rw [e3]
            cases r3 with
            | false => exact ⟨_, _, rfl, closes_one (closes_first h3 hn)⟩
            | true =>
              dsimp only
              rcases opens_open y (closes_first h3 hn) with ⟨s4, e4, h4⟩ | ⟨m, s4, e4, h4, hm⟩
              · rw [e4]; exact ⟨_, _, rfl, closes_one h4⟩
              · rw [e4]
                exact ih nofollow m (pre ++ [c]) (s4.closes dfd) (closes_second h4 (by simpa using hm))
          · exact ih _ n (pre ++ [c]) (s2.closes dfd) (closes_second h2 hn)

/-! ### mounts -/

theorem opens_same (y : Sys) (s : Res) : (s.opens y).2.prot = s.prot ∧ (s.opens y).2.mounts = s.mounts := by
  unfold Res.opens
  split <;> exact ⟨rfl, rfl⟩

theorem protects_refl {path : List Name} {s s' : Res} (h : s'.prot = s.prot ∧ s'.mounts = s.mounts) : Protects path s s' :=
  ⟨[], h.1, h.2, List.nodup_nil, by simp⟩

theorem protects_trans {path : List Name} {s s' s'' : Res} (h : Protects path s s') (h' : Protects path s' s'') : Protects path s s'' := by
  obtain ⟨n1, a1, a2, a3, a4⟩ := h
  obtain ⟨n2, b1, b2, b3, b4⟩ := h'
  refine ⟨n2 ++ n1, by rw [b1, a1, List.append_assoc], by rw [b2, a2, List.append_assoc], ?_, ?_⟩
  · refine List.nodup_append.mpr ⟨b3, a3, ?_⟩
    intro x hx z hz e
    subst e
    exact (b4 x hx).1 (by rw [a1]; simp [hz])
  · intro d hd
    rcases List.mem_append.mp hd with x | x
    · obtain ⟨k1, k2⟩ := b4 d x
      exact ⟨fun e => k1 (by rw [a1]; simp [e]), k2⟩
    · exact a4 d x

theorem protectMount_protects (y : Sys) {path d r : List Name} (hp : path = d ++ r) (hd : d ≠ []) (s : Res) :
    Protects path s (protectMount y d s).2 ∧ ((protectMount y d s).1 = true → d ∈ (protectMount y d s).2.prot) := by
  unfold protectMount
  by_cases hm : d ∈ s.prot
  · rw [if_pos hm]
    exact ⟨protects_refl ⟨rfl, rfl⟩, fun _ => hm⟩
  · rw [if_neg hm]
    unfold Res.call
    cases y.ok s.t with
    | false => exact ⟨protects_refl ⟨rfl, rfl⟩, fun e => by cases e⟩
    | true =>
      dsimp only
      cases y.ok (s.t + 1) with
      | false => exact ⟨protects_refl ⟨rfl, rfl⟩, fun e => by cases e⟩
      | true =>
        dsimp only
        cases y.ok (s.t + 1 + 1) with
        | false => exact ⟨protects_refl ⟨rfl, rfl⟩, fun e => by cases e⟩
        | true =>
          refine ⟨⟨[d], rfl, rfl, by simp, ?_⟩, fun _ => by simp⟩
          intro x hx
          rw [List.mem_singleton.mp hx]
          exact ⟨hm, hd, r, hp⟩

/-- what is true of the mounts after a part of `secure_opendir`: nothing happens without SECURE_OPENDIR_PROTECT -/
def Mounted (protect : Bool) (path : List Name) (s s' : Res) : Prop :=
  Protects path s s' ∧ (protect = false → s'.prot = s.prot ∧ s'.mounts = s.mounts)

theorem mounted_same {protect : Bool} {path : List Name} {s s' : Res} (h : s'.prot = s.prot ∧ s'.mounts = s.mounts) : Mounted protect path s s' :=
  ⟨protects_refl h, fun _ => h⟩

theorem mounted_trans {protect : Bool} {path : List Name} {s s' s'' : Res} (h : Mounted protect path s s') (h' : Mounted protect path s' s'') : Mounted protect path s s'' :=
  ⟨protects_trans h.1 h'.1, fun e => ⟨(h'.2 e).1.trans (h.2 e).1, (h'.2 e).2.trans (h.2 e).2⟩⟩

/-- all the ways to `pre ++ path` from just after `pre` on are protected -/
def Covered (pre path : List Name) (s : Res) : Prop := ∀ a b, path = a ++ b → a ≠ [] → pre ++ a ∈ s.prot

theorem prot_mono {path : List Name} {s s' : Res} (h : Protects path s s') {d : List Name} (hd : d ∈ s.prot) : d ∈ s'.prot := by
  obtain ⟨n, e, -⟩ := h
  rw [e]
  simp [hd]

theorem last_mounted (y : Sys) (protect mkdir nofollow : Bool) (dfd : Nat) (pre : List Name) (c : Name) (s : Res) :
    Mounted protect (pre ++ [c]) s (openLast y protect mkdir nofollow dfd pre c s).2 ∧
    ((openLast y protect mkdir nofollow dfd pre c s).1.isSome = true → protect = true → nofollow = true →
      Covered pre [c] (openLast y protect mkdir nofollow dfd pre c s).2) := by
  have first : ∃ r s1, openOrMake y mkdir s = (r, s1) ∧ s1.prot = s.prot ∧ s1.mounts = s.mounts := by
    unfold openOrMake
    have h1 := opens_same y s
    generalize s.opens y = q at h1
    obtain ⟨r1, s1⟩ := q
    cases r1 with
    | some n => exact ⟨_, _, rfl, h1⟩
    | none =>
      dsimp only at h1 ⊢
      split
      · cases hc : y.ok s1.t with
        | false =>
          rw [show s1.call y = (false, { s1 with t := s1.t + 1 }) by unfold Res.call; rw [hc]]
          exact ⟨_, _, rfl, h1⟩
        | true =>
          rw [show s1.call y = (true, { s1 with t := s1.t + 1 }) by unfold Res.call; rw [hc]]
          have h2 := opens_same y { s1 with t := s1.t + 1 }
          exact ⟨_, _, rfl, h2.1.trans h1.1, h2.2.trans h1.2⟩
      · exact ⟨_, _, rfl, h1⟩
  obtain ⟨r, s1, e, h1⟩ := first
  unfold openLast
  rw [e]
  cases r with
  | none => exact ⟨mounted_same h1, fun x => by cases x⟩
  | some n =>
    dsimp only
    by_cases hnp : (nofollow && protect) = true
    · rw [if_pos hnp]
      have hpr : protect = true := by revert hnp; cases protect <;> cases nofollow <;> simp
      have hp := protectMount_protects y (path := pre ++ [c]) (d := pre ++ [c]) (r := []) (by simp) (by simp) s1
      generalize protectMount y (pre ++ [c]) s1 = q at hp
      obtain ⟨r2, s2⟩ := q
      have hm : Mounted protect (pre ++ [c]) s s2 := ⟨protects_trans (protects_refl h1) hp.1, fun x => by rw [hpr] at x; cases x⟩
      cases r2 with
      | false => exact ⟨hm, fun x => by cases x⟩
      | true =>
        dsimp only
        have h3 := opens_same y (s2.closes n)
        generalize (s2.closes n).opens y = q at h3
        obtain ⟨r3, s3⟩ := q
        refine ⟨mounted_trans hm (mounted_same h3), fun _ _ _ a b hab ha => ?_⟩
        have hac : a = [c] := by
          cases a with
          | nil => exact absurd rfl ha
          | cons x a =>
            rw [List.cons_append] at hab
            injection hab with e1 e2
            have := List.append_eq_nil_iff.mp e2.symm
            rw [this.1, e1]
        rw [hac]
        show pre ++ [c] ∈ s3.prot
        rw [h3.1]
        exact hp.2 rfl
    · rw [if_neg hnp]
      exact ⟨mounted_same h1, fun _ hp hn => absurd (by rw [hp, hn]; rfl) hnp⟩

theorem parts_mounted (y : Sys) (protect mkdir : Bool) (path : List Name) : ∀ (rest : List Name) (nofollow : Bool) (dfd : Nat) (pre : List Name) (s : Res), path = pre ++ rest →
    Mounted protect path s (openParts y protect mkdir nofollow dfd pre rest s).2 ∧
    ((openParts y protect mkdir nofollow dfd pre rest s).1.isSome = true → protect = true → nofollow = true →
      Covered pre rest (openParts y protect mkdir nofollow dfd pre rest s).2) := by
  intro rest
  induction rest with
  | nil =>
    intro nofollow dfd pre s hp
    exact ⟨mounted_same ⟨rfl, rfl⟩, fun _ _ _ a b hab ha => absurd (List.append_eq_nil_iff.mp hab.symm).1 ha⟩
  | cons c r ih =>
    intro nofollow dfd pre s hp
    cases r with
    | nil => rw [hp]; exact last_mounted y protect mkdir nofollow dfd pre c s
    | cons d r =>
      unfold openParts
      have h1 := opens_same y s
      generalize s.opens y = q at h1
      obtain ⟨r1, s1⟩ := q
      cases r1 with
      | none => exact ⟨mounted_same h1, fun x => by cases x⟩
      | some n =>
        dsimp only
        have hcall : s1.call y = (y.ok s1.t, { s1 with t := s1.t + 1 }) := rfl
        rw [hcall]
        cases y.ok s1.t with
        | false => exact ⟨mounted_same h1, fun x => by cases x⟩
        | true =>
          dsimp only
          have hp' : path = (pre ++ [c]) ++ (d :: r) := by rw [hp, List.append_assoc]; rfl
          by_cases hnp : (nofollow && protect) = true
          · rw [if_pos hnp]
            have hpr : protect = true := by revert hnp; cases protect <;> cases nofollow <;> simp
            have hpm := protectMount_protects y hp' (by simp) { s1 with t := s1.t + 1 }
            generalize protectMount y (pre ++ [c]) { s1 with t := s1.t + 1 } = q at hpm
            obtain ⟨r2, s2⟩ := q
            have hm : Mounted protect path s s2 := ⟨protects_trans (protects_refl h1) hpm.1, fun x => by rw [hpr] at x; cases x⟩
            cases r2 with
            | false => exact ⟨hm, fun x => by cases x⟩
            | true =>
              dsimp only
              have h3 := opens_same y (s2.closes n)
              generalize (s2.closes n).opens y = q at h3
              obtain ⟨r3, s3⟩ := q
              cases r3 with
              | none => exact ⟨mounted_trans hm (mounted_same h3), fun x => by cases x⟩
              | some m =>
                dsimp only
                have h4 := ih nofollow m (pre ++ [c]) (s3.closes dfd) hp'
                refine ⟨mounted_trans hm (mounted_trans (mounted_same h3) (mounted_trans (mounted_same ⟨rfl, rfl⟩) h4.1)), fun x1 x2 x3 a b hab ha => ?_⟩
                cases a with
                | nil => exact absurd rfl ha
                | cons z a =>
                  rw [List.cons_append] at hab
                  injection hab with e1 e2
                  subst e1
                  cases a with
                  | nil =>
                    refine prot_mono h4.1.1 ?_
                    show pre ++ [c] ∈ s3.prot
                    rw [h3.1]
                    exact hpm.2 rfl
                  | cons z2 a =>
                    have := h4.2 x1 x2 x3 (z2 :: a) b e2 (by simp)
                    rw [List.append_assoc] at this
                    exact this
          · rw [if_neg hnp]
            have h4 := ih (nofollow || y.unsafeAt s1.t) n (pre ++ [c]) (({ s1 with t := s1.t + 1 } : Res).closes dfd) hp'
            exact ⟨mounted_trans (mounted_same h1) (mounted_trans (mounted_same ⟨rfl, rfl⟩) h4.1), fun _ hp hn => absurd (by rw [hp, hn]; rfl) hnp⟩

/-! ### the theorems -/

/-- C189: whatever system calls and allocations fail, `secure_opendir` leaves no descriptor open but the one it returns, and closes none but those it opened. -/
theorem C189_descriptors (y : Sys) (protect mkdir : Bool) (path : List Name) {B : List Nat} {s : Res} (h : Spec.Open B [] s) :
    ∃ r s1, openSecure y protect mkdir path s = (r, s1) ∧ Spec.Open B r.toList s1 := by
  unfold openSecure
  obtain ⟨r1, s1, e1, h1⟩ := call_open y h
  rw [e1]
  cases r1 with
  | false => exact ⟨_, _, rfl, h1⟩
  | true =>
    dsimp only
    rcases opens_open y h1 with ⟨s2, e2, h2⟩ | ⟨n, s2, e2, h2, -⟩
    · rw [e2]; exact ⟨_, _, rfl, h2⟩
    · rw [e2]
      exact parts_open y protect mkdir path false n [] s2 h2

theorem secure_mounted (y : Sys) (protect mkdir : Bool) (path : List Name) (s : Res) : Mounted protect path s (openSecure y protect mkdir path s).2 := by
  unfold openSecure
  rw [show s.call y = (y.ok s.t, { s with t := s.t + 1 }) from rfl]
  cases y.ok s.t with
  | false => exact mounted_same ⟨rfl, rfl⟩
  | true =>
    dsimp only
    have h1 := opens_same y { s with t := s.t + 1 }
    generalize ({ s with t := s.t + 1 } : Res).opens y = q at h1
    obtain ⟨r1, s1⟩ := q
    cases r1 with
    | none => exact mounted_same h1
    | some n => exact mounted_trans (mounted_same h1) (parts_mounted y protect mkdir path path false n [] s1 rfl).1

/-- C189: whatever fails, the list of protected directories says what was mounted: each new mount is of a directory on the way to the path, is in the list, and is made
once; without SECURE_OPENDIR_PROTECT nothing is mounted. -/
theorem C189_mounts (y : Sys) (protect mkdir : Bool) (path : List Name) (s : Res) :
    Protects path s (openSecure y protect mkdir path s).2 ∧
    (protect = false → (openSecure y protect mkdir path s).2.prot = s.prot ∧ (openSecure y protect mkdir path s).2.mounts = s.mounts) :=
  secure_mounted y protect mkdir path s

/-- C189: a directory that users may change is left only over protected ones: if the path could be opened with SECURE_OPENDIR_PROTECT, and `fstat` said of the directory
reached by a part of it that users may change it, then every directory on the rest of the way is protected.  The calls before that part: one for the copy of the
path, one for the root, and two for each directory that is passed without protection. -/
theorem C189_protected (y : Sys) (mkdir : Bool) (path : List Name) (s : Res) (n : Nat) (ho : (openSecure y true mkdir path s).1 = some n)
    (pre post : List Name) (hp : path = pre ++ post) (hpre : pre ≠ []) (hpost : post ≠ [])
    (hu : y.unsafeAt (s.t + 2 * pre.length + 1) = true) (hsafe : ∀ k, 0 < k → k < pre.length → y.unsafeAt (s.t + 2 * k + 1) = false) :
    ∀ a b, post = a ++ b → a ≠ [] → pre ++ a ∈ (openSecure y true mkdir path s).2.prot := by
  have key : ∀ (rest done : List Name) (dfd : Nat) (s1 : Res), path = done ++ rest → (∃ q, rest = q ++ post ∧ q ≠ [] ∧ pre = done ++ q) →
      s1.t = s.t + 2 * done.length + 2 → (openParts y true mkdir false dfd done rest s1).1.isSome = true →
      Covered pre post (openParts y true mkdir false dfd done rest s1).2 := by
    intro rest
    induction rest with
    | nil =>
      intro done dfd s1 _ hq _ _
      obtain ⟨q, e, hne, -⟩ := hq
      exact absurd (List.append_eq_nil_iff.mp e.symm).1 hne
    | cons c r ih =>
      intro done dfd s1 hpath hq ht hsome
      obtain ⟨q, e, hne, epre⟩ := hq
      cases r with
      | nil =>
        exfalso
        cases q with
        | nil => exact hne rfl
        | cons x q =>
          rw [List.cons_append] at e
          injection e with _ e2
          exact hpost (List.append_eq_nil_iff.mp e2.symm).2
      | cons d r =>
        revert hsome
        unfold openParts
        have ho1 : s1.opens y = (none, { s1 with t := s1.t + 1 }) ∨ ∃ n s2, s1.opens y = (some n, s2) ∧ s2.t = s1.t + 1 := by
          unfold Res.opens
          split
          · exact Or.inr ⟨_, _, rfl, rfl⟩
          · exact Or.inl rfl
        rcases ho1 with e1 | ⟨n, s2, e1, ht2⟩
        · rw [e1]; intro x; cases x
        · rw [e1]
          dsimp only
          rw [show s2.call y = (y.ok s2.t, { s2 with t := s2.t + 1 }) from rfl]
          cases y.ok s2.t with
          | false => intro x; cases x
          | true =>
            dsimp only
            rw [if_neg (by simp)]
            intro hsome
            rw [Bool.false_or] at hsome ⊢
            cases q with
            | nil => exact absurd rfl hne
            | cons x q =>
              rw [List.cons_append] at e
              injection e with e2 e3
              subst e2
              have hpath' : path = (done ++ [c]) ++ (d :: r) := by rw [hpath, List.append_assoc]; rfl
              cases q with
              | nil =>
                have hun : y.unsafeAt s2.t = true := by
                  rw [show s2.t = s.t + 2 * pre.length + 1 by rw [ht2, ht, epre, List.length_append]; simp; omega]
                  exact hu
                rw [hun] at hsome ⊢
                have h4 := (parts_mounted y true mkdir path (d :: r) true n (done ++ [c]) _ hpath').2 hsome rfl rfl
                rw [List.nil_append] at e3
                rw [epre, ← e3]
                exact h4
              | cons x2 q =>
                have hsf : y.unsafeAt s2.t = false := by
                  rw [show s2.t = s.t + 2 * (done.length + 1) + 1 by rw [ht2, ht]; omega]
                  refine hsafe (done.length + 1) (by omega) ?_
                  rw [epre, List.length_append]
                  simp
                rw [hsf] at hsome ⊢
                refine ih (done ++ [c]) n _ hpath' ⟨x2 :: q, e3, by simp, by rw [epre, List.append_assoc]; rfl⟩ ?_ hsome
                show s2.t + 1 = _
                rw [ht2, ht, List.length_append]
                simp
                omega
  revert ho
  unfold openSecure
  rw [show s.call y = (y.ok s.t, { s with t := s.t + 1 }) from rfl]
  cases y.ok s.t with
  | false => intro x; cases x
  | true =>
    dsimp only
    have ho1 : ({ s with t := s.t + 1 } : Res).opens y = (none, { s with t := s.t + 1 + 1 }) ∨ ∃ n s2, ({ s with t := s.t + 1 } : Res).opens y = (some n, s2) ∧ s2.t = s.t + 1 + 1 := by
      unfold Res.opens
      split
      · exact Or.inr ⟨_, _, rfl, rfl⟩
      · exact Or.inl rfl
    rcases ho1 with e1 | ⟨n, s2, e1, ht2⟩
    · rw [e1]; intro x; cases x
    · rw [e1]
      dsimp only
      intro hsome
      exact key path [] n s2 rfl ⟨pre, hp, hpre, rfl⟩ (by rw [ht2]; simp) (by rw [hsome]; rfl)

theorem umount_open (y : Sys) (path : List Name) {B : List Nat} {s : Res} (h : Spec.Open B [] s) : Spec.Open B [] (umountSecure y path s).2 := by
  unfold umountSecure
  obtain ⟨r, s1, e, h1⟩ := C189_descriptors y false false path h
  rw [e]
  cases r with
  | none => exact h1
  | some n =>
    dsimp only
    rw [show s1.call y = (y.ok s1.t, { s1 with t := s1.t + 1 }) from rfl]
    cases y.ok s1.t with
    | false => exact closes_one h1
    | true => exact closes_one h1

theorem umount_mounts (y : Sys) (path : List Name) (s : Res) :
    (umountSecure y path s).2.prot = s.prot ∧ (umountSecure y path s).2.mounts = if (umountSecure y path s).1 then s.mounts.erase path else s.mounts := by
  have key : ∃ b s2, umountSecure y path s = (b, s2) ∧ s2.prot = s.prot ∧ s2.mounts = if b then s.mounts.erase path else s.mounts := by
    unfold umountSecure
    have h := (C189_mounts y false false path s).2 rfl
    generalize openSecure y false false path s = q at h
    obtain ⟨r, s1⟩ := q
    cases r with
    | none => exact ⟨_, _, rfl, h.1, h.2⟩
    | some n =>
      dsimp only at h ⊢
      rw [show s1.call y = (y.ok s1.t, { s1 with t := s1.t + 1 }) from rfl]
      cases y.ok s1.t with
      | false => exact ⟨_, _, rfl, h.1, h.2⟩
      | true =>
        refine ⟨_, _, rfl, h.1, ?_⟩
        show s1.mounts.erase path = s.mounts.erase path
        rw [h.2]
  obtain ⟨b, s2, e, h1, h2⟩ := key
  rw [e]
  exact ⟨h1, h2⟩

/-- where every call works, a path can be opened -/
theorem opens_works {y : Sys} (hy : ∀ t, y.ok t = true) (path : List Name) (s : Res) : ∃ n s1, openSecure y false false path s = (some n, s1) := by
  have parts : ∀ (rest : List Name) (nf : Bool) (dfd : Nat) (pre : List Name) (s : Res), ∃ n s1, openParts y false false nf dfd pre rest s = (some n, s1) := by
    intro rest
    induction rest with
    | nil => intro nf dfd pre s; exact ⟨_, _, rfl⟩
    | cons c r ih =>
      intro nf dfd pre s
      have ho : s.opens y = (some s.next, { s with fds := s.next :: s.fds, next := s.next + 1, t := s.t + 1 }) := by
        unfold Res.opens
        rw [if_pos (hy _)]
      cases r with
      | nil =>
        unfold openParts openLast openOrMake
        rw [ho]
        dsimp only
        rw [if_neg (by simp)]
        exact ⟨_, _, rfl⟩
      | cons d r =>
        unfold openParts
        rw [ho]
        dsimp only
        unfold Res.call
        dsimp only
        rw [hy]
        dsimp only
        rw [if_neg (by simp)]
        exact ih _ _ _ _
  unfold openSecure Res.call
  rw [hy]
  dsimp only
  rw [show ({ s with t := s.t + 1 } : Res).opens y = (some s.next, { s with fds := s.next :: s.fds, next := s.next + 1, t := s.t + 1 + 1 }) by
    unfold Res.opens
    rw [if_pos (hy _)]]
  exact parts _ _ _ _ _

/-- C189: `unprotect_dirs`, whatever fails: no descriptor stays open.  And where every call works, nothing but the mounts that were there before is left: after any number
of paths were opened, with or without success, each in its own way. -/
theorem C189_undone (y : Sys) {B : List Nat} (dirs : List (List Name)) : ∀ (s : Res), Spec.Open B [] s →
    Spec.Open B [] (unprotectDirs y dirs s) ∧
    ((∀ t, y.ok t = true) → ∀ before, s.mounts = dirs ++ before → (unprotectDirs y dirs s).mounts = before) := by
  induction dirs with
  | nil => intro s h; exact ⟨h, fun _ before e => e⟩
  | cons d r ih =>
    intro s h
    have h1 := ih (umountSecure y d s).2 (umount_open y d h)
    refine ⟨h1.1, fun hy before e => ?_⟩
    refine h1.2 hy before ?_
    have hok : (umountSecure y d s).1 = true := by
      unfold umountSecure
      obtain ⟨n, s1, e1⟩ := opens_works hy d s
      rw [e1]
      dsimp only
      rw [show s1.call y = (true, { s1 with t := s1.t + 1 }) by unfold Res.call; rw [hy]]
    rw [(umount_mounts y d s).2, if_pos hok, e, List.cons_append, List.erase_cons_head]

/-- C189: setting up and undoing: a list of paths is opened, by systems that may fail anywhere; then, with a system in which every call works, `unprotect_dirs` with the
list that was made leaves the mounts as they were. -/
theorem C189_setup_undone (paths : List (Sys × Bool × List Name)) (y : Sys) (hy : ∀ t, y.ok t = true) (s : Res) (hs : s.prot = []) :
    (unprotectDirs y (paths.foldl (fun s p => (openSecure p.1 true p.2.1 p.2.2 s).2) s).prot
      (paths.foldl (fun s p => (openSecure p.1 true p.2.1 p.2.2 s).2) s)).mounts = s.mounts := by
  have grow : ∀ (ps : List (Sys × Bool × List Name)) (s : Res), ∃ new,
      (ps.foldl (fun s p => (openSecure p.1 true p.2.1 p.2.2 s).2) s).prot = new ++ s.prot ∧
      (ps.foldl (fun s p => (openSecure p.1 true p.2.1 p.2.2 s).2) s).mounts = new ++ s.mounts := by
    intro ps
    induction ps with
    | nil => intro s; exact ⟨[], rfl, rfl⟩
    | cons p ps ih =>
      intro s
      obtain ⟨n1, a1, a2⟩ := ih (openSecure p.1 true p.2.1 p.2.2 s).2
      obtain ⟨n2, b1, b2, -⟩ := (C189_mounts p.1 true p.2.1 p.2.2 s).1
      exact ⟨n1 ++ n2, by rw [List.foldl_cons, a1, b1, List.append_assoc], by rw [List.foldl_cons, a2, b2, List.append_assoc]⟩
  obtain ⟨new, e1, e2⟩ := grow paths s
  rw [hs, List.append_nil] at e1
  have loop : ∀ (dirs : List (List Name)) (s : Res) (before : List (List Name)), s.mounts = dirs ++ before → (unprotectDirs y dirs s).mounts = before := by
    intro dirs
    induction dirs with
    | nil => intro s before e; exact e
    | cons d r ih =>
      intro s before e
      refine ih (umountSecure y d s).2 before ?_
      have hok : (umountSecure y d s).1 = true := by
        unfold umountSecure
        obtain ⟨n, s1, e1⟩ := opens_works hy d s
        rw [e1]
        dsimp only
        rw [show s1.call y = (true, { s1 with t := s1.t + 1 }) by unfold Res.call; rw [hy]]
      rw [(umount_mounts y d s).2, if_pos hok, e, List.cons_append, List.erase_cons_head]
  exact loop _ _ _ (by rw [e1]; exact e2)

/-- C189: `secure_umount` and `secure_try_rmdir` leave no descriptor open, whatever fails. -/
theorem C189_closed (y : Sys) (path : List Name) {B : List Nat} {s : Res} (h : Spec.Open B [] s) :
    Spec.Open B [] (umountSecure y path s).2 ∧ Spec.Open B [] (rmdirSecure y path s) := by
  refine ⟨umount_open y path h, ?_⟩
  unfold rmdirSecure
  obtain ⟨r1, s1, e1, h1⟩ := call_open y h
  rw [e1]
  cases r1 with
  | false => exact h1
  | true =>
    dsimp only
    obtain ⟨r, s2, e2, h2⟩ := C189_descriptors y false false path h1
    rw [e2]
    cases r with
    | none => exact h2
    | some n => exact closes_one (s := (s2.call y).2) h2

/-! ### an example -/

/-- /home is safe, /home/ann belongs to ann -/
def exSys : Sys := ⟨fun _ => true, fun t => t == 5⟩
def exRes : Res := ⟨[0, 1, 2], 3, [], [], false, 0⟩
def exPath : List Name := ["home".toList, "ann".toList, "tmp".toList, "x".toList]

/-- witness for C189: the directories in ann's are protected, the newest first; one descriptor is open; and all is undone again -/
example : Spec.Open [0, 1, 2] [] exRes ∧
    (openSecure exSys true false exPath exRes).1 = some 9 ∧
    (openSecure exSys true false exPath exRes).2.fds = [9, 0, 1, 2] ∧
    (openSecure exSys true false exPath exRes).2.prot = [exPath, exPath.take 3] ∧
    (unprotectDirs exSys [exPath, exPath.take 3] (openSecure exSys true false exPath exRes).2).mounts = [] := by
  refine ⟨⟨by simp [exRes], by decide, by simp, rfl⟩, by decide +kernel, by decide +kernel, by decide +kernel, by decide +kernel⟩

/-- witness for C189_protected -/
example : exSys.unsafeAt (exRes.t + 2 * (exPath.take 2).length + 1) = true ∧ ∀ k, 0 < k → k < (exPath.take 2).length → exSys.unsafeAt (exRes.t + 2 * k + 1) = false := by
  refine ⟨by decide, fun k h1 h2 => ?_⟩
  have : k = 1 := by
    have : (exPath.take 2).length = 2 := rfl
    omega
  subst this
  decide

end Pam.Namespace
