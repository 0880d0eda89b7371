import Verif.Namespace.OpendirSpec
/-
Property theorems about secure_opendir of pam_namespace (C114).
-/
namespace Pam.Namespace
open Spec

theorem child_same {sys : Nat → Prop} {fs0 fs : FS} (h : Users sys fs0 fs) {d : Nat} (hd : sys d) (c : Name) : child fs d c = child fs0 d c := by
  unfold child
  rw [(h.same d hd).2]

theorem sys_isDir {sys : Nat → Prop} {fs0 fs : FS} (h : Users sys fs0 fs) {d : Nat} (hd : sys d) : isDir fs d = true := by
  obtain ⟨⟨up, es, h0⟩, h1⟩ := h.same d hd
  unfold isDir
  rw [h1, h0]

theorem sys_safe {sys : Nat → Prop} {fs0 fs : FS} (h : Users sys fs0 fs) {d : Nat} (hd : sys d) : unsafeDir fs d = false := by
  obtain ⟨⟨up, es, h0⟩, h1⟩ := h.same d hd
  unfold unsafeDir
  rw [h1, h0]
  simp

theorem resolve_sys {sys : Nat → Prop} {fs : FS} {d m : Nat} {p : List Name} (h : Resolve sys fs d p m) : sys m := by
  induction h with
  | done h => exact h
  | dir _ _ _ _ ih => exact ih
  | link _ _ _ _ _ _ ih => exact ih

/-- the kernel does the same in a file system that users have changed -/
theorem walk_resolve {sys : Nat → Prop} {fs0 fs : FS} (h : Users sys fs0 fs) {d m : Nat} {p : List Name} (hr : Resolve sys fs0 d p m) :
    ∀ (fuel : Nat) (r : List Name) (x : Nat), walk fs fuel d (p ++ r) = some x → ∃ k, walk fs k m r = some x := by
  induction hr with
  | done _ => intro fuel r x hx; exact ⟨fuel, hx⟩
  | dir hd hc hn _ ih =>
    intro fuel r x hx
    rename_i d n m c p _
    rw [List.cons_append, walk, child_same h hd, hc] at hx
    dsimp only at hx
    have := sys_isDir h hn
    unfold isDir at this
    split at hx
    · exact ih fuel r x hx
    · rename_i e; rw [e] at this; cases this
    · rename_i e; rw [e] at this; cases this
  | link hd hc hl _ _ ih1 ih2 =>
    intro fuel r x hx
    rename_i d n k m c a t p _ _
    rw [List.cons_append, walk, child_same h hd, hc] at hx
    dsimp only at hx
    split at hx
    · rename_i u w up en e
      rw [(h.links d hd c n hc _ _).2 hl] at e; cases e
    · cases hx
    · rename_i a' t' e
      have := (h.links d hd c n hc _ _).1 e
      rw [hl] at this; cases this
      cases fuel with
      | zero => cases hx
      | succ k =>
        dsimp only at hx
        obtain ⟨k1, h1⟩ := ih1 k (p ++ r) x (by rw [← List.append_assoc] at hx ⊢; exact hx)
        exact ih2 k1 r x h1

/-- one component, from a directory of the system -/
theorem open_sys {sys : Nat → Prop} {fs0 fs : FS} (h : Users sys fs0 fs) (hl : LinksStay sys fs0) {d n : Nat} (hd : sys d) {c : Name}
    (ho : openat fs false d c = some n) : (sys n ∧ Resolve sys fs0 d [c] n) ∨ (¬ sys n ∧ child fs0 d c = some n ∧ isDir fs n = true) := by
  unfold openat at ho
  rw [if_neg (by simp), walk, child_same h hd] at ho
  cases hc : child fs0 d c with
  | none => rw [hc] at ho; cases ho
  | some m =>
    rw [hc] at ho
    dsimp only at ho
    split at ho
    · rename_i u w up en e
      rw [walk] at ho; cases ho
      by_cases hs : sys n
      · exact .inl ⟨hs, .dir hd hc hs (.done hs)⟩
      · exact .inr ⟨hs, rfl, by unfold isDir; rw [e]⟩
    · cases ho
    · rename_i a t e
      have e0 := (h.links d hd c m hc _ _).1 e
      obtain ⟨k, hk⟩ := hl d hd c m hc a t e0
      obtain ⟨f, hf⟩ := walk_resolve h hk 39 [] n ho
      rw [walk] at hf; cases hf
      exact .inl ⟨resolve_sys hk, .link hd hc e0 hk (.done (resolve_sys hk))⟩

theorem open_nofollow {fs : FS} {d n : Nat} {c : Name} (ho : openat fs true d c = some n) : child fs d c = some n ∧ isDir fs n = true := by
  unfold openat at ho
  rw [if_pos rfl] at ho
  cases hc : child fs d c with
  | none => rw [hc] at ho; cases ho
  | some m =>
    rw [hc] at ho
    dsimp only at ho
    split at ho
    · rename_i hdir; cases ho; exact ⟨rfl, hdir⟩
    · cases ho

/-- below a directory that is not of the system -/
theorem loop_outside {sys : Nat → Prop} {fs0 : FS} {fs : Nat → FS} (h : ∀ t, Users sys fs0 (fs t)) (protect : Bool) :
    ∀ (path : List Name) (t d n : Nat), ".".toList ∉ path → "..".toList ∉ path → ¬ sys d → openLoop fs protect t d true path = some n → ¬ sys n ∧ Descends fs d path n
  | [], t, d, n, _, _, hd, ho => by
    rw [openLoop] at ho; cases ho; exact ⟨hd, .done⟩
  | [c], t, d, n, h1, h2, hd, ho => by
    rw [openLoop] at ho
    have key : ∀ t, openat (fs t) true d c = some n → ¬ sys n ∧ Descends fs d [c] n := fun t ho => by
      obtain ⟨hc, hn⟩ := open_nofollow ho
      exact ⟨(h t).outside d hd c n (fun e => h1 (by simp [e])) (fun e => h2 (by simp [e])) hc, .step hc hn .done⟩
    cases hop : openat (fs t) true d c with
    | none => rw [hop] at ho; cases ho
    | some m =>
      rw [hop] at ho
      dsimp only at ho
      split at ho
      · exact key _ ho
      · cases ho; exact key _ hop
  | c :: c' :: r, t, d, n, h1, h2, hd, ho => by
    rw [openLoop] at ho
    · have h1' : ".".toList ∉ c' :: r := fun e => h1 (List.mem_cons_of_mem _ e)
      have h2' : "..".toList ∉ c' :: r := fun e => h2 (List.mem_cons_of_mem _ e)
      have key : ∀ t m t', openat (fs t) true d c = some m → openLoop fs protect t' m true (c' :: r) = some n → ¬ sys n ∧ Descends fs d (c :: c' :: r) n :=
        fun t m t' hm ho => by
          obtain ⟨hc, hn⟩ := open_nofollow hm
          have hm' := (h t).outside d hd c m (fun e => h1 (by simp [e])) (fun e => h2 (by simp [e])) hc
          obtain ⟨i1, i2⟩ := loop_outside h protect (c' :: r) t' m n h1' h2' hm' ho
          exact ⟨i1, .step hc hn i2⟩
      cases hop : openat (fs t) true d c with
      | none => rw [hop] at ho; cases ho
      | some m =>
        rw [hop] at ho
        dsimp only at ho
        split at ho
        · cases hop2 : openat (fs (t + 2)) true d c with
          | none => rw [hop2] at ho; cases ho
          | some m2 => rw [hop2] at ho; exact key _ _ _ hop2 ho
        · rw [Bool.true_or] at ho
          exact key _ _ _ hop ho
    · intro e; cases e

theorem resolve_append {sys : Nat → Prop} {fs : FS} {d k m : Nat} {a b : List Name} (h1 : Resolve sys fs d a k) (h2 : Resolve sys fs k b m) : Resolve sys fs d (a ++ b) m := by
  induction h1 with
  | done _ => exact h2
  | dir hd hc hn _ ih => exact .dir hd hc hn (ih h2)
  | link hd hc hl hr _ _ ih => exact .link hd hc hl hr (ih h2)

/-- where the loop leads from a directory of the system -/
theorem loop_sys {sys : Nat → Prop} {fs0 : FS} {fs : Nat → FS} (h : ∀ t, Users sys fs0 (fs t)) (hl : LinksStay sys fs0) (protect : Bool) :
    ∀ (path : List Name) (t d n : Nat), ".".toList ∉ path → "..".toList ∉ path → sys d → openLoop fs protect t d false path = some n →
    Resolve sys fs0 d path n ∨
    (¬ sys n ∧ ∃ a c b k u, path = a ++ c :: b ∧ Resolve sys fs0 d a k ∧ child fs0 k c = some u ∧ ¬ sys u ∧ Descends fs u b n)
  | [], t, d, n, _, _, hd, ho => by
    rw [openLoop] at ho; cases ho; exact .inl (.done hd)
  | [c], t, d, n, h1, h2, hd, ho => by
    rw [openLoop] at ho
    cases hop : openat (fs t) false d c with
    | none => rw [hop] at ho; cases ho
    | some m =>
      rw [hop] at ho
      dsimp only at ho
      rw [Bool.false_and, if_neg (by simp)] at ho
      cases ho
      rcases open_sys (h t) hl hd hop with ⟨_, h3⟩ | ⟨h3, h4, _⟩
      · exact .inl h3
      · exact .inr ⟨h3, [], c, [], d, n, rfl, .done hd, h4, h3, .done⟩
  | c :: c' :: r, t, d, n, h1, h2, hd, ho => by
    have h1' : ".".toList ∉ c' :: r := fun e => h1 (List.mem_cons_of_mem _ e)
    have h2' : "..".toList ∉ c' :: r := fun e => h2 (List.mem_cons_of_mem _ e)
    rw [openLoop] at ho
    · cases hop : openat (fs t) false d c with
      | none => rw [hop] at ho; cases ho
      | some m =>
        rw [hop] at ho
        dsimp only at ho
        rw [Bool.false_and, if_neg (by simp), Bool.false_or] at ho
        rcases open_sys (h t) hl hd hop with ⟨hm, h3⟩ | ⟨hm, h4, _⟩
        · rw [sys_safe (h (t + 1)) hm] at ho
          rcases loop_sys h hl protect (c' :: r) (t + 2) m n h1' h2' hm ho with i | ⟨i1, a, c2, b, k, u, e, i2, i3⟩
          · exact .inl (resolve_append h3 i)
          · exact .inr ⟨i1, c :: a, c2, b, k, u, by rw [e]; rfl, resolve_append h3 i2, i3⟩
        · have hu : unsafeDir (fs (t + 1)) m = true := by
            cases hdir : isDir (fs (t + 1)) m with
            | true =>
              obtain ⟨uid, w, up, es, he, hw⟩ := (h (t + 1)).others d hd c m h4 hm hdir
              unfold unsafeDir
              rw [he]
              rcases hw with hw | hw <;> simp [hw]
            | false =>
              unfold isDir at hdir
              unfold unsafeDir
              split
              · rename_i e; rw [e] at hdir; cases hdir
              · rfl
          rw [hu] at ho
          obtain ⟨i1, i2⟩ := loop_outside h protect (c' :: r) (t + 2) m n h1' h2' hm ho
          exact .inr ⟨i1, [], c, c' :: r, d, m, rfl, .done hd, h4, hm, i2⟩
    · intro e; cases e

/-- C114: whatever users do to the file system while the path is followed, one of two things is opened.  Either the directory of the system to which the path leads,
as it was before; or a directory that is not of the system, found by names below the first such directory on the path, without following any link there. -/
theorem C114_path_partial {sys : Nat → Prop} {fs0 : FS} {fs : Nat → FS} (h0 : sys 0) (h : ∀ t, Users sys fs0 (fs t)) (hl : LinksStay sys fs0)
    {path : List Name} (h1 : ".".toList ∉ path) (h2 : "..".toList ∉ path) {protect : Bool} {n : Nat} (ho : secureOpendir fs protect path = some n) :
    Resolve sys fs0 0 path n ∨
    (¬ sys n ∧ ∃ a c b k u, path = a ++ c :: b ∧ Resolve sys fs0 0 a k ∧ child fs0 k c = some u ∧ ¬ sys u ∧ Descends fs u b n) :=
  loop_sys h hl protect path 0 0 n h1 h2 h0 ho

/-- C114 (consequence): users cannot make it open a directory of the system other than that to which the path led before. -/
theorem C114_no_other_partial {sys : Nat → Prop} {fs0 : FS} {fs : Nat → FS} (h0 : sys 0) (h : ∀ t, Users sys fs0 (fs t)) (hl : LinksStay sys fs0)
    {path : List Name} (h1 : ".".toList ∉ path) (h2 : "..".toList ∉ path) {protect : Bool} {n : Nat} (ho : secureOpendir fs protect path = some n) (hn : sys n) :
    Resolve sys fs0 0 path n := by
  rcases C114_path_partial h0 h hl h1 h2 ho with h | h
  · exact h
  · exact absurd hn h.1

/-- a file system: / with etc, tmp and data, which is a link of the system to `target`; users have made of tmp/d a link to etc or not -/
def demo (target : List Name) (changed : Bool) : FS
  | 0 => .dir 0 false 0 fun c => if c = "etc".toList then some 1 else if c = "tmp".toList then some 2 else if c = "data".toList then some 3 else none
  | 1 => .dir 0 false 0 fun _ => none
  | 2 => .dir 0 true 0 fun c => if c = "d".toList then some (if changed then 4 else 5) else none
  | 3 => .link true target
  | 4 => .link true ["etc".toList]
  | 5 => .dir 1000 false 2 fun _ => none
  | _ => .other

theorem demo_child (target : List Name) (b : Bool) {d n : Nat} {c : Name} (hd : d = 0 ∨ d = 1) (h : child (demo target b) d c = some n) : n = 0 ∨ n = 1 ∨ n = 2 ∨ n = 3 := by
  rcases hd with rfl | rfl
  · change (if c = ".".toList then some 0 else if c = "..".toList then some 0 else
      if c = "etc".toList then some 1 else if c = "tmp".toList then some 2 else if c = "data".toList then some 3 else none) = some n at h
    repeat' split at h
    all_goals first | (cases h; simp) | cases h
  · change (if c = ".".toList then some 1 else if c = "..".toList then some 0 else none) = some n at h
    repeat' split at h
    all_goals first | (cases h; simp) | cases h

/-- the hypotheses are met: the users may make a link of tmp/d or a directory, at any time, and data leads to etc -/
example (now : Nat → Bool) : (∀ t, Users (fun d => d = 0 ∨ d = 1) (demo ["etc".toList] false) (demo ["etc".toList] (now t))) ∧
    LinksStay (fun d => d = 0 ∨ d = 1) (demo ["etc".toList] false) := by
  constructor
  · intro t
    refine ⟨?_, ?_, ?_, ?_⟩
    · rintro d (rfl | rfl) <;> exact ⟨⟨_, _, rfl⟩, rfl⟩
    · intro d hd c n hc a t
      rcases demo_child _ _ hd hc with rfl | rfl | rfl | rfl
      · exact Iff.rfl
      · exact Iff.rfl
      · exact ⟨(by intro e; cases e), (by intro e; cases e)⟩
      · exact Iff.rfl
    · intro d hd c n hc hn hdir
      rcases demo_child _ _ hd hc with rfl | rfl | rfl | rfl
      · exact absurd (.inl rfl) hn
      · exact absurd (.inr rfl) hn
      · exact ⟨0, true, 0, _, rfl, .inr rfl⟩
      · cases hdir
    · intro d hd c n h1 h2 hc
      unfold child at hc
      split at hc
      · rename_i u w up en e
        rw [if_neg h1, if_neg h2] at hc
        unfold demo at e
        split at e
        · exact absurd (.inl rfl) hd
        · exact absurd (.inr rfl) hd
        · cases e
          dsimp only at hc
          by_cases hcd : c = "d".toList
          · rw [if_pos hcd] at hc; cases hc; split <;> decide
          · rw [if_neg hcd] at hc; cases hc
        · cases e
        · cases e
        · cases e; cases hc
        · cases e
      · cases hc
  · intro d hd c n hc a t hl
    rcases demo_child _ _ hd hc with rfl | rfl | rfl | rfl
    · cases hl
    · cases hl
    · cases hl
    · cases hl
      exact ⟨1, .dir (n := 1) (.inl rfl) rfl (.inr rfl) (.done (.inr rfl))⟩

/-- a user's link in tmp is not followed, a directory there is opened, and a link of the system is followed -/
example : secureOpendir (fun _ => demo ["etc".toList] true) false ["tmp".toList, "d".toList] = none ∧
    secureOpendir (fun _ => demo ["etc".toList] false) true ["tmp".toList, "d".toList] = some 5 ∧
    secureOpendir (fun _ => demo ["etc".toList] true) true ["data".toList] = some 1 := by
  simp [secureOpendir, openLoop, openat, walk, child, demo, unsafeDir, isDir]

/-- Links of the system that lead through directories of users are followed all the way: here the user makes it open etc. -/
theorem C114_link_counterexample :
    secureOpendir (fun _ => demo ["tmp".toList, "d".toList] false) false ["data".toList] = some 5 ∧
    secureOpendir (fun _ => demo ["tmp".toList, "d".toList] true) false ["data".toList] = some 1 := by
  simp [secureOpendir, openLoop, openat, walk, child, demo]

/-- two slashes in a path: nothing has an empty name, so nothing is opened -/
theorem C114_double_slash_counterexample {sys : Nat → Prop} {fs0 : FS} {fs : Nat → FS} (h0 : sys 0) (h : ∀ t, Users sys fs0 (fs t))
    (he : ∀ n, child fs0 0 [] ≠ some n) (protect : Bool) (r : List Name) : secureOpendir fs protect ([] :: r) = none := by
  have hop : openat (fs 0) false 0 [] = none := by
    unfold openat
    rw [if_neg (by simp), walk, child_same (h 0) h0]
    cases hc : child fs0 0 [] with
    | none => rfl
    | some n => exact absurd hc (he n)
  unfold secureOpendir
  cases r with
  | nil => rw [openLoop, hop]
  | cons c r =>
    rw [openLoop, hop]
    intro e; cases e

end Pam.Namespace
