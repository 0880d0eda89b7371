import Verif.Mkhome.Lemmas
/-
What is there stays as it is, whatever fails: modules/pam_mkhomedir/mkhomedir_helper.c.
-/
namespace Pam.Mkhome
open Pam

/-- only objects in `where` change, and only if they were not there before -/
def Adds (P : Path → Prop) (s s' : St) : Prop := ∀ q, s'.fs q = s.fs q ∨ (s.fs q = none ∧ P q)

theorem Adds.same {P : Path → Prop} {s s' : St} (h : s'.fs = s.fs) : Adds P s s' := fun q => .inl (by rw [h])

theorem Adds.trans {P : Path → Prop} {s s1 s' : St} (h1 : Adds P s s1) (h2 : Adds P s1 s') : Adds P s s' := by
  intro q
  rcases h2 q with h | ⟨h, hp⟩
  · rw [h]; exact h1 q
  · rcases h1 q with h' | h'
    · exact .inr ⟨by rw [← h']; exact h, hp⟩
    · exact .inr h'

theorem Adds.mono {P Q : Path → Prop} {s s' : St} (h : Adds P s s') (hpq : ∀ q, P q → Q q) : Adds Q s s' :=
  fun q => (h q).imp id fun ⟨a, b⟩ => ⟨a, hpq q b⟩

/-- an object that was not there -/
theorem Adds.single {P : Path → Prop} {s s' : St} {p : Path} (hn : s.fs p = none) (hp : P p) (h : ∀ q, q ≠ p → s'.fs q = s.fs q ∨ (s.fs q = none ∧ P q)) : Adds P s s' := by
  intro q
  by_cases hq : q = p
  · subst hq; exact .inr ⟨hn, hp⟩
  · exact h q hq

theorem put_ne {s : St} {p q : Path} {o : Obj} (h : q ≠ p) : (s.put p o).fs q = s.fs q := by
  show (if q = p then _ else s.fs q) = _
  rw [if_neg h]

theorem copyData_frame (p : Path) (mode : Nat) (owner : Owner) : ∀ (n : Nat) (done src : Str) (s : St) (q : Path), q ≠ p →
    (copyData p mode owner n done src s).2.fs q = s.fs q := by
  intro n
  induction n with
  | zero => intros; rfl
  | succ n ih =>
    intro done src s q hq
    unfold copyData
    dsimp only
    obtain ⟨k1, _⟩ := fails_fs s
    obtain ⟨l1, _⟩ := fails_fs s.fails.2
    split
    · rw [k1]
    split
    · rw [k1]
    split
    · rw [l1, k1]
    · rw [ih _ _ _ q hq, put_ne hq, l1, k1]

theorem copyFile_frame {um : Nat} {owner : Owner} {p : Path} {m : Nat} {d : Str} {s : St} {P : Path → Prop} (hp : P p) : Adds P s (copyFile um owner p m d s).2 := by
  unfold copyFile
  dsimp only
  obtain ⟨a1, _⟩ := fails_fs s
  by_cases h1 : s.fails.1 = true
  · rw [if_pos h1]; exact .same a1
  rw [if_neg h1]
  obtain ⟨a2, _⟩ := fails_fs s.fails.2
  by_cases h2 : s.fails.2.fails.1 = true
  · rw [if_pos h2]; exact .same (a2.trans a1)
  rw [if_neg h2]
  generalize s.fails.2.fails.2 = t at a2
  rw [a1] at a2
  by_cases h3 : t.fs p ≠ none
  · rw [if_pos h3]; exact .same a2
  rw [if_neg h3]
  have hn : s.fs p = none := by rw [a2] at h3; exact Decidable.not_not.1 h3
  refine .single hn hp fun q hq => .inl ?_
  obtain ⟨a4, _⟩ := fails_fs (t.put p (.file 0o600 root []))
  by_cases h4 : (t.put p (.file 0o600 root [])).fails.1 = true
  · rw [if_pos h4]; show (t.put p (.file 0o600 root [])).fails.2.fs q = _; rw [a4, put_ne hq, a2]
  rw [if_neg h4]
  generalize (t.put p (.file 0o600 root [])).fails.2 = t4 at a4
  obtain ⟨a5, _⟩ := fails_fs (t4.put p (.file (mask um (m ||| 0o222)) root []))
  by_cases h5 : (t4.put p (.file (mask um (m ||| 0o222)) root [])).fails.1 = true
  · rw [if_pos h5]; show (t4.put p (.file (mask um (m ||| 0o222)) root [])).fails.2.fs q = _; rw [a5, put_ne hq, a4, put_ne hq, a2]
  rw [if_neg h5, copyData_frame _ _ _ _ _ _ _ q hq, put_ne hq, a5, put_ne hq, a4, put_ne hq, a2]

theorem copyLink_frame {owner : Owner} {p : Path} {t : Str} {s : St} {P : Path → Prop} (hp : P p) : Adds P s (copyLink owner p t s).2 := by
  unfold copyLink
  dsimp only
  have a0 := misses_fs s
  by_cases h0 : s.misses.1 = true
  · rw [if_pos h0]; exact .same a0
  rw [if_neg h0]
  generalize s.misses.2 = w at a0
  obtain ⟨a1, _⟩ := fails_fs w
  by_cases h1 : w.fails.1 = true
  · rw [if_pos h1]; exact .same (a1.trans a0)
  rw [if_neg h1]
  generalize w.fails.2 = u at a1
  rw [a0] at a1
  by_cases h3 : u.fs p ≠ none
  · rw [if_pos h3]; exact .same a1
  rw [if_neg h3]
  have hn : s.fs p = none := by rw [a1] at h3; exact Decidable.not_not.1 h3
  refine .single hn hp fun q hq => .inl ?_
  obtain ⟨a4, _⟩ := fails_fs (u.put p (.link root t))
  by_cases h4 : (u.put p (.link root t)).fails.1 = true
  · rw [if_pos h4]; show (u.put p (.link root t)).fails.2.fs q = _; rw [a4, put_ne hq, a1]
  rw [if_neg h4]
  show ((u.put p (.link root t)).fails.2.put p _).fs q = _
  rw [put_ne hq, a4, put_ne hq, a1]

theorem createDir_frame {owner : Owner} {p : Path} {mode : Nat} {scan : St → Int × St} {s : St} {P : Path → Prop} (hp : P p)
    (hscan : ∀ s1, Adds P s1 (scan s1).2) : Adds P s (createDir owner p mode scan s).2 := by
  unfold createDir
  dsimp only
  obtain ⟨a1, _⟩ := fails_fs s
  by_cases h1 : s.fails.1 = true
  · rw [if_pos h1]; exact .same a1
  rw [if_neg h1]
  generalize s.fails.2 = u at a1
  by_cases h3 : u.fs p ≠ none
  · rw [if_pos h3]; exact .same a1
  rw [if_neg h3]
  have hn : s.fs p = none := by rw [a1] at h3; exact Decidable.not_not.1 h3
  obtain ⟨a4, _⟩ := fails_fs (u.put p (.dir 0o700 root))
  have key : ∀ s2 : St, (∀ q, q ≠ p → s2.fs q = s.fs q ∨ (s.fs q = none ∧ P q)) → ∀ code : Int,
      Adds P s (if s2.fails.1 = true then (PAM_PERM_DENIED, s2.fails.2)
        else if (s2.fails.2.put p (.dir mode root)).fails.1 = true then (PAM_PERM_DENIED, (s2.fails.2.put p (.dir mode root)).fails.2)
        else (code, (s2.fails.2.put p (.dir mode root)).fails.2.put p (.dir mode owner))).2 := by
    intro s2 h2 code
    refine .single hn hp fun q hq => ?_
    obtain ⟨a5, _⟩ := fails_fs s2
    obtain ⟨a6, _⟩ := fails_fs (s2.fails.2.put p (.dir mode root))
    split
    · dsimp only; rw [a5]; exact h2 q hq
    split
    · dsimp only; rw [a6, put_ne hq, a5]; exact h2 q hq
    · dsimp only; rw [put_ne hq, a6, put_ne hq, a5]; exact h2 q hq
  by_cases h4 : (u.put p (.dir 0o700 root)).fails.1 = true
  · rw [if_pos h4]
    refine key _ (fun q hq => .inl ?_) _
    show (u.put p (.dir 0o700 root)).fails.2.fs q = _
    rw [a4, put_ne hq, a1]
  rw [if_neg h4]
  refine key _ (fun q hq => ?_) _
  rcases hscan (u.put p (.dir 0o700 root)).fails.2 q with h | ⟨h, h'⟩
  · rw [h, a4, put_ne hq, a1]; exact .inl rfl
  · rw [a4, put_ne hq, a1] at h; exact .inr ⟨h, h'⟩

theorem openScan_frame {loop : St → Int × St} {s : St} {P : Path → Prop} (h : ∀ s1, Adds P s1 (loop s1).2) : Adds P s (openScan loop s).2 := by
  unfold openScan
  dsimp only
  obtain ⟨a1, _⟩ := fails_fs s
  split
  · exact .same a1
  · exact (Adds.same a1).trans (h _)

/-- what is in a directory -/
def In (base : Path) (q : Path) : Prop := ∃ n p, q = base ++ n :: p

theorem In.sub {base : Path} {name : Str} {q : Path} (h : In (base ++ [name]) q) : In base q := by
  obtain ⟨n, p, rfl⟩ := h
  exact ⟨name, n :: p, by simp⟩

theorem In.entry (base : Path) (name : Str) : In base (base ++ [name]) := ⟨name, [], rfl⟩

mutual
theorem copyEntry_frame (um : Nat) (owner : Owner) (base : Path) (mode : Nat) (name : Str) : (node : Src) → (s : St) →
    Adds (In base) s (copyEntry um owner base mode name node s).2
  | .dir es, s => by
    unfold copyEntry
    dsimp only
    have a0 := misses_fs s
    split
    · exact .same a0
    · exact (Adds.same a0).trans (createDir_frame (.entry base name) fun s1 => openScan_frame fun s2 => (copyAll_frame um owner _ _ es s2).mono fun _ => In.sub)
  | .link t, s => by
    unfold copyEntry
    dsimp only
    have a0 := misses_fs s
    split
    · exact .same a0
    · exact (Adds.same a0).trans (copyLink_frame (.entry base name))
  | .file m d, s => by
    unfold copyEntry
    dsimp only
    have a0 := misses_fs s
    split
    · exact .same a0
    · exact (Adds.same a0).trans (copyFile_frame (.entry base name))
  | .other, s => by
    unfold copyEntry
    dsimp only
    have a0 := misses_fs s
    split <;> exact .same a0
theorem copyAll_frame (um : Nat) (owner : Owner) (base : Path) (mode : Nat) : (es : Ents) → (s : St) →
    Adds (In base) s (copyAll um owner base mode es s).2
  | .nil, s => by unfold copyAll; exact .same rfl
  | .cons name node rest, s => by
    unfold copyAll
    have h1 := copyEntry_frame um owner base mode name node s
    obtain ⟨⟨code, s1⟩, he⟩ : ∃ r, copyEntry um owner base mode name node s = r := ⟨_, rfl⟩
    rw [he] at h1 ⊢
    dsimp only
    split
    · exact h1
    · exact h1.trans (copyAll_frame um owner base mode rest s1)
end

mutual
theorem copyEntry2_frame (um : Nat) (owner : Owner) (base : Path) (mode : Nat) (name : Str) (v : Ents) : (node : Src) → (s : St) →
    Adds (In base) s (copyEntry2 um owner base mode name v node s).2
  | .dir es, s => by
    unfold copyEntry2
    dsimp only
    have a0 := misses_fs s
    have a1 := misses_fs s.misses.2
    by_cases hm : s.misses.1 = true
    · rw [if_pos hm]; exact .same a0
    rw [if_neg hm]
    refine (Adds.same (a1.trans a0)).trans (createDir_frame (.entry base name) fun s1 => ?_)
    generalize s.misses.2.misses.1 = b
    have hone : ∀ s1, Adds (In base) s1 (openScan (copyAll um owner (base ++ [name]) (mask um mode) es) s1).2 :=
      fun s1 => openScan_frame fun s2 => (copyAll_frame um owner _ _ es s2).mono fun _ => In.sub
    have htwo : ∀ (vs : Ents) s1, Adds (In base) s1 (openScan (copyAll2 um owner (base ++ [name]) (mask um mode) vs es) s1).2 :=
      fun vs s1 => openScan_frame fun s2 => (copyAll2_frame um owner _ _ vs es s2).mono fun _ => In.sub
    have hbad : Adds (In base) s1 (if (openScan (copyAll2 um owner (base ++ [name]) (mask um mode) .nil es) s1).1 ≠ PAM_SUCCESS then
        ((openScan (copyAll2 um owner (base ++ [name]) (mask um mode) .nil es) s1).1, (openScan (copyAll2 um owner (base ++ [name]) (mask um mode) .nil es) s1).2)
        else (PAM_PERM_DENIED, (openScan (copyAll2 um owner (base ++ [name]) (mask um mode) .nil es) s1).2)).2 := by
      split <;> exact htwo .nil s1
    cases hv : v.find name with
    | none => cases b <;> exact hone s1
    | some u => cases b with
      | true => cases u <;> exact hone s1
      | false => cases u with
        | dir vs =>
          have h1 := htwo vs s1
          obtain ⟨⟨code, s4⟩, he⟩ : ∃ r, openScan (copyAll2 um owner (base ++ [name]) (mask um mode) vs es) s1 = r := ⟨_, rfl⟩
          rw [he] at h1
          dsimp only
          rw [he]
          dsimp only
          split
          · exact h1
          · exact h1.trans (openScan_frame fun s2 => (copyAll_frame um owner _ _ vs s2).mono fun _ => In.sub)
        | file a b => exact hbad
        | link a => exact hbad
        | other => exact hbad
  | .link t, s => by
    unfold copyEntry2
    dsimp only
    have a0 := misses_fs s
    split
    · exact .same a0
    · exact (Adds.same a0).trans (copyLink_frame (.entry base name))
  | .file m d, s => by
    unfold copyEntry2
    dsimp only
    have a0 := misses_fs s
    split
    · exact .same a0
    · exact (Adds.same a0).trans (copyFile_frame (.entry base name))
  | .other, s => by
    unfold copyEntry2
    dsimp only
    have a0 := misses_fs s
    split <;> exact .same a0
theorem copyAll2_frame (um : Nat) (owner : Owner) (base : Path) (mode : Nat) (v : Ents) : (es : Ents) → (s : St) →
    Adds (In base) s (copyAll2 um owner base mode v es s).2
  | .nil, s => by unfold copyAll2; exact .same rfl
  | .cons name node rest, s => by
    unfold copyAll2
    have h1 := copyEntry2_frame um owner base mode name v node s
    obtain ⟨⟨code, s1⟩, he⟩ : ∃ r, copyEntry2 um owner base mode name v node s = r := ⟨_, rfl⟩
    rw [he] at h1 ⊢
    dsimp only
    split
    · exact h1
    · exact h1.trans (copyAll2_frame um owner base mode v rest s1)
end

theorem scanSkel_frame (um : Nat) (owner : Owner) (home : Path) (mode : Nat) (skel vendor : Source) (s : St) :
    Adds (In home) s (scanSkel um owner home mode skel vendor s).2 := by
  unfold scanSkel
  cases skel with
  | unset => exact .same rfl
  | missing => exact .same rfl
  | dir es => cases vendor with
    | unset => exact openScan_frame fun s1 => copyAll_frame um owner home mode es s1
    | missing => exact openScan_frame fun s1 => copyAll2_frame um owner home mode .nil es s1
    | dir vs => exact openScan_frame fun s1 => copyAll2_frame um owner home mode vs es s1

theorem scanBoth_frame (um : Nat) (owner : Owner) (home : Path) (mode : Nat) (skel vendor : Source) (s : St) :
    Adds (In home) s (scanBoth um owner home mode skel vendor s).2 := by
  unfold scanBoth
  have h1 := scanSkel_frame um owner home mode skel vendor s
  dsimp only
  split
  · exact h1
  · refine h1.trans ?_
    unfold scanVendor
    cases vendor with
    | unset => exact .same rfl
    | missing => exact .same rfl
    | dir vs => exact openScan_frame fun s1 => copyAll_frame um owner home mode vs s1

/-! ### the directories above -/

theorem namesOf_append (b : Str) : ∀ (a cur : Str), namesOf cur (a ++ '/' :: b) = namesOf cur a ++ namesOf [] b
  | [], cur => by simp [namesOf]
  | c :: a, cur => by
    rw [List.cons_append, namesOf, namesOf]
    split
    · rw [namesOf_append b a [], List.append_assoc]
    · rw [namesOf_append b a (cur ++ [c])]

theorem namesOf_name : ∀ (a cur : Str), '/' ∉ a → namesOf cur a = if cur ++ a = [] then [] else [cur ++ a]
  | [], cur, _ => by simp [namesOf]
  | c :: a, cur, h => by
    unfold namesOf
    rw [if_neg (fun e => h (by rw [e]; exact List.mem_cons_self)), namesOf_name a (cur ++ [c]) (fun e => h (List.mem_cons_of_mem _ e))]
    simp

theorem resolve_slash {pre name : Str} (h : '/' ∉ name) : resolve (pre ++ '/' :: name) = resolve pre ++ (if name = [] then [] else [name]) := by
  unfold resolve
  rw [namesOf_append, namesOf_name name [] h]
  rfl

theorem lastSlash_some {dir pre name : Str} (h : lastSlash dir = some (pre, name)) : dir = pre ++ '/' :: name ∧ '/' ∉ name := by
  unfold lastSlash at h
  split at h
  · rename_i hm
    cases h
    have h1 : dir.reverse = dir.reverse.takeWhile (· ≠ '/') ++ dir.reverse.dropWhile (· ≠ '/') := List.takeWhile_append_dropWhile.symm
    have h2 : ∃ t, dir.reverse.dropWhile (· ≠ '/') = '/' :: t := by
      have hm' : '/' ∈ dir.reverse := List.mem_reverse.2 hm
      clear h1 hm
      generalize dir.reverse = l at hm'
      induction l with
      | nil => cases hm'
      | cons c l ih =>
        by_cases hc : c = '/'
        · exact ⟨l, by simp [hc]⟩
        · rcases List.mem_cons.1 hm' with e | e
          · exact absurd e.symm hc
          · obtain ⟨t, ht⟩ := ih e
            exact ⟨t, by rw [List.dropWhile_cons, if_pos (by simp [hc])]; exact ht⟩
    obtain ⟨t, ht⟩ := h2
    refine ⟨?_, ?_⟩
    · rw [ht] at h1 ⊢
      have := congrArg List.reverse h1
      rw [List.reverse_reverse] at this
      simpa using this
    · intro e
      rw [List.mem_reverse] at e
      have : ∀ l : Str, '/' ∉ l.takeWhile (· ≠ '/') := by
        intro l
        induction l with
        | nil => simp
        | cons c l ih =>
          rw [List.takeWhile_cons]
          split
          · rename_i hc
            intro e
            rcases List.mem_cons.1 e with e | e
            · rw [← e] at hc; simp at hc
            · exact ih e
          · simp
      exact this _ e
  · cases h

theorem mkdir_frame (s : St) (p : Path) : (s.mkdir p).2.fs = s.fs ∨ (s.fs p = none ∧ ∀ q, (s.mkdir p).2.fs q = if q = p then some (.dir 0o755 root) else s.fs q) := by
  unfold St.mkdir
  dsimp only
  obtain ⟨a1, _⟩ := fails_fs s
  by_cases h1 : s.fails.1 = true
  · rw [if_pos h1]; exact .inl a1
  rw [if_neg h1]
  by_cases h2 : s.fails.2.fs p ≠ none
  · rw [if_pos h2]; exact .inl a1
  rw [if_neg h2]
  by_cases h3 : ¬ s.fails.2.isDir p.dropLast = true
  · rw [if_pos h3]; exact .inl a1
  rw [if_neg h3]
  refine .inr ⟨by rw [← a1]; exact Decidable.not_not.1 h2, fun q => ?_⟩
  show (if q = p then _ else s.fails.2.fs q) = _
  rw [a1]

/-- directories are added, with the right mode -/
def AddsDirs (P : Path → Prop) (s s' : St) : Prop := ∀ q, s'.fs q = s.fs q ∨ (s.fs q = none ∧ P q ∧ s'.fs q = some (.dir 0o755 root))

theorem AddsDirs.trans {P : Path → Prop} {s s1 s' : St} (h1 : AddsDirs P s s1) (h2 : AddsDirs P s1 s') : AddsDirs P s s' := by
  intro q
  rcases h2 q with h | ⟨h, hp, hd⟩
  · rw [h]; exact h1 q
  · rcases h1 q with h' | ⟨_, _, h'⟩
    · exact .inr ⟨by rw [← h']; exact h, hp, hd⟩
    · rw [h] at h'; cases h'

theorem AddsDirs.mono {P Q : Path → Prop} {s s' : St} (h : AddsDirs P s s') (hpq : ∀ q, P q → Q q) : AddsDirs Q s s' :=
  fun q => (h q).imp id fun ⟨a, b, c⟩ => ⟨a, hpq q b, c⟩

theorem makeParents_frame : ∀ (n : Nat) (dir : Str) (make : Bool) (s : St),
    AddsDirs (fun q => q <+: resolve dir ∧ (make = false → ∃ pre name, lastSlash dir = some (pre, name) ∧ q <+: resolve pre)) s (makeParents n dir make s).2 := by
  intro n
  induction n with
  | zero => intro dir make s q; exact .inl rfl
  | succ n ih =>
    intro dir make s
    unfold makeParents
    cases hl : lastSlash dir with
    | none => intro q; exact .inl rfl
    | some r =>
      obtain ⟨pre, name⟩ := r
      obtain ⟨e1, e2⟩ := lastSlash_some hl
      dsimp only
      have h1 : AddsDirs (fun q => q <+: resolve dir ∧ (make = false → ∃ pre' name', some (pre, name) = some (pre', name') ∧ q <+: resolve pre')) s
          (if pre ≠ [] ∧ s.fs (resolve pre) = none then makeParents n pre true s else (PAM_SUCCESS, s)).2 := by
        split
        · refine (ih pre true s).mono fun q ⟨hq, _⟩ => ⟨?_, fun _ => ⟨pre, name, rfl, hq⟩⟩
          rw [e1, resolve_slash e2]
          exact hq.trans (List.prefix_append _ _)
        · intro q; exact .inl rfl
      generalize (if pre ≠ [] ∧ s.fs (resolve pre) = none then makeParents n pre true s else (PAM_SUCCESS, s)) = r at h1
      split
      · exact h1
      cases make with
      | false => exact h1
      | true =>
        refine h1.trans ?_
        have h2 : AddsDirs (fun q => q <+: resolve dir ∧ (true = false → ∃ pre' name', some (pre, name) = some (pre', name') ∧ q <+: resolve pre')) r.2 (r.2.mkdir (resolve dir)).2 := by
          intro q
          rcases mkdir_frame r.2 (resolve dir) with h | ⟨ha, hb⟩
          · exact .inl (by rw [h])
          · by_cases hq : q = resolve dir
            · subst hq
              exact .inr ⟨ha, ⟨List.prefix_refl _, fun e => by cases e⟩, by rw [hb, if_pos rfl]⟩
            · exact .inl (by rw [hb, if_neg hq])
        rw [if_pos rfl]
        split <;> exact h2

end Pam.Mkhome
