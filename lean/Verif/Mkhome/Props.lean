import Verif.Mkhome.Succeeds
/-
Property theorems about the creation of home directories (C105, C106, C107).  Vocabulary: Spec.lean.
-/
namespace Pam.Mkhome
open Pam

/-- the bits that a umask leaves -/
theorem C105_mask (um m i : Nat) (h : i < 32) : (mask um m).testBit i = (m.testBit i && !um.testBit i) := by
  unfold mask
  rw [Nat.testBit_and, Nat.testBit_xor, Nat.testBit_and]
  have : Nat.testBit 0xFFFFFFFF i = true := by
    have : (0xFFFFFFFF : Nat) = 2 ^ 32 - 1 := by decide
    rw [this, Nat.testBit_two_pow_sub_one]; simpa using h
  rw [this]
  cases m.testBit i <;> cases um.testBit i <;> rfl

/-- C105: if the helper succeeds for a home directory that was not there, and every file of the skeleton could be looked at, then the home directory has the
mode that was asked for (without one, what the umask leaves of 0777), belongs to the user, and contains exactly the copy of the skeleton directory
over the vendor's: every directory, file and symbolic link of them, all of the user's, and nothing else. -/
theorem C105_new_home_is_a_copy_partial {pw : Pw} {umask homeMode : Option Str} {skel vendor : Source} {s s' : St} {um hm : Nat}
    (hu : umask.elim (some 0o022) numArg = some um) (hh : homeMode.elim (some 0) numArg = some hm)
    (hnew : ∀ p, s.fs (resolve pw.dir ++ p) = none) (hsoft : s.soft = [])
    (h : main (some pw) umask skel homeMode vendor s = (PAM_SUCCESS, s')) :
    s'.fs (resolve pw.dir) = some (.dir (if hm = 0 then mask um 0o777 else hm) pw.owner) ∧
    ∀ n p, s'.fs (resolve pw.dir ++ n :: p) =
      both um (mask um (if hm = 0 then 0o777 else hm)) pw.owner (n :: p) skel.entries vendor.entries := by
  unfold main at h
  rw [hu, hh] at h
  dsimp only at h
  by_cases hd : pw.dir.head? ≠ some '/'
  · rw [if_pos hd] at h; cases h
  rw [if_neg hd] at h
  have h0 : s.fs (resolve pw.dir) = none := by simpa using hnew []
  rw [if_neg (fun e => e h0)] at h
  have hf := makeParents_frame (pw.dir.length + 1) pw.dir false s
  have hsoft1 : (makeParents (pw.dir.length + 1) pw.dir false s).2.soft = [] := by
    have : ∀ (n : Nat) (dir : Str) (make : Bool) (s : St), (makeParents n dir make s).2.soft = s.soft := by
      intro n
      induction n with
      | zero => intros; rfl
      | succ n ih =>
        intro dir make s
        unfold makeParents
        cases lastSlash dir with
        | none => rfl
        | some r =>
          obtain ⟨pre, name⟩ := r
          dsimp only
          have h1 : (if pre ≠ [] ∧ s.fs (resolve pre) = none then makeParents n pre true s else (PAM_SUCCESS, s)).2.soft = s.soft := by
            split
            · exact ih _ _ _
            · rfl
          generalize (if pre ≠ [] ∧ s.fs (resolve pre) = none then makeParents n pre true s else (PAM_SUCCESS, s)) = r at h1
          split
          · exact h1
          · split
            · have h2 : (r.2.mkdir (resolve dir)).2.soft = r.2.soft := by
                unfold St.mkdir
                dsimp only
                have := (fails_fs r.2).2
                split
                · exact this
                split
                · exact this
                split <;> exact this
              split <;> exact h2.trans h1
            · exact h1
    rw [this]; exact hsoft
  obtain ⟨⟨rc, s1⟩, hp⟩ : ∃ r, makeParents (pw.dir.length + 1) pw.dir false s = r := ⟨_, rfl⟩
  rw [hp] at h hf hsoft1
  dsimp only at h hf hsoft1
  by_cases hrc : rc ≠ PAM_SUCCESS
  · rw [if_pos hrc] at h; cases h
  rw [if_neg hrc] at h
  unfold createHelper at h
  cases hl : lastSlash pw.dir with
  | none => rw [hl] at h; cases h
  | some r =>
    obtain ⟨pre, name⟩ := r
    obtain ⟨e1, e2⟩ := lastSlash_some hl
    rw [hl] at h
    dsimp only at h
    obtain ⟨a1, b1⟩ := fails_fs s1
    by_cases hb : s1.fails.1 = true ∨ ¬ s1.fails.2.isDir (resolve pre) = true
    · rw [if_pos hb] at h; cases h
    rw [if_neg hb] at h
    by_cases hname : name = []
    · rw [if_pos hname] at h; cases h
    rw [if_neg hname] at h
    have hres : resolve pw.dir = resolve pre ++ [name] := by rw [e1, resolve_slash e2, if_neg hname]
    have hnew1 : ∀ p, s1.fs (resolve pw.dir ++ p) = none := by
      intro p
      rcases hf (resolve pw.dir ++ p) with e | ⟨_, ⟨_, e⟩, _⟩
      · rw [e]; exact hnew p
      · obtain ⟨pre', name', k1, k2⟩ := e rfl
        rw [hl] at k1
        cases k1
        have := k2.length_le
        rw [hres] at this
        simp at this
        omega
    generalize hmode : (if hm = 0 then mask um 0o777 else hm) = mode at h
    have hmask : mask um mode = mask um (if hm = 0 then 0o777 else hm) := by
      rw [← hmode]; split
      · exact mask_mask _ _
      · rfl
    rw [← hmask, hres] at *
    rcases createDir_ok h with ⟨k1, _⟩ | ⟨k1, s2, s3, k2, k3, k4, k5, k6⟩
    · exact absurd (by rw [a1]; simpa using hnew1 []) k1
    · have hempty : ∀ n p, s2.fs ((resolve pre ++ [name]) ++ n :: p) = none := by
        intro n p
        rw [k3, if_neg (by intro e; have := congrArg List.length e; simp at this), a1]
        exact hnew1 (n :: p)
      obtain ⟨g1, g2, g3⟩ := scanBoth_ok (k2.trans (b1.trans hsoft1)) hempty k4
      refine ⟨by rw [k6, if_pos rfl], fun n p => ?_⟩
      rw [k6, if_neg (by intro e; have := congrArg List.length e; simp at this), g2, if_pos (hempty n [])]

/-- C105 (it succeeds): with good arguments, a home directory with an absolute path that does not end in a slash, whose parents are directories or
missing, a skeleton and a vendor directory that fit and can be read, and when nothing fails, the helper succeeds. -/
theorem C105_succeeds_partial {pw : Pw} {umask homeMode : Option Str} {skel vendor : Source} {s : St} {um hm : Nat}
    (hu : umask.elim (some 0o022) numArg = some um) (hh : homeMode.elim (some 0) numArg = some hm)
    (habs : pw.dir.head? = some '/') (hend : pw.dir.getLast? ≠ some '/') (hroot : s.isDir [] = true)
    (hpath : ∀ q, q <+: resolve pw.dir → s.fs q = none ∨ s.isDir q = true)
    (hs : skel ≠ .missing) (hv : vendor ≠ .missing) (hfit : skel.entries.Fits vendor.entries)
    (hhard : s.hard = []) (hsoft : s.soft = []) : (main (some pw) umask skel homeMode vendor s).1 = PAM_SUCCESS := by
  unfold main
  rw [hu, hh]
  dsimp only
  rw [if_neg (fun e => e habs)]
  split
  · rfl
  obtain ⟨⟨w1, w2⟩, _, w3⟩ := makeParents_works (pw.dir.length + 1) pw.dir false s (by omega) habs ⟨hhard, hsoft⟩ hroot hpath
  rw [if_neg (fun e => e w1)]
  unfold createHelper
  cases hl : lastSlash pw.dir with
  | none =>
    exfalso
    unfold lastSlash at hl
    split at hl
    · cases hl
    · rename_i hm
      cases hdir : pw.dir with
      | nil => rw [hdir] at habs; cases habs
      | cons c r => rw [hdir] at habs hm; simp only [List.head?_cons, Option.some.injEq] at habs; exact hm (by rw [habs]; exact List.mem_cons_self)
  | some r =>
    obtain ⟨pre, name⟩ := r
    obtain ⟨e1, e2⟩ := lastSlash_some hl
    dsimp only
    rw [fails_none w2.1]
    dsimp only
    rw [if_neg (by rw [w3 pre name hl]; simp)]
    rw [if_neg (by rintro rfl; rw [e1] at hend; simp at hend)]
    exact (createDir_works w2 fun s1 h1 => scanBoth_works h1 hs hv hfit).1

/-- C106: whatever fails and whatever the result, what existed is as it was.  What is new is the home directory, what is in it, and the missing
directories above it, which belong to root and have the mode 0755. -/
theorem C106_existing_objects_are_kept (pw : Option Pw) (umask homeMode : Option Str) (skel vendor : Source) (s s' : St) (code : Int)
    (h : main pw umask skel homeMode vendor s = (code, s')) :
    (∀ q o, s.fs q = some o → s'.fs q = some o) ∧
    ∀ q, s.fs q = none → s'.fs q ≠ none → ∃ w, pw = some w ∧
      ((∃ p, q = resolve w.dir ++ p) ∨ (q <+: resolve w.dir ∧ s'.fs q = some (.dir 0o755 root))) := by
  have hsame : ∀ t : St, t.fs = s.fs → (∀ q o, s.fs q = some o → t.fs q = some o) ∧ ∀ q, s.fs q = none → t.fs q ≠ none → ∃ w, pw = some w ∧
      ((∃ p, q = resolve w.dir ++ p) ∨ (q <+: resolve w.dir ∧ t.fs q = some (.dir 0o755 root))) :=
    fun t e => ⟨fun q o ho => by rw [e]; exact ho, fun q h1 h2 => absurd (by rw [e]; exact h1) h2⟩
  unfold main at h
  cases pw with
  | none => cases h; exact hsame s rfl
  | some pw =>
    dsimp only at h
    split at h
    · cases h; exact hsame s rfl
    · cases h; exact hsame s rfl
    rename_i um hm _ _
    split at h
    · cases h; exact hsame s rfl
    split at h
    · cases h; exact hsame s rfl
    have hf := makeParents_frame (pw.dir.length + 1) pw.dir false s
    obtain ⟨⟨rc, s1⟩, hp⟩ : ∃ r, makeParents (pw.dir.length + 1) pw.dir false s = r := ⟨_, rfl⟩
    rw [hp] at h hf
    dsimp only at h hf
    have hgen : ∀ t : St, Adds (fun q => ∃ p, q = resolve pw.dir ++ p) s1 t → (∀ q o, s.fs q = some o → t.fs q = some o) ∧ ∀ q, s.fs q = none → t.fs q ≠ none →
        ∃ w, some pw = some w ∧ ((∃ p, q = resolve w.dir ++ p) ∨ (q <+: resolve w.dir ∧ t.fs q = some (.dir 0o755 root))) := by
      intro t ht
      refine ⟨fun q o ho => ?_, fun q h1 h2 => ⟨pw, rfl, ?_⟩⟩
      · have h1 : s1.fs q = some o := by
          rcases hf q with e | ⟨e, _⟩
          · rw [e, ho]
          · rw [ho] at e; cases e
        rcases ht q with e | ⟨e, _⟩
        · rw [e, h1]
        · rw [h1] at e; cases e
      · rcases ht q with e | ⟨_, e⟩
        · rcases hf q with e' | ⟨_, ⟨k1, _⟩, k2⟩
          · exact absurd (by rw [e, e']; exact h1) h2
          · exact .inr ⟨k1, by rw [e, k2]⟩
        · exact .inl e
    split at h
    · cases h; exact hgen s' (.same rfl)
    unfold createHelper at h
    cases hl : lastSlash pw.dir with
    | none => rw [hl] at h; cases h; exact hgen s' (.same rfl)
    | some r =>
      obtain ⟨pre, name⟩ := r
      obtain ⟨e1, e2⟩ := lastSlash_some hl
      rw [hl] at h
      dsimp only at h
      obtain ⟨a1, _⟩ := fails_fs s1
      split at h
      · cases h; exact hgen _ (.same a1)
      split at h
      · cases h; exact hgen _ (.same a1)
      rename_i hname
      have hres : resolve pw.dir = resolve pre ++ [name] := by rw [e1, resolve_slash e2, if_neg hname]
      refine hgen s' ?_
      have := createDir_frame (owner := pw.owner) (p := resolve pre ++ [name]) (mode := if hm = 0 then mask um 0o777 else hm) (s := s1.fails.2)
        (scan := scanBoth um pw.owner (resolve pre ++ [name]) (if hm = 0 then mask um 0o777 else hm) skel vendor)
        (P := fun q => ∃ p, q = resolve pw.dir ++ p) ⟨[], by rw [hres]; simp⟩
        (fun t => (scanBoth_frame _ _ _ _ _ _ t).mono fun q ⟨n, p, e⟩ => ⟨n :: p, by rw [hres]; exact e⟩)
      rw [h] at this
      exact (Adds.same a1).trans this

/-- C106 (the home directory exists): if there is anything at the path of the home directory the helper succeeds and does nothing. -/
theorem C106_home_exists {pw : Pw} {umask homeMode : Option Str} {skel vendor : Source} {s : St} {um hm : Nat}
    (hu : umask.elim (some 0o022) numArg = some um) (hh : homeMode.elim (some 0) numArg = some hm) (habs : pw.dir.head? = some '/')
    (hex : s.fs (resolve pw.dir) ≠ none) : main (some pw) umask skel homeMode vendor s = (PAM_SUCCESS, s) := by
  unfold main
  rw [hu, hh]
  dsimp only
  rw [if_neg (fun e => e habs), if_pos hex]

/-- a text that is no number in C notation, or one that does not fit into 64 bits.  The empty text counts as 0. -/
def BadNumber (u : Str) : Prop := u ≠ [] ∧ ∀ v, Numeral u v → 2 ^ 64 ≤ v.natAbs

theorem numArg_bad {u : Str} (h : BadNumber u) : numArg u = none := by
  unfold numArg strtoul
  generalize hr : strtoInt 0 u = r
  obtain ⟨v, rest⟩ := r
  dsimp only
  split
  · rename_i v' he
    split at he
    · rename_i hlt
      cases he
      have := h.2 v ((strtoInt_zero u v).1 ⟨hr, h.1⟩)
      omega
    · cases he
  · rfl

/-- C106 (bad arguments): for an unknown user, a umask or a mode that is no number, or a relative home directory, nothing is made. -/
theorem C106_refused {pw : Option Pw} {umask homeMode : Option Str} {skel vendor : Source} {s : St}
    (h : pw = none ∨ (∃ u, umask = some u ∧ BadNumber u) ∨ (∃ u, homeMode = some u ∧ BadNumber u) ∨ ∃ w, pw = some w ∧ w.dir.head? ≠ some '/') :
    main pw umask skel homeMode vendor s = (if pw = none then PAM_USER_UNKNOWN else PAM_SESSION_ERR, s) := by
  unfold main
  cases pw with
  | none => rfl
  | some pw =>
    dsimp only
    rw [if_neg (by simp)]
    rcases h with h | ⟨u, rfl, h⟩ | ⟨u, rfl, h⟩ | ⟨w, h1, h2⟩
    · cases h
    · rw [Option.elim_some, numArg_bad h]
    · rw [Option.elim_some, numArg_bad h]; cases umask.elim (some 0o022) numArg <;> rfl
    · cases h1
      cases umask.elim (some 0o022) numArg with
      | none => rfl
      | some um => cases homeMode.elim (some 0) numArg with
        | none => rfl
        | some hm => dsimp only; rw [if_pos h2]

/-- witness: a number with something behind it -/
example : BadNumber "022x".toList := by
  refine ⟨by decide, fun v h => ?_⟩
  have := ((strtoInt_zero _ v).2 h).1
  have h2 : (strtoInt 0 "022x".toList).2 = [] := congrArg Prod.snd this
  exact absurd h2 (by decide)

/-! ### the arguments of the helper -/

theorem numArg_numeral {u : Str} {v : Nat} (h : Numeral u v) (hv : v < 2 ^ 64) : numArg u = some v := by
  unfold numArg strtoul
  rw [((strtoInt_zero u v).2 h).1]
  simp only [Int.natAbs_natCast]
  rw [if_pos hv]
  show some (((v : Int) % 2 ^ 64).toNat) = some v
  congr 1
  omega

theorem homeMode_back : ∀ v < 512, numArg ('0' :: octal 4 v) = some v := by decide +kernel

theorem mask_lt (u : Nat) : mask u 0o777 < 512 := by
  unfold mask
  exact Nat.lt_of_le_of_lt Nat.and_le_left (by decide)

/-- C107: if the option umask= is written in octal with a leading 0, then this is the umask with which the helper makes files, and the mode of
the home directory is what that umask leaves of 0777. -/
theorem C107_octal_umask_is_obeyed_partial {u : Str} {v : Nat} (hz : u.head? = some '0') (hd : Digits 8 u v) (hv : v < 2 ^ 64) (lu lm : Option Str) :
    numArg (helperArgs (some u) lu lm).1 = some v ∧ numArg (helperArgs (some u) lu lm).2 = some (mask v 0o777) := by
  have hnum : Numeral u v := by
    cases u with
    | nil => cases hz
    | cons c r =>
      simp only [List.head?_cons, Option.some.injEq] at hz
      subst hz
      refine ⟨[], '0' :: r, v, by simp, .inr (.inl ⟨r, rfl, fun c hc => hd.2.1 c (List.mem_cons_of_mem _ hc), ?_⟩), .inl ⟨rfl, rfl⟩⟩
      rw [hd.2.2]; rfl
  refine ⟨numArg_numeral hnum hv, ?_⟩
  show numArg (homeModeOf u) = _
  have h8 : strtoul 8 u = some (v, []) := by
    unfold strtoul
    have := ((strtoInt_base 8 (by decide) (by decide) (by decide) u v).2 ⟨[], u, v, by simp, hd, .inl ⟨rfl, rfl⟩⟩).1
    rw [this]
    simp only [Int.natAbs_natCast]
    rw [if_pos hv]
    congr 2
    omega
  unfold homeModeOf
  rw [h8]
  exact homeMode_back _ (mask_lt v)

/-- C107 (the mode of the home directory): for every text given as umask= or as UMASK, the helper gets a mode of at most 0777, and without the
option HOME_MODE of login.defs decides, then UMASK. -/
theorem C107_home_mode (opt lu lm : Option Str) :
    numArg (helperArgs opt lu lm).2 =
      match opt, lm, lu with
      | some u, _, _ => some (mask (octalUmask u) 0o777)
      | none, some m, _ => numArg m
      | none, none, some u => some (mask (octalUmask u) 0o777)
      | none, none, none => some 0o755 := by
  have h : ∀ u, numArg (homeModeOf u) = some (mask (octalUmask u) 0o777) := by
    intro u
    have : (match strtoul 8 u with | some (v, _) => v | none => 2 ^ 64 - 1) = octalUmask u := by
      unfold octalUmask strtoul
      dsimp only
      by_cases hc : (strtoInt 8 u).1.natAbs < 2 ^ 64
      · rw [if_pos hc, if_pos hc]
      · rw [if_neg hc, if_neg hc]
    show numArg ('0' :: octal 4 (mask (match strtoul 8 u with | some (v, _) => v | none => 2 ^ 64 - 1) 0o777)) = _
    rw [this]
    exact homeMode_back _ (mask_lt _)
  cases opt with
  | some u => exact h u
  | none => cases lm with
    | some m => rfl
    | none => cases lu with
      | some u => exact h u
      | none => decide +kernel

/-! ### examples -/

/-- a file system with the root and /home -/
def exFs : Path → Option Obj := fun p => if p = [] ∨ p = ["home".toList] then some (.dir 0o755 root) else none
/-- nothing fails -/
def exSt : St := { fs := exFs, hard := [], soft := [] }
/-- a user -/
def exPw : Pw := { dir := "/home/u".toList, owner := (1000, 100) }
/-- a skeleton: .rc, bin/run, a link and a socket -/
def exSkel : Ents := .cons ".rc".toList (.file 0o644 "a".toList) (.cons "bin".toList (.dir (.cons "run".toList (.file 0o755 "b".toList) .nil))
  (.cons "l".toList (.link "bin".toList) (.cons "sock".toList .other .nil)))
/-- the vendor's: .rc, .vendor, bin/v -/
def exVendor : Ents := .cons ".rc".toList (.file 0o644 "v".toList) (.cons ".vendor".toList (.file 0o600 "v".toList)
  (.cons "bin".toList (.dir (.cons "v".toList (.file 0o755 "v".toList) .nil)) .nil))
/-- the helper in the example -/
def exRun : Int × St := main (some exPw) (some "0022".toList) (.dir exSkel) (some "0700".toList) (.dir exVendor) exSt

/-- what is where after a run -/
def at_ (r : Int × St) (ps : List (List String)) : Int × List (Option Obj) := (r.1, ps.map fun p => r.2.fs (p.map String.toList))

/-- witness for C105: the copy of the example -/
example : at_ exRun [["home", "u"], ["home", "u", ".rc"], ["home", "u", "bin"], ["home", "u", "bin", "run"], ["home", "u", "bin", "v"], ["home", "u", "l"],
    ["home", "u", ".vendor"], ["home", "u", "sock"]] =
    (PAM_SUCCESS, [some (.dir 0o700 (1000, 100)), some (.file 0o644 (1000, 100) ['a']), some (.dir 0o700 (1000, 100)), some (.file 0o755 (1000, 100) ['b']),
      some (.file 0o755 (1000, 100) ['v']), some (.link (1000, 100) "bin".toList), some (.file 0o600 (1000, 100) ['v']), none]) := by decide +kernel

/-- witness for C105: the specification says the same of it -/
example : [["bin", "run"], ["bin", "v"], ["sock"], [".rc", "x"]].map (fun p => both 0o022 0o700 (1000, 100) (p.map String.toList) exSkel exVendor) =
    [some (.file 0o755 (1000, 100) ['b']), some (.file 0o755 (1000, 100) ['v']), none, none] := by decide +kernel

/-- witness for the hypotheses of C105_new_home_is_a_copy_partial and C105_succeeds_partial -/
example : numArg "0022".toList = some 0o022 ∧ numArg "0700".toList = some 0o700 ∧ (∀ p, exSt.fs (resolve exPw.dir ++ p) = none) ∧ exSt.isDir [] = true ∧
    (∀ q, q <+: resolve exPw.dir → exSt.fs q = none ∨ exSt.isDir q = true) ∧ exSkel.Fits exVendor := by
  refine ⟨by decide, by decide, fun p => ?_, by decide, fun q _ => ?_, ?_⟩
  · have : resolve exPw.dir = ["home".toList, "u".toList] := by decide
    rw [this]
    unfold exSt exFs
    simp
  · show exFs q = none ∨ _
    unfold St.isDir exSt exFs
    by_cases h : q = [] ∨ q = ["home".toList]
    · right; simp only [if_pos h]
    · left; simp only [if_neg h]
  · simp [exSkel, exVendor, Ents.Fits, Src.Fits, Ents.find]

/-- witness for C106: a failing write leaves a part of the copy, and keeps what was there -/
example : at_ (main (some exPw) none (.dir exSkel) none .unset { exSt with hard := [false, false, false, false, false, false, false, false, false, true] })
    [["home"], ["home", "u"], ["home", "u", ".rc"], ["home", "u", "bin"]] =
    (PAM_PERM_DENIED, [some (.dir 0o755 root), some (.dir 0o755 (1000, 100)), some (.file 0o644 (1000, 100) []), none]) := by decide +kernel

/-- witness for C107 -/
example : helperArgs (some "0077".toList) none none = ("0077".toList, "0700".toList) ∧ Digits 8 "0077".toList 0o077 := by
  refine ⟨by decide, ?_⟩
  unfold Digits; decide

/-! ### what is not so -/

/-- A failure in the middle makes the helper fail, but the next one takes the half of a home directory for a complete one: the claim that a successful
run leaves a complete home directory needs that there was none. -/
theorem C105_incomplete_home_counterexample :
    let r := main (some exPw) none (.dir exSkel) none .unset { exSt with hard := [false, false, false, false, false, false, false, false, false, true] }
    r.1 = PAM_PERM_DENIED ∧
    at_ (main (some exPw) none (.dir exSkel) none .unset { r.2 with hard := [] }) [["home", "u", ".rc"], ["home", "u", "bin"]] =
      (PAM_SUCCESS, [some (.file 0o644 (1000, 100) []), none]) := by decide +kernel

/-- If the home directory is written with a slash at its end, the helper makes it as one of its parents, for root, and fails; from then on it succeeds. -/
theorem C105_trailing_slash_counterexample :
    let pw : Pw := { exPw with dir := "/home/u/".toList }
    let r := main (some pw) none (.dir exSkel) none .unset exSt
    r.1 = PAM_PERM_DENIED ∧
    at_ (main (some pw) none (.dir exSkel) none .unset r.2) [["home", "u"], ["home", "u", ".rc"]] = (PAM_SUCCESS, [some (.dir 0o755 root), none]) := by decide +kernel

/-- A directory of the skeleton for which the vendor has a file of the same name makes the helper fail although nothing goes wrong. -/
theorem C105_vendor_clash_counterexample :
    (main (some exPw) none (.dir (.cons "bin".toList (.dir .nil) .nil)) none (.dir (.cons "bin".toList (.file 0o755 []) .nil)) exSt).1 = PAM_PERM_DENIED := by
  decide +kernel

/-- A file that cannot be looked at is left out, and the helper still succeeds. -/
theorem C105_missed_file_counterexample :
    at_ (main (some exPw) none (.dir exSkel) none .unset { exSt with soft := [true] }) [["home", "u"], ["home", "u", ".rc"]] =
      (PAM_SUCCESS, [some (.dir 0o755 (1000, 100)), none]) := by decide +kernel

/-- With umask=77 the home directory is made with mode 0700, but the helper takes 77 for a decimal number: its files can be written by everyone. -/
theorem C107_umask_without_zero_counterexample :
    helperArgs (some "77".toList) none none = ("77".toList, "0700".toList) ∧ octalUmask "77".toList = 0o077 ∧ numArg "77".toList = some 0o115 ∧
    at_ (main (some exPw) (some "77".toList) (.dir exSkel) (some "0700".toList) .unset exSt) [["home", "u"], ["home", "u", ".rc"]] =
      (PAM_SUCCESS, [some (.dir 0o700 (1000, 100)), some (.file 0o662 (1000, 100) ['a'])]) := by decide +kernel

/-- UMASK of login.defs is used for the home directory but not for the files in it. -/
theorem C107_login_umask_counterexample :
    helperArgs none (some "077".toList) none = ("0022".toList, "0700".toList) := by decide +kernel

end Pam.Mkhome
