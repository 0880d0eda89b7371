import Verif.Pwhistory.Save
/-
Property theorems C64 (the history file), C65 (no password is used again) and C67 (crashes).
-/
namespace Pam.Pwh
open Pam Spec

/-- the password is in the shadow file -/
def Shadowed (pw : Passwd) : Prop := pw.passwd = "x".toList ∨ pw.passwd = "##".toList ++ pw.name

/-- the current password of the user as it is stored, and the user's number -/
def Current (sys : Sys) (u : Str) (uid : Nat) (h : Str) : Prop :=
  ∃ pw, sys.pw u = some pw ∧ pw.uid = uid ∧
    ((¬ Shadowed pw ∧ pw.passwd = h) ∨ (Shadowed pw ∧ sys.sp u = some (some h)))

/-- every operation on files works -/
structure Works (sys : Sys) : Prop where
  opens : sys.opens = true
  fstat : sys.fstat = true
  mkstemp : sys.mkstemp = true
  fdopen : sys.fdopen = true
  fputs : ∀ n, sys.fputs n = true
  closeOld : sys.closeOld = true
  sync : sys.sync = true
  closeNew : sys.closeNew = true
  linkOk : sys.linkOk = true
  rename : sys.rename = true
  opensAgain : ∀ n, sys.opensAgain n = true

/-- the files after some operations -/
def after (fs : Fs) (ops : List Op) : Fs := ops.foldl Op.apply fs

theorem after_append (fs : Fs) (a b : List Op) : after fs (a ++ b) = after (after fs a) b := List.foldl_append ..

theorem shadowed_iff (pw : Passwd) :
    (pw.passwd = ['x'] ∨ (pw.passwd.take 2 = ['#', '#'] ∧ pw.name = pw.passwd.drop 2)) ↔ Shadowed pw := by
  have h1 : "x".toList = ['x'] := by decide
  have h2 : "##".toList = ['#', '#'] := by decide
  rw [Shadowed, h1, h2]
  constructor
  · rintro (h | ⟨h, h'⟩)
    · exact Or.inl h
    · right; rw [h', ← h]; exact (List.take_append_drop 2 _).symm
  · rintro (h | h)
    · exact Or.inl h
    · right; rw [h]; simp

theorem current_pass {sys : Sys} {u : Str} {uid : Nat} {h : Str} (hc : Current sys u uid h) :
    ∃ pw, sys.pw u = some pw ∧ pw.uid = uid ∧ currentPass sys u pw = some (some h) := by
  obtain ⟨pw, h1, h2, h3⟩ := hc
  refine ⟨pw, h1, h2, ?_⟩
  rw [currentPass]
  rcases h3 with ⟨h3, h4⟩ | ⟨h3, h4⟩
  · rw [if_neg (fun x => h3 ((shadowed_iff pw).mp x)), h4]
  · rw [if_pos ((shadowed_iff pw).mpr h3), h4]

theorem writeAll_ops (ok : Nat → Bool) : ∀ (ss : List Str) (i : Nat), ∃ t, (writeAll ok i ss).2 = t.map Op.write ∧
    ((writeAll ok i ss).1 = true → t = ss)
  | [], _ => ⟨[], rfl, fun _ => rfl⟩
  | s :: ss, i => by
    rw [writeAll]
    split
    · obtain ⟨t, h1, h2⟩ := writeAll_ops ok ss (i + 1)
      exact ⟨s :: t, by simp only [h1, List.map_cons], fun h => by rw [h2 h]⟩
    · exact ⟨[], rfl, fun h => by cases h⟩

theorem writeAll_works {ok : Nat → Bool} (h : ∀ n, ok n = true) : ∀ (ss : List Str) (i : Nat), (writeAll ok i ss).1 = true
  | [], _ => rfl
  | s :: ss, i => by rw [writeAll, if_pos (h i)]; exact writeAll_works h ss (i + 1)

theorem after_writes (fs : Fs) : ∀ (ss : List Str), after fs (ss.map .write) = { fs with tmp := fs.tmp.map (· ++ ss.flatten) }
  | [] => by simp [after]
  | s :: ss => by
    have := after_writes (Op.apply fs (.write s)) ss
    simp only [after, List.map_cons, List.foldl_cons] at this ⊢
    rw [this]
    simp only [Op.apply, Option.map_map, List.flatten_cons]
    congr 2
    funext x; simp

/-- what `saveOld` does: nothing to the history, or the whole procedure -/
inductive Did (sys : Sys) (fs : Fs) (new : Str) : Int × List Op → Prop where
  | nothing (code : Int) (h : code ≠ PAM_SUCCESS) : Did sys fs new (code, [])
  | failed (t : List Str) (code : Int) (h : code ≠ PAM_SUCCESS) : Did sys fs new (code, .create :: t.map .write ++ [.dropTmp])
  | done (t : List Str) (h : t.flatten = new) :
      Did sys fs new (PAM_SUCCESS, .create :: t.map .write ++ [.dropBackup] ++ (if sys.linkOk ∧ fs.main.isSome then [.link] else []) ++
        (if sys.rename then [.replace] else []) ++ [.dropTmp])

theorem saveOld_did {sys : Sys} {n : Int} {u h : Str} {uid : Nat} (hc : Current sys u uid h) (hh : h ≠ []) (hn : 1 ≤ n) (fs : Fs) :
    Did sys fs (content n u h uid fs.main) (saveOld sys n u fs.main) := by
  obtain ⟨pw, h1, rfl, h3⟩ := current_pass hc
  obtain ⟨x, xs, rfl⟩ := List.exists_cons_of_ne_nil hh
  simp only [saveOld, h1, h3]
  rw [if_neg (by omega)]
  obtain ⟨t, ht, hfull⟩ := writeAll_ops sys.fputs (outputs n u (x :: xs) pw.uid fs.main) 0
  split
  · exact .nothing _ (by decide)
  split
  · exact .nothing _ (by decide)
  split
  · exact .nothing _ (by decide)
  split
  · exact .failed [] _ (by decide)
  rw [ht]
  split
  · exact .failed t _ (by decide)
  next hw =>
  split
  · exact .failed t _ (by decide)
  split
  · exact .failed t _ (by decide)
  split
  · exact .failed t _ (by decide)
  exact .done t (by rw [hfull (by simpa using hw)]; rfl)

theorem saveOld_works {sys : Sys} (hw : Works sys) {n : Int} {u h : Str} {uid : Nat} (hc : Current sys u uid h) (hh : h ≠ []) (hn : 1 ≤ n) (fs : Fs) :
    saveOld sys n u fs.main = (PAM_SUCCESS, .create :: (outputs n u h uid fs.main).map .write ++ [.dropBackup] ++
      (if fs.main.isSome then [.link] else []) ++ [.replace] ++ [.dropTmp]) := by
  obtain ⟨pw, h1, rfl, h3⟩ := current_pass hc
  obtain ⟨x, xs, rfl⟩ := List.exists_cons_of_ne_nil hh
  simp only [saveOld, h1, h3]
  obtain ⟨t, ht, hfull⟩ := writeAll_ops sys.fputs (outputs n u (x :: xs) pw.uid fs.main) 0
  rw [if_neg (by omega), if_neg (by simp [hw.opens]), if_neg (by simp [hw.fstat]), if_neg (by simp [hw.mkstemp]), if_neg (by simp [hw.fdopen]),
    if_neg (by simp [writeAll_works hw.fputs]), if_neg (by simp [hw.closeOld]), if_neg (by simp [hw.sync]), if_neg (by simp [hw.closeNew]),
    ht, hfull (writeAll_works hw.fputs _ _), hw.linkOk, hw.rename]
  simp

theorem after_create (fs : Fs) (t : List Str) : after fs (.create :: t.map .write) = { fs with tmp := some t.flatten } := by
  have := after_writes (Op.apply fs .create) t
  simp only [after, List.foldl_cons] at this ⊢
  rw [this]; simp [Op.apply]

theorem after_works {sys : Sys} (hw : Works sys) {n : Int} {u h : Str} {uid : Nat} (hc : Current sys u uid h) (hh : h ≠ []) (hn : 1 ≤ n) (fs : Fs) :
    after fs (saveOld sys n u fs.main).2 = ⟨some (content n u h uid fs.main), none, fs.main⟩ := by
  rw [saveOld_works hw hc hh hn]
  simp only [after_append, after_create]
  cases hm : fs.main with
  | none => simp [after, Op.apply, content, hm]
  | some f => simp [after, Op.apply, content, hm]

/-! ### C64 -/

/-- C64: an entry is updated.  The current password is appended unless it is the last one already, the last `n` are kept, and every
other line of the file stays as it is.  Missing: the case that the entry has more than `n` passwords, the current one last
(`C64_lowered_counterexample`). -/
theorem C64_update_partial (sys : Sys) (hw : Works sys) (n : Nat) (hn : 1 ≤ n) (u h : Str) (uid : Nat) (hc : Current sys u uid h)
    (hh : IsHash h) (pre post : List Str) (e : Entry) (he : e.Ok) (hu : e.user = u) (hf : ∀ l ∈ pre ++ post, Foreign u l)
    (hlen : e.hashes.getLast? = some h → e.hashes.length ≤ n) (fs : Fs) (hfs : fs.main = some (cat (pre ++ [e.text] ++ post))) :
    (saveOld sys n u fs.main).1 = PAM_SUCCESS ∧
    ∃ e' : Entry, e'.Ok ∧ e'.user = u ∧ e'.uid = e.uid ∧ e'.hashes = remember n e.hashes h ∧
      (e' = e ∨ e'.count = Nat.toDigits 10 e'.hashes.length) ∧
      after fs (saveOld sys n u fs.main).2 = ⟨some (cat (pre ++ [e'.text] ++ post)), none, fs.main⟩ := by
  subst hu
  refine ⟨by rw [saveOld_works hw hc hh.1 (by omega)], newEntry n h e, newEntry_ok he hh, newEntry_user, ?_, newEntry_hashes hn hlen, ?_, ?_⟩
  · rw [newEntry]; split <;> rfl
  · rw [newEntry]
    split
    · exact Or.inl rfl
    · right
      simp only [keep, List.length_append, List.length_drop, List.length_cons, List.length_nil]
      rw [show e.hashes.length - (e.hashes.length - (n - 1)) + (0 + 1) = min (e.hashes.length + 1) n by omega]
  · rw [after_works hw hc hh.1 (by omega), hfs, content_own hn he hf]

/-- C64: a user without an entry gets one at the end of the file, which is otherwise unchanged. -/
theorem C64_new (sys : Sys) (hw : Works sys) (n : Nat) (hn : 1 ≤ n) (u h : Str) (uid : Nat) (hc : Current sys u uid h)
    (hu : IsName u) (hh : IsHash h) (fs : Fs) (hno : NoEntry fs.main u) :
    (saveOld sys n u fs.main).1 = PAM_SUCCESS ∧
    ∃ e : Entry, e.Ok ∧ e.user = u ∧ e.uid = Nat.toDigits 10 uid ∧ e.count = ['1'] ∧ e.hashes = [h] ∧
      after fs (saveOld sys n u fs.main).2 = ⟨some (fs.main.getD [] ++ e.text ++ ['\n']), none, fs.main⟩ := by
  refine ⟨by rw [saveOld_works hw hc hh.1 (by omega)], firstEntry u uid h, firstEntry_ok hu hh, rfl, rfl, rfl, rfl, ?_⟩
  rw [after_works hw hc hh.1 (by omega)]
  rcases hno with h0 | ⟨ls, h0, hf⟩
  · rw [h0, content_none]; simp [cat]
  · rw [h0, content_new hf, cat_append]; simp [cat]

/-- C64: nothing is written for a user without a password, or if nothing is to be remembered. -/
theorem C64_nothing (sys : Sys) (n : Int) (u : Str) (main : Option Str) (pw : Passwd) (hpw : sys.pw u = some pw)
    (h : n ≤ 0 ∨ (¬ Shadowed pw ∧ pw.passwd = []) ∨ (Shadowed pw ∧ (sys.sp u = some none ∨ sys.sp u = some (some [])))) :
    saveOld sys n u main = (PAM_SUCCESS, []) := by
  simp only [saveOld, hpw]
  by_cases h0 : n ≤ 0
  · rw [if_pos h0]
  · rw [if_neg h0]
    rcases h with h | ⟨h1, h2⟩ | ⟨h1, h2 | h2⟩
    · exact absurd h h0
    · simp only [currentPass]; rw [if_neg (fun x => h1 ((shadowed_iff pw).mp x)), h2]
    · simp only [currentPass]; rw [if_pos ((shadowed_iff pw).mpr h1), h2]
    · simp only [currentPass]; rw [if_pos ((shadowed_iff pw).mpr h1), h2]

/-- a system with two users -/
def exSys : Sys where
  pw u := if u = "ann".toList then some ⟨"ann".toList, "x".toList, 1000⟩ else if u = "bob".toList then some ⟨"bob".toList, "bb".toList, 1001⟩ else none
  sp u := if u = "ann".toList then some (some "h3".toList) else none
  opens := true
  fstat := true
  mkstemp := true
  fdopen := true
  fputs _ := true
  closeOld := true
  sync := true
  closeNew := true
  linkOk := true
  rename := true
  opensAgain _ := true

theorem exSys_works : Works exSys := ⟨rfl, rfl, rfl, rfl, fun _ => rfl, rfl, rfl, rfl, rfl, rfl, fun _ => rfl⟩

theorem exSys_ann : Current exSys "ann".toList 1000 "h3".toList :=
  ⟨⟨"ann".toList, "x".toList, 1000⟩, by decide, rfl, Or.inr ⟨Or.inl rfl, by decide⟩⟩

theorem exSys_bob : Current exSys "bob".toList 1001 "bb".toList :=
  ⟨⟨"bob".toList, "bb".toList, 1001⟩, by decide, rfl, Or.inl ⟨by unfold Shadowed; decide, rfl⟩⟩

/-- the hypotheses can be met -/
example : after ⟨some "root:0:1:r\nann:1000:2:h1,h2\n\nbob:1001:1:b\n".toList, none, none⟩
    (saveOld exSys 2 "ann".toList (some "root:0:1:r\nann:1000:2:h1,h2\n\nbob:1001:1:b\n".toList)).2 =
    ⟨some "root:0:1:r\nann:1000:2:h2,h3\n\nbob:1001:1:b\n".toList, none, some "root:0:1:r\nann:1000:2:h1,h2\n\nbob:1001:1:b\n".toList⟩ := by
  decide +kernel

example : (⟨"ann".toList, "1000".toList, "2".toList, ["h1".toList, "h2".toList]⟩ : Entry).Ok ∧ Foreign "ann".toList "root:0:1:r".toList ∧
    Foreign "ann".toList [] ∧ IsHash "h3".toList := by
  refine ⟨⟨by unfold IsName; decide, by unfold IsName; decide, by decide, ?_⟩, ?_, ?_, ?_⟩
  · unfold IsHash; decide
  · unfold Foreign IsLine; decide
  · unfold Foreign IsLine; decide
  · unfold IsHash; decide

/-- C64 is false as stated when the limit is lowered: the current password is then saved a second time, and an older one that should be
remembered is lost. -/
theorem C64_lowered_counterexample :
    after ⟨some "ann:1000:3:h1,h2,h3\n".toList, none, none⟩ (saveOld exSys 2 "ann".toList (some "ann:1000:3:h1,h2,h3\n".toList)).2 =
      ⟨some "ann:1000:2:h3,h3\n".toList, none, some "ann:1000:3:h1,h2,h3\n".toList⟩ ∧
    remember 2 ["h1".toList, "h2".toList, "h3".toList] "h3".toList = ["h2".toList, "h3".toList] := by
  decide +kernel

/-- C64 is false for a file whose last line has no newline: the new entry is glued to the last one. -/
theorem C64_newline_counterexample :
    after ⟨some "bob:1001:1:b".toList, none, none⟩ (saveOld exSys 2 "ann".toList (some "bob:1001:1:b".toList)).2 =
      ⟨some "bob:1001:1:bann:1000:1:h3\n".toList, none, some "bob:1001:1:b".toList⟩ := by
  decide +kernel

/-- C64 is false of two changes at the same time: nothing locks the file, so the entry of the first to finish is lost. -/
theorem C64_concurrent_counterexample :
    let main := some "root:0:1:r\n".toList
    let a := saveOld exSys 2 "ann".toList main
    let b := saveOld exSys 2 "bob".toList main
    a.1 = PAM_SUCCESS ∧ b.1 = PAM_SUCCESS ∧
      (after (after ⟨main, none, none⟩ a.2) b.2).main = some "root:0:1:r\nbob:1001:1:bb\n".toList := by
  decide +kernel

/-! ### C67 -/

theorem after_prefix {sys : Sys} {n : Int} (hn : 1 ≤ n) {u h : Str} {uid : Nat} (hc : Current sys u uid h)
    (hh : h ≠ []) (fs : Fs) (k : Nat) :
    let s := after fs ((saveOld sys n u fs.main).2.take k)
    (s.main = fs.main ∨ s.main = some (content n u h uid fs.main)) ∧
    (s.backup = fs.backup ∨ s.backup = none ∨ s.backup = fs.main) := by
  have hd := saveOld_did hc hh hn fs
  generalize saveOld sys n u fs.main = r at hd
  have hw : ∀ (t : List Str) (j : Nat), ∃ x, after fs ((Op.create :: t.map Op.write).take j) = { fs with tmp := x } := by
    intro t j
    cases j with
    | zero => exact ⟨fs.tmp, rfl⟩
    | succ j =>
      rw [List.take_succ_cons, ← List.map_take, after_create]
      exact ⟨_, rfl⟩
  cases hd with
  | nothing code h => simp only [List.take_nil]; exact ⟨Or.inl rfl, Or.inl rfl⟩
  | failed t code h =>
    simp only
    rw [List.take_append, after_append]
    obtain ⟨x, hx⟩ := hw t k
    rw [hx]
    generalize k - (Op.create :: t.map Op.write).length = j
    cases j with
    | zero => exact ⟨Or.inl rfl, Or.inl rfl⟩
    | succ j => exact ⟨Or.inl (by simp [after, Op.apply]), Or.inl (by simp [after, Op.apply])⟩
  | done t ht =>
    simp only [List.append_assoc]
    rw [List.take_append, after_append]
    by_cases hk : k ≤ (Op.create :: t.map Op.write).length
    · rw [Nat.sub_eq_zero_of_le hk]
      obtain ⟨x, hx⟩ := hw t k
      rw [hx]
      exact ⟨Or.inl rfl, Or.inl rfl⟩
    · rw [List.take_of_length_le (by omega), after_create, ht]
      generalize k - (Op.create :: t.map Op.write).length = j
      have hcases : ∀ l : Bool, (if l = true ∧ fs.main.isSome = true then [Op.link] else []) = [] ∨
          (if l = true ∧ fs.main.isSome = true then [Op.link] else []) = [Op.link] := by
        intro l; split
        · exact Or.inr rfl
        · exact Or.inl rfl
      have key : ∀ (l : List Op), (l = [.dropBackup, .dropTmp] ∨ l = [.dropBackup, .link, .dropTmp] ∨ l = [.dropBackup, .replace, .dropTmp] ∨
          l = [.dropBackup, .link, .replace, .dropTmp]) →
          ((after ⟨fs.main, some (content n u h uid fs.main), fs.backup⟩ (l.take j)).main = fs.main ∨
            (after ⟨fs.main, some (content n u h uid fs.main), fs.backup⟩ (l.take j)).main = some (content n u h uid fs.main)) ∧
          ((after ⟨fs.main, some (content n u h uid fs.main), fs.backup⟩ (l.take j)).backup = fs.backup ∨
            (after ⟨fs.main, some (content n u h uid fs.main), fs.backup⟩ (l.take j)).backup = none ∨
            (after ⟨fs.main, some (content n u h uid fs.main), fs.backup⟩ (l.take j)).backup = fs.main) := by
        intro l hl
        rcases j with _ | _ | _ | _ | j <;> rcases hl with rfl | rfl | rfl | rfl <;> simp [after, Op.apply]
      apply key
      rcases hcases sys.linkOk with hl | hl <;> rw [hl] <;> cases sys.rename <;> simp

/-- C67: whatever fails, and wherever the process is killed, the history is either as it was or complete with the update, and the
backup is as it was, missing, or the history as it was. -/
theorem C67_crash (sys good : Sys) (hg : Works good) (n : Int) (hn : 1 ≤ n) (u h : Str) (uid : Nat) (hc : Current sys u uid h)
    (hc' : Current good u uid h) (hh : h ≠ []) (fs : Fs) (k : Nat) :
    let s := after fs ((saveOld sys n u fs.main).2.take k)
    (s.main = fs.main ∨ s.main = (after fs (saveOld good n u fs.main).2).main) ∧
    (s.backup = fs.backup ∨ s.backup = none ∨ s.backup = fs.main) := by
  rw [after_works hg hc' hh hn]
  exact after_prefix hn hc hh fs k

/-- C67: a failure that is reported leaves the history and its backup as they were; no temporary file is left behind in any case. -/
theorem C67_failure (sys : Sys) (n : Int) (u : Str) (fs : Fs) (ht : fs.tmp = none) :
    ((saveOld sys n u fs.main).1 ≠ PAM_SUCCESS → after fs (saveOld sys n u fs.main).2 = fs) ∧
    (after fs (saveOld sys n u fs.main).2).tmp = none := by
  have hnil : (after fs []).tmp = none := ht
  have hfs : fs = ⟨fs.main, none, fs.backup⟩ := by rw [← ht]
  simp only [saveOld]
  cases sys.pw u with
  | none => exact ⟨fun _ => rfl, hnil⟩
  | some pw =>
    simp only
    split
    · exact ⟨fun _ => rfl, hnil⟩
    · split
      · exact ⟨fun _ => rfl, hnil⟩
      · exact ⟨fun _ => rfl, hnil⟩
      · exact ⟨fun _ => rfl, hnil⟩
      · rename_i oldpass _ _
        obtain ⟨t, hw, hfull⟩ := writeAll_ops sys.fputs (outputs n u oldpass pw.uid fs.main) 0
        have hfail : after fs (.create :: t.map .write ++ [.dropTmp]) = fs := by
          rw [after_append, after_create, hfs]; rfl
        rw [hw]
        split
        · exact ⟨fun _ => rfl, hnil⟩
        split
        · exact ⟨fun _ => rfl, hnil⟩
        split
        · exact ⟨fun _ => rfl, hnil⟩
        split
        · have : after fs [.create, .dropTmp] = fs := by rw [hfs]; rfl
          simp only [this]; exact ⟨fun _ => trivial, ht⟩
        split
        · simp only [hfail]; exact ⟨fun _ => trivial, ht⟩
        split
        · simp only [hfail]; exact ⟨fun _ => trivial, ht⟩
        split
        · simp only [hfail]; exact ⟨fun _ => trivial, ht⟩
        split
        · simp only [hfail]; exact ⟨fun _ => trivial, ht⟩
        · refine ⟨fun h => absurd rfl h, ?_⟩
          rw [after_append]; rfl

/-- C67, what can go wrong: if the last step, the renaming, fails, success is reported although nothing was saved. -/
theorem C67_rename_counterexample :
    let sys := { exSys with rename := false }
    let main := some "ann:1000:1:h1\n".toList
    (saveOld sys 2 "ann".toList main).1 = PAM_SUCCESS ∧
      (after ⟨main, none, none⟩ (saveOld sys 2 "ann".toList main).2).main = main := by
  decide +kernel

example : ∃ sys : Sys, sys.sync = false ∧ (saveOld sys 2 "ann".toList (some "ann:1000:1:h1\n".toList)).1 = PAM_AUTHTOK_ERR :=
  ⟨{ exSys with sync := false }, rfl, by decide +kernel⟩

end Pam.Pwh
