import Verif.Mkhome.Frame
/-
Without faults the copy succeeds: modules/pam_mkhomedir/mkhomedir_helper.c.
-/
namespace Pam.Mkhome
open Pam

/-- nothing fails from here on -/
def NoFaults (s : St) : Prop := s.hard = [] ∧ s.soft = []

theorem fails_none {s : St} (h : s.hard = []) : s.fails = (false, s) := by
  unfold St.fails; rw [h]

/-- the run succeeds, and nothing fails later -/
def Works (r : Int × St) : Prop := r.1 = PAM_SUCCESS ∧ NoFaults r.2

theorem copyData_works (p : Path) (mode : Nat) (owner : Owner) : ∀ (n : Nat) (done src : Str) (s : St), NoFaults s → Works (copyData p mode owner n done src s) := by
  intro n
  induction n with
  | zero => intro done src s h; exact ⟨rfl, h⟩
  | succ n ih =>
    intro done src s h
    unfold copyData
    rw [fails_none h.1]
    dsimp only
    rw [if_neg (by simp)]
    split
    · exact ⟨rfl, h⟩
    · rw [fails_none h.1]
      dsimp only
      rw [if_neg (by simp)]
      exact ih _ _ _ h

theorem copyFile_works {um : Nat} {owner : Owner} {p : Path} {m : Nat} {d : Str} {s : St} (h : NoFaults s) : Works (copyFile um owner p m d s) := by
  unfold copyFile
  rw [fails_none h.1]
  dsimp only
  rw [if_neg (by simp), fails_none h.1]
  dsimp only
  rw [if_neg (by simp)]
  split
  · exact ⟨rfl, h⟩
  · rw [fails_none (s := s.put p (.file 0o600 root [])) h.1]
    dsimp only
    rw [if_neg (by simp)]
    rw [fails_none (s := (s.put p (.file 0o600 root [])).put p (.file (mask um (m ||| 0o222)) root [])) h.1]
    dsimp only
    rw [if_neg (by simp)]
    exact copyData_works _ _ _ _ _ _ _ h

theorem copyLink_works {owner : Owner} {p : Path} {t : Str} {s : St} (h : NoFaults s) : Works (copyLink owner p t s) := by
  unfold copyLink
  rw [misses_none h.2]
  dsimp only
  rw [if_neg (by simp), fails_none h.1]
  dsimp only
  rw [if_neg (by simp)]
  split
  · exact ⟨rfl, h⟩
  · rw [fails_none (s := s.put p (.link root t)) h.1]
    dsimp only
    rw [if_neg (by simp)]
    exact ⟨rfl, h⟩

theorem createDir_works {owner : Owner} {p : Path} {mode : Nat} {scan : St → Int × St} {s : St} (h : NoFaults s) (hscan : ∀ s1, NoFaults s1 → Works (scan s1)) :
    Works (createDir owner p mode scan s) := by
  unfold createDir
  rw [fails_none h.1]
  dsimp only
  rw [if_neg (by simp)]
  split
  · exact ⟨rfl, h⟩
  · rw [fails_none (s := s.put p (.dir 0o700 root)) h.1]
    dsimp only
    rw [if_neg (show ¬ (false = true) by simp)]
    obtain ⟨h1, h2⟩ := hscan (s.put p (.dir 0o700 root)) h
    rw [fails_none h2.1]
    dsimp only
    rw [if_neg (by simp)]
    rw [fails_none (s := (scan (s.put p (.dir 0o700 root))).2.put p (.dir mode root)) h2.1]
    dsimp only
    rw [if_neg (by simp)]
    exact ⟨h1, h2⟩

theorem openScan_works {loop : St → Int × St} {s : St} (h : NoFaults s) (hl : Works (loop s)) : Works (openScan loop s) := by
  unfold openScan
  rw [fails_none h.1]
  exact hl

mutual
theorem copyEntry_works (um : Nat) (owner : Owner) (base : Path) (mode : Nat) (name : Str) : (node : Src) → (s : St) → NoFaults s →
    Works (copyEntry um owner base mode name node s)
  | .dir es, s, h => by
    unfold copyEntry
    rw [misses_none h.2]
    exact createDir_works h fun s1 h1 => openScan_works h1 (copyAll_works um owner _ _ es s1 h1)
  | .link t, s, h => by
    unfold copyEntry
    rw [misses_none h.2]
    exact copyLink_works h
  | .file m d, s, h => by
    unfold copyEntry
    rw [misses_none h.2]
    exact copyFile_works h
  | .other, s, h => by
    unfold copyEntry
    rw [misses_none h.2]
    exact ⟨rfl, h⟩
theorem copyAll_works (um : Nat) (owner : Owner) (base : Path) (mode : Nat) : (es : Ents) → (s : St) → NoFaults s → Works (copyAll um owner base mode es s)
  | .nil, s, h => by unfold copyAll; exact ⟨rfl, h⟩
  | .cons name node rest, s, h => by
    unfold copyAll
    obtain ⟨h1, h2⟩ := copyEntry_works um owner base mode name node s h
    dsimp only
    rw [if_neg (fun e => e h1)]
    exact copyAll_works um owner base mode rest _ h2
end

mutual
theorem copyEntry2_works (um : Nat) (owner : Owner) (base : Path) (mode : Nat) (name : Str) (v : Ents) : (node : Src) → (s : St) → NoFaults s → node.Fits (v.find name) →
    Works (copyEntry2 um owner base mode name v node s)
  | .dir es, s, h, hf => by
    unfold copyEntry2
    rw [misses_none h.2]
    dsimp only
    rw [if_neg (by simp), misses_none h.2]
    dsimp only
    refine createDir_works h fun s1 h1 => ?_
    cases hv : v.find name with
    | none => exact openScan_works h1 (copyAll_works um owner _ _ es s1 h1)
    | some u =>
      rw [hv] at hf
      cases u with
      | dir vs =>
        dsimp only
        unfold Src.Fits at hf
        obtain ⟨k1, k2⟩ := openScan_works h1 (copyAll2_works um owner (base ++ [name]) (mask um mode) vs es s1 h1 hf)
        rw [if_neg (fun e => e k1)]
        exact openScan_works k2 (copyAll_works um owner _ _ vs _ k2)
      | file a b => unfold Src.Fits at hf; exact hf.elim
      | link a => unfold Src.Fits at hf; exact hf.elim
      | other => unfold Src.Fits at hf; exact hf.elim
  | .link t, s, h, _ => by
    unfold copyEntry2
    rw [misses_none h.2]
    exact copyLink_works h
  | .file m d, s, h, _ => by
    unfold copyEntry2
    rw [misses_none h.2]
    exact copyFile_works h
  | .other, s, h, _ => by
    unfold copyEntry2
    rw [misses_none h.2]
    exact ⟨rfl, h⟩
theorem copyAll2_works (um : Nat) (owner : Owner) (base : Path) (mode : Nat) (v : Ents) : (es : Ents) → (s : St) → NoFaults s → es.Fits v →
    Works (copyAll2 um owner base mode v es s)
  | .nil, s, h, _ => by unfold copyAll2; exact ⟨rfl, h⟩
  | .cons name node rest, s, h, hf => by
    unfold Ents.Fits at hf
    unfold copyAll2
    obtain ⟨h1, h2⟩ := copyEntry2_works um owner base mode name v node s h hf.1
    dsimp only
    rw [if_neg (fun e => e h1)]
    exact copyAll2_works um owner base mode v rest _ h2 hf.2
end

theorem scanBoth_works {um : Nat} {owner : Owner} {home : Path} {mode : Nat} {skel vendor : Source} {s : St} (h : NoFaults s)
    (hs : skel ≠ .missing) (hv : vendor ≠ .missing) (hf : skel.entries.Fits vendor.entries) : Works (scanBoth um owner home mode skel vendor s) := by
  have h1 : Works (scanSkel um owner home mode skel vendor s) := by
    unfold scanSkel
    cases skel with
    | unset => exact ⟨rfl, h⟩
    | missing => exact absurd rfl hs
    | dir es => cases vendor with
      | unset => exact openScan_works h (copyAll_works _ _ _ _ es s h)
      | missing => exact absurd rfl hv
      | dir vs => exact openScan_works h (copyAll2_works _ _ _ _ vs es s h hf)
  unfold scanBoth
  obtain ⟨k1, k2⟩ := h1
  dsimp only
  rw [if_neg (fun e => e k1)]
  unfold scanVendor
  cases vendor with
  | unset => exact ⟨rfl, k2⟩
  | missing => exact absurd rfl hv
  | dir vs => exact openScan_works k2 (copyAll_works _ _ _ _ vs _ k2)

/-- the copy of both directories -/
theorem scanBoth_ok {um : Nat} {owner : Owner} {home : Path} {mode : Nat} {skel vendor : Source} {s s' : St} (hs : s.soft = []) (hempty : ∀ n p, s.fs (home ++ n :: p) = none)
    (h : scanBoth um owner home mode skel vendor s = (PAM_SUCCESS, s')) :
    AllDone home (fun p => both um (mask um mode) owner p skel.entries vendor.entries) s s' := by
  unfold scanBoth at h
  obtain ⟨⟨code, s1⟩, he⟩ : ∃ r, scanSkel um owner home mode skel vendor s = r := ⟨_, rfl⟩
  rw [he] at h
  dsimp only at h
  by_cases hc : code ≠ PAM_SUCCESS
  · rw [if_pos hc] at h; cases h; exact absurd rfl hc
  rw [if_neg hc] at h
  have hc' : code = PAM_SUCCESS := Decidable.not_not.1 hc
  subst hc'
  have hv : vendor ≠ .missing := by
    rintro rfl
    unfold scanVendor at h; cases h
  have h1 : AllDone home (fun p => first um (mask um mode) owner vendor.entries p skel.entries) s s1 := by
    unfold scanSkel at he
    cases skel with
    | unset =>
      cases he
      refine ⟨hs, fun n p => ?_, fun q _ => rfl⟩
      rw [if_pos (hempty n []), hempty]; rfl
    | missing => cases he
    | dir es =>
      have hl : ∀ s2 : St, s2.fs = s.fs → LC home s2.fs := fun s2 e n p _ => by rw [e]; exact hempty n p
      cases vendor with
      | unset =>
        obtain ⟨s2, a, b, c⟩ := openScan_ok he
        obtain ⟨x, y, z⟩ := copyAll_ok um owner home mode es s2 s1 (a.trans hs) (hl s2 b) c
        rw [b] at y z
        refine ⟨x, fun n p => ?_, z⟩
        rw [y]
        show _ = if _ then first um (mask um mode) owner .nil (n :: p) es else _
        rw [first_nil]
      | missing => exact absurd rfl hv
      | dir vs =>
        obtain ⟨s2, a, b, c⟩ := openScan_ok he
        obtain ⟨x, y, z⟩ := copyAll2_ok um owner home mode vs es s2 s1 (a.trans hs) (hl s2 b) c
        rw [b] at y z
        exact ⟨x, y, z⟩
  refine two_dirs hempty h1 fun hl => ?_
  unfold scanVendor at h
  cases vendor with
  | unset =>
    cases h
    refine ⟨h1.1, fun n p => ?_, fun q _ => rfl⟩
    by_cases hn : s'.fs (home ++ [n]) = none
    · rw [if_pos hn, hl n p hn]
      show _ = below um (mask um mode) owner (n :: p) .nil
      rw [below_pick]; rfl
    · rw [if_neg hn]
  | missing => exact absurd rfl hv
  | dir vs =>
    obtain ⟨s2, a, b, c⟩ := openScan_ok h
    obtain ⟨x, y, z⟩ := copyAll_ok um owner home mode vs s2 s' (a.trans h1.1) (by rw [b]; exact hl) c
    rw [b] at y z
    exact ⟨x, y, z⟩

/-! ### the directories above -/

theorem isDir_of {s s' : St} {p : Path} (h : s'.fs p = s.fs p) : s'.isDir p = s.isDir p := by
  unfold St.isDir; rw [h]

theorem makeParents_keeps {P : Path → Prop} {s s' : St} (h : AddsDirs P s s') {q : Path} (hq : s.fs q = none ∨ s.isDir q = true) : s'.fs q = none ∨ s'.isDir q = true := by
  rcases h q with e | ⟨_, _, e⟩
  · rw [isDir_of e, e]; exact hq
  · exact .inr (by unfold St.isDir; rw [e])

theorem makeParents_isDir {P : Path → Prop} {s s' : St} (h : AddsDirs P s s') {q : Path} (hq : s.isDir q = true) : s'.isDir q = true := by
  rcases h q with e | ⟨_, _, e⟩
  · rw [isDir_of e]; exact hq
  · unfold St.isDir; rw [e]

theorem dropLast_snoc (p : Path) (n : Str) : (p ++ [n]).dropLast = p := by simp

theorem makeParents_works : ∀ (n : Nat) (dir : Str) (make : Bool) (s : St), dir.length < n → dir.head? = some '/' → NoFaults s → s.isDir [] = true →
    (∀ q, q <+: resolve dir → s.fs q = none ∨ s.isDir q = true) →
    Works (makeParents n dir make s) ∧ (make = true → (makeParents n dir make s).2.isDir (resolve dir) = true) ∧
    (∀ pre name, lastSlash dir = some (pre, name) → (makeParents n dir make s).2.isDir (resolve pre) = true) := by
  intro n
  induction n with
  | zero => intro dir make s h; omega
  | succ n ih =>
    intro dir make s hlen hhead hnf hroot hpath
    cases hl : lastSlash dir with
    | none =>
      exfalso
      unfold lastSlash at hl
      split at hl
      · cases hl
      · rename_i hm
        cases dir with
        | nil => cases hhead
        | cons c r => simp only [List.head?_cons, Option.some.injEq] at hhead; exact hm (by rw [hhead]; exact List.mem_cons_self)
    | some r =>
      obtain ⟨pre, name⟩ := r
      obtain ⟨e1, e2⟩ := lastSlash_some hl
      have hres : resolve dir = resolve pre ++ (if name = [] then [] else [name]) := by rw [e1, resolve_slash e2]
      have hpre : resolve pre <+: resolve dir := by rw [hres]; exact List.prefix_append _ _
      unfold makeParents
      rw [hl]
      dsimp only
      obtain ⟨r, hr⟩ : ∃ r, (if pre ≠ [] ∧ s.fs (resolve pre) = none then makeParents n pre true s else (PAM_SUCCESS, s)) = r := ⟨_, rfl⟩
      have hstep : Works r ∧ r.2.isDir (resolve pre) = true ∧ (∀ q, q <+: resolve dir → r.2.fs q = none ∨ r.2.isDir q = true) := by
        by_cases hc : pre ≠ [] ∧ s.fs (resolve pre) = none
        · rw [if_pos hc] at hr
          have hh : pre.head? = some '/' := by
            cases pre with
            | nil => exact absurd rfl hc.1
            | cons c r => rw [e1] at hhead; simpa using hhead
          have hlen' : pre.length < n := by rw [e1] at hlen; simp at hlen; omega
          obtain ⟨a, b, _⟩ := ih pre true s hlen' hh hnf hroot (fun q hq => hpath q (hq.trans hpre))
          rw [hr] at a b
          have hf := makeParents_frame n pre true s
          rw [hr] at hf
          exact ⟨a, b rfl, fun q hq => makeParents_keeps hf (hpath q hq)⟩
        · rw [if_neg hc] at hr
          subst hr
          refine ⟨⟨rfl, hnf⟩, ?_, hpath⟩
          by_cases hp : pre = []
          · subst hp; exact hroot
          · rcases hpath _ hpre with h | h
            · exact absurd ⟨hp, h⟩ hc
            · exact h
      rw [hr]
      obtain ⟨⟨w1, w2⟩, d1, d2⟩ := hstep
      rw [if_neg (fun e => e w1)]
      cases make with
      | false => exact ⟨⟨rfl, w2⟩, (fun e => by cases e), fun p' n' e => by cases e; exact d1⟩
      | true =>
        rw [if_pos rfl]
        have hmk : ∃ s2, r.2.mkdir (resolve dir) = (false, s2) ∧ NoFaults s2 ∧ s2.isDir (resolve dir) = true ∧ s2.isDir (resolve pre) = true := by
          unfold St.mkdir
          rw [fails_none w2.1]
          dsimp only
          rw [if_neg (by simp)]
          by_cases hx : r.2.fs (resolve dir) ≠ none
          · rw [if_pos hx]
            exact ⟨_, rfl, w2, (d2 _ (List.prefix_refl _)).resolve_left hx, d1⟩
          · rw [if_neg hx]
            by_cases hname : name = []
            · rw [hres, if_pos hname, List.append_nil] at hx
              exfalso
              unfold St.isDir at d1
              rw [Decidable.not_not.1 hx] at d1
              cases d1
            · rw [hres, if_neg hname, dropLast_snoc, d1]
              refine ⟨_, rfl, w2, ?_, ?_⟩
              · unfold St.isDir St.put; simp
              · rw [isDir_of (put_ne (fun e => by have := congrArg List.length e; simp at this))]; exact d1
        obtain ⟨s2, m1, m2, m3, m4⟩ := hmk
        rw [m1]
        exact ⟨⟨rfl, m2⟩, fun _ => m3, fun p' n' e => by cases e; exact m4⟩

end Pam.Mkhome
