import Verif.Mkhome.Spec
/-
Lemmas about copying: modules/pam_mkhomedir/mkhomedir_helper.c.
-/
namespace Pam.Mkhome
open Pam

theorem fails_fs (s : St) : s.fails.2.fs = s.fs ∧ s.fails.2.soft = s.soft := by
  unfold St.fails; split <;> exact ⟨rfl, rfl⟩

theorem misses_none {s : St} (h : s.soft = []) : s.misses = (false, s) := by
  unfold St.misses; rw [h]

theorem misses_fs (s : St) : s.misses.2.fs = s.fs := by
  unfold St.misses; split <;> rfl

theorem mask_mask (um m : Nat) : mask um (mask um m) = mask um m := by
  unfold mask; rw [Nat.and_assoc, Nat.and_self]

theorem pick_not_other : ∀ {es : Ents} {n : Str} {node : Src}, es.pick n = some node → node ≠ .other
  | .nil, n, node, h => by simp [Ents.pick] at h
  | .cons m x rest, n, node, h => by
    unfold Ents.pick at h
    split at h
    · cases x with
      | other => exact pick_not_other h
      | dir es => simp at h; rw [← h]; simp
      | file m d => simp at h; rw [← h]; simp
      | link t => simp at h; rw [← h]; simp
    · exact pick_not_other h

theorem pick_find : ∀ {es : Ents} {n : Str}, es.find n = none → es.pick n = none
  | .nil, n, _ => rfl
  | .cons m x rest, n, h => by
    unfold Ents.find at h
    unfold Ents.pick
    split at h
    · cases h
    · rename_i hn
      rw [if_neg hn]; exact pick_find h

theorem pick_find_dir : ∀ {es : Ents} {n : Str} {vs : Ents}, es.find n = some (.dir vs) → es.pick n = some (.dir vs)
  | .nil, n, vs, h => by simp [Ents.find] at h
  | .cons m x rest, n, vs, h => by
    unfold Ents.find at h
    unfold Ents.pick
    split at h
    · rename_i hn
      rw [if_pos hn]; cases h; rfl
    · rename_i hn
      rw [if_neg hn]; exact pick_find_dir h

/-! ### single objects -/

theorem copyData_ok (p : Path) (mode : Nat) (owner : Owner) : ∀ (n : Nat) (done src : Str) (s s' : St), src.length < n → s.fs p = some (.file mode owner done) →
    copyData p mode owner n done src s = (PAM_SUCCESS, s') → s'.soft = s.soft ∧ ∀ q, s'.fs q = if q = p then some (.file mode owner (done ++ src)) else s.fs q := by
  intro n
  induction n with
  | zero => intro done src s s' h; omega
  | succ n ih =>
    intro done src s s' hl hp h
    unfold copyData at h
    dsimp only at h
    by_cases h1 : s.fails.1 = true
    · rw [if_pos h1] at h; cases h
    rw [if_neg h1] at h
    obtain ⟨k1, k2⟩ := fails_fs s
    by_cases h2 : src.take BUFSIZ = []
    · rw [if_pos h2] at h
      have hs : src = [] := by
        rcases List.take_eq_nil_iff.1 h2 with h | h
        · cases h
        · exact h
      cases h
      refine ⟨k2, fun q => ?_⟩
      by_cases hq : q = p
      · rw [if_pos hq, hq, k1, hp, hs, List.append_nil]
      · rw [if_neg hq, k1]
    · rw [if_neg h2] at h
      by_cases h3 : s.fails.2.fails.1 = true
      · rw [if_pos h3] at h; cases h
      rw [if_neg h3] at h
      obtain ⟨l1, l2⟩ := fails_fs s.fails.2
      have hne : src ≠ [] := by rintro rfl; exact h2 rfl
      have hpos : 0 < src.length := List.length_pos_iff.2 hne
      obtain ⟨a, b⟩ := ih (done ++ src.take BUFSIZ) (src.drop BUFSIZ) _ s' (by rw [List.length_drop]; unfold BUFSIZ; omega) (by unfold St.put; simp) h
      refine ⟨?_, fun q => ?_⟩
      · rw [a]; show s.fails.2.fails.2.soft = _; rw [l2, k2]
      · rw [b, List.append_assoc, List.take_append_drop]
        by_cases hq : q = p
        · rw [if_pos hq, if_pos hq]
        · rw [if_neg hq, if_neg hq]
          show (if q = p then _ else s.fails.2.fails.2.fs q) = _
          rw [if_neg hq, l1, k1]

theorem copyFile_ok {um : Nat} {owner : Owner} {p : Path} {m : Nat} {d : Str} {s s' : St} (h : copyFile um owner p m d s = (PAM_SUCCESS, s')) :
    s'.soft = s.soft ∧ ∀ q, s'.fs q = if q = p ∧ s.fs p = none then some (.file (mask um (m ||| 0o222)) owner d) else s.fs q := by
  unfold copyFile at h
  dsimp only at h
  obtain ⟨a1, b1⟩ := fails_fs s
  by_cases h1 : s.fails.1 = true
  · rw [if_pos h1] at h; cases h
  rw [if_neg h1] at h
  obtain ⟨a2, b2⟩ := fails_fs s.fails.2
  by_cases h2 : s.fails.2.fails.1 = true
  · rw [if_pos h2] at h; cases h
  rw [if_neg h2] at h
  generalize s.fails.2.fails.2 = t at h a2 b2
  rw [a1] at a2; rw [b1] at b2
  by_cases h3 : t.fs p ≠ none
  · rw [if_pos h3] at h; cases h
    refine ⟨b2, fun q => ?_⟩
    rw [a2] at h3 ⊢
    rw [if_neg (by rintro ⟨_, e⟩; exact h3 e)]
  rw [if_neg h3] at h
  obtain ⟨a4, b4⟩ := fails_fs (t.put p (.file 0o600 root []))
  by_cases h4 : (t.put p (.file 0o600 root [])).fails.1 = true
  · rw [if_pos h4] at h; cases h
  rw [if_neg h4] at h
  generalize (t.put p (.file 0o600 root [])).fails.2 = t4 at h a4 b4
  obtain ⟨a5, b5⟩ := fails_fs (t4.put p (.file (mask um (m ||| 0o222)) root []))
  by_cases h5 : (t4.put p (.file (mask um (m ||| 0o222)) root [])).fails.1 = true
  · rw [if_pos h5] at h; cases h
  rw [if_neg h5] at h
  generalize (t4.put p (.file (mask um (m ||| 0o222)) root [])).fails.2 = t5 at h a5 b5
  obtain ⟨c1, c2⟩ := copyData_ok p _ owner _ [] d _ s' (by omega) (by unfold St.put; simp) h
  refine ⟨by rw [c1]; show t5.soft = _; rw [b5]; show t4.soft = _; rw [b4]; exact b2, fun q => ?_⟩
  rw [c2]
  have hn : s.fs p = none := by rw [a2] at h3; exact Decidable.not_not.1 h3
  by_cases hq : q = p
  · rw [if_pos hq, if_pos ⟨hq, hn⟩]; rfl
  · rw [if_neg hq, if_neg (fun e => hq e.1)]
    show (if q = p then _ else t5.fs q) = _
    rw [if_neg hq, a5]
    show (if q = p then _ else t4.fs q) = _
    rw [if_neg hq, a4]
    show (if q = p then _ else t.fs q) = _
    rw [if_neg hq, a2]

theorem copyLink_ok {owner : Owner} {p : Path} {t : Str} {s s' : St} (hs : s.soft = []) (h : copyLink owner p t s = (PAM_SUCCESS, s')) :
    s'.soft = [] ∧ ∀ q, s'.fs q = if q = p ∧ s.fs p = none then some (.link owner t) else s.fs q := by
  unfold copyLink at h
  rw [misses_none hs] at h
  dsimp only at h
  rw [if_neg (by simp)] at h
  obtain ⟨a1, b1⟩ := fails_fs s
  by_cases h1 : s.fails.1 = true
  · rw [if_pos h1] at h; cases h
  rw [if_neg h1] at h
  generalize s.fails.2 = u at h a1 b1
  by_cases h3 : u.fs p ≠ none
  · rw [if_pos h3] at h; cases h
    refine ⟨b1.trans hs, fun q => ?_⟩
    rw [a1] at h3 ⊢
    rw [if_neg (by rintro ⟨_, e⟩; exact h3 e)]
  rw [if_neg h3] at h
  obtain ⟨a4, b4⟩ := fails_fs (u.put p (.link root t))
  by_cases h4 : (u.put p (.link root t)).fails.1 = true
  · rw [if_pos h4] at h; cases h
  rw [if_neg h4] at h
  cases h
  refine ⟨b4.trans (b1.trans hs), fun q => ?_⟩
  have hn : s.fs p = none := by rw [a1] at h3; exact Decidable.not_not.1 h3
  show (if q = p then _ else (u.put p (.link root t)).fails.2.fs q) = _
  by_cases hq : q = p
  · rw [if_pos hq, if_pos ⟨hq, hn⟩]
  · rw [if_neg hq, if_neg (fun e => hq e.1), a4]
    show (if q = p then _ else u.fs q) = _
    rw [if_neg hq, a1]

theorem createDir_ok {owner : Owner} {p : Path} {mode : Nat} {scan : St → Int × St} {s s' : St} (h : createDir owner p mode scan s = (PAM_SUCCESS, s')) :
    (s.fs p ≠ none ∧ s'.soft = s.soft ∧ s'.fs = s.fs) ∨
    (s.fs p = none ∧ ∃ s1 s2, s1.soft = s.soft ∧ (∀ q, s1.fs q = if q = p then some (.dir 0o700 root) else s.fs q) ∧ scan s1 = (PAM_SUCCESS, s2) ∧ s'.soft = s2.soft ∧
      ∀ q, s'.fs q = if q = p then some (.dir mode owner) else s2.fs q) := by
  unfold createDir at h
  dsimp only at h
  obtain ⟨a1, b1⟩ := fails_fs s
  by_cases h1 : s.fails.1 = true
  · rw [if_pos h1] at h; cases h
  rw [if_neg h1] at h
  generalize s.fails.2 = u at h a1 b1
  by_cases h3 : u.fs p ≠ none
  · rw [if_pos h3] at h; cases h
    exact .inl ⟨by rw [← a1]; exact h3, b1, a1⟩
  rw [if_neg h3] at h
  obtain ⟨a4, b4⟩ := fails_fs (u.put p (.dir 0o700 root))
  by_cases h4 : (u.put p (.dir 0o700 root)).fails.1 = true
  · rw [if_pos h4] at h
    dsimp only at h
    split at h
    · cases h
    · split at h <;> cases h
  rw [if_neg h4] at h
  generalize (u.put p (.dir 0o700 root)).fails.2 = u1 at h a4 b4
  obtain ⟨⟨code, s2⟩, hscan⟩ : ∃ r, scan u1 = r := ⟨_, rfl⟩
  rw [hscan] at h
  dsimp only at h
  obtain ⟨a5, b5⟩ := fails_fs s2
  by_cases h5 : s2.fails.1 = true
  · rw [if_pos h5] at h; cases h
  rw [if_neg h5] at h
  generalize s2.fails.2 = u2 at h a5 b5
  obtain ⟨a6, b6⟩ := fails_fs (u2.put p (.dir mode root))
  by_cases h6 : (u2.put p (.dir mode root)).fails.1 = true
  · rw [if_pos h6] at h; cases h
  rw [if_neg h6] at h
  cases h
  refine .inr ⟨by rw [a1] at h3; exact Decidable.not_not.1 h3, u1, s2, b4.trans b1, fun q => ?_, hscan, b6.trans b5, fun q => ?_⟩
  · rw [a4]
    show (if q = p then _ else u.fs q) = _
    rw [a1]
  · show (if q = p then _ else (u2.put p (.dir mode root)).fails.2.fs q) = _
    by_cases hq : q = p
    · rw [if_pos hq, if_pos hq]
    · rw [if_neg hq, if_neg hq, a6]
      show (if q = p then _ else u2.fs q) = _
      rw [if_neg hq, a5]

theorem openScan_ok {loop : St → Int × St} {s s' : St} (h : openScan loop s = (PAM_SUCCESS, s')) :
    ∃ s1, s1.soft = s.soft ∧ s1.fs = s.fs ∧ loop s1 = (PAM_SUCCESS, s') := by
  unfold openScan at h
  dsimp only at h
  obtain ⟨a1, b1⟩ := fails_fs s
  by_cases h1 : s.fails.1 = true
  · rw [if_pos h1] at h; cases h
  rw [if_neg h1] at h
  exact ⟨_, b1, a1, h⟩

/-! ### trees -/

/-- nothing is in a directory that is not there -/
def LC (base : Path) (fs : Path → Option Obj) : Prop := ∀ n p, fs (base ++ [n]) = none → fs (base ++ n :: p) = none

/-- what the copy of a node has at a path in it -/
def one (um sub : Nat) (owner : Owner) (w : Path → Ents → Option Obj) (node : Src) (p : Path) : Option Obj :=
  if p = [] then copyOf um sub owner node else match node with | .dir es => w p es | _ => none

/-- the effect of copying one entry -/
def EntryDone (base : Path) (name : Str) (w : Path → Option Obj) (s s' : St) : Prop :=
  s'.soft = [] ∧ (∀ p, s'.fs (base ++ name :: p) = if s.fs (base ++ [name]) = none then w p else s.fs (base ++ name :: p)) ∧
  ∀ q, (∀ p, q ≠ base ++ name :: p) → s'.fs q = s.fs q

/-- the effect of copying entries -/
def AllDone (base : Path) (w : Path → Option Obj) (s s' : St) : Prop :=
  s'.soft = [] ∧ (∀ n p, s'.fs (base ++ n :: p) = if s.fs (base ++ [n]) = none then w (n :: p) else s.fs (base ++ n :: p)) ∧
  ∀ q, (∀ n p, q ≠ base ++ n :: p) → s'.fs q = s.fs q

theorem append_cons_eq {base : Path} {n m : Str} {p q : Path} (h : base ++ n :: p = base ++ m :: q) : n = m ∧ p = q := by
  have := List.append_cancel_left h
  exact ⟨(List.cons.inj this).1, (List.cons.inj this).2⟩

/-- a single object that is made or not -/
theorem entry_single {base : Path} {name : Str} {o : Option Obj} {s s' : St} (hlc : LC base s.fs) (hs : s'.soft = [])
    (h : ∀ q, s'.fs q = if q = base ++ [name] ∧ s.fs (base ++ [name]) = none then o else s.fs q) :
    EntryDone base name (fun p => if p = [] then o else none) s s' := by
  refine ⟨hs, fun p => ?_, fun q hq => ?_⟩
  · rw [h]
    dsimp only
    by_cases hn : s.fs (base ++ [name]) = none
    · rw [if_pos hn]
      by_cases hp : p = []
      · rw [if_pos ⟨by rw [hp], hn⟩, if_pos hp]
      · rw [if_neg (fun e => hp (append_cons_eq e.1).2), if_neg hp]
        exact hlc name p hn
    · rw [if_neg hn, if_neg (fun e => hn e.2)]
  · rw [h, if_neg (fun e => hq [] e.1)]

theorem below_dir {um sub : Nat} {owner : Owner} {n : Str} {p : Path} {es es' : Ents} (h : es.pick n = some (.dir es')) (hp : p ≠ []) :
    below um sub owner (n :: p) es = below um sub owner p es' := by
  cases p with
  | nil => exact absurd rfl hp
  | cons m p => rw [below, h]

/-- what a directory has below a name that is picked -/
theorem below_pick {um sub : Nat} {owner : Owner} {n : Str} {es : Ents} (p : Path) :
    below um sub owner (n :: p) es = (es.pick n).bind fun node => one um sub owner (below um sub owner) node p := by
  cases p with
  | nil => cases hn : es.pick n <;> simp [below, hn, one]
  | cons m p =>
    cases hn : es.pick n with
    | none => simp [below, hn]
    | some node => cases node <;> simp [below, hn, one]

/-- after one entry come the others -/
theorem all_cons {base : Path} {name : Str} {node : Src} {rest : Ents} {w : Path → Ents → Option Obj} {g : Str → Src → Path → Option Obj} {s s1 s' : St}
    (hg0 : ∀ n x, g n x [] = none ↔ x = .other) (hgo : ∀ n p, g n .other p = none)
    (h1 : EntryDone base name (g name node) s s1)
    (hw : ∀ n p es, w (n :: p) es = (es.pick n).bind fun x => g n x p)
    (h2 : LC base s1.fs → AllDone base (fun p => w p rest) s1 s') (hlc : LC base s.fs) :
    AllDone base (fun p => w p (.cons name node rest)) s s' := by
  obtain ⟨e1, e2, e3⟩ := h1
  have hlc1 : LC base s1.fs := by
    intro n p hn
    by_cases hname : n = name
    · subst hname
      rw [e2] at hn ⊢
      by_cases h0 : s.fs (base ++ [n]) = none
      · rw [if_pos h0] at hn ⊢
        rw [(hg0 n node).1 hn, hgo]
      · rw [if_neg h0] at hn
        exact absurd hn h0
    · have : ∀ p', base ++ n :: p ≠ base ++ name :: p' := fun p' e => hname (append_cons_eq e).1
      rw [e3 _ this]
      have h2 : ∀ p', base ++ [n] ≠ base ++ name :: p' := fun p' e => hname (append_cons_eq e).1
      rw [e3 _ h2] at hn
      exact hlc n p hn
  obtain ⟨f1, f2, f3⟩ := h2 hlc1
  refine ⟨f1, fun n p => ?_, fun q hq => by rw [f3 q hq, e3 q (hq name)]⟩
  rw [f2]
  dsimp only
  rw [hw, hw]
  by_cases hname : n = name
  · subst hname
    rw [e2, e2]
    by_cases h0 : s.fs (base ++ [n]) = none
    · rw [if_pos h0, if_pos h0, if_pos h0]
      by_cases ho : node = .other
      · subst ho
        rw [hgo, if_pos rfl]
        have : (Ents.cons n .other rest).pick n = rest.pick n := by
          conv => lhs; unfold Ents.pick
          rw [if_pos rfl]
        rw [this]
      · have hne : g n node [] ≠ none := fun e => ho ((hg0 n node).1 e)
        rw [if_neg hne]
        have : (Ents.cons n node rest).pick n = some node := by
          unfold Ents.pick
          rw [if_pos rfl]
          cases node with
          | other => exact absurd rfl ho
          | dir es => rfl
          | file a b => rfl
          | link a => rfl
        rw [this]; rfl
    · rw [if_neg h0, if_neg h0, if_neg h0, if_neg h0]
  · have k1 : ∀ p', base ++ n :: p ≠ base ++ name :: p' := fun p' e => hname (append_cons_eq e).1
    have k2 : ∀ p', base ++ [n] ≠ base ++ name :: p' := fun p' e => hname (append_cons_eq e).1
    rw [e3 _ k1, e3 _ k2]
    have : (Ents.cons name node rest).pick n = rest.pick n := by
      conv => lhs; unfold Ents.pick
      rw [if_neg (fun e => hname e.symm)]
    rw [this]

theorem one_nil {um sub : Nat} {owner : Owner} {w : Path → Ents → Option Obj} {x : Src} : one um sub owner w x [] = none ↔ x = .other := by
  unfold one; rw [if_pos rfl]
  cases x <;> simp [copyOf]

theorem one_other {um sub : Nat} {owner : Owner} {w : Path → Ents → Option Obj} (p : Path) : one um sub owner w .other p = none := by
  unfold one; split <;> rfl

/-- a directory that is created and filled -/
theorem entry_dir {um : Nat} {owner : Owner} {base : Path} {name : Str} {sub : Nat} {scan : St → Int × St} {w : Path → Option Obj} {es : Ents} {s s' : St}
    (hs : s.soft = []) (hlc : LC base s.fs)
    (hscan : ∀ s1 s2, s1.soft = [] → (∀ n p, s1.fs ((base ++ [name]) ++ n :: p) = none) → scan s1 = (PAM_SUCCESS, s2) → AllDone (base ++ [name]) w s1 s2)
    (h : createDir owner (base ++ [name]) sub scan s = (PAM_SUCCESS, s')) :
    EntryDone base name (fun p => if p = [] then copyOf um sub owner (.dir es) else w p) s s' := by
  rcases createDir_ok h with ⟨h1, h2, h3⟩ | ⟨h1, s1, s2, k1, k2, k3, k4, k5⟩
  · refine ⟨h2.trans hs, fun p => ?_, fun q _ => by rw [h3]⟩
    rw [if_neg h1, h3]
  · have hempty : ∀ n p, s1.fs ((base ++ [name]) ++ n :: p) = none := by
      intro n p
      rw [k2, if_neg (by intro e; have := congrArg List.length e; simp at this)]
      rw [List.append_assoc]
      exact hlc name (n :: p) h1
    obtain ⟨g1, g2, g3⟩ := hscan s1 s2 (k1.trans hs) hempty k3
    refine ⟨k4.trans g1, fun p => ?_, fun q hq => ?_⟩
    · rw [if_pos h1, k5]
      dsimp only
      cases p with
      | nil => rw [if_pos rfl, if_pos rfl]; rfl
      | cons m p =>
        rw [if_neg (by intro e; have := congrArg List.length e; simp at this), if_neg (by simp)]
        have := g2 m p
        rw [if_pos (hempty m [])] at this
        rw [List.append_assoc] at this
        exact this
    · rw [k5, if_neg (hq []), g3 q (fun n p e => hq (n :: p) (by rw [e, List.append_assoc]; rfl)), k2, if_neg (hq [])]

mutual
theorem copyEntry_ok (um : Nat) (owner : Owner) (base : Path) (mode : Nat) (name : Str) : (node : Src) → (s s' : St) → s.soft = [] → LC base s.fs →
    copyEntry um owner base mode name node s = (PAM_SUCCESS, s') → EntryDone base name (one um (mask um mode) owner (below um (mask um mode) owner) node) s s'
  | .dir es, s, s', hs, hlc, h => by
    unfold copyEntry at h
    rw [misses_none hs] at h
    dsimp only at h
    rw [if_neg (by simp)] at h
    refine entry_dir (um := um) (es := es) (w := fun p => below um (mask um mode) owner p es) hs hlc ?_ h
    intro s1 s2 hs1 hempty hscan
    obtain ⟨s3, a, b, c⟩ := openScan_ok hscan
    have := copyAll_ok um owner (base ++ [name]) (mask um mode) es s3 s2 (a.trans hs1) (fun n p _ => by rw [b]; exact hempty n p) c
    rw [mask_mask] at this
    obtain ⟨x, y, z⟩ := this
    rw [b] at y z
    exact ⟨x, y, z⟩
  | .link t, s, s', hs, hlc, h => by
    unfold copyEntry at h
    rw [misses_none hs] at h
    dsimp only at h
    rw [if_neg (by simp)] at h
    obtain ⟨a, b⟩ := copyLink_ok hs h
    exact entry_single hlc a b
  | .file m d, s, s', hs, hlc, h => by
    unfold copyEntry at h
    rw [misses_none hs] at h
    dsimp only at h
    rw [if_neg (by simp)] at h
    obtain ⟨a, b⟩ := copyFile_ok h
    exact entry_single hlc (a.trans hs) b
  | .other, s, s', hs, hlc, h => by
    unfold copyEntry at h
    rw [misses_none hs] at h
    dsimp only at h
    rw [if_neg (by simp)] at h
    cases h
    refine ⟨hs, fun p => ?_, fun q _ => rfl⟩
    rw [one_other]
    by_cases hn : s.fs (base ++ [name]) = none
    · rw [if_pos hn]; exact hlc name p hn
    · rw [if_neg hn]
theorem copyAll_ok (um : Nat) (owner : Owner) (base : Path) (mode : Nat) : (es : Ents) → (s s' : St) → s.soft = [] → LC base s.fs →
    copyAll um owner base mode es s = (PAM_SUCCESS, s') → AllDone base (fun p => below um (mask um mode) owner p es) s s'
  | .nil, s, s', hs, hlc, h => by
    unfold copyAll at h
    cases h
    refine ⟨hs, fun n p => ?_, fun q _ => rfl⟩
    dsimp only
    rw [below_pick]
    by_cases hn : s.fs (base ++ [n]) = none
    · rw [if_pos hn]; exact hlc n p hn
    · rw [if_neg hn]
  | .cons name node rest, s, s', hs, hlc, h => by
    unfold copyAll at h
    obtain ⟨⟨code, s1⟩, he⟩ : ∃ r, copyEntry um owner base mode name node s = r := ⟨_, rfl⟩
    rw [he] at h
    dsimp only at h
    by_cases hc : code ≠ PAM_SUCCESS
    · rw [if_pos hc] at h; cases h; exact absurd rfl hc
    rw [if_neg hc] at h
    have hc' : code = PAM_SUCCESS := Decidable.not_not.1 hc
    subst hc'
    have h1 := copyEntry_ok um owner base mode name node s s1 hs hlc he
    exact all_cons (g := fun _ x p => one um (mask um mode) owner (below um (mask um mode) owner) x p) (w := below um (mask um mode) owner)
      (fun _ x => one_nil) (fun _ p => one_other p) h1 (fun n p es => below_pick p)
      (fun hl => copyAll_ok um owner base mode rest s1 s' h1.1 hl h) hlc
end

/-! ### two directories -/

theorem both_nil {um sub : Nat} {owner : Owner} : ∀ (p : Path) (es : Ents), both um sub owner p es .nil = below um sub owner p es
  | [], es => rfl
  | [n], es => by
    unfold both below
    cases es.pick n <;> rfl
  | n :: m :: p, es => by
    unfold both below
    cases h : es.pick n with
    | none => rfl
    | some node => cases node with
      | dir es' => exact both_nil (m :: p) es'
      | _ => rfl

/-- what comes of the first of two directories -/
def first (um sub : Nat) (owner : Owner) (vs : Ents) : Path → Ents → Option Obj
  | [], _ => none
  | n :: p, es => (es.pick n).bind fun x => one um sub owner (fun p es => both um sub owner p es (subdir n vs)) x p

theorem both_first {um sub : Nat} {owner : Owner} (n : Str) (p : Path) (es vs : Ents) :
    both um sub owner (n :: p) es vs = if (es.pick n).isSome then first um sub owner vs (n :: p) es else below um sub owner (n :: p) vs := by
  cases p with
  | nil =>
    unfold both first
    cases h : es.pick n with
    | none => simp [below]
    | some x => simp [one, h]
  | cons m p =>
    unfold both first
    cases h : es.pick n with
    | none => simp
    | some x => cases x <;> simp [one, h]

/-- the first directory and then the second -/
theorem two_dirs {um sub : Nat} {owner : Owner} {base : Path} {es vs : Ents} {s s1 s' : St} (hempty : ∀ n p, s.fs (base ++ n :: p) = none)
    (h1 : AllDone base (fun p => first um sub owner vs p es) s s1) (h2 : LC base s1.fs → AllDone base (fun p => below um sub owner p vs) s1 s') :
    AllDone base (fun p => both um sub owner p es vs) s s' := by
  obtain ⟨a1, a2, a3⟩ := h1
  have hfirst : ∀ n p, s1.fs (base ++ n :: p) = first um sub owner vs (n :: p) es := fun n p => by rw [a2, if_pos (hempty n [])]
  have hnone : ∀ n, s1.fs (base ++ [n]) = none ↔ es.pick n = none := by
    intro n
    rw [hfirst, first]
    cases hp : es.pick n with
    | none => simp
    | some x =>
      simp only [Option.bind_some, one_nil, reduceCtorEq, iff_false]
      exact pick_not_other hp
  have hlc : LC base s1.fs := by
    intro n p hn
    rw [hfirst, first, (hnone n).1 hn]; rfl
  obtain ⟨b1, b2, b3⟩ := h2 hlc
  refine ⟨b1, fun n p => ?_, fun q hq => by rw [b3 q hq, a3 q hq]⟩
  rw [if_pos (hempty n []), b2]
  dsimp only
  rw [both_first, hfirst n p]
  cases hp : es.pick n with
  | none => rw [if_pos ((hnone n).2 hp)]; rfl
  | some x =>
    rw [if_neg (fun e => by rw [(hnone n).1 e] at hp; cases hp)]; rfl

theorem first_nil {um sub : Nat} {owner : Owner} (p : Path) (es : Ents) : first um sub owner .nil p es = below um sub owner p es := by
  cases p with
  | nil => rfl
  | cons n p =>
    rw [below_pick, first]
    congr 1
    funext x
    unfold one subdir Ents.pick
    cases x <;> simp [both_nil]

mutual
theorem copyEntry2_ok (um : Nat) (owner : Owner) (base : Path) (mode : Nat) (name : Str) (v : Ents) : (node : Src) → (s s' : St) → s.soft = [] → LC base s.fs →
    copyEntry2 um owner base mode name v node s = (PAM_SUCCESS, s') →
    EntryDone base name (one um (mask um mode) owner (fun p es => both um (mask um mode) owner p es (subdir name v)) node) s s'
  | .dir es, s, s', hs, hlc, h => by
    unfold copyEntry2 at h
    rw [misses_none hs] at h
    dsimp only at h
    rw [if_neg (by simp), misses_none hs] at h
    dsimp only at h
    refine entry_dir (um := um) (es := es) (w := fun p => both um (mask um mode) owner p es (subdir name v)) hs hlc ?_ h
    intro s1 s2 hs1 hempty hscan
    cases hv : v.find name with
    | none =>
      rw [hv] at hscan
      dsimp only at hscan
      obtain ⟨s3, a, b, c⟩ := openScan_ok hscan
      have := copyAll_ok um owner (base ++ [name]) (mask um mode) es s3 s2 (a.trans hs1) (fun n p _ => by rw [b]; exact hempty n p) c
      rw [mask_mask] at this
      obtain ⟨x, y, z⟩ := this
      rw [b] at y z
      have hsub : subdir name v = .nil := by unfold subdir; rw [pick_find hv]
      refine ⟨x, fun n p => ?_, z⟩
      rw [y, hsub]
      dsimp only
      rw [both_nil]
    | some u =>
      rw [hv] at hscan
      have hbad : ∀ r : Int × St, (if r.1 ≠ PAM_SUCCESS then (r.1, r.2) else (PAM_PERM_DENIED, r.2)) ≠ (PAM_SUCCESS, s2) := by
        intro r e
        by_cases hr : r.1 ≠ PAM_SUCCESS
        · rw [if_pos hr] at e; exact hr (congrArg Prod.fst e)
        · rw [if_neg hr] at e; cases e
      cases u with
      | dir vs =>
        dsimp only at hscan
        obtain ⟨⟨code, s4⟩, he⟩ : ∃ r, openScan (copyAll2 um owner (base ++ [name]) (mask um mode) vs es) s1 = r := ⟨_, rfl⟩
        rw [he] at hscan
        dsimp only at hscan
        by_cases hc : code ≠ PAM_SUCCESS
        · rw [if_pos hc] at hscan; cases hscan; exact absurd rfl hc
        rw [if_neg hc] at hscan
        have hc' : code = PAM_SUCCESS := Decidable.not_not.1 hc
        subst hc'
        obtain ⟨s3, a, b, c⟩ := openScan_ok he
        have h1 := copyAll2_ok um owner (base ++ [name]) (mask um mode) vs es s3 s4 (a.trans hs1) (fun n p _ => by rw [b]; exact hempty n p) c
        rw [mask_mask] at h1
        have hsub : subdir name v = vs := by unfold subdir; rw [pick_find_dir hv]
        rw [hsub]
        have h1' : AllDone (base ++ [name]) (fun p => first um (mask um mode) owner vs p es) s1 s4 := by
          obtain ⟨x, y, z⟩ := h1
          rw [b] at y z
          exact ⟨x, y, z⟩
        refine two_dirs hempty h1' fun hl => ?_
        obtain ⟨s5, a5, b5, c5⟩ := openScan_ok hscan
        have h2 := copyAll_ok um owner (base ++ [name]) (mask um mode) vs s5 s2 (a5.trans h1.1) (by rw [b5]; exact hl) c5
        rw [mask_mask] at h2
        obtain ⟨x, y, z⟩ := h2
        rw [b5] at y z
        exact ⟨x, y, z⟩
      | file a b => exact absurd hscan (hbad _)
      | link a => exact absurd hscan (hbad _)
      | other => exact absurd hscan (hbad _)
  | .link t, s, s', hs, hlc, h => by
    unfold copyEntry2 at h
    rw [misses_none hs] at h
    dsimp only at h
    rw [if_neg (by simp)] at h
    obtain ⟨a, b⟩ := copyLink_ok hs h
    exact entry_single hlc a b
  | .file m d, s, s', hs, hlc, h => by
    unfold copyEntry2 at h
    rw [misses_none hs] at h
    dsimp only at h
    rw [if_neg (by simp)] at h
    obtain ⟨a, b⟩ := copyFile_ok h
    exact entry_single hlc (a.trans hs) b
  | .other, s, s', hs, hlc, h => by
    unfold copyEntry2 at h
    rw [misses_none hs] at h
    dsimp only at h
    rw [if_neg (by simp)] at h
    cases h
    refine ⟨hs, fun p => ?_, fun q _ => rfl⟩
    rw [one_other]
    by_cases hn : s.fs (base ++ [name]) = none
    · rw [if_pos hn]; exact hlc name p hn
    · rw [if_neg hn]
theorem copyAll2_ok (um : Nat) (owner : Owner) (base : Path) (mode : Nat) (v : Ents) : (es : Ents) → (s s' : St) → s.soft = [] → LC base s.fs →
    copyAll2 um owner base mode v es s = (PAM_SUCCESS, s') → AllDone base (fun p => first um (mask um mode) owner v p es) s s'
  | .nil, s, s', hs, hlc, h => by
    unfold copyAll2 at h
    cases h
    refine ⟨hs, fun n p => ?_, fun q _ => rfl⟩
    by_cases hn : s.fs (base ++ [n]) = none
    · rw [if_pos hn]; exact hlc n p hn
    · rw [if_neg hn]
  | .cons name node rest, s, s', hs, hlc, h => by
    unfold copyAll2 at h
    obtain ⟨⟨code, s1⟩, he⟩ : ∃ r, copyEntry2 um owner base mode name v node s = r := ⟨_, rfl⟩
    rw [he] at h
    dsimp only at h
    by_cases hc : code ≠ PAM_SUCCESS
    · rw [if_pos hc] at h; cases h; exact absurd rfl hc
    rw [if_neg hc] at h
    have hc' : code = PAM_SUCCESS := Decidable.not_not.1 hc
    subst hc'
    have h1 := copyEntry2_ok um owner base mode name v node s s1 hs hlc he
    exact all_cons (g := fun n x p => one um (mask um mode) owner (fun p es => both um (mask um mode) owner p es (subdir n v)) x p) (w := first um (mask um mode) owner v)
      (fun _ x => one_nil) (fun _ p => one_other p) h1 (fun n p es => rfl)
      (fun hl => copyAll2_ok um owner base mode v rest s1 s' h1.1 hl h) hlc
end

end Pam.Mkhome
