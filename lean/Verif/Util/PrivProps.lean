import Verif.Util.Priv
/-
Property theorems C33: dropping and regaining privileges.
-/
namespace Pam.Util

/-- credentials with the file system ids and supplementary groups of a user -/
def Cred.become (c : Cred) (uid gid : Nat) (groups : List Nat) : Cred :=
  { c with fsuid := uid, fsgid := gid, groups := groups }

/-- a structure as PAM_MODUTIL_DEF_PRIVS makes it: unused, with room for some groups -/
def Fresh (p : Privs) : Prop := p.isDropped = .no ∧ p.grplist ≠ none ∧ p.number ≠ 0

/-- the calls made on the way from `k` to `k'` -/
def Calls (k k' : Kern) (cs : List (Call × Bool)) : Prop := k'.trace = k.trace ++ cs

/-- the kernel refused to give back the gid or the groups of `c` -/
def RestoreRefused (c : Cred) (cs : List (Call × Bool)) : Prop :=
  (Call.setfsgid c.fsgid, false) ∈ cs ∨ (Call.setgroups c.groups, false) ∈ cs

/-- the kernel refused a call and granted it when repeated at once -/
def Wavered (cs : List (Call × Bool)) : Prop :=
  ∃ a c b, cs = a ++ (c, false) :: (c, true) :: b

/-! ### helper lemmas -/

theorem Calls.trans {k1 k2 k3 : Kern} {a b : List (Call × Bool)} (h1 : Calls k1 k2 a) (h2 : Calls k2 k3 b) :
    Calls k1 k3 (a ++ b) := by
  unfold Calls at *
  rw [h2, h1, List.append_assoc]

theorem setfsuid_spec (k : Kern) (x : Nat) : ∃ b, (k.setfsuid x).1 = k.cred.fsuid ∧
    Calls k (k.setfsuid x).2 [(.setfsuid x, b)] ∧
    (k.setfsuid x).2.cred = if b then { k.cred with fsuid := x } else k.cred := by
  refine ⟨k.ans.headD true, rfl, ?_, ?_⟩
  · simp only [Kern.setfsuid, Kern.ask, Calls]
    obtain ⟨c, ans, tr⟩ := k
    cases ans with
    | nil => rfl
    | cons a as => cases a <;> rfl
  · simp only [Kern.setfsuid, Kern.ask]
    obtain ⟨c, ans, tr⟩ := k
    cases ans with
    | nil => rfl
    | cons a as => cases a <;> rfl

theorem changeUid_spec (k : Kern) (x : Nat) :
    (∃ cs, Calls k (changeUid k x).2.2 cs ∧
      ((changeUid k x).1 = 0 → (changeUid k x).2.2.cred = { k.cred with fsuid := x }) ∧
      ((changeUid k x).1 ≠ 0 → (changeUid k x).2.2.cred = k.cred ∨ Wavered cs) ∧
      ((changeUid k x).2.2.cred = { k.cred with fsuid := x } ∨ (Call.setfsuid x, false) ∈ cs)) ∧
    (changeUid k x).2.1 = k.cred.fsuid := by
  refine ⟨?_, rfl⟩
  obtain ⟨b1, e1, e2, e3⟩ := setfsuid_spec k x
  obtain ⟨b2, f1, f2, f3⟩ := setfsuid_spec (k.setfsuid x).2 x
  refine ⟨_, e2.trans f2, ?_, ?_, ?_⟩ <;> simp only [changeUid]
  · intro h
    have h' : ((k.setfsuid x).2.setfsuid x).1 = x := by
      split at h
      · assumption
      · exact absurd h (by decide)
    rw [f1, e3] at h'
    rw [f3, e3]
    cases b1 <;> cases b2 <;> simp only [if_true, if_false, Bool.false_eq_true] at h' ⊢
    cases k with
    | mk c a t => cases c; simp only at h'; rw [h']
  · intro h
    rw [f3, e3]
    cases b1 <;> cases b2 <;> simp only [if_true, if_false, Bool.false_eq_true]
    · exact Or.inl trivial
    · exact Or.inr ⟨[], _, [], rfl⟩
    · rw [f1, e3] at h; simp at h
    · rw [f1, e3] at h; simp at h
  · rw [f3, e3]
    cases b1 <;> cases b2 <;> simp

theorem setfsgid_spec (k : Kern) (x : Nat) : ∃ b, (k.setfsgid x).1 = k.cred.fsgid ∧
    Calls k (k.setfsgid x).2 [(.setfsgid x, b)] ∧
    (k.setfsgid x).2.cred = if b then { k.cred with fsgid := x } else k.cred := by
  refine ⟨k.ans.headD true, rfl, ?_, ?_⟩
  · simp only [Kern.setfsgid, Kern.ask, Calls]
    obtain ⟨c, ans, tr⟩ := k
    cases ans with
    | nil => rfl
    | cons a as => cases a <;> rfl
  · simp only [Kern.setfsgid, Kern.ask]
    obtain ⟨c, ans, tr⟩ := k
    cases ans with
    | nil => rfl
    | cons a as => cases a <;> rfl

theorem changeGid_spec (k : Kern) (x : Nat) :
    (∃ cs, Calls k (changeGid k x).2.2 cs ∧
      ((changeGid k x).1 = 0 → (changeGid k x).2.2.cred = { k.cred with fsgid := x }) ∧
      ((changeGid k x).1 ≠ 0 → (changeGid k x).2.2.cred = k.cred ∨ Wavered cs) ∧
      ((changeGid k x).2.2.cred = { k.cred with fsgid := x } ∨ (Call.setfsgid x, false) ∈ cs)) ∧
    (changeGid k x).2.1 = k.cred.fsgid := by
  refine ⟨?_, rfl⟩
  obtain ⟨b1, e1, e2, e3⟩ := setfsgid_spec k x
  obtain ⟨b2, f1, f2, f3⟩ := setfsgid_spec (k.setfsgid x).2 x
  refine ⟨_, e2.trans f2, ?_, ?_, ?_⟩ <;> simp only [changeGid]
  · intro h
    have h' : ((k.setfsgid x).2.setfsgid x).1 = x := by
      split at h
      · assumption
      · exact absurd h (by decide)
    rw [f1, e3] at h'
    rw [f3, e3]
    cases b1 <;> cases b2 <;> simp only [if_true, if_false, Bool.false_eq_true] at h' ⊢
    cases k with
    | mk c a t => cases c; simp only at h'; rw [h']
  · intro h
    rw [f3, e3]
    cases b1 <;> cases b2 <;> simp only [if_true, if_false, Bool.false_eq_true]
    · exact Or.inl trivial
    · exact Or.inr ⟨[], _, [], rfl⟩
    · rw [f1, e3] at h; simp at h
    · rw [f1, e3] at h; simp at h
  · rw [f3, e3]
    cases b1 <;> cases b2 <;> simp

theorem setgroups_spec (k : Kern) (gs : List Nat) :
    Calls k (k.setgroups gs).2 [(.setgroups gs, !(k.setgroups gs).1)] ∧
    ((k.setgroups gs).1 = false → (k.setgroups gs).2.cred = { k.cred with groups := gs }) ∧
    ((k.setgroups gs).1 = true → (k.setgroups gs).2.cred = k.cred) := by
  obtain ⟨c, ans, tr⟩ := k
  cases ans with
  | nil => exact ⟨rfl, fun _ => rfl, fun h => by cases h⟩
  | cons a as =>
    cases a
    · exact ⟨rfl, fun h => (by cases h), fun _ => rfl⟩
    · exact ⟨rfl, fun _ => rfl, fun h => by cases h⟩

theorem initgroups_spec (k : Kern) (gs : List Nat) :
    (∃ b, Calls k (k.initgroups gs).2 [(.initgroups, b)]) ∧
    ((k.initgroups gs).1 = false → (k.initgroups gs).2.cred = { k.cred with groups := gs }) ∧
    ((k.initgroups gs).1 = true → (k.initgroups gs).2.cred = k.cred) := by
  obtain ⟨c, ans, tr⟩ := k
  cases ans with
  | nil => exact ⟨⟨_, rfl⟩, fun _ => rfl, fun h => by cases h⟩
  | cons a as =>
    cases a
    · exact ⟨⟨_, rfl⟩, fun h => (by cases h), fun _ => rfl⟩
    · exact ⟨⟨_, rfl⟩, fun _ => rfl, fun h => by cases h⟩

theorem dropGroups_spec (k : Kern) (pw : PwEnt) :
    ∃ cs, Calls k (dropGroups k pw).2 cs ∧
      ((dropGroups k pw).1 = true → (dropGroups k pw).2.cred = k.cred) ∧
      ((dropGroups k pw).1 = false → ∃ gs, (gs = pw.groups ∨ gs = []) ∧
        (dropGroups k pw).2.cred = { k.cred with groups := gs }) := by
  obtain ⟨⟨b, i1⟩, i2, i3⟩ := initgroups_spec k pw.groups
  unfold dropGroups
  generalize hI : k.initgroups pw.groups = I at *
  obtain ⟨s1, s2, s3⟩ := setgroups_spec I.2 []
  cases h : I.1 with
  | false =>
    simp only [h, Bool.false_eq_true, if_false]
    exact ⟨_, i1, fun h => absurd h (by decide), fun _ => ⟨pw.groups, Or.inl rfl, i2 h⟩⟩
  | true =>
    simp only [h, if_true]
    refine ⟨_, i1.trans s1, fun h' => by rw [s3 h', i3 h], fun h' => ⟨[], Or.inr rfl, by rw [s2 h', i3 h]⟩⟩

theorem Wavered.left {a b : List (Call × Bool)} (h : Wavered a) : Wavered (a ++ b) := by
  obtain ⟨x, c, y, rfl⟩ := h
  exact ⟨x, c, y ++ b, by simp⟩

theorem Wavered.right {a b : List (Call × Bool)} (h : Wavered b) : Wavered (a ++ b) := by
  obtain ⟨x, c, y, rfl⟩ := h
  exact ⟨a ++ x, c, y, by simp⟩

/-- the change of the ids, from credentials that differ from `c0` at most in the groups -/
theorem dropIds_spec (k : Kern) (p : Privs) (pw : PwEnt) (c0 : Cred) (g : List Nat)
    (hk : k.cred = { c0 with groups := g }) (hp : p.grplist = some c0.groups) :
    ((dropIds k p pw).1 = 0 →
      (dropIds k p pw).2.2.cred = c0.become pw.uid pw.gid g ∧
      (dropIds k p pw).2.1 = { p with oldGid := c0.fsgid, oldUid := c0.fsuid, isDropped := .magic }) ∧
    ((dropIds k p pw).1 ≠ 0 → (dropIds k p pw).1 = -1 ∧ ∃ cs, Calls k (dropIds k p pw).2.2 cs ∧
      ((dropIds k p pw).2.2.cred = c0 ∨ RestoreRefused c0 cs ∨ Wavered cs)) := by
  obtain ⟨⟨csg, g1, g2, g3, g4⟩, g5⟩ := changeGid_spec k pw.gid
  unfold dropIds
  by_cases hg : (changeGid k pw.gid).1 = 0
  · have hcg := g2 hg
    simp only [hg, ne_eq, not_true_eq_false, if_false]
    obtain ⟨⟨csu, u1, u2, u3, _⟩, u4⟩ := changeUid_spec (changeGid k pw.gid).2.2 pw.uid
    by_cases hu : (changeUid (changeGid k pw.gid).2.2 pw.uid).1 = 0
    · simp only [hu, not_true_eq_false, if_false, g5, u4]
      rw [u2 hu, hcg, hk]
      exact ⟨fun _ => ⟨rfl, rfl⟩, fun h => h.elim⟩
    · simp only [hu, not_false_eq_true, if_true]
      refine ⟨fun h => absurd h (by decide), fun _ => ⟨trivial, ?_⟩⟩
      rw [g5, hp, hk]
      simp only [Option.getD_some]
      obtain ⟨⟨csr, r1, r2, r3, r4⟩, _⟩ := changeGid_spec (changeUid (changeGid k pw.gid).2.2 pw.uid).2.2 c0.fsgid
      generalize hkr : (changeGid (changeUid (changeGid k pw.gid).2.2 pw.uid).2.2 c0.fsgid).2.2 = kr at *
      obtain ⟨s1, s2, s3⟩ := setgroups_spec kr c0.groups
      refine ⟨_, ((g1.trans u1).trans r1).trans s1, ?_⟩
      rcases u3 hu with h | h
      · rcases r4 with h4 | h4
        · cases hs : (kr.setgroups c0.groups).1 with
          | false =>
            left
            rw [s2 hs, h4, h, hcg, hk]
          | true => right; left; right; simp [hs]
        · right; left; left; simp [h4]
      · right; right; exact (h.right.left).left
  · simp only [hg, ne_eq, not_false_eq_true, if_true]
    refine ⟨fun h => absurd h (by decide), fun _ => ⟨trivial, ?_⟩⟩
    rw [hp]
    simp only [Option.getD_some]
    obtain ⟨s1, s2, s3⟩ := setgroups_spec (changeGid k pw.gid).2.2 c0.groups
    refine ⟨_, g1.trans s1, ?_⟩
    rcases g3 hg with h | h
    · cases hs : ((changeGid k pw.gid).2.2.setgroups c0.groups).1 with
      | false => left; rw [s2 hs, h, hk]
      | true => right; left; right; simp [hs]
    · right; right; exact h.left

/-- all that a call of pam_modutil_drop_priv can do for a privileged process and an ordinary user -/
theorem dropPriv_spec (k : Kern) (p : Privs) (pw : PwEnt) (mem : Bool) (hf : Fresh p)
    (he : k.cred.euid = 0) (hu : pw.uid ≠ 0) :
    ((dropPriv k p pw mem).1 = 0 → ∃ g, (g = pw.groups ∨ g = []) ∧
      (dropPriv k p pw mem).2.2.cred = k.cred.become pw.uid pw.gid g ∧
      (dropPriv k p pw mem).2.1.grplist = some k.cred.groups ∧
      (dropPriv k p pw mem).2.1.number = k.cred.groups.length ∧
      (dropPriv k p pw mem).2.1.oldGid = k.cred.fsgid ∧ (dropPriv k p pw mem).2.1.oldUid = k.cred.fsuid ∧
      (dropPriv k p pw mem).2.1.isDropped = .magic) ∧
    ((dropPriv k p pw mem).1 ≠ 0 → (dropPriv k p pw mem).1 = -1 ∧ ∃ cs, Calls k (dropPriv k p pw mem).2.2 cs ∧
      ((dropPriv k p pw mem).2.2.cred = k.cred ∨ RestoreRefused k.cred cs ∨ Wavered cs)) := by
  obtain ⟨f1, f2, f3⟩ := hf
  unfold dropPriv
  rw [if_neg (by simp [f1]), if_neg (by simp [he, hu]), if_neg (by simp [f2, f3])]
  have hfail : ∀ (q : Privs) (k' : Kern) (cs : List (Call × Bool)), Calls k k' cs → k'.cred = k.cred →
      (((-1, q, k') : Int × Privs × Kern).1 = 0 → False) ∧
      (((-1, q, k') : Int × Privs × Kern).1 ≠ 0 → ((-1, q, k') : Int × Privs × Kern).1 = -1 ∧
        ∃ cs, Calls k ((-1, q, k') : Int × Privs × Kern).2.2 cs ∧
          (((-1, q, k') : Int × Privs × Kern).2.2.cred = k.cred ∨ RestoreRefused k.cred cs ∨ Wavered cs)) :=
    fun q k' cs h1 h2 => ⟨fun h => absurd h (show ¬ ((-1 : Int) = 0) by decide), fun _ => ⟨rfl, cs, h1, Or.inl h2⟩⟩
  have hg0 : ∀ (k1 : Kern) (n : Nat), ∃ cs, Calls k1 (k1.getgroups n).2 cs ∧ (k1.getgroups n).2.cred = k1.cred ∧
      ∀ gs, (k1.getgroups n).1 = some gs → gs = k1.cred.groups := by
    intro k1 n
    refine ⟨_, rfl, rfl, fun gs h => ?_⟩
    simp only [Kern.getgroups] at h
    split at h
    · cases h; rfl
    · cases h
  obtain ⟨cs0, c01, c02, c03⟩ := hg0 k k.cred.groups.length
  generalize hG0 : k.getgroups k.cred.groups.length = G0 at *
  simp only
  cases h0 : G0.1 with
  | none =>
    obtain ⟨a, b⟩ := hfail p G0.2 cs0 c01 c02
    exact ⟨fun h => (a h).elim, b⟩
  | some gs0 =>
    simp only
    cases hm : makeRoom p gs0.length mem with
    | none =>
      obtain ⟨a, b⟩ := hfail { p with allocated := false }.cleanup G0.2 cs0 c01 c02
      exact ⟨fun h => (a h).elim, b⟩
    | some p1 =>
      simp only
      obtain ⟨cs1, c11, c12, c13⟩ := hg0 G0.2 p1.number
      generalize hG1 : G0.2.getgroups p1.number = G1 at *
      cases h1 : G1.1 with
      | none =>
        obtain ⟨a, b⟩ := hfail p1.cleanup G1.2 _ (c01.trans c11) (by rw [c12, c02])
        exact ⟨fun h => (a h).elim, b⟩
      | some gs =>
        simp only
        have hgs : gs = k.cred.groups := by rw [c13 gs h1, c02]
        obtain ⟨cs2, d1, d2, d3⟩ := dropGroups_spec G1.2 pw
        cases hd : (dropGroups G1.2 pw).1 with
        | true =>
          simp only [hd, if_true]
          obtain ⟨a, b⟩ := hfail { p1 with grplist := some gs, number := gs.length }.cleanup
            (dropGroups G1.2 pw).2 _ ((c01.trans c11).trans d1) (by rw [d2 hd, c12, c02])
          exact ⟨fun h => (a h).elim, fun h => ⟨trivial, (b h).2⟩⟩
        | false =>
          simp only [hd, Bool.false_eq_true, if_false]
          obtain ⟨g, hg, hcred⟩ := d3 hd
          obtain ⟨e1, e2⟩ := dropIds_spec (dropGroups G1.2 pw).2 { p1 with grplist := some gs, number := gs.length } pw k.cred g
            (by rw [hcred, c12, c02]) (by rw [hgs])
          refine ⟨fun h => ?_, fun h => ?_⟩
          · obtain ⟨e3, e4⟩ := e1 h
            refine ⟨g, hg, e3, ?_⟩
            rw [e4, hgs]
            exact ⟨rfl, rfl, rfl, rfl, rfl⟩
          · obtain ⟨e3, cs3, e4, e5⟩ := e2 h
            refine ⟨e3, _, ((c01.trans c11).trans d1).trans e4, ?_⟩
            rcases e5 with h | (h | h) | h
            · exact Or.inl h
            · right; left; left; simp [h]
            · right; left; right; simp [h]
            · right; right; exact h.right

/-! ### the theorems -/

/-- C33 (drop): for every process, user and sequence of kernel decisions, if a privileged process
successfully drops its privileges for an ordinary user, its file system uid and gid are the
user's and its supplementary groups are the user's, or none.  (The effective uid and gid do not
change: only file system privileges are lowered.) -/
theorem C33_dropped (k : Kern) (p : Privs) (pw : PwEnt) (mem : Bool) (hf : Fresh p)
    (he : k.cred.euid = 0) (hu : pw.uid ≠ 0) (hok : (dropPriv k p pw mem).1 = 0) :
    ∃ g, (g = pw.groups ∨ g = []) ∧
      (dropPriv k p pw mem).2.2.cred = { euid := 0, fsuid := pw.uid, fsgid := pw.gid, groups := g } := by
  obtain ⟨g, hg, h, _⟩ := (dropPriv_spec k p pw mem hf he hu).1 hok
  refine ⟨g, hg, ?_⟩
  rw [h, Cred.become, he]

/-- C33 (nothing to do): for an unprivileged process, or for root, dropping succeeds and changes
nothing, and so does regaining afterwards. -/
theorem C33_nothing_to_do (k : Kern) (p : Privs) (pw : PwEnt) (mem : Bool) (hf : Fresh p)
    (h : k.cred.euid ≠ 0 ∨ pw.uid = 0) :
    ∃ p', dropPriv k p pw mem = (0, p', k) ∧ ∀ k', ∃ p'', regainPriv k' p' = (0, p'', k') ∧ Fresh p'' := by
  refine ⟨{ p with isDropped := .doNothing }, ?_, fun k' => ⟨{ p with isDropped := .no }, rfl, rfl, hf.2.1, hf.2.2⟩⟩
  rw [dropPriv, if_neg (by simp [hf.1]), if_pos h]

/-- C33 (failed drop): if dropping fails, the credentials are as before, unless the kernel refused to
give back the gid or the groups, or contradicted itself within two calls. -/
theorem C33_failed_drop (k : Kern) (p : Privs) (pw : PwEnt) (mem : Bool) (hf : Fresh p)
    (hfail : (dropPriv k p pw mem).1 ≠ 0) :
    (dropPriv k p pw mem).1 = -1 ∧ ∃ cs, Calls k (dropPriv k p pw mem).2.2 cs ∧
      ((dropPriv k p pw mem).2.2.cred = k.cred ∨ RestoreRefused k.cred cs ∨ Wavered cs) := by
  by_cases h : k.cred.euid ≠ 0 ∨ pw.uid = 0
  · obtain ⟨p', h1, _⟩ := C33_nothing_to_do k p pw mem hf h
    rw [h1] at hfail
    exact absurd rfl hfail
  · exact (dropPriv_spec k p pw mem hf (by omega) (by omega)).2 hfail

/-- C33 (regain): after a successful drop, whatever the process did in between, a successful
pam_modutil_regain_priv restores the file system uid and gid and the supplementary groups the process
had before the drop.  What is missing for C33: this holds for the first call; if that one fails, a
repeated call "succeeds" without the groups (`C33_regain_again_counterexample`). -/
theorem C33_regained_partial (k k' : Kern) (p : Privs) (pw : PwEnt) (mem : Bool) (hf : Fresh p)
    (he : k.cred.euid = 0) (hu : pw.uid ≠ 0) (hok : (dropPriv k p pw mem).1 = 0)
    (hre : (regainPriv k' (dropPriv k p pw mem).2.1).1 = 0) :
    (regainPriv k' (dropPriv k p pw mem).2.1).2.2.cred =
      k'.cred.become k.cred.fsuid k.cred.fsgid k.cred.groups := by
  obtain ⟨g, _, _, h1, h2, h3, h4, h5⟩ := (dropPriv_spec k p pw mem hf he hu).1 hok
  generalize (dropPriv k p pw mem).2.1 = q at *
  simp only [regainPriv, h5] at hre ⊢
  simp only [regainIds] at hre ⊢
  obtain ⟨⟨csu, u1, u2, u3, _⟩, u4⟩ := changeUid_spec k' q.oldUid
  by_cases hu : (changeUid k' q.oldUid).1 = 0
  · simp only [hu, ne_eq, not_true_eq_false, if_false] at hre ⊢
    obtain ⟨⟨csg, g1, g2, g3, g4⟩, g5⟩ := changeGid_spec (changeUid k' q.oldUid).2.2 q.oldGid
    by_cases hg : (changeGid (changeUid k' q.oldUid).2.2 q.oldGid).1 = 0
    · simp only [hg, not_true_eq_false, if_false] at hre ⊢
      rw [h1, h2] at hre ⊢
      simp only [Option.getD_some, List.take_length] at hre ⊢
      generalize hk2 : (changeGid (changeUid k' q.oldUid).2.2 q.oldGid).2.2 = k2 at *
      obtain ⟨s1, s2, s3⟩ := setgroups_spec k2 k.cred.groups
      cases hs : (k2.setgroups k.cred.groups).1 with
      | false =>
        simp only [Bool.false_eq_true, if_false]
        rw [s2 hs, g2 hg, u2 hu, h3, h4]
        rfl
      | true =>
        simp only [hs, if_true] at hre
        exact absurd hre (show ¬ ((-1 : Int) = 0) by decide)
    · simp only [hg, not_false_eq_true, if_true] at hre
      exact absurd hre (show ¬ ((-1 : Int) = 0) by decide)
  · simp only [hu, ne_eq, not_false_eq_true, if_true] at hre
    exact absurd hre (show ¬ ((-1 : Int) = 0) by decide)

/-- C33 is false for a second attempt: if the kernel refuses setgroups once (say, for lack of memory),
calling pam_modutil_regain_priv again returns success and leaves the process without any
supplementary group. -/
theorem C33_regain_again_counterexample :
    ∃ (k : Kern) (p : Privs) (pw : PwEnt),
      let d := dropPriv k p pw true
      let r := regainPriv d.2.2 d.2.1
      let r' := regainPriv r.2.2 r.2.1
      Fresh p ∧ k.cred.groups = [0, 10] ∧ d.1 = 0 ∧ r.1 = -1 ∧ r'.1 = 0 ∧
        r'.2.2.cred = { k.cred with groups := [] } :=
  ⟨⟨⟨0, 0, 0, [0, 10]⟩, List.replicate 11 true ++ [false], []⟩, ⟨some [], 64, false, 0, 0, .no⟩, ⟨1000, 1000, [1000]⟩,
    by unfold Fresh; decide⟩

/-- the structure can be used for one drop only: after a successful regain of really dropped
privileges it has no room left, and the next drop for an ordinary user fails -/
theorem C33_structure_used_up (k k' : Kern) (q : Privs) (pw : PwEnt) (mem : Bool) (hq : q.isDropped = .magic)
    (hre : (regainPriv k q).1 = 0) (he : k'.cred.euid = 0) (hu : pw.uid ≠ 0) :
    (dropPriv k' (regainPriv k q).2.1 pw mem) = (-1, (regainPriv k q).2.1, k') := by
  have h : (regainPriv k q).2.1 = { q with isDropped := .no }.cleanup := by
    simp only [regainPriv, hq, regainIds] at hre ⊢
    split at hre
    · exact absurd hre (show ¬ ((-1 : Int) = 0) by decide)
    · rename_i h1
      rw [if_neg h1]
      split at hre
      · exact absurd hre (show ¬ ((-1 : Int) = 0) by decide)
      · rename_i h2
        rw [if_neg h2]
        split at hre
        · exact absurd hre (show ¬ ((-1 : Int) = 0) by decide)
        · rename_i h3
          rw [if_neg h3]
  rw [h, dropPriv, if_neg (by simp [Privs.cleanup]), if_neg (by simp [he, hu]), if_pos (by simp [Privs.cleanup])]

/-- C33: out of turn nothing happens: dropping twice in a row, and regaining what was not dropped, are refused
without a system call, and the structure stays as it is. -/
theorem C33_out_of_turn (k k2 : Kern) (p : Privs) (pw pw2 : PwEnt) (mem mem2 : Bool) (hf : Fresh p) :
    regainPriv k p = (-1, p, k) ∧
    ((dropPriv k p pw mem).1 = 0 → dropPriv k2 (dropPriv k p pw mem).2.1 pw2 mem2 = (-1, (dropPriv k p pw mem).2.1, k2)) := by
  refine ⟨?_, fun h => ?_⟩
  · unfold regainPriv; rw [hf.1]
  · have hm : (dropPriv k p pw mem).2.1.isDropped ≠ .no := by
      unfold dropPriv at h ⊢
      rw [if_neg (by simp [hf.1])] at h ⊢
      split at h
      next h1 => rw [if_pos h1]; simp
      next h1 =>
        rw [if_neg h1]
        rw [if_neg (by simp [hf.2.1, hf.2.2])] at h ⊢
        simp only at h ⊢
        split at h
        next => exact absurd h (show ¬ ((-1 : Int) = 0) by decide)
        next gs0 h2 =>
          split at h
          next => exact absurd h (show ¬ ((-1 : Int) = 0) by decide)
          next p1 h3 =>
            split at h
            next => exact absurd h (show ¬ ((-1 : Int) = 0) by decide)
            next gs h4 =>
              split at h
              next => exact absurd h (show ¬ ((-1 : Int) = 0) by decide)
              next h5 =>
                rw [if_neg h5]
                unfold dropIds at h ⊢
                simp only at h ⊢
                split at h
                next => exact absurd h (show ¬ ((-1 : Int) = 0) by decide)
                next h6 =>
                  rw [if_neg h6]
                  split at h
                  next => exact absurd h (show ¬ ((-1 : Int) = 0) by decide)
                  next h7 => rw [if_neg h7]; simp
    generalize (dropPriv k p pw mem).2.1 = q at hm ⊢
    unfold dropPriv
    rw [if_pos hm]

/-- the hypotheses are met: a full cycle, a refused setfsuid, an initgroups failure -/
example :
    let p : Privs := ⟨some [], 64, false, 0, 0, .no⟩
    let c : Cred := ⟨0, 0, 0, [0, 10]⟩
    let pw : PwEnt := ⟨1000, 100, [100, 20]⟩
    Fresh p ∧
    (dropPriv ⟨c, [], []⟩ p pw true).1 = 0 ∧
    (dropPriv ⟨c, [], []⟩ p pw true).2.2.cred = ⟨0, 1000, 100, [100, 20]⟩ ∧
    (regainPriv (dropPriv ⟨c, [], []⟩ p pw true).2.2 (dropPriv ⟨c, [], []⟩ p pw true).2.1).1 = 0 ∧
    (regainPriv (dropPriv ⟨c, [], []⟩ p pw true).2.2 (dropPriv ⟨c, [], []⟩ p pw true).2.1).2.2.cred = c ∧
    (dropPriv ⟨c, [true, true, true, true, true, false, false], []⟩ p pw true).1 = -1 ∧
    (dropPriv ⟨c, [true, true, true, true, true, false, false], []⟩ p pw true).2.2.cred = c ∧
    (dropPriv ⟨c, [true, true, false], []⟩ p pw true).2.2.cred = ⟨0, 1000, 100, []⟩ := by
  unfold Fresh; decide

end Pam.Util
