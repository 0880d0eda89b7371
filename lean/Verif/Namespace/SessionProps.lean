import Verif.Namespace.Session
import Verif.Namespace.ConfigProps
/-
Property theorems about sessions of pam_namespace (C112, C113, C115, C116).
-/
namespace Pam.Namespace
open Pam

/-! ### who -/

namespace Spec
/-- the directory is polyinstantiated for the user: namespace.conf(5) -/
abbrev ForUser (p : Poly) (uid : Nat) : Prop := uid ∈ p.uids ↔ p.flags.exclusive = true

/-- what the options unmnt_remnt and unmnt_only ask for: pam_namespace(8) -/
def wanted (u : Unmnt) (uid ruid : Nat) (p : Poly) : List Op :=
  (if u ≠ .no ∧ ForUser p ruid then [.umount p.rdir] else []) ++ (if u ≠ .only ∧ ForUser p uid then [.setup p] else [])

/-- all of it, in a namespace of its own -/
def session (private_ : Bool) (u : Unmnt) (uid ruid : Nat) (ps : List Poly) : List Op :=
  if ps.flatMap (wanted u uid ruid) = [] then [] else .unshare :: (if private_ then [.slave] else []) ++ ps.flatMap (wanted u uid ruid)
end Spec
open Spec

theorem override_iff (p : Poly) (uid : Nat) : nsOverride p uid = true ↔ ¬ ForUser p uid := by
  unfold nsOverride ForUser
  by_cases h : uid ∈ p.uids
  · rw [if_pos h]; simp [h]
  · rw [if_neg h]; simp [h]

/-- C112 (the list of users): a directory is polyinstantiated for all users but those in the list; after "~" for those in the list only. -/
theorem C112_list {e : Env} {q p : Poly} {dir rdir pre : Str} {uids : Option Str} (h : Entry e q dir rdir pre uids p) (uid : Nat) :
    (uids = none → nsOverride p uid = false) ∧
    (∀ l, uids = some l → l.head? ≠ some '~' → (nsOverride p uid = true ↔ Listed e l uid)) ∧
    (∀ l, uids = some ('~' :: l) → (nsOverride p uid = true ↔ ¬ Listed e l uid)) := by
  have hx := h.exclusive
  have hl := h.listed uid
  unfold nsOverride
  refine ⟨?_, ?_, ?_⟩
  · rintro rfl
    simp at hx hl
    simp [hl, hx]
  · rintro l rfl hn
    have hx' : p.flags.exclusive = false := by
      rw [Bool.eq_false_iff, Ne, hx]
      rintro ⟨l', e1, e2⟩
      cases e1; exact hn e2
    have hl' : uid ∈ p.uids ↔ Listed e l uid := by
      rw [hl]
      constructor
      · rintro ⟨l', e1, e2⟩; cases e1; rwa [if_neg hn] at e2
      · intro x; exact ⟨l, rfl, by rwa [if_neg hn]⟩
    rw [hx', ← hl']
    by_cases hm : uid ∈ p.uids <;> simp [hm]
  · rintro l rfl
    have hx' : p.flags.exclusive = true := hx.2 ⟨_, rfl, rfl⟩
    have hl' : uid ∈ p.uids ↔ Listed e l uid := by
      rw [hl]
      constructor
      · rintro ⟨l', e1, e2⟩; cases e1; exact e2
      · intro x; exact ⟨_, rfl, x⟩
    rw [hx', ← hl']
    by_cases hm : uid ∈ p.uids <;> simp [hm]

theorem wanted_eq (u : Unmnt) (uid ruid : Nat) (p : Poly) : wanted u uid ruid p =
    (if u ≠ .no ∧ nsOverride p ruid = false then [.umount p.rdir] else []) ++ (if u ≠ .only ∧ nsOverride p uid = false then [.setup p] else []) := by
  have key : ∀ x, nsOverride p x = false ↔ ForUser p x := fun x => by
    rw [Bool.eq_false_iff, Ne, override_iff]
    exact ⟨fun h => Classical.byContradiction h, fun h y => y h⟩
  unfold wanted
  simp only [key]

theorem dir_eq {res : List Op → Op → Int} {u : Unmnt} {uid ruid : Nat} {tr : List Op} {p : Poly} (h : u ≠ .only ∨ (ForUser p uid → ForUser p ruid)) :
    ((setupDir res u uid ruid tr p).1 = PAM_SUCCESS ∧ (setupDir res u uid ruid tr p).2 = tr ++ wanted u uid ruid p) ∨
    ((setupDir res u uid ruid tr p).1 ≠ PAM_SUCCESS ∧ (∃ t op, res t op ≠ 0) ∧ ∃ a b, wanted u uid ruid p = a ++ b ∧ (setupDir res u uid ruid tr p).2 = tr ++ a) := by
  have h' : u ≠ .only ∨ (nsOverride p ruid = true → nsOverride p uid = true) := h.imp_right (fun x y => by
    rw [override_iff] at y ⊢; exact fun z => y (x z))
  rw [wanted_eq]
  unfold setupDir
  generalize nsOverride p uid = x at h' ⊢
  generalize nsOverride p ruid = y at h' ⊢
  clear h
  have setupCase : ∀ tr : List Op, ∀ w : List Op, ∀ r : Int × List Op,
      r = (if res tr (.setup p) = PAM_IGNORE then (PAM_SUCCESS, tr ++ [.setup p]) else (res tr (.setup p), tr ++ [.setup p])) →
      (r.1 = PAM_SUCCESS ∧ r.2 = tr ++ [.setup p]) ∨ (r.1 ≠ PAM_SUCCESS ∧ (∃ t op, res t op ≠ 0) ∧ r.2 = tr ++ [.setup p]) := by
    intro tr w r hr
    by_cases hi : res tr (.setup p) = PAM_IGNORE
    · rw [if_pos hi] at hr; subst hr; exact .inl ⟨rfl, rfl⟩
    · rw [if_neg hi] at hr; subst hr
      by_cases hs : res tr (.setup p) = PAM_SUCCESS
      · exact .inl ⟨hs, rfl⟩
      · exact .inr ⟨hs, ⟨_, _, hs⟩, rfl⟩
  have setup0 : ∀ r : Int × List Op, r = (if res tr (.setup p) = PAM_IGNORE then (PAM_SUCCESS, tr ++ [.setup p]) else (res tr (.setup p), tr ++ [.setup p])) →
      (r.1 = PAM_SUCCESS ∧ r.2 = tr ++ [.setup p]) ∨ (r.1 ≠ PAM_SUCCESS ∧ (∃ t op, res t op ≠ 0) ∧ ∃ a b, [Op.setup p] = a ++ b ∧ r.2 = tr ++ a) := fun r hr => by
    rcases setupCase tr [] r hr with h | ⟨h1, h2, h3⟩
    · exact .inl h
    · exact .inr ⟨h1, h2, [.setup p], [], rfl, h3⟩
  have only0 : ∀ r : Int × List Op, r = (if res tr (.umount p.rdir) ≠ 0 ∧ res tr (.umount p.rdir) ≠ EINVAL then (PAM_SESSION_ERR, tr ++ [.umount p.rdir])
        else (PAM_SUCCESS, tr ++ [.umount p.rdir])) →
      (r.1 = PAM_SUCCESS ∧ r.2 = tr ++ [.umount p.rdir]) ∨ (r.1 ≠ PAM_SUCCESS ∧ (∃ t op, res t op ≠ 0) ∧ ∃ a b, [Op.umount p.rdir] = a ++ b ∧ r.2 = tr ++ a) := fun r hr => by
    by_cases hu : res tr (.umount p.rdir) ≠ 0 ∧ res tr (.umount p.rdir) ≠ EINVAL
    · rw [if_pos hu] at hr; subst hr
      exact .inr ⟨(by decide : PAM_SESSION_ERR ≠ PAM_SUCCESS), ⟨_, _, hu.1⟩, [.umount p.rdir], [], rfl, rfl⟩
    · rw [if_neg hu] at hr; subst hr; exact .inl ⟨rfl, rfl⟩
  have remnt0 : ∀ r : Int × List Op, r = (if res tr (.umount p.rdir) ≠ 0 ∧ res tr (.umount p.rdir) ≠ EINVAL then (PAM_SESSION_ERR, tr ++ [.umount p.rdir])
        else if res (tr ++ [.umount p.rdir]) (.setup p) = PAM_IGNORE then (PAM_SUCCESS, tr ++ [.umount p.rdir] ++ [.setup p])
        else (res (tr ++ [.umount p.rdir]) (.setup p), tr ++ [.umount p.rdir] ++ [.setup p])) →
      (r.1 = PAM_SUCCESS ∧ r.2 = tr ++ [.umount p.rdir, .setup p]) ∨
      (r.1 ≠ PAM_SUCCESS ∧ (∃ t op, res t op ≠ 0) ∧ ∃ a b, [Op.umount p.rdir, .setup p] = a ++ b ∧ r.2 = tr ++ a) := fun r hr => by
    by_cases hu : res tr (.umount p.rdir) ≠ 0 ∧ res tr (.umount p.rdir) ≠ EINVAL
    · rw [if_pos hu] at hr; subst hr
      exact .inr ⟨(by decide : PAM_SESSION_ERR ≠ PAM_SUCCESS), ⟨_, _, hu.1⟩, [.umount p.rdir], [.setup p], rfl, rfl⟩
    · rw [if_neg hu] at hr
      rcases setupCase _ [] r hr with ⟨h1, h2⟩ | ⟨h1, h2, h3⟩
      · exact .inl ⟨h1, by rw [h2, List.append_assoc]; rfl⟩
      · exact .inr ⟨h1, h2, [.umount p.rdir, .setup p], [], rfl, by rw [h3, List.append_assoc]; rfl⟩
  cases x <;> cases y <;> cases u
  · exact setup0 _ rfl
  · exact remnt0 _ rfl
  · exact only0 _ rfl
  · exact setup0 _ rfl
  · exact setup0 _ rfl
  · rcases h' with h' | h'
    · exact absurd rfl h'
    · cases h' rfl
  · left; exact ⟨rfl, (List.append_nil _).symm⟩
  · exact only0 _ rfl
  · exact only0 _ rfl
  · left; exact ⟨rfl, (List.append_nil _).symm⟩
  · left; exact ⟨rfl, (List.append_nil _).symm⟩
  · left; exact ⟨rfl, (List.append_nil _).symm⟩

theorem loop_eq {res : List Op → Op → Int} {u : Unmnt} {uid ruid : Nat} : ∀ (ps : List Poly) (tr : List Op), (u ≠ .only ∨ ∀ p ∈ ps, ForUser p uid → ForUser p ruid) →
    ((setupLoop res u uid ruid tr ps).1 = PAM_SUCCESS ∧ (setupLoop res u uid ruid tr ps).2 = tr ++ ps.flatMap (wanted u uid ruid)) ∨
    ((setupLoop res u uid ruid tr ps).1 ≠ PAM_SUCCESS ∧ (∃ t op, res t op ≠ 0) ∧
      ∃ a b, ps.flatMap (wanted u uid ruid) = a ++ b ∧ (setupLoop res u uid ruid tr ps).2 = tr ++ a ++ [.cleanup])
  | [], tr, _ => by simp [setupLoop]
  | p :: ps, tr, h => by
    rw [setupLoop]
    rcases dir_eq (res := res) (u := u) (uid := uid) (ruid := ruid) (tr := tr) (p := p) (h.imp_right (fun x => x p List.mem_cons_self)) with ⟨h1, h2⟩ | ⟨h1, hr, a, b, h2, h3⟩
    · rw [if_neg (by rw [h1]; simp)]
      rw [h2]
      rcases loop_eq (res := res) (u := u) (uid := uid) (ruid := ruid) ps (tr ++ wanted u uid ruid p) (h.imp_right (fun x q hq => x q (List.mem_cons_of_mem _ hq))) with
        ⟨h3, h4⟩ | ⟨h3, hr, a, b, h4, h5⟩
      · left; exact ⟨h3, by rw [h4, List.flatMap_cons, List.append_assoc]⟩
      · right; exact ⟨h3, hr, wanted u uid ruid p ++ a, b, by rw [List.flatMap_cons, h4, List.append_assoc], by rw [h5]; simp⟩
    · rw [if_pos h1]
      right; exact ⟨h1, hr, a, b ++ ps.flatMap (wanted u uid ruid), by rw [List.flatMap_cons, h2, List.append_assoc], by rw [h3]⟩

theorem need_iff {u : Unmnt} {uid ruid : Nat} (ps : List Poly) (h : u ≠ .only ∨ ∀ p ∈ ps, ForUser p uid → ForUser p ruid) :
    needPoly u uid ruid ps = true ↔ ps.flatMap (wanted u uid ruid) ≠ [] := by
  unfold needPoly
  rw [List.any_eq_true, Ne, List.flatMap_eq_nil_iff]
  constructor
  · rintro ⟨p, hp, hx⟩ hn
    have hw := hn p hp
    unfold wanted at hw
    rw [List.append_eq_nil_iff] at hw
    have w1 : ¬ (u ≠ .no ∧ ForUser p ruid) := fun x => by rw [if_pos x] at hw; cases hw.1
    have w2 : ¬ (u ≠ .only ∧ ForUser p uid) := fun x => by rw [if_pos x] at hw; cases hw.2
    split at hx
    · rename_i ho
      simp at hx
      apply w1
      refine ⟨hx.1, Classical.byContradiction fun y => ?_⟩
      rw [(override_iff p ruid).2 y] at hx
      cases hx.2
    · rename_i ho
      have hf : ForUser p uid := Classical.byContradiction fun y => ho ((override_iff p uid).2 y)
      by_cases hu : u = .only
      · rcases h with h | h
        · exact h hu
        · exact w1 ⟨by rw [hu]; decide, h p hp hf⟩
      · exact w2 ⟨hu, hf⟩
  · intro hn
    obtain ⟨p, hp, hw⟩ : ∃ p ∈ ps, wanted u uid ruid p ≠ [] :=
      Classical.byContradiction fun y => hn (fun p hp => Classical.byContradiction fun z => y ⟨p, hp, z⟩)
    refine ⟨p, hp, ?_⟩
    by_cases a : ForUser p uid
    · rw [if_neg (by rw [override_iff]; exact fun x => x a)]
    · rw [if_pos ((override_iff p uid).2 a)]
      have ho := (override_iff p uid).2 a
      rw [wanted_eq, ho] at hw
      cases hr : nsOverride p ruid <;> cases u <;> simp [hr] at hw ⊢

/-- C112 (partial): a session that is opened does to the directories what is asked for, in their order, in a namespace of its own; and when something fails, no more than a
part of it.  Missing: unmnt_only, when a directory is polyinstantiated for the new user and not for the old one (the counterexample below). -/
theorem C112_session_partial (res : List Op → Op → Int) (private_ : Bool) {u : Unmnt} {uid ruid : Nat} {ps : List Poly}
    (h : u ≠ .only ∨ ∀ p ∈ ps, ForUser p uid → ForUser p ruid) :
    ((setupNamespace res private_ u uid ruid ps).1 = PAM_SUCCESS → (setupNamespace res private_ u uid ruid ps).2 = session private_ u uid ruid ps) ∧
    ((setupNamespace res private_ u uid ruid ps).1 ≠ PAM_SUCCESS →
      ∃ a b, session private_ u uid ruid ps = a ++ b ∧ ((setupNamespace res private_ u uid ruid ps).2 = a ∨ (setupNamespace res private_ u uid ruid ps).2 = a ++ [.cleanup])) ∧
    ((∀ t op, res t op = 0) → (setupNamespace res private_ u uid ruid ps).1 = PAM_SUCCESS) := by
  have hn := need_iff ps h
  unfold setupNamespace session
  by_cases hp : ps.flatMap (wanted u uid ruid) = []
  · rw [if_pos (fun x => hn.1 x hp), if_pos hp]
    exact ⟨fun _ => rfl, fun x => absurd rfl x, fun _ => rfl⟩
  · rw [if_neg (fun x => x (hn.2 hp)), if_neg hp]
    by_cases h1 : res [] .unshare ≠ 0
    · rw [if_pos h1]
      exact ⟨(by intro x; cases x), fun _ => ⟨[.unshare], (if private_ then [.slave] else []) ++ ps.flatMap (wanted u uid ruid), by simp, .inl rfl⟩, fun x => absurd (x _ _) h1⟩
    · rw [if_neg h1]
      cases private_ with
      | false =>
        rw [if_neg (by simp), if_neg (by simp)]
        rcases loop_eq (res := res) (u := u) (uid := uid) (ruid := ruid) ps [.unshare] h with ⟨h3, h4⟩ | ⟨h3, ⟨t, op, hr⟩, a, b, h4, h5⟩
        · exact ⟨fun _ => h4, fun x => absurd h3 x, fun _ => h3⟩
        · exact ⟨fun x => absurd x h3, fun _ => ⟨.unshare :: a, b, by rw [h4]; rfl, .inr (by rw [h5]; rfl)⟩, fun x => absurd (x t op) hr⟩
      | true =>
        rw [if_pos rfl, if_pos rfl]
        by_cases h2 : res [.unshare] .slave ≠ 0
        · rw [if_pos h2]
          exact ⟨(by intro x; cases x), fun _ => ⟨[.unshare, .slave], ps.flatMap (wanted u uid ruid), rfl, .inl rfl⟩, fun x => absurd (x _ _) h2⟩
        · rw [if_neg h2]
          rcases loop_eq (res := res) (u := u) (uid := uid) (ruid := ruid) ps [.unshare, .slave] h with ⟨h3, h4⟩ | ⟨h3, ⟨t, op, hr⟩, a, b, h4, h5⟩
          · exact ⟨fun _ => h4, fun x => absurd h3 x, fun _ => h3⟩
          · exact ⟨fun x => absurd x h3, fun _ => ⟨.unshare :: .slave :: a, b, by rw [h4]; rfl, .inr (by rw [h5]; rfl)⟩, fun x => absurd (x t op) hr⟩

/-- a directory for the user 1000 only -/
def demoPoly : Poly := { Poly.zero .user with dir := "/tmp".toList, rdir := "/tmp".toList, pre := "/inst/".toList, uids := [1000], flags := ⟨true, false, false, false, false, false⟩ }

/-- su from the user 1000 to the user 1000: the old instance goes, the new one comes -/
example : setupNamespace (fun _ _ => 0) false .remnt 1000 1000 [demoPoly] = (PAM_SUCCESS, [.unshare, .umount "/tmp".toList, .setup demoPoly]) := by decide +kernel

/-- With unmnt_only, which is to undo mounts, a directory is mounted if it is polyinstantiated for the new user and not for the old one. -/
theorem C112_unmnt_only_counterexample : setupNamespace (fun _ _ => 0) false .only 1000 0 [demoPoly] = (PAM_SUCCESS, [.unshare, .setup demoPoly]) ∧
    session false .only 1000 0 [demoPoly] = [] := by
  constructor <;> decide +kernel

/-! ### names -/

theorem cutLast_append (s : Str) : (cutLast s).1 ++ (cutLast s).2 = s := by
  unfold cutLast
  rw [← List.reverse_append, List.takeWhile_append_dropWhile, List.reverse_reverse]

theorem cutLast_name (s : Str) : '/' ∉ (cutLast s).2 := by
  unfold cutLast
  intro h
  have := List.all_takeWhile (p := (decide <| · ≠ '/')) (l := s.reverse)
  rw [List.all_eq_true] at this
  simpa using this '/' (List.mem_reverse.1 h)

theorem cutLast_of {a b : Str} (h : '/' ∉ b) : cutLast (a ++ '/' :: b) = (a ++ ['/'], b) := by
  unfold cutLast
  have hb : ∀ c ∈ b.reverse, decide (c ≠ '/') = true := fun c hc => by
    simp; rintro rfl; exact h (List.mem_reverse.1 hc)
  rw [List.reverse_append, List.reverse_cons, List.append_assoc]
  rw [List.takeWhile_append_of_pos hb, List.dropWhile_append_of_pos hb]
  simp

theorem hashed_short {md5 : Str → Str} {s : Str} (h : s.length ≤ 80) : hashed md5 false s = s := by
  unfold hashed
  rw [if_neg (by simp)]
  exact if_neg (show ¬ s.length > 80 by omega)

theorem hashed_long {md5 : Str → Str} {s : Str} (h : 80 < s.length) : hashed md5 false s = s.take (79 - (md5 s).length) ++ '_' :: md5 s := by
  unfold hashed
  rw [if_neg (by simp)]
  exact if_pos (show s.length > 80 from h)

/-- C113 (the user method): the instance is in the directory of the prefix, and its name is the rest of the prefix and the name of the user. -/
theorem C113_user (md5 : Str → Str) (ctx : Option Str) {user : Str} {p : Poly} {a b : Str} (hp : p.pre = a ++ '/' :: b) (hb : '/' ∉ b) (hm : p.method = .user)
    (hu : '/' ∉ user) (hl : user.length ≤ 80) (hs : p.pre.length + user.length < 4096) :
    polyName md5 false ctx user p = .ok (a ++ ['/'], b ++ user) := by
  unfold polyName instDiff
  rw [hm]
  dsimp only
  rw [List.take_of_length_le (by omega)]
  rw [if_pos rfl, hashed_short hl, if_neg]
  · rw [hp, List.append_assoc, List.cons_append, cutLast_of]
    simp [hb, hu]
  · rw [hp]
    rintro (h | h)
    · rw [hp] at hs; rw [List.length_append] at h; unfold pathMax at h; omega
    · exact h (by simp)

/-- C113 (different users): users with names of at most 80 bytes have different instances, whether or not a hash is used, if the hash tells them apart. -/
theorem C113_different {md5 : Str → Str} {gen : Bool} {ctx : Option Str} {u v : Str} {p : Poly} {x : Str × Str} (hinj : md5 u = md5 v → u = v)
    (hm : p.method = .user) (hu : u.length ≤ 80) (hv : v.length ≤ 80)
    (h1 : polyName md5 gen ctx u p = .ok x) (h2 : polyName md5 gen ctx v p = .ok x) : u = v := by
  unfold polyName instDiff at h1 h2
  rw [hm] at h1 h2
  dsimp only at h1 h2
  rw [List.take_of_length_le (by omega), if_pos rfl] at h1 h2
  split at h1
  · cases h1
  · split at h2
    · cases h2
    · have e1 : cutLast (p.pre ++ hashed md5 gen u) = x := by injection h1
      have e2 : cutLast (p.pre ++ hashed md5 gen v) = x := by injection h2
      have e3 : p.pre ++ hashed md5 gen u = p.pre ++ hashed md5 gen v := by
        rw [← cutLast_append (p.pre ++ hashed md5 gen u), ← cutLast_append (p.pre ++ hashed md5 gen v), e1, e2]
      have e4 := List.append_cancel_left e3
      cases gen with
      | true => exact hinj e4
      | false => rwa [hashed_short hu, hashed_short hv] at e4

/-- C113 (long names): so have those with names of more than 80 and less than 256 bytes, if the hash tells them apart. -/
theorem C113_long {md5 : Str → Str} (hlen : ∀ s, (md5 s).length = 32) {ctx : Option Str} {u v : Str} {p : Poly} {x : Str × Str} (hinj : md5 u = md5 v → u = v)
    (hm : p.method = .user) (hu : 80 < u.length ∧ u.length < 256) (hv : 80 < v.length ∧ v.length < 256)
    (h1 : polyName md5 false ctx u p = .ok x) (h2 : polyName md5 false ctx v p = .ok x) : u = v := by
  unfold polyName instDiff at h1 h2
  rw [hm] at h1 h2
  dsimp only at h1 h2
  rw [List.take_of_length_le (by omega), if_pos rfl] at h1 h2
  split at h1
  · cases h1
  · split at h2
    · cases h2
    · have e1 : cutLast (p.pre ++ hashed md5 false u) = x := by injection h1
      have e2 : cutLast (p.pre ++ hashed md5 false v) = x := by injection h2
      have e3 : p.pre ++ hashed md5 false u = p.pre ++ hashed md5 false v := by
        rw [← cutLast_append (p.pre ++ hashed md5 false u), ← cutLast_append (p.pre ++ hashed md5 false v), e1, e2]
      have e4 := List.append_cancel_left e3
      rw [hashed_long hu.1, hashed_long hv.1] at e4
      have e5 := List.append_inj_right' e4 (by simp [hlen])
      exact hinj (List.cons.inj e5).2

/-- C113 (contexts): with the context or level method the instance has the context in its name; and the name of the user, unless it is shared.  Without contexts a shared
one is passed over and others are as with the user method. -/
theorem C113_context {p : Poly} (hm : p.method = .context ∨ p.method = .level) (user : Str) :
    (∀ c, p.flags.shared = true → instDiff (some c) user p = some (c, true)) ∧
    (∀ c, p.flags.shared = false → instDiff (some c) user p = some (c ++ '_' :: user, true)) ∧
    (p.flags.shared = true → ∀ md5 gen u, polyName md5 gen none u p = .error PAM_IGNORE) ∧
    (p.flags.shared = false → ∀ md5 gen u, polyName md5 gen none u p = polyName md5 gen none u { p with method := .user }) := by
  unfold polyName instDiff
  rcases hm with hm | hm <;> (rw [hm]; refine ⟨?_, ?_, ?_, ?_⟩ <;> (intros; simp [*]))

/-- Names of more than 255 bytes are cut, so different users get the same instance. -/
theorem C113_cut_counterexample (md5 : Str → Str) (gen : Bool) (ctx : Option Str) (p : Poly) :
    polyName md5 gen ctx (List.replicate 255 'a' ++ "b".toList) p = polyName md5 gen ctx (List.replicate 255 'a' ++ "c".toList) p := by
  unfold polyName
  rw [show (List.replicate 255 'a' ++ "b".toList).take 255 = List.replicate 255 'a' from List.take_left' List.length_replicate,
    show (List.replicate 255 'a' ++ "c".toList).take 255 = List.replicate 255 'a' from List.take_left' List.length_replicate]

/-- A name of 80 bytes can be what a longer one is shortened to. -/
theorem C113_hash_counterexample (md5 : Str → Str) (hlen : ∀ s, (md5 s).length = 32) (u : Str) (hu : 80 < u.length) :
    hashed md5 false (u.take 47 ++ '_' :: md5 u) = hashed md5 false u := by
  have hl : (u.take 47 ++ '_' :: md5 u).length = 80 := by
    rw [List.length_append, List.length_take, List.length_cons, hlen]; omega
  rw [hashed_short (by omega), hashed_long hu, hlen]

/-- Contexts and users are joined by a character that both may contain. -/
theorem C113_context_counterexample : ∃ c1 u1 c2 u2 : Str, (c1, u1) ≠ (c2, u2) ∧ ∀ p : Poly, p.method = .context → p.flags.shared = false →
    instDiff (some c1) u1 p = instDiff (some c2) u2 p :=
  ⟨"u:r:tmp".toList, "t_ann".toList, "u:r:tmp_t".toList, "ann".toList, by decide, fun p h1 h2 => by unfold instDiff; rw [h1, h2]; rfl⟩

example : polyName (fun s => s) false none "ann".toList { demoPoly with pre := "/tmp-inst/x-".toList } = .ok ("/tmp-inst/".toList, "x-ann".toList) := by rfl

/-! ### the instance directory -/

/-- C115: a new instance gets owner, group and mode of the polyinstantiated directory; when something fails, none is left; one that exists is used as it is. -/
theorem C115_created_partial (ok : Call → Bool) (gid0 : Nat) (want : Attr) (dir : Option Attr) :
    ((createInstance ok gid0 want dir).1 = PAM_SUCCESS → dir = none ∧ (createInstance ok gid0 want dir).2.head? = some (some ⟨want.uid, want.gid, want.mode % 4096⟩)) ∧
    ((createInstance ok gid0 want dir).1 = PAM_SESSION_ERR → dir = none ∧ (createInstance ok gid0 want dir).2.head? = some none) ∧
    ((createInstance ok gid0 want dir).1 = PAM_IGNORE ↔ dir.isSome = true) ∧
    (∀ a, dir = some a → (createInstance ok gid0 want dir).2 = [some a]) ∧
    ((∀ c, ok c = true) → dir = none → (createInstance ok gid0 want dir).1 = PAM_SUCCESS) := by
  unfold createInstance
  cases dir with
  | some a => refine ⟨(by intro h; cases h), (by intro h; cases h), by simp, by simp, by simp⟩
  | none =>
    dsimp only
    have i1 : (PAM_SESSION_ERR : Int) ≠ PAM_IGNORE := by decide
    have i2 : (PAM_SESSION_ERR : Int) ≠ PAM_SUCCESS := by decide
    have i3 : (PAM_SUCCESS : Int) ≠ PAM_IGNORE := by decide
    have i4 : (PAM_SUCCESS : Int) ≠ PAM_SESSION_ERR := by decide
    by_cases h1 : ok .mkdir = true
    · rw [if_neg (by simp [h1])]
      by_cases h2 : ok .open_ = true ∧ ok .stat = true
      · rw [if_neg (by simp [h2])]
        by_cases h3 : 0 ≠ want.uid ∨ gid0 ≠ want.gid
        · rw [if_pos h3]
          by_cases h4 : ok .chown = true
          · rw [if_neg (by simp [h4])]
            by_cases h5 : ok .chmod = true
            · rw [if_neg (by simp [h5])]
              simp [i3, i4]
            · rw [if_pos (by simpa using h5)]
              simp [i1, i2]
              exact ⟨_, Bool.eq_false_iff.2 h5⟩
          · rw [if_pos (by simpa using h4)]
            simp [i1, i2]
            exact ⟨_, Bool.eq_false_iff.2 h4⟩
        · rw [if_neg h3]
          have h6 : 0 = want.uid := Classical.byContradiction fun x => h3 (.inl x)
          have h7 : gid0 = want.gid := Classical.byContradiction fun x => h3 (.inr x)
          by_cases h5 : ok .chmod = true
          · rw [if_neg (by simp [h5])]
            simp [i3, i4, h6, h7]
          · rw [if_pos (by simpa using h5)]
            simp [i1, i2]
            exact ⟨_, Bool.eq_false_iff.2 h5⟩
      · rw [if_pos (by
          by_cases hx : ok .open_ = true
          · exact .inr (fun y => h2 ⟨hx, y⟩)
          · exact .inl hx)]
        simp [i1, i2]
        by_cases hx : ok .open_ = true
        · exact ⟨_, Bool.eq_false_iff.2 (fun y => h2 ⟨hx, y⟩)⟩
        · exact ⟨_, Bool.eq_false_iff.2 hx⟩
    · rw [if_pos (by simpa using h1)]
      simp [i1, i2]
      exact ⟨_, Bool.eq_false_iff.2 h1⟩

/-- After a crash an instance may be left that belongs to root and has mode 0400; later sessions use it as it is. -/
theorem C115_crash_counterexample : ∃ left ∈ (createInstance (fun _ => true) 0 ⟨1000, 1000, 0o700⟩ none).2, left = some ⟨0, 0, 0o400⟩ ∧
    createInstance (fun _ => true) 0 ⟨1000, 1000, 0o700⟩ left = (PAM_IGNORE, [left]) := by
  exact ⟨some ⟨0, 0, 0o400⟩, by decide, rfl, rfl⟩

/-- C115 (the directory of the instances): it must belong to root and give no permission to anyone, unless that is to be ignored. -/
theorem C115_parent (ignore : Bool) (a : Option Attr) :
    checkParent ignore a = PAM_SUCCESS ↔ ignore = true ∨ ∃ b, a = some b ∧ b.uid = 0 ∧ b.mode % 0o1000 = 0 := by
  unfold checkParent
  cases ignore with
  | true => simp
  | false =>
    rw [if_neg (by simp)]
    cases a with
    | none => simp; decide
    | some b =>
      dsimp only
      split
      · rename_i h
        constructor
        · intro x; cases x
        · rintro (x | ⟨c, e, h1, h2⟩)
          · cases x
          · cases e; rcases h with h | h
            · exact absurd h2 h
            · exact absurd h1 h
      · rename_i h
        simp only [true_iff]
        right
        exact ⟨b, rfl, Classical.byContradiction fun x => h (.inr x), Classical.byContradiction fun x => h (.inl x)⟩

/-! ### the end -/

theorem orig_all {um : Str → Bool} {uid : Nat} {all : List Poly} : ∀ (ps : List Poly) (tr : List Fin), (∀ p ∈ ps, ForUser p uid → um p.dir = true) →
    origNamespace um uid all tr ps = tr ++ (ps.filter (fun p => ForUser p uid)).map (fun p => .umount p.dir) ++ (all.filter (·.method = .tmpdir)).map .removeTmp
  | [], tr, _ => by simp [origNamespace]
  | p :: ps, tr, h => by
    have ih := fun tr => orig_all (all := all) ps tr (fun q hq => h q (List.mem_cons_of_mem _ hq))
    rw [origNamespace]
    by_cases a : ForUser p uid
    · rw [if_neg (by rw [override_iff]; exact fun x => x a), if_pos (h p List.mem_cons_self a), ih, List.filter_cons, if_pos (decide_eq_true a)]
      simp
    · rw [if_pos ((override_iff p uid).2 a), ih, List.filter_cons, if_neg (by rw [decide_eq_true_eq]; exact a)]

/-- C116 (partial): with unmount_on_close all directories that are polyinstantiated for the user are unmounted, if that does not fail, and temporary instances are removed; the
code says that all went well.  Missing: that a failure is told, and that temporary instances are removed without the option. -/
theorem C116_close_partial {um : Str → Bool} {argv : List Str} {uid : Nat} {ps : List Poly} (ho : "unmount_on_close".toList ∈ argv) (hu : ∀ p ∈ ps, ForUser p uid → um p.dir = true) :
    closeSession um argv (.ok uid) (some ps) =
      (PAM_SUCCESS, (ps.filter (fun p => ForUser p uid)).map (fun p => .umount p.dir) ++ (ps.filter (·.method = .tmpdir)).map .removeTmp) := by
  unfold closeSession
  rw [if_neg (fun h => h ho)]
  dsimp only
  rw [orig_all ps [] hu]
  rfl

/-- Without the option nothing is done: temporary instances stay, against namespace.conf(5). -/
theorem C116_tmpdir_counterexample (um : Str → Bool) (user : Except Int Nat) (data : Option (List Poly)) : closeSession um [] user data = (PAM_SUCCESS, []) := rfl

/-- One directory that cannot be unmounted, like a shared one that was passed over when the session was opened: all after it stay mounted, temporary instances stay, and
the code says that all went well. -/
theorem C116_failure_counterexample : ∃ (um : Str → Bool) (ps : List Poly), (∃ p ∈ ps, um p.dir = true ∧ p.method = .tmpdir ∧ ForUser p 1000) ∧
    closeSession um ["unmount_on_close".toList] (.ok 1000) (some ps) = (PAM_SUCCESS, []) :=
  ⟨fun d => d = "/tmp".toList, [{ Poly.zero .level with dir := "/var/tmp".toList, uids := [1000], flags := ⟨true, false, false, true, false, false⟩ },
    { demoPoly with method := .tmpdir }], ⟨{ demoPoly with method := .tmpdir }, by simp, by decide, rfl, by decide⟩, by decide⟩

example : closeSession (fun _ => true) ["unmount_on_close".toList] (.ok 1000) (some [{ demoPoly with method := .tmpdir }]) =
    (PAM_SUCCESS, [.umount "/tmp".toList, .removeTmp { demoPoly with method := .tmpdir }]) := by decide

end Pam.Namespace
