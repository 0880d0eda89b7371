import Verif.Session.Keyinit
/-
C133 to C136: pam_keyinit.
-/
namespace Pam.Session
open Pam

namespace Spec

/-- the keyring a thread has, with its owner, after some requests to the kernel: the one joined last and not revoked since -/
def live : Option (Nat × Nat × Nat) → List KOp → Option (Nat × Nat × Nat)
  | cur, [] => cur
  | _, .join i u g :: r => live (some (i, u, g)) r
  | cur, .link :: r => live cur r
  | _, .revoke _ _ _ :: r => live none r

/-- the requests of a thread make sense: a keyring is made only when there is none, what is linked is there, and what is revoked is the thread's own keyring, with
the ids of its owner -/
def Orderly : Option (Nat × Nat × Nat) → List KOp → Prop
  | _, [] => True
  | cur, .join i u g :: r => cur = none ∧ Orderly (some (i, u, g)) r
  | cur, .link :: r => cur ≠ none ∧ Orderly cur r
  | cur, .revoke i u g :: r => cur = some (i, u, g) ∧ Orderly none r

/-- the requests of one thread -/
def opsOf (tid : Nat) : List Event → List KOp
  | [] => []
  | e :: r => if e.tid = tid then e.ops ++ opsOf tid r else opsOf tid r

/-- the call has this argument -/
def Asks (a : String) : KCall → Prop
  | .establish argv => a.toList ∈ argv
  | .opening argv => a.toList ∈ argv
  | _ => False

/-- the sessions opened, less those closed, in all threads -/
def sessions : List Event → Int
  | [] => 0
  | e :: r => (match e.call with | .opening _ => 1 | .closing => -1 | _ => 0) + sessions r

/-- the call makes a keyring: it establishes credentials or opens a session -/
def Begins : KCall → Prop
  | .establish _ => True
  | .opening _ => True
  | _ => False

end Spec
open Spec

/-- what a thread keeps agrees with what it has asked of the kernel -/
def Agrees (t : Thread) (cur : Option (Nat × Nat × Nat)) : Prop :=
  (t.keyring = 0 ∧ cur = none) ∨ (t.keyring > 0 ∧ cur = some (t.keyring, t.asUid, t.asGid))

theorem live_append : ∀ (a b : List KOp) (cur), live cur (a ++ b) = live (live cur a) b
  | [], _, _ => rfl
  | .join _ _ _ :: a, b, _ => live_append a b _
  | .link :: a, b, _ => live_append a b _
  | .revoke _ _ _ :: a, b, _ => live_append a b _

theorem orderly_append : ∀ (a b : List KOp) (cur), Orderly cur (a ++ b) ↔ Orderly cur a ∧ Orderly (live cur a) b
  | [], _, _ => by simp [Orderly, live]
  | .join _ _ _ :: a, b, _ => by simp only [List.cons_append, Orderly, live, orderly_append a b, and_assoc]
  | .link :: a, b, _ => by simp only [List.cons_append, Orderly, live, orderly_append a b, and_assoc]
  | .revoke _ _ _ :: a, b, _ => by simp only [List.cons_append, Orderly, live, orderly_append a b, and_assoc]

/-- the result of `init_keyrings`, outright -/
theorem initKeyrings_cases (s : Sys) (force : Bool) (err : Int) (t : Thread) :
    (∃ r, initKeyrings s force err t = (r, t, []) ∧
      (r = err ∨ (r = PAM_SUCCESS ∧ force = false ∧ ((s.session = none ∧ s.nosys = true) ∨ (∃ a b, s.session = some a ∧ s.usession = some b ∧ a ≠ b))))) ∨
    (∃ id, s.join = some id ∧ initKeyrings s force err t =
      (if s.link then PAM_SUCCESS else err, { t with keyring := id }, [.join id t.cred.ruid t.cred.rgid, .link])) := by
  unfold initKeyrings
  cases hj : s.join <;> cases hs : s.session <;> cases hu : s.usession <;> cases force <;> cases hn : s.nosys <;> simp <;>
    (rename_i a b; by_cases h : a = b <;> simp [h])

/-- what is known of one call of `do_keyinit` or of its second half -/
structure InitResult (s : Sys) (force : Bool) (err : Int) (uid gid : Nat) (old : Thread) (res : Int × Thread × List KOp) : Prop where
  doRevoke : res.2.1.doRevoke = old.doRevoke
  back : s.backUid = true → s.backGid = true → res.2.1.cred = old.cred
  lost : err ≠ PAM_SUCCESS → res.2.1.cred ≠ old.cred → res.1 ≠ PAM_SUCCESS
  ops : (res.2.2 = [] ∧ res.2.1.keyring = 0 ∧ (err ≠ PAM_SUCCESS → res.1 = PAM_SUCCESS → force = false ∧
          ((s.session = none ∧ s.nosys = true) ∨ (∃ a b, s.session = some a ∧ s.usession = some b ∧ a ≠ b)))) ∨
       (∃ id, s.join = some id ∧ id > 0 ∧ res.2.2 = [.join id uid gid, .link] ∧
          res.2.1.keyring = id ∧ res.2.1.asUid = uid ∧ res.2.1.asGid = gid ∧ (err ≠ PAM_SUCCESS → res.1 = PAM_SUCCESS → s.link = true))

theorem cred_eta (c : Cred) : ({ ruid := c.ruid, euid := c.euid, rgid := c.rgid, egid := c.egid } : Cred) = c := rfl

theorem initAs_result (s : Sys) (force : Bool) (err : Int) (uid gid : Nat) (t : Thread) (hk : t.keyring = 0) (hu : t.asUid = uid) (hg : t.asGid = gid)
    (hj : s.join ≠ some 0) :
    InitResult s force err uid gid t
      (initAs s force err t.cred uid gid (if gid ≠ t.cred.rgid then { t with cred := { t.cred with rgid := gid } } else t)) := by
  obtain ⟨k, d, au, ag, ⟨ru, eu, rg, eg⟩⟩ := t
  dsimp only at hk hu hg ⊢
  subst hk hu hg
  unfold initAs
  by_cases h1 : au ≠ ru ∧ s.setUid = false
  · rw [if_pos h1]
    by_cases hgid : ag = rg
    · subst hgid
      refine ⟨?_, ?_, ?_, Or.inl ⟨rfl, ?_, ?_⟩⟩ <;> cases s.backGid <;> simp
      all_goals (intro h h2; exact absurd h2 h)
    · rw [if_pos hgid]
      refine ⟨?_, ?_, ?_, Or.inl ⟨rfl, ?_, ?_⟩⟩ <;> cases s.backGid <;> simp
      all_goals (intro h; first | (intro h2; exact absurd h2 h) | exact fun _ => h)
  · rw [if_neg h1]
    have hcred : (if au ≠ ru then ({ (if ag ≠ rg then ({ keyring := 0, doRevoke := d, asUid := au, asGid := ag, cred := { ruid := ru, euid := eu, rgid := ag, egid := eg } } : Thread)
        else { keyring := 0, doRevoke := d, asUid := au, asGid := ag, cred := { ruid := ru, euid := eu, rgid := rg, egid := eg } }) with
        cred := { (if ag ≠ rg then ({ keyring := 0, doRevoke := d, asUid := au, asGid := ag, cred := { ruid := ru, euid := eu, rgid := ag, egid := eg } } : Thread)
        else { keyring := 0, doRevoke := d, asUid := au, asGid := ag, cred := { ruid := ru, euid := eu, rgid := rg, egid := eg } }).cred with ruid := au } } : Thread)
        else (if ag ≠ rg then ({ keyring := 0, doRevoke := d, asUid := au, asGid := ag, cred := { ruid := ru, euid := eu, rgid := ag, egid := eg } } : Thread)
        else { keyring := 0, doRevoke := d, asUid := au, asGid := ag, cred := { ruid := ru, euid := eu, rgid := rg, egid := eg } })) =
        { keyring := 0, doRevoke := d, asUid := au, asGid := ag, cred := { ruid := au, euid := eu, rgid := ag, egid := eg } } := by
      by_cases ha : au = ru <;> by_cases hb : ag = rg <;> simp [ha, hb]
    dsimp only at hcred ⊢
    rw [hcred]
    rcases initKeyrings_cases s force err { keyring := 0, doRevoke := d, asUid := au, asGid := ag, cred := { ruid := au, euid := eu, rgid := ag, egid := eg } }
      with ⟨r, h, hr⟩ | ⟨id, hid, h⟩
    · rw [h]
      dsimp only
      refine ⟨rfl, ?_, ?_, Or.inl ⟨rfl, rfl, ?_⟩⟩
      · intro ha hb
        by_cases h2 : au = ru <;> by_cases h3 : ag = rg <;> simp [ha, hb, h2, h3]
      · intro he
        by_cases h2 : au = ru <;> by_cases h3 : ag = rg <;> cases s.backUid <;> cases s.backGid <;> simp [h2, h3, he]
      · intro he h4
        have : r = PAM_SUCCESS := by
          revert h4
          by_cases h2 : au = ru <;> by_cases h3 : ag = rg <;> cases s.backUid <;> cases s.backGid <;> simp [h2, h3, he]
        rcases hr with hr | ⟨_, hf, hx⟩
        · exact absurd (hr ▸ this) he
        · exact ⟨hf, hx⟩
    · rw [h]
      dsimp only
      refine ⟨rfl, ?_, ?_, Or.inr ⟨id, hid, ?_, rfl, rfl, rfl, rfl, ?_⟩⟩
      · intro ha hb
        by_cases h2 : au = ru <;> by_cases h3 : ag = rg <;> simp [ha, hb, h2, h3]
      · intro he
        by_cases h2 : au = ru <;> by_cases h3 : ag = rg <;> cases s.backUid <;> cases s.backGid <;> simp [h2, h3, he]
      · rcases Nat.eq_zero_or_pos id with h0 | h0
        · exact absurd (h0 ▸ hid) hj
        · exact h0
      · intro he h4
        revert h4
        by_cases h2 : au = ru <;> by_cases h3 : ag = rg <;> cases s.backUid <;> cases s.backGid <;> cases s.link <;> simp [h2, h3, he]

/-- `do_keyinit`, outright -/
theorem doKeyinit_cases (s : Sys) (argv : List Str) (err : Int) (t : Thread) (hj : s.join ≠ some 0) :
    ∃ r t' ops, doKeyinit s argv err t = (r, t', ops) ∧
      t'.doRevoke = (t.doRevoke || decide ("revoke".toList ∈ argv)) ∧
      (s.backUid = true → s.backGid = true → t'.cred = t.cred) ∧
      (err ≠ PAM_SUCCESS → t'.cred ≠ t.cred → r ≠ PAM_SUCCESS) ∧
      ((t.keyring > 0 ∧ ops = [] ∧ r = PAM_SUCCESS ∧ t'.keyring = t.keyring ∧ t'.asUid = t.asUid ∧ t'.asGid = t.asGid) ∨
       (t.keyring = 0 ∧ ops = [] ∧ t'.keyring = 0 ∧ (err ≠ PAM_SUCCESS → r = PAM_SUCCESS → "force".toList ∉ argv ∧
          ((s.session = none ∧ s.nosys = true) ∨ (∃ a b, s.session = some a ∧ s.usession = some b ∧ a ≠ b)))) ∨
       (t.keyring = 0 ∧ ∃ id uid gid, s.pw = some (uid, gid) ∧ s.join = some id ∧ id > 0 ∧ ops = [.join id uid gid, .link] ∧
          t'.keyring = id ∧ t'.asUid = uid ∧ t'.asGid = gid ∧ (err ≠ PAM_SUCCESS → r = PAM_SUCCESS → s.link = true))) := by
  unfold doKeyinit
  generalize ht : (if "revoke".toList ∈ argv then { t with doRevoke := true } else t) = t1
  have hd : t1.doRevoke = (t.doRevoke || decide ("revoke".toList ∈ argv)) := by
    rw [← ht]; by_cases h : "revoke".toList ∈ argv
    · rw [if_pos h, decide_eq_true h]; simp
    · rw [if_neg h, decide_eq_false h]; simp
  have hk : t1.keyring = t.keyring ∧ t1.asUid = t.asUid ∧ t1.asGid = t.asGid ∧ t1.cred = t.cred := by
    rw [← ht]; by_cases h : "revoke".toList ∈ argv
    · rw [if_pos h]; exact ⟨rfl, rfl, rfl, rfl⟩
    · rw [if_neg h]; exact ⟨rfl, rfl, rfl, rfl⟩
  obtain ⟨hk, hu, hg, hc⟩ := hk
  dsimp only
  by_cases h0 : t1.keyring > 0
  · rw [if_pos h0]
    exact ⟨_, _, _, rfl, hd, fun _ _ => hc, fun _ h => absurd hc h, Or.inl ⟨hk ▸ h0, rfl, rfl, hk, hu, hg⟩⟩
  · rw [if_neg h0]
    have h0' : t1.keyring = 0 := by omega
    have h0t : t.keyring = 0 := by omega
    by_cases hgu : s.getUser ≠ PAM_SUCCESS
    · rw [if_pos hgu]
      exact ⟨_, _, _, rfl, hd, fun _ _ => hc, fun _ h => absurd hc h, Or.inr (Or.inl ⟨h0t, rfl, h0', fun _ h => absurd h hgu⟩)⟩
    · rw [if_neg hgu]
      cases hp : s.pw with
      | none =>
        exact ⟨_, _, _, rfl, hd, fun _ _ => hc, fun _ h => absurd hc h, Or.inr (Or.inl ⟨h0t, rfl, h0', fun _ h => by cases h⟩)⟩
      | some q =>
        obtain ⟨uid, gid⟩ := q
        dsimp only
        by_cases hsg : gid ≠ t1.cred.rgid ∧ s.setGid = false
        · rw [if_pos hsg]
          exact ⟨_, _, _, rfl, hd, fun _ _ => hc, fun _ h => absurd hc h, Or.inr (Or.inl ⟨h0t, rfl, h0', fun h1 h2 => absurd h2 h1⟩)⟩
        · rw [if_neg hsg]
          have R := initAs_result s (decide ("force".toList ∈ argv)) err uid gid { t1 with asUid := uid, asGid := gid } h0' rfl rfl hj
          dsimp only at R
          refine ⟨_, _, _, rfl, R.doRevoke.trans hd, fun a b => (R.back a b).trans hc, fun a b => R.lost a (fun e => b (e.trans hc)), ?_⟩
          rcases R.ops with ⟨ho, hk', hx⟩ | ⟨id, h1, h2, h3, h4, h5, h6, h7⟩
          · refine Or.inr (Or.inl ⟨h0t, ho, hk', fun a b => ?_⟩)
            obtain ⟨hf, hy⟩ := hx a b
            exact ⟨of_decide_eq_false hf, hy⟩
          · exact Or.inr (Or.inr ⟨h0t, id, uid, gid, rfl, h1, h2, h3, h4, h5, h6, h7⟩)

/-- `kill_keyrings`, outright -/
theorem killKeyrings_cases (s : Sys) (err : Int) (t : Thread) (h0 : t.keyring > 0) :
    ∃ r t' ops, killKeyrings s err t = (r, t', ops) ∧ t'.doRevoke = t.doRevoke ∧ t'.asUid = t.asUid ∧ t'.asGid = t.asGid ∧
      (s.backUid = true → s.backGid = true → t'.cred = t.cred) ∧
      (err ≠ PAM_SUCCESS → t'.cred ≠ t.cred → r ≠ PAM_SUCCESS) ∧
      ((ops = [] ∧ t'.keyring = t.keyring ∧ (s.setGid = false ∨ s.setUid = false) ∧ r = err) ∨
       (ops = [.revoke t.keyring t.asUid t.asGid] ∧ t'.keyring = 0 ∧ (err ≠ PAM_SUCCESS → r = PAM_SUCCESS → s.revoke = true))) := by
  obtain ⟨k, d, au, ag, ⟨ru, eu, rg, eg⟩⟩ := t
  dsimp only at h0 ⊢
  unfold killKeyrings
  rw [if_neg (by dsimp only; omega)]
  by_cases h1 : ag ≠ eg ∧ s.setGid = false
  · rw [if_pos h1]
    exact ⟨_, _, _, rfl, rfl, rfl, rfl, fun _ _ => rfl, fun _ h => absurd rfl h, Or.inl ⟨rfl, rfl, Or.inl h1.2, rfl⟩⟩
  · rw [if_neg h1]
    have hcred : (if ag ≠ eg then ({ keyring := k, doRevoke := d, asUid := au, asGid := ag, cred := { ruid := ru, euid := eu, rgid := rg, egid := ag } } : Thread)
        else { keyring := k, doRevoke := d, asUid := au, asGid := ag, cred := { ruid := ru, euid := eu, rgid := rg, egid := eg } }) =
        { keyring := k, doRevoke := d, asUid := au, asGid := ag, cred := { ruid := ru, euid := eu, rgid := rg, egid := ag } } := by
      by_cases hb : ag = eg <;> simp [hb]
    dsimp only at hcred ⊢
    rw [hcred]
    unfold killAs
    dsimp only
    by_cases h2 : au ≠ eu ∧ s.setUid = false
    · rw [if_pos h2]
      refine ⟨_, _, _, rfl, ?_, ?_, ?_, ?_, ?_, Or.inl ⟨rfl, ?_, Or.inr h2.2, rfl⟩⟩ <;> by_cases hb : ag = eg <;> cases s.backGid <;> simp [hb]
    · rw [if_neg h2]
      refine ⟨_, _, _, rfl, rfl, rfl, rfl, ?_, ?_, Or.inr ⟨?_, rfl, ?_⟩⟩
      · intro ha hb
        by_cases h3 : au = eu <;> by_cases h4 : ag = eg <;> simp [ha, hb, h3, h4]
      · intro he
        by_cases h3 : au = eu <;> by_cases h4 : ag = eg <;> cases s.backUid <;> cases s.backGid <;> simp [h3, h4, he]
      · by_cases h3 : au = eu <;> simp [h3]
      · intro he
        by_cases h3 : au = eu <;> by_cases h4 : ag = eg <;> cases s.backUid <;> cases s.backGid <;> cases s.revoke <;> simp [h3, h4, he]

/-- one call: the requests are in order, and what the thread keeps agrees with them -/
theorem kcall_step (s : Sys) (n : Int) (t : Thread) (c : KCall) (cur) (hj : s.join ≠ some 0) (ha : Agrees t cur) :
    ∃ r n' t' ops, kcall s n t c = (r, n', t', ops) ∧
      Orderly cur ops ∧ Agrees t' (live cur ops) ∧ (t'.doRevoke = true ↔ t.doRevoke = true ∨ Asks "revoke" c) ∧
      n' = n + (match c with | .opening _ => 1 | .closing => -1 | _ => 0) ∧
      (s.backUid = true → s.backGid = true → t'.cred = t.cred) := by
  have hinit : ∀ argv err r t' ops, doKeyinit s argv err t = (r, t', ops) →
      Orderly cur ops ∧ Agrees t' (live cur ops) ∧ (t'.doRevoke = true ↔ t.doRevoke = true ∨ "revoke".toList ∈ argv) ∧
      (s.backUid = true → s.backGid = true → t'.cred = t.cred) := by
    intro argv err r t' ops h
    obtain ⟨r2, t2, ops2, h2, hd, hb, _, hc⟩ := doKeyinit_cases s argv err t hj
    rw [h] at h2; cases h2
    have hd' : t'.doRevoke = true ↔ t.doRevoke = true ∨ "revoke".toList ∈ argv := by
      rw [hd, Bool.or_eq_true, decide_eq_true_eq]
    rcases hc with ⟨hk, ho, _, e1, e2, e3⟩ | ⟨hk, ho, hk', _⟩ | ⟨hk, id, uid, gid, hp, hjn, hid, ho, e1, e2, e3, _⟩
    · subst ho
      refine ⟨trivial, ?_, hd', hb⟩
      rcases ha with ⟨h1, h2⟩ | ⟨h1, h2⟩
      · omega
      · right; exact ⟨by omega, by rw [live, h2, e1, e2, e3]⟩
    · subst ho
      refine ⟨trivial, ?_, hd', hb⟩
      rcases ha with ⟨h1, h2⟩ | ⟨h1, h2⟩
      · left; exact ⟨hk', h2⟩
      · omega
    · subst ho
      rcases ha with ⟨h1, h2⟩ | ⟨h1, h2⟩
      · refine ⟨⟨h2, by simp, trivial⟩, ?_, hd', hb⟩
        right; exact ⟨by omega, by simp only [live, e1, e2, e3]⟩
      · omega
  have hkill : ∀ err r t' ops, t.keyring > 0 → killKeyrings s err t = (r, t', ops) →
      Orderly cur ops ∧ Agrees t' (live cur ops) ∧ t'.doRevoke = t.doRevoke ∧
      (s.backUid = true → s.backGid = true → t'.cred = t.cred) := by
    intro err r t' ops hk h
    obtain ⟨r2, t2, ops2, h2, hd, e2, e3, hb, _, hc⟩ := killKeyrings_cases s err t hk
    rw [h] at h2; cases h2
    have h2 : cur = some (t.keyring, t.asUid, t.asGid) := by
      rcases ha with ⟨h1, h2⟩ | ⟨h1, h2⟩
      · omega
      · exact h2
    rcases hc with ⟨ho, hk', _⟩ | ⟨ho, hk', _⟩
    · subst ho
      exact ⟨trivial, Or.inr ⟨by omega, by rw [live, h2, hk', e2, e3]⟩, hd, hb⟩
    · subst ho
      exact ⟨⟨h2, trivial⟩, Or.inl ⟨hk', rfl⟩, hd, hb⟩
  have idle : Orderly cur [] ∧ Agrees t (live cur []) := ⟨trivial, ha⟩
  cases c with
  | establish argv =>
    obtain ⟨⟨r, t', ops⟩, h⟩ : ∃ x, doKeyinit s argv PAM_CRED_ERR t = x := ⟨_, rfl⟩
    obtain ⟨h1, h2, h3, h4⟩ := hinit _ _ _ _ _ h
    exact ⟨r, n, t', ops, by simp only [kcall, h], h1, h2, h3, by simp, h4⟩
  | refresh => exact ⟨_, _, _, _, rfl, idle.1, idle.2, by simp [Asks], by simp, fun _ _ => rfl⟩
  | opening argv =>
    obtain ⟨⟨r, t', ops⟩, h⟩ : ∃ x, doKeyinit s argv PAM_SESSION_ERR t = x := ⟨_, rfl⟩
    obtain ⟨h1, h2, h3, h4⟩ := hinit _ _ _ _ _ h
    exact ⟨r, n + 1, t', ops, by simp only [kcall, h], h1, h2, h3, by simp, h4⟩
  | delete =>
    by_cases hc : t.keyring > 0 ∧ t.doRevoke = true
    · obtain ⟨⟨r, t', ops⟩, h⟩ : ∃ x, killKeyrings s PAM_CRED_ERR t = x := ⟨_, rfl⟩
      obtain ⟨h1, h2, h3, h4⟩ := hkill _ _ _ _ hc.1 h
      exact ⟨r, n, t', ops, by simp only [kcall, h]; rw [if_pos hc], h1, h2, by simp [h3, Asks], by simp, h4⟩
    · exact ⟨_, n, t, [], by simp only [kcall]; rw [if_neg hc], idle.1, idle.2, by simp [Asks], by simp, fun _ _ => rfl⟩
  | closing =>
    by_cases hc : n - 1 ≤ 0 ∧ t.keyring > 0 ∧ t.doRevoke = true
    · obtain ⟨⟨r, t', ops⟩, h⟩ : ∃ x, killKeyrings s PAM_SESSION_ERR t = x := ⟨_, rfl⟩
      obtain ⟨h1, h2, h3, h4⟩ := hkill _ _ _ _ hc.2.1 h
      exact ⟨PAM_SUCCESS, n - 1, t', ops, by simp only [kcall, h]; rw [if_pos hc], h1, h2, by simp [h3, Asks], by simp; omega, h4⟩
    · exact ⟨_, n - 1, t, [], by simp only [kcall]; rw [if_neg hc], idle.1, idle.2, by simp [Asks], by simp; omega, fun _ _ => rfl⟩

/-- every event of a history is a call made in a process that agrees with the events before -/
theorem history_split : ∀ (calls : List (Nat × KCall × Sys)) (p : Process) (cur : Nat → Option (Nat × Nat × Nat)) (asked : Nat → Prop) (pre : List Event) (e post),
    (∀ c ∈ calls, c.2.2.join ≠ some 0) → (∀ k, Agrees (p.threads k) (cur k)) → (∀ k, (p.threads k).doRevoke = true ↔ asked k) →
    history p calls = pre ++ e :: post →
    ∃ p' : Process, p'.counter = p.counter + sessions pre ∧ (∀ k, Agrees (p'.threads k) (live (cur k) (opsOf k pre))) ∧
      (∀ k, (p'.threads k).doRevoke = true ↔ asked k ∨ ∃ e ∈ pre, e.tid = k ∧ Asks "revoke" e.call) ∧
      e.sys.join ≠ some 0 ∧ e.before = (p'.threads e.tid).cred ∧
      ∃ n t, kcall e.sys p'.counter (p'.threads e.tid) e.call = (e.ret, n, t, e.ops) ∧ e.after = t.cred
  | [], _, _, _, pre, _, _, _, _, _, h => by cases pre <;> cases h
  | (tid, c, s) :: r, p, cur, asked, pre, e, post, hj, ha, hd, h => by
    obtain ⟨ret, n, t, ops, hk, h1, h2, h3, h4, h5⟩ := kcall_step s p.counter (p.threads tid) c (cur tid) (hj (tid, c, s) List.mem_cons_self) (ha tid)
    rw [history] at h
    simp only [hk] at h
    cases pre with
    | nil =>
      rw [List.nil_append, List.cons.injEq] at h
      obtain ⟨rfl, _⟩ := h
      exact ⟨p, by simp [sessions], fun k => ha k, fun k => by simp [hd k], hj (tid, c, s) List.mem_cons_self, rfl, n, t, hk, rfl⟩
    | cons e0 pre =>
      rw [List.cons_append, List.cons.injEq] at h
      obtain ⟨rfl, h⟩ := h
      have ih := history_split r { counter := n, threads := fun k => if k = tid then t else p.threads k }
        (fun k => if k = tid then live (cur tid) ops else cur k) (fun k => asked k ∨ (k = tid ∧ Asks "revoke" c)) pre e post
        (fun x hx => hj x (by simp [hx]))
        (fun k => by
          by_cases hk : k = tid
          · simp only [hk, if_true]; exact h2
          · simp only [if_neg hk]; exact ha k)
        (fun k => by
          by_cases hk : k = tid
          · subst hk; simp only [if_true, true_and]; rw [h3, hd]
          · simp only [if_neg hk, hk, false_and, or_false]; exact hd k) h
      obtain ⟨p', i1, i2, i3, i4⟩ := ih
      refine ⟨p', ?_, ?_, ?_, i4⟩
      · rw [i1, sessions]; dsimp only; omega
      · intro k
        have := i2 k
        rw [opsOf]
        by_cases hk : k = tid
        · subst hk; simp only [if_true] at this ⊢
          rw [live_append]; exact this
        · simp only [if_neg hk] at this
          rw [if_neg (fun e => hk e.symm)]; exact this
      · intro k
        rw [i3 k]
        constructor
        · rintro ((hq | ⟨hq, hq'⟩) | ⟨x, hx, hq⟩)
          · exact Or.inl hq
          · exact Or.inr ⟨_, List.mem_cons_self, hq.symm, hq'⟩
          · exact Or.inr ⟨x, List.mem_cons_of_mem _ hx, hq⟩
        · rintro (h | ⟨x, hx, h⟩)
          · exact Or.inl (Or.inl h)
          · rcases List.mem_cons.mp hx with rfl | hx
            · exact Or.inl (Or.inr ⟨h.1.symm, h.2⟩)
            · exact Or.inr ⟨x, hx, h⟩

/-- the same from the start of a process -/
theorem history_at {cred calls pre e post} (hj : ∀ c ∈ calls, c.2.2.join ≠ some 0) (h : history (start cred) calls = pre ++ e :: post) :
    ∃ p' : Process, p'.counter = sessions pre ∧ (∀ k, Agrees (p'.threads k) (live none (opsOf k pre))) ∧
      (∀ k, (p'.threads k).doRevoke = true ↔ ∃ e ∈ pre, e.tid = k ∧ Asks "revoke" e.call) ∧
      e.sys.join ≠ some 0 ∧ e.before = (p'.threads e.tid).cred ∧
      ∃ n t, kcall e.sys p'.counter (p'.threads e.tid) e.call = (e.ret, n, t, e.ops) ∧ e.after = t.cred := by
  obtain ⟨p', h1, h2, h3, h4⟩ := history_split calls (start cred) (fun _ => none) (fun _ => False) pre e post hj
    (fun _ => Or.inl ⟨rfl, rfl⟩) (fun _ => by simp [start]) h
  exact ⟨p', by rw [h1]; simp [start], h2, fun k => by simpa using h3 k, h4⟩

theorem history_orderly : ∀ (calls : List (Nat × KCall × Sys)) (p : Process) (cur : Nat → Option (Nat × Nat × Nat)),
    (∀ c ∈ calls, c.2.2.join ≠ some 0) → (∀ k, Agrees (p.threads k) (cur k)) → ∀ k, Orderly (cur k) (opsOf k (history p calls))
  | [], _, _, _, _, _ => trivial
  | (tid, c, s) :: r, p, cur, hj, ha, k => by
    obtain ⟨ret, n, t, ops, hk, h1, h2, h3, h4, h5⟩ := kcall_step s p.counter (p.threads tid) c (cur tid) (hj (tid, c, s) List.mem_cons_self) (ha tid)
    rw [history]
    simp only [hk, opsOf]
    have ih := history_orderly r { counter := n, threads := fun k => if k = tid then t else p.threads k }
        (fun k => if k = tid then live (cur tid) ops else cur k)
        (fun x hx => hj x (by simp [hx]))
        (fun k => by
          by_cases hk : k = tid
          · simp only [hk, if_true]; exact h2
          · simp only [if_neg hk]; exact ha k) k
    by_cases hk : k = tid
    · subst hk
      simp only [if_true] at ih ⊢
      exact (orderly_append _ _ _).mpr ⟨h1, ih⟩
    · rw [if_neg (fun e => hk e.symm)]
      simp only [if_neg hk] at ih
      exact ih

/-- C133, one keyring at a time: whatever calls the threads of a process make, for whatever users, and whatever fails, a thread makes a keyring only when it has
none, and what it revokes is the keyring it made last, once, with the ids of the owner of that keyring. -/
theorem C133_orderly (cred : Nat → Cred) (calls : List (Nat × KCall × Sys)) (hj : ∀ c ∈ calls, c.2.2.join ≠ some 0) (tid : Nat) :
    Orderly none (opsOf tid (history (start cred) calls)) :=
  history_orderly calls (start cred) (fun _ => none) hj (fun _ => Or.inl ⟨rfl, rfl⟩) tid

/-- the calls of `kcall` that revoke -/
theorem kcall_revokes {s : Sys} {n : Int} {t : Thread} {c : KCall} {r n' t' ops i u g} (hj : s.join ≠ some 0)
    (h : kcall s n t c = (r, n', t', ops)) (hr : KOp.revoke i u g ∈ ops) :
    t.doRevoke = true ∧ (c = .delete ∨ (c = .closing ∧ n - 1 ≤ 0)) := by
  have none_of : ∀ argv err r t' ops, doKeyinit s argv err t = (r, t', ops) → KOp.revoke i u g ∉ ops := by
    intro argv err r t' ops h
    obtain ⟨r2, t2, ops2, h2, _, _, _, hc⟩ := doKeyinit_cases s argv err t hj
    rw [h] at h2; cases h2
    rcases hc with ⟨_, ho, _⟩ | ⟨_, ho, _⟩ | ⟨_, id, uid, gid, _, _, _, ho, _⟩ <;> subst ho <;> simp
  cases c with
  | establish argv =>
    obtain ⟨⟨a, b, d⟩, hx⟩ : ∃ x, doKeyinit s argv PAM_CRED_ERR t = x := ⟨_, rfl⟩
    simp only [kcall, hx] at h; cases h
    exact absurd hr (none_of _ _ _ _ _ hx)
  | opening argv =>
    obtain ⟨⟨a, b, d⟩, hx⟩ : ∃ x, doKeyinit s argv PAM_SESSION_ERR t = x := ⟨_, rfl⟩
    simp only [kcall, hx] at h; cases h
    exact absurd hr (none_of _ _ _ _ _ hx)
  | refresh => simp only [kcall] at h; cases h; cases hr
  | delete =>
    by_cases hc : t.keyring > 0 ∧ t.doRevoke = true
    · exact ⟨hc.2, Or.inl rfl⟩
    · simp only [kcall] at h; rw [if_neg hc] at h; cases h; cases hr
  | closing =>
    by_cases hc : n - 1 ≤ 0 ∧ t.keyring > 0 ∧ t.doRevoke = true
    · exact ⟨hc.2.2, Or.inr ⟨rfl, hc.1⟩⟩
    · simp only [kcall] at h; rw [if_neg hc] at h; cases h; cases hr

/-- C134, revoking: in every history a keyring is revoked only when the thread was asked to revoke, by the argument "revoke" of an earlier call, and only when
credentials are deleted or a session is closed that leaves none open in the process. -/
theorem C134_only_partial (cred : Nat → Cred) (calls : List (Nat × KCall × Sys)) (hj : ∀ c ∈ calls, c.2.2.join ≠ some 0) (pre : List Event) (e : Event)
    (post : List Event) (h : history (start cred) calls = pre ++ e :: post) (i u g : Nat) (hr : KOp.revoke i u g ∈ e.ops) :
    (∃ a ∈ pre, a.tid = e.tid ∧ Asks "revoke" a.call) ∧ (e.call = .delete ∨ (e.call = .closing ∧ sessions (pre ++ [e]) ≤ 0)) := by
  obtain ⟨p, h1, h2, h3, h4, _, n, t, hk, _⟩ := history_at hj h
  obtain ⟨ha, hc⟩ := kcall_revokes h4 hk hr
  refine ⟨(h3 _).mp ha, ?_⟩
  rcases hc with hc | ⟨hc, hn⟩
  · exact Or.inl hc
  · right
    refine ⟨hc, ?_⟩
    have : ∀ l : List Event, sessions (l ++ [e]) = sessions l - 1 := by
      intro l
      induction l with
      | nil => simp [sessions, hc]
      | cons a l ih => rw [List.cons_append, sessions, sessions, ih]; omega
    rw [this, ← h1]; exact hn

/-- C134, revoking: and it is revoked then: when a thread that was asked to revoke has a keyring, and it closes a session that leaves none open in the process, or
deletes credentials, and can take the ids of the owner, it revokes that keyring, and nothing else is asked of the kernel. -/
theorem C134_then_partial (cred : Nat → Cred) (calls : List (Nat × KCall × Sys)) (hj : ∀ c ∈ calls, c.2.2.join ≠ some 0) (pre : List Event) (e : Event)
    (post : List Event) (h : history (start cred) calls = pre ++ e :: post) (i u g : Nat) (hl : live none (opsOf e.tid pre) = some (i, u, g))
    (ha : ∃ a ∈ pre, a.tid = e.tid ∧ Asks "revoke" a.call) (hc : e.call = .delete ∨ (e.call = .closing ∧ sessions pre ≤ 1))
    (hg : e.sys.setGid = true) (hu : e.sys.setUid = true) :
    e.ops = [.revoke i u g] ∧ (e.call = .delete → e.ret = PAM_SUCCESS → e.sys.revoke = true) := by
  obtain ⟨p, h1, h2, h3, h4, _, n, t, hk, _⟩ := history_at hj h
  have hd := (h3 e.tid).mpr ha
  have hag := h2 e.tid
  rw [hl] at hag
  rcases hag with ⟨_, hx⟩ | ⟨hpos, hx⟩
  · cases hx
  · rw [Option.some.injEq, Prod.mk.injEq, Prod.mk.injEq] at hx
    obtain ⟨rfl, rfl, rfl⟩ := hx
    rcases hc with hc | ⟨hc, hn⟩
    · obtain ⟨r2, t2, ops2, hkk, _, _, _, _, _, ho⟩ := killKeyrings_cases e.sys PAM_CRED_ERR (p.threads e.tid) hpos
      simp only [hc, kcall, hkk] at hk
      rw [if_pos ⟨hpos, hd⟩] at hk
      simp only [Prod.mk.injEq] at hk
      obtain ⟨rfl, _, _, rfl⟩ := hk
      rcases ho with ⟨_, _, hf, _⟩ | ⟨ho, _, hrv⟩
      · rw [hg, hu] at hf; simp at hf
      · exact ⟨ho, fun _ hs => hrv (by decide) hs⟩
    · obtain ⟨r2, t2, ops2, hkk, _, _, _, _, _, ho⟩ := killKeyrings_cases e.sys PAM_SESSION_ERR (p.threads e.tid) hpos
      simp only [hc, kcall, hkk] at hk
      rw [if_pos ⟨by omega, hpos, hd⟩] at hk
      simp only [Prod.mk.injEq] at hk
      obtain ⟨_, _, _, rfl⟩ := hk
      rcases ho with ⟨_, _, hf, _⟩ | ⟨ho, _, hrv⟩
      · rw [hg, hu] at hf; simp at hf
      · exact ⟨ho, fun hd => by rw [hc] at hd; cases hd⟩

/-- C135, the ids of the thread: in every history, a call that can change its ids back leaves them as they were. -/
theorem C135_restored (cred : Nat → Cred) (calls : List (Nat × KCall × Sys)) (hj : ∀ c ∈ calls, c.2.2.join ≠ some 0) (pre : List Event) (e : Event)
    (post : List Event) (h : history (start cred) calls = pre ++ e :: post) (hb : e.sys.backUid = true) (hg : e.sys.backGid = true) :
    e.after = e.before := by
  obtain ⟨p, h1, h2, h3, h4, hbf, n, t, hk, hat⟩ := history_at hj h
  obtain ⟨r, n', t', ops, hk', _, _, _, _, hr⟩ := kcall_step e.sys p.counter (p.threads e.tid) e.call _ h4 (h2 e.tid)
  rw [hk] at hk'; cases hk'
  rw [hbf, hat]; exact hr hb hg

/-- C135, the ids of the thread: when they are not changed back, the call fails, unless it closes a session. -/
theorem C135_reported_partial (cred : Nat → Cred) (calls : List (Nat × KCall × Sys)) (hj : ∀ c ∈ calls, c.2.2.join ≠ some 0) (pre : List Event) (e : Event)
    (post : List Event) (h : history (start cred) calls = pre ++ e :: post) (hc : e.call ≠ .closing) (hr : e.ret = PAM_SUCCESS) :
    e.after = e.before := by
  obtain ⟨p, h1, h2, h3, h4, hbf, n, t, hk, hat⟩ := history_at hj h
  apply Classical.byContradiction
  intro hne
  rw [hbf, hat] at hne
  have hinit : ∀ argv err, err ≠ PAM_SUCCESS → ∀ m, (match doKeyinit e.sys argv err (p.threads e.tid) with | (r, t, ops) => (r, m, t, ops)) = (e.ret, n, t, e.ops) → False := by
    intro argv err he m hk
    obtain ⟨r2, t2, ops2, hx, _, _, hf, _⟩ := doKeyinit_cases e.sys argv err (p.threads e.tid) h4
    rw [hx] at hk
    simp only [Prod.mk.injEq] at hk
    obtain ⟨rfl, _, rfl, _⟩ := hk
    exact hf he hne hr
  cases hcc : e.call with
  | establish argv => rw [hcc] at hk; exact hinit argv _ (by decide) _ hk
  | opening argv => rw [hcc] at hk; exact hinit argv _ (by decide) _ hk
  | refresh => rw [hcc] at hk; simp only [kcall, Prod.mk.injEq] at hk; exact hne (by rw [hk.2.2.1])
  | closing => exact hc hcc
  | delete =>
    rw [hcc] at hk
    simp only [kcall] at hk
    by_cases hd : (p.threads e.tid).keyring > 0 ∧ (p.threads e.tid).doRevoke = true
    · rw [if_pos hd] at hk
      obtain ⟨r2, t2, ops2, hx, _, _, _, _, hf, _⟩ := killKeyrings_cases e.sys PAM_CRED_ERR (p.threads e.tid) hd.1
      rw [hx] at hk
      simp only [Prod.mk.injEq] at hk
      obtain ⟨rfl, _, rfl, _⟩ := hk
      exact hf (by decide) hne hr
    · rw [if_neg hd] at hk
      simp only [Prod.mk.injEq] at hk
      exact hne (by rw [hk.2.2.1])

/-- C136, the keyring of the user: when establishing credentials or opening a session succeeds in a thread that has no keyring, then a new one was made for the
user and group id of the account and linked to the keyring of the user, or none was needed: "force" was not given, and the system has no keyrings or the session has one of
its own already. -/
theorem C136_made_partial (cred : Nat → Cred) (calls : List (Nat × KCall × Sys)) (hj : ∀ c ∈ calls, c.2.2.join ≠ some 0) (pre : List Event) (e : Event)
    (post : List Event) (h : history (start cred) calls = pre ++ e :: post) (hb : Begins e.call) (hr : e.ret = PAM_SUCCESS)
    (hl : live none (opsOf e.tid pre) = none) :
    (∃ i u g, e.sys.pw = some (u, g) ∧ e.sys.join = some i ∧ e.ops = [.join i u g, .link] ∧ e.sys.link = true) ∨
    (e.ops = [] ∧ ¬ Asks "force" e.call ∧
      ((e.sys.session = none ∧ e.sys.nosys = true) ∨ (∃ a b, e.sys.session = some a ∧ e.sys.usession = some b ∧ a ≠ b))) := by
  obtain ⟨p, h1, h2, h3, h4, hbf, n, t, hk, hat⟩ := history_at hj h
  have h0 : (p.threads e.tid).keyring = 0 := by
    have := h2 e.tid
    rw [hl] at this
    rcases this with ⟨h, _⟩ | ⟨_, h⟩
    · exact h
    · cases h
  have hinit : ∀ argv err, err ≠ PAM_SUCCESS → ∀ m, (match doKeyinit e.sys argv err (p.threads e.tid) with | (r, t, ops) => (r, m, t, ops)) = (e.ret, n, t, e.ops) →
      (∃ i u g, e.sys.pw = some (u, g) ∧ e.sys.join = some i ∧ e.ops = [.join i u g, .link] ∧ e.sys.link = true) ∨
      (e.ops = [] ∧ "force".toList ∉ argv ∧
        ((e.sys.session = none ∧ e.sys.nosys = true) ∨ (∃ a b, e.sys.session = some a ∧ e.sys.usession = some b ∧ a ≠ b))) := by
    intro argv err he m hk
    obtain ⟨r2, t2, ops2, hx, _, _, _, hc⟩ := doKeyinit_cases e.sys argv err (p.threads e.tid) h4
    rw [hx] at hk
    simp only [Prod.mk.injEq] at hk
    obtain ⟨rfl, _, rfl, rfl⟩ := hk
    rcases hc with ⟨hp, _⟩ | ⟨_, ho, _, hx⟩ | ⟨_, id, uid, gid, hp, hjn, _, ho, _, _, _, hx⟩
    · omega
    · exact Or.inr ⟨ho, hx he hr⟩
    · exact Or.inl ⟨id, uid, gid, hp, hjn, ho, hx he hr⟩
  cases hcc : e.call with
  | establish argv => rw [hcc] at hk; exact hinit argv _ (by decide) _ hk
  | opening argv => rw [hcc] at hk; exact hinit argv _ (by decide) _ hk
  | refresh => rw [hcc] at hb; cases hb
  | closing => rw [hcc] at hb; cases hb
  | delete => rw [hcc] at hb; cases hb

/-- C136, the keyring of the user: a keyring is made only for the account of the user whose session is opened or whose credentials are established. -/
theorem C136_owner (cred : Nat → Cred) (calls : List (Nat × KCall × Sys)) (hj : ∀ c ∈ calls, c.2.2.join ≠ some 0) (pre : List Event) (e : Event)
    (post : List Event) (h : history (start cred) calls = pre ++ e :: post) (i u g : Nat) (ho : KOp.join i u g ∈ e.ops) :
    Begins e.call ∧ e.sys.pw = some (u, g) := by
  obtain ⟨p, h1, h2, h3, h4, hbf, n, t, hk, hat⟩ := history_at hj h
  have hinit : ∀ argv err m, (match doKeyinit e.sys argv err (p.threads e.tid) with | (r, t, ops) => (r, m, t, ops)) = (e.ret, n, t, e.ops) →
      e.sys.pw = some (u, g) := by
    intro argv err m hk
    obtain ⟨r2, t2, ops2, hx, _, _, _, hc⟩ := doKeyinit_cases e.sys argv err (p.threads e.tid) h4
    rw [hx] at hk
    simp only [Prod.mk.injEq] at hk
    obtain ⟨rfl, _, rfl, rfl⟩ := hk
    rcases hc with ⟨_, hz, _⟩ | ⟨_, hz, _⟩ | ⟨_, id, uid, gid, hp, hjn, _, hz, _⟩
    · rw [hz] at ho; cases ho
    · rw [hz] at ho; cases ho
    · rw [hz] at ho; simp at ho; rw [hp, ho.2.1, ho.2.2]
  have hkill : ∀ err, (p.threads e.tid).keyring > 0 → ∀ r t' ops, killKeyrings e.sys err (p.threads e.tid) = (r, t', ops) → KOp.join i u g ∉ ops := by
    intro err h0 r t' ops hx
    obtain ⟨r2, t2, ops2, hx2, _, _, _, _, _, hc⟩ := killKeyrings_cases e.sys err (p.threads e.tid) h0
    rw [hx] at hx2; cases hx2
    rcases hc with ⟨hz, _⟩ | ⟨hz, _⟩ <;> subst hz <;> simp
  cases hcc : e.call with
  | establish argv => rw [hcc] at hk; exact ⟨trivial, hinit argv _ _ hk⟩
  | opening argv => rw [hcc] at hk; exact ⟨trivial, hinit argv _ _ hk⟩
  | refresh =>
    rw [hcc] at hk; simp only [kcall, Prod.mk.injEq] at hk
    rw [← hk.2.2.2] at ho; cases ho
  | closing =>
    rw [hcc] at hk
    simp only [kcall] at hk
    by_cases hd : p.counter - 1 ≤ 0 ∧ (p.threads e.tid).keyring > 0 ∧ (p.threads e.tid).doRevoke = true
    · rw [if_pos hd] at hk
      obtain ⟨⟨a, b, c⟩, hx⟩ : ∃ x, killKeyrings e.sys PAM_SESSION_ERR (p.threads e.tid) = x := ⟨_, rfl⟩
      rw [hx] at hk
      simp only [Prod.mk.injEq] at hk
      exact absurd (hk.2.2.2 ▸ ho) (hkill _ hd.2.1 _ _ _ hx)
    · rw [if_neg hd] at hk
      simp only [Prod.mk.injEq] at hk
      rw [← hk.2.2.2] at ho; cases ho
  | delete =>
    rw [hcc] at hk
    simp only [kcall] at hk
    by_cases hd : (p.threads e.tid).keyring > 0 ∧ (p.threads e.tid).doRevoke = true
    · rw [if_pos hd] at hk
      obtain ⟨⟨a, b, c⟩, hx⟩ : ∃ x, killKeyrings e.sys PAM_CRED_ERR (p.threads e.tid) = x := ⟨_, rfl⟩
      rw [hx] at hk
      simp only [Prod.mk.injEq] at hk
      exact absurd (hk.2.2.2 ▸ ho) (hkill _ hd.1 _ _ _ hx)
    · rw [if_neg hd] at hk
      simp only [Prod.mk.injEq] at hk
      rw [← hk.2.2.2] at ho; cases ho

/-- root -/
def rootCred : Cred := ⟨0, 0, 0, 0⟩
/-- a system where all succeeds -/
def sysOk (id uid : Nat) : Sys where
  getUser := PAM_SUCCESS
  pw := some (uid, uid)
  setGid := true
  setUid := true
  backUid := true
  backGid := true
  session := some 5
  usession := some 5
  nosys := false
  join := some id
  link := true
  revoke := true

def revokeArgs : List Str := ["force".toList, "revoke".toList]

/-- the theorems are met by two sessions of a user, one within the other: one keyring, revoked when the second is closed -/
example :
    (history (start fun _ => rootCred) [(0, .opening revokeArgs, sysOk 77 1000), (0, .opening revokeArgs, sysOk 78 1000), (0, .closing, sysOk 79 1000),
      (0, .closing, sysOk 80 1000)]).map (fun e => (e.ret, e.ops)) =
    [(PAM_SUCCESS, [.join 77 1000 1000, .link]), (PAM_SUCCESS, []), (PAM_SUCCESS, []), (PAM_SUCCESS, [.revoke 77 1000 1000])] := by
  decide +kernel

/-- C134 fails when a session is closed that was not opened, as when a module before this one failed to open it: the keyring is then revoked while a session is
open. -/
theorem C134_unopened_counterexample :
    (history (start fun _ => rootCred) [(0, .closing, sysOk 76 1000), (0, .opening revokeArgs, sysOk 77 1000), (0, .opening revokeArgs, sysOk 78 1000), (0, .closing, sysOk 79 1000)]).map
      (fun e => (e.call, e.ops)) =
    [(.closing, []), (.opening revokeArgs, [.join 77 1000 1000, .link]), (.opening revokeArgs, []), (.closing, [.revoke 77 1000 1000])] := by
  decide +kernel

/-- C134 fails when another thread closes the session: the keyring is never revoked. -/
theorem C134_thread_counterexample :
    (history (start fun _ => rootCred) [(0, .opening revokeArgs, sysOk 77 1000), (1, .closing, sysOk 79 1000)]).map (fun e => (e.tid, e.ret, e.ops)) =
    [(0, PAM_SUCCESS, [.join 77 1000 1000, .link]), (1, PAM_SUCCESS, [])] := by
  decide +kernel

/-- C135 fails when a session is closed: the thread goes on with the effective user id of the user, and the call succeeds. -/
theorem C135_close_counterexample :
    (history (start fun _ => rootCred) [(0, .opening revokeArgs, sysOk 77 1000), (0, .closing, { sysOk 78 1000 with backUid := false })]).map
      (fun e => (e.ret, e.before.euid, e.after.euid)) =
    [(PAM_SUCCESS, 0, 0), (PAM_SUCCESS, 0, 1000)] := by
  decide +kernel

/-- C136 fails in a thread that has a keyring: one that could not be linked is an error, and the next call succeeds with it as it is. -/
theorem C136_unlinked_counterexample :
    (history (start fun _ => rootCred) [(0, .establish revokeArgs, { sysOk 77 1000 with link := false }), (0, .opening revokeArgs, sysOk 78 1000)]).map
      (fun e => (e.ret, e.ops)) =
    [(PAM_CRED_ERR, [.join 77 1000 1000, .link]), (PAM_SUCCESS, [])] := by
  decide +kernel

/-- C136 fails in a thread that opens a session for another user: that user has the keyring of the first. -/
theorem C136_other_user_counterexample :
    (history (start fun _ => rootCred) [(0, .opening [], sysOk 77 1000), (0, .closing, sysOk 78 1000), (0, .opening ["force".toList], sysOk 79 2000)]).map
      (fun e => (e.ret, e.ops)) =
    [(PAM_SUCCESS, [.join 77 1000 1000, .link]), (PAM_SUCCESS, []), (PAM_SUCCESS, [])] := by
  decide +kernel

end Pam.Session
