import Verif.Unix.SetProps
import Verif.Unix.Update
/-
Property theorem C80: the helper unix_update.
-/
namespace Pam.Unix
open Pam Util Util.Spec

/-! ### vocabulary -/

/-- a step that changes one of the files, or a temporary file beside it -/
def Act.file : Act → Bool
  | .lock => false
  | .unlock => false
  | _ => true

/-- The old and the new password are the first two strings that came in, neither longer than 512. -/
def Given (bytes : List Char) (old new : Str) : Prop := ∃ got rest, bytes = got ++ rest ∧ received 512 2 got = [old, new]

/-! ### helper lemmas -/

/-- nothing happens, or everything happens between taking and giving up the lock -/
def Bracketed (acts : List Act) : Prop := acts = [] ∨ ∃ r : List Act, acts = [.lock] ++ r ++ [.unlock] ∧ ∀ a ∈ r, a.file = true

theorem received_no_nul {n : Nat} {bytes f : List Char} (h : f ∈ received 512 n bytes) : NUL ∉ f :=
  strings_no_nul (List.mem_of_mem_take ((List.takeWhile_sublist _).subset h))

theorem holds_cstr {o p b : List Char} (h : Holds o p b) (hp : NUL ∉ p) : cstr b = p := by
  obtain ⟨rest, rfl, -⟩ := h
  exact cstr_nul hp

/-- what comes in -/
theorem read_two {b1 b2 bytes : List Char} {sched : List Ev} (h1 : b1.length = 513) (h2 : b2.length = 513) :
    readPasswords [b1, b2] 2 bytes sched = .wait ∨ ∃ got rest s1 s2 k, readPasswords [b1, b2] 2 bytes sched = .ret ((k, [s1, s2]), rest) ∧ bytes = got ++ rest ∧
      k = (received 512 2 got).length ∧ (k = 2 → received 512 2 got = [cstr s1, cstr s2]) := by
  rcases C29_passwords [b1, b2] 2 (by simp [h1, h2]) (by simp) bytes sched with h | ⟨got, rest, k, slots, h, hs, hk, hl, hj⟩
  · exact Or.inl h
  · right
    obtain ⟨c1, hc1, g1, -⟩ := hj 0 b1 rfl
    obtain ⟨c2, hc2, g2, -⟩ := hj 1 b2 rfl
    match slots, hl with
    | [s1, s2], _ =>
      have hc1 : s1 = c1 := by simpa using hc1
      have hc2 : s2 = c2 := by simpa using hc2
      subst hc1 hc2
      refine ⟨got, rest, s1, s2, k, h, hs, hk, fun h2 => ?_⟩
      rw [h2] at hk
      match hr : received 512 2 got with
      | [] => rw [hr] at hk; cases hk
      | [_] => rw [hr] at hk; cases hk
      | [o, n] =>
        rw [hr] at g1 g2
        rw [holds_cstr (g1 o rfl) (received_no_nul (n := 2) (bytes := got) (by rw [hr]; simp)),
          holds_cstr (g2 n rfl) (received_no_nul (n := 2) (bytes := got) (by rw [hr]; simp))]
      | _ :: _ :: _ :: _ => rw [hr] at hk; simp at hk

theorem setFiles_file (w : World) (e : Etc) (p : Proc) (l : SLuck) (pw : Pw) (u : Str) (old : Option Str) (h : Str) (shadow : Bool) (n : Int) :
    ∀ a ∈ (setFiles w e p l pw u old h shadow n).2, a.file = true := by
  obtain ⟨B, C, ha, -⟩ := setFiles_shape w e p l pw u old h shadow n
  rw [ha]
  intro a hm
  simp only [List.mem_append, List.mem_map] at hm
  rcases hm with (⟨o, -, rfl⟩ | ⟨o, -, rfl⟩) | ⟨o, -, rfl⟩ <;> rfl

theorem Bracketed.held {acts : List Act} (hb : Bracketed acts) (e : Etc) :
    (∀ k a, acts[k]? = some a → a.file = true → (e.after (acts.take k)).held = true) ∧ (e.held = false → (e.after acts).held = false) := by
  rcases hb with rfl | ⟨r, rfl, hr⟩
  · exact ⟨fun k a h => by simp at h, id⟩
  · have key : ∀ (l : List Act) (e : Etc), (∀ a ∈ l, a.file = true) → (e.after l).held = e.held := by
      intro l
      induction l with
      | nil => intros; rfl
      | cons a l ih =>
        intro e h
        show ((e.apply a).after l).held = _
        rw [ih _ (fun x hx => h x (List.mem_cons_of_mem _ hx))]
        have := h a (List.mem_cons_self ..)
        cases a <;> first | rfl | cases this
    constructor
    · intro k a hk hf
      cases k with
      | zero => simp at hk; subst hk; cases hf
      | succ k =>
        rw [List.append_assoc, List.singleton_append, List.take_succ_cons]
        rw [List.append_assoc, List.singleton_append, List.getElem?_cons_succ] at hk
        show ((e.apply .lock).after _).held = true
        by_cases hlt : k < r.length
        · rw [List.take_append_of_le_length (by omega), key _ _ (fun x hx => hr x (List.mem_of_mem_take hx))]
          rfl
        · rw [List.getElem?_append_right (by omega)] at hk
          cases hz : k - r.length with
          | zero => rw [hz] at hk; cases hk; cases hf
          | succ _ => rw [hz] at hk; cases hk
    · intro _
      rw [Etc.after_append]
      rfl

/-- taking and giving up the lock changes nothing else -/
theorem Bracketed.files {r : List Act} (hr : ∀ a ∈ r, a.file = true) (e : Etc) (k : Nat) :
    ∃ b, e.after (([Act.lock] ++ r ++ [Act.unlock]).take k) = { e.after (r.take (k - 1)) with held := b } := by
  have key : ∀ (l : List Act) (e : Etc) (b : Bool), (∀ a ∈ l, a.file = true) → ({ e with held := b } : Etc).after l = { e.after l with held := b } := by
    intro l
    induction l with
    | nil => intros; rfl
    | cons a l ih =>
      intro e b h
      have hs : ({ e with held := b } : Etc).apply a = { e.apply a with held := b } := by
        have := h a (List.mem_cons_self ..)
        cases a <;> first | rfl | cases this
      show (({ e with held := b } : Etc).apply a).after l = { (e.apply a).after l with held := b }
      rw [hs, ih _ _ (fun x hx => h x (List.mem_cons_of_mem _ hx))]
  cases k with
  | zero => exact ⟨e.held, by simp [Etc.after]⟩
  | succ k =>
    rw [List.append_assoc, List.singleton_append, List.take_succ_cons, Nat.add_sub_cancel]
    show ∃ b, ({ e with held := true } : Etc).after ((r ++ [Act.unlock]).take k) = _
    rw [List.take_append, Etc.after_append, key _ _ _ (fun x hx => hr x (List.mem_of_mem_take hx))]
    cases hz : k - r.length with
    | zero => exact ⟨true, rfl⟩
    | succ _ => exact ⟨false, by rw [List.take_succ_cons, List.take_nil]; rfl⟩

theorem may_iff {s : Sys} {p : Proc} {user pass : Str} {code : Int} {pw : Pw} (h : mayUpdate s p user pass = (code, some pw)) :
    s.pwnam user = some pw ∧ (p.uid = 0 ∨ (pw.uid = p.uid ∧ ∃ x, Stored s p user x ∧ Accepts s.crypts true x pass)) := by
  unfold mayUpdate at h
  split at h
  · cases h
  · next hpw =>
    split at h
    · split at h
      · cases h
      next huid =>
      split at h
      · cases h
      next hv =>
      cases h
      refine ⟨hpw, Or.inr ⟨Classical.not_not.mp huid, ?_⟩⟩
      rcases helper_codes (s := s) (q := p) (user := user) (pass := pass) (nullok := true) with ⟨-, h⟩ | ⟨h, -⟩ | ⟨h, -⟩
      · exact h
      · exact absurd (Classical.not_not.mp hv) (by rw [h]; decide)
      · exact absurd (Classical.not_not.mp hv) (by rw [h]; decide)
    · next hu =>
      cases h
      exact ⟨hpw, Or.inl (Classical.not_not.mp hu)⟩

theorem stored_root {w : World} {e : Etc} {p : Proc} (hp : p.euid = 0) {user x : Str} (h : Stored (e.sys w) p user x) :
    Account (e.sys w) (e.shadow w) user x := by
  unfold Stored at h
  rw [rootReads w e p hp] at h
  exact h

/-- the paths through unix_update -/
theorem update_paths {w : World} {e : Etc} {p : Proc} {i : UpdIn} (h1 : i.buf1.length = 513) (h2 : i.buf2.length = 513) {tty : Bool} {args : List Str}
    {code : Int} {acts : List Act} (h : unixUpdate w e p i tty args = some (code, acts)) :
    (acts = [] ∧ (code = PAM_AUTHTOK_ERR ∨ code = PAM_AUTHTOK_LOCK_BUSY ∨ code = PAM_CRED_INSUFFICIENT ∨ code = PAM_SYSTEM_ERR)) ∨
    (acts = [.lock, .unlock] ∧ code = PAM_AUTHTOK_ERR) ∨
    ∃ user sh rem old new pw r, tty = false ∧ args = [user, "update".toList, sh, rem] ∧ p.euid = 0 ∧ Given i.bytes old new ∧
      (e.sys w).pwnam user = some pw ∧
      (p.uid = 0 ∨ (pw.uid = p.uid ∧ ∃ x, Account (e.sys w) (e.shadow w) user x ∧ Accepts w.crypts true x old)) ∧
      r = setFiles w e p i.l pw user (some old) new (Pwh.toInt (Pwh.strtol sh) ≠ 0) (Pwh.toInt (Pwh.strtol rem)) ∧
      code = (if r.1 = PAM_SUCCESS then PAM_SUCCESS else PAM_AUTHTOK_ERR) ∧ acts = [.lock] ++ r.2 ++ [.unlock] := by
  unfold unixUpdate at h
  split at h
  · next user option sh rem =>
    split at h
    · cases h; exact Or.inl ⟨rfl, by simp⟩
    next he =>
    split at h
    · next hopt =>
      unfold setPassword at h
      rcases read_two (b1 := i.buf1) (b2 := i.buf2) (bytes := i.bytes) (sched := i.sched) h1 h2 with hr | ⟨got, rest, s1, s2, k, hr, hb, hk, hk2⟩
      · rw [hr] at h; cases h
      rw [hr] at h
      dsimp only at h
      split at h
      · cases h; exact Or.inl ⟨rfl, by simp⟩
      next hkk =>
      have hkk : k = 2 := Classical.not_not.mp hkk
      split at h
      · cases h; exact Or.inl ⟨rfl, by simp⟩
      split at h
      · cases h; exact Or.inr (Or.inl ⟨rfl, rfl⟩)
      · next c pw hm =>
        cases h
        obtain ⟨g1, g2⟩ := may_iff hm
        refine Or.inr (Or.inr ⟨user, sh, rem, cstr s1, cstr s2, pw, _, rfl, by rw [hopt], Classical.not_not.mp he, ⟨got, rest, hb, hk2 hkk⟩, g1, ?_, rfl, rfl, rfl⟩)
        exact g2.imp id (fun ⟨a, x, b, c⟩ => ⟨a, x, stored_root (Classical.not_not.mp he) b, c⟩)
    · cases h; exact Or.inl ⟨rfl, by simp⟩
  · cases h; exact Or.inl ⟨rfl, by simp⟩

/-! ### the property -/

/-- C80: Only a process that runs as root and reads two passwords from something that is no terminal changes anything; unless its caller is
root, it changes only the password of an account with the caller's user id, whose old password came in. -/
theorem C80_authorised (w : World) (e : Etc) (p : Proc) (i : UpdIn) (h1 : i.buf1.length = 513) (h2 : i.buf2.length = 513) (tty : Bool) (args : List Str)
    (code : Int) (acts : List Act) (h : unixUpdate w e p i tty args = some (code, acts)) (hc : ∃ a ∈ acts, a.file = true) :
    ∃ user sh rem old new pw, tty = false ∧ args = [user, "update".toList, sh, rem] ∧ p.euid = 0 ∧ Given i.bytes old new ∧
      (e.sys w).pwnam user = some pw ∧
      (p.uid = 0 ∨ (pw.uid = p.uid ∧ ∃ x, Account (e.sys w) (e.shadow w) user x ∧ Accepts w.crypts true x old)) := by
  rcases update_paths h1 h2 h with ⟨rfl, -⟩ | ⟨rfl, -⟩ | ⟨user, sh, rem, old, new, pw, r, a, b, c, d, f, g, -⟩
  · obtain ⟨a, ha, -⟩ := hc; cases ha
  · obtain ⟨a, ha, hf⟩ := hc
    simp only [List.mem_cons, List.not_mem_nil, or_false] at ha
    rcases ha with rfl | rfl <;> cases hf
  · exact ⟨user, sh, rem, old, new, pw, a, b, c, d, f, g⟩

/-- C80: The files change only while the lock is held, and it is not held when unix_update ends. -/
theorem C80_locked (w : World) (e : Etc) (p : Proc) (i : UpdIn) (h1 : i.buf1.length = 513) (h2 : i.buf2.length = 513) (tty : Bool) (args : List Str)
    (code : Int) (acts : List Act) (h : unixUpdate w e p i tty args = some (code, acts)) :
    (∀ k a, acts[k]? = some a → a.file = true → (e.after (acts.take k)).held = true) ∧ (e.held = false → (e.after acts).held = false) ∧
    ((∀ n, i.tries n = false) → acts = []) := by
  have hb : Bracketed acts := by
    rcases update_paths h1 h2 h with ⟨rfl, -⟩ | ⟨rfl, -⟩ | ⟨_, _, _, _, _, _, r, -, -, -, -, -, -, hr, -, rfl⟩
    · exact Or.inl rfl
    · exact Or.inr ⟨[], rfl, by simp⟩
    · exact Or.inr ⟨_, rfl, by rw [hr]; intro a; apply setFiles_file⟩
  obtain ⟨a, b⟩ := hb.held e
  refine ⟨a, b, fun ht => ?_⟩
  have hl : lockPwdf i.tries = false := by
    unfold lockPwdf
    rw [List.any_eq_false]
    intro n _
    rw [ht n]
    decide
  unfold unixUpdate setPassword at h
  rw [hl] at h
  split at h
  · split at h
    · cases h; rfl
    split at h
    · dsimp only at h
      split at h
      · split at h <;> (cases h; rfl)
      · cases h
    · cases h; rfl
  · cases h; rfl

/-- C80: Whenever unix_update is stopped, every other account is as it was and the files are whole; the account has its old hash, or, if it has
been changed and success is reported, the one that came in; anything else than success means the old one.  (A hash for /etc/passwd must
not read as a reference to /etc/shadow.) -/
theorem C80_change (w : World) (e : Etc) (he : e.Clean) (p : Proc) (i : UpdIn) (h1 : i.buf1.length = 513) (h2 : i.buf2.length = 513) (tty : Bool)
    (user opt sh rem : Str) (hh : ∀ old new, Given i.bytes old new → new ≠ "x".toList ∧ new ≠ "##".toList ++ user)
    (code : Int) (acts : List Act) (h : unixUpdate w e p i tty [user, opt, sh, rem] = some (code, acts)) (k : Nat) (e' : Etc)
    (he' : e' = e.after (acts.take k)) :
    (∀ n, n ≠ user → SameAccount w e e' n) ∧ OnlyPassword e e' user ∧
    (e'.pw.torn = false ∧ e'.sp.torn = false ∧ e'.op.torn = false) ∧
    (e'.pw.attr = e.pw.attr ∧ e'.sp.attr = e.sp.attr ∧ e'.op.attr = e.op.attr) ∧
    (SameHash w e e' user ∨ (code = PAM_SUCCESS ∧ ∃ old new, Given i.bytes old new ∧ HashIs w e' user new)) ∧
    (code = PAM_SUCCESS → acts.length ≤ k → ∃ old new, Given i.bytes old new ∧ HashIs w e' user new) := by
  have none : (∀ b, e' = { e with held := b } → code ≠ PAM_SUCCESS →
      (∀ n, n ≠ user → SameAccount w e e' n) ∧ OnlyPassword e e' user ∧
      (e'.pw.torn = false ∧ e'.sp.torn = false ∧ e'.op.torn = false) ∧
      (e'.pw.attr = e.pw.attr ∧ e'.sp.attr = e.sp.attr ∧ e'.op.attr = e.op.attr) ∧
      (SameHash w e e' user ∨ (code = PAM_SUCCESS ∧ ∃ old new, Given i.bytes old new ∧ HashIs w e' user new)) ∧
      (code = PAM_SUCCESS → acts.length ≤ k → ∃ old new, Given i.bytes old new ∧ HashIs w e' user new)) := by
    rintro b rfl hc
    exact ⟨fun n _ => ⟨rfl, rfl, rfl, rfl⟩, only_refl (Or.inl rfl) (Or.inl rfl), ⟨he.pwTorn, he.spTorn, he.opTorn⟩, ⟨rfl, rfl, rfl⟩,
      Or.inl (fun _ => Iff.rfl), fun h => absurd h hc⟩
  rcases update_paths h1 h2 h with ⟨rfl, hcode⟩ | ⟨rfl, hcode⟩ | ⟨user', sh', rem', old, new, pw, r, -, hargs, -, hg, hpw, -, hr, hcode, rfl⟩
  · refine none e.held (by rw [he', List.take_nil]; rfl) ?_
    rcases hcode with h | h | h | h <;> rw [h] <;> decide
  · obtain ⟨b, hb⟩ := Bracketed.files (r := []) (by simp) e k
    refine none b (by rw [he']; exact hb.trans (by rw [List.take_nil]; rfl)) (by rw [hcode]; decide)
  · cases hargs
    obtain ⟨b, hb⟩ := Bracketed.files (r := r.2) (by rw [hr]; intro a; apply setFiles_file) e k
    rw [← he'] at hb
    obtain ⟨g1, g2, g3, g4, g5, g6⟩ := C79_change w e he p i.l pw user hpw (some old) new (Pwh.toInt (Pwh.strtol sh) ≠ 0) (Or.inr (Or.inr (hh old new hg)))
      (Pwh.toInt (Pwh.strtol rem)) (k - 1) _ rfl
    rw [← hr] at g1 g2 g3 g4 g5 g6
    have hcs : r.1 = PAM_SUCCESS → code = PAM_SUCCESS := fun h => by rw [hcode, if_pos h]
    have hcs' : code = PAM_SUCCESS → r.1 = PAM_SUCCESS := fun h => by
      rw [hcode] at h
      split at h
      · assumption
      · exact absurd h (by decide)
    rw [hb]
    refine ⟨g1, g2, g3, g4, g5.imp id (fun x => ⟨hcs x.1, old, new, hg, x.2.2⟩), fun hc hk => ⟨old, new, hg, g6 (hcs' hc) ?_⟩⟩
    simp at hk
    omega

/-- C80: A caller who is root, or who has the account's user id and knows its password, does set the new one, if nothing goes wrong. -/
theorem C80_works (w : World) (e : Etc) (p : Proc) (hp : p.euid = 0) (i : UpdIn) (h1 : i.buf1.length = 513) (h2 : i.buf2.length = 513)
    (hok : Ev.err ∉ i.sched) (htry : ∃ n, n ≤ 100 ∧ i.tries n = true) (hl : i.l.sp.Fine ∧ i.l.pw.Fine) (user old new sh : Str) (pw : Pw)
    (hin : received 512 2 i.bytes = [old, new]) (hpw : (e.sys w).pwnam user = some pw) (hf : (e.findPw user).isSome = true) (hs : e.sp.main.isSome = true)
    (hmay : p.uid = 0 ∨ (pw.uid = p.uid ∧ ∃ x, Account (e.sys w) (e.shadow w) user x ∧ Accepts w.crypts true x old)) :
    unixUpdate w e p i false [user, "update".toList, sh, "-1".toList] = none ∨
    ∃ acts, unixUpdate w e p i false [user, "update".toList, sh, "-1".toList] = some (PAM_SUCCESS, acts) := by
  have hlock : lockPwdf i.tries = true := by
    obtain ⟨n, hn, ht⟩ := htry
    unfold lockPwdf
    exact List.any_eq_true.mpr ⟨n, List.mem_range.mpr (by omega), ht⟩
  have hrem : Pwh.toInt (Pwh.strtol "-1".toList) < 0 := by decide +kernel
  unfold unixUpdate
  dsimp only
  rw [if_neg (by simpa using hp), if_pos rfl]
  unfold setPassword
  rcases C29_independent_of_chunking [i.buf1, i.buf2] 2 (by simp [h1, h2]) (by simp) i.bytes i.sched hok with ⟨h, -⟩ | ⟨slots, rest, h, hj⟩
  · rw [h]; exact Or.inl rfl
  · right
    rcases C29_passwords [i.buf1, i.buf2] 2 (by simp [h1, h2]) (by simp) i.bytes i.sched with h' | ⟨_, _, _, slots', h', _, _, hlen, _⟩
    · rw [h] at h'; cases h'
    rw [h] at h'
    cases h'
    match slots, hlen with
    | [s1, s2], _ =>
      rw [hin] at h hj
      obtain ⟨c1, hc1, g1⟩ := hj 0 old i.buf1 rfl rfl
      obtain ⟨c2, hc2, g2⟩ := hj 1 new i.buf2 rfl rfl
      cases hc1; cases hc2
      have e1 : cstr s1 = old := holds_cstr g1 (received_no_nul (n := 2) (bytes := i.bytes) (by rw [hin]; simp))
      have e2 : cstr s2 = new := holds_cstr g2 (received_no_nul (n := 2) (bytes := i.bytes) (by rw [hin]; simp))
      rw [h]
      dsimp only
      rw [if_neg (by simp), hlock, e1, e2]
      have hm : mayUpdate (e.sys w) p user old = (PAM_SUCCESS, some pw) := by
        unfold mayUpdate
        rw [hpw]
        dsimp only
        rcases hmay with hu | ⟨hu, x, hx, ha⟩
        · rw [if_neg (by simpa using hu)]
        · split
          · rw [if_neg (by simpa using hu)]
            have hv : helperVerify (e.sys w) p user old true = PAM_SUCCESS := by
              have hst : Stored (e.sys w) p user x := by
                unfold Stored
                rw [rootReads w e p hp]
                exact hx
              unfold helperVerify
              rw [pwdHash_iff.mpr hst]
              exact accepts_iff.mpr ha
            rw [if_neg (by simpa using hv)]
          · rfl
      rw [hm]
      dsimp only
      rw [C79_works w e p i.l hl pw user (some old) new _ _ (Or.inl hrem) hf hs]
      exact ⟨_, rfl⟩

/-! ### examples -/

def demoUpd (t : Str) : UpdIn where
  bytes := t
  sched := [.upto 3, .intr, .upto 0, .upto 2000]
  buf1 := List.replicate 513 'x'
  buf2 := List.replicate 513 'y'
  tries n := n = 2
  l := demoSLuck

def fst' (r : Option (Int × List Act)) : Option Int := r.map (·.1)

/-- ada runs unix_update with the right and with the wrong password, and for bob -/
example : fst' (unixUpdate demoWorld demoEtc adaProc (demoUpd "secret password\x00$y$new\x00".toList) false ["ada".toList, "update".toList, "1".toList, "-1".toList]) =
    some PAM_SUCCESS := by decide +kernel
example : fst' (unixUpdate demoWorld demoEtc adaProc (demoUpd "secret passwort\x00$y$new\x00".toList) false ["ada".toList, "update".toList, "1".toList, "-1".toList]) =
    some PAM_AUTHTOK_ERR := by decide +kernel
example : fst' (unixUpdate demoWorld demoEtc adaProc (demoUpd "secret p\x00$y$new\x00".toList) false ["bob".toList, "update".toList, "1".toList, "-1".toList]) =
    some PAM_AUTHTOK_ERR := by decide +kernel
example : fst' (unixUpdate demoWorld demoEtc rootProc (demoUpd "\x00$y$new\x00".toList) false ["bob".toList, "update".toList, "0".toList, "-1".toList]) =
    some PAM_SUCCESS := by decide +kernel
example : (unixUpdate demoWorld demoEtc rootProc (demoUpd "\x00$y$new\x00".toList) false ["bob".toList, "update".toList, "0".toList, "-1".toList]).any
    (fun r => r.2.any Act.file) = true := by decide +kernel
example : received 512 2 "secret password\x00$y$new\x00".toList = ["secret password".toList, "$y$new".toList] := by decide +kernel
example : Given "secret password\x00$y$new\x00rest".toList "secret password".toList "$y$new".toList := ⟨"secret password\x00$y$new\x00".toList, "rest".toList, rfl, by decide +kernel⟩
example : (demoUpd []).buf1.length = 513 ∧ (demoUpd []).buf2.length = 513 ∧ Ev.err ∉ (demoUpd []).sched ∧ (∃ n, n ≤ 100 ∧ (demoUpd []).tries n = true) :=
  ⟨List.length_replicate .., List.length_replicate .., by decide, 2, by decide, rfl⟩
example : Account (demoEtc.sys demoWorld) (demoEtc.shadow demoWorld) "ada".toList "ABsecret.p...assword....".toList :=
  ⟨_, rfl, Or.inr ⟨Or.inl rfl, _, rfl, rfl⟩⟩
example : Accepts demoWorld.crypts true "ABsecret.p...assword....".toList "secret password".toList := accepts_iff.mp (by decide +kernel)

end Pam.Unix
