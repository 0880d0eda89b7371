import Verif.Unix.Confined
import Verif.Unix.ChProps
/-
C165: a password change through the helper unix_update does the same as one by the module itself.
-/
namespace Pam.Unix
open Pam Util Util.Spec

/-- the helper can be run, nothing fails while the passwords are handed over, and it gets the lock -/
structure URun.Fine (r : URun) : Prop where
  pipe : r.pipe = true
  fork : r.fork = true
  dup : r.dup = true
  sanitize : r.sanitize = true
  exec : r.exec = true
  write : ∀ i, r.write i = true
  wait : r.wait = true
  exits : r.exits = true
  sched : Ev.err ∉ r.sched
  buf1 : r.buf1.length = 513
  buf2 : r.buf2.length = 513
  tries : ∃ n, n ≤ 100 ∧ r.tries n = true

theorem showInt_back (n : Int) (h0 : -(2 ^ 31) ≤ n) (h1 : n < 2 ^ 31) : Pwh.toInt (Pwh.strtol (Pwh.showInt n)) = n := by
  unfold Pwh.showInt
  by_cases hn : n < 0
  · rw [if_pos hn]
    obtain ⟨d1, d2, d3, _⟩ := toDigits_spec n.natAbs
    have := (strtoInt_base 10 (by decide) (by decide) (by decide) ('-' :: Nat.toDigits 10 n.natAbs) (-(n.natAbs : Int))).mpr
      ⟨[], Nat.toDigits 10 n.natAbs, n.natAbs, by simp, ⟨d1, d2, d3.symm⟩, Or.inr (Or.inr ⟨rfl, rfl⟩)⟩
    unfold Pwh.strtol Pwh.toInt
    rw [this.1]
    simp only
    omega
  · rw [if_neg hn]
    obtain ⟨d1, d2, d3, _⟩ := toDigits_spec n.toNat
    have := (strtoInt_base 10 (by decide) (by decide) (by decide) (Nat.toDigits 10 n.toNat) (n.toNat : Int)).mpr
      ⟨[], Nat.toDigits 10 n.toNat, n.toNat, by simp, ⟨d1, d2, d3.symm⟩, Or.inl ⟨rfl, rfl⟩⟩
    unfold Pwh.strtol Pwh.toInt
    rw [this.1]
    simp only
    omega

theorem strings_two {a b : List Char} (ha : NUL ∉ a) (hb : NUL ∉ b) : strings (a ++ [NUL] ++ b ++ [NUL]) = [a, b] := by
  induction a with
  | nil => rw [List.nil_append, List.append_assoc, List.singleton_append, strings, if_pos rfl, strings_one hb]
  | cons c cs ih =>
    rw [List.mem_cons, not_or] at ha
    have := ih ha.2
    simp only [List.cons_append] at this ⊢
    rw [strings, if_neg (fun e => ha.1 e.symm), this]

/-- the codes of the change -/
theorem setFiles_code (w : World) (e : Etc) (p : Proc) (l : SLuck) (pw : Pw) (u : Str) (old : Option Str) (h : Str) (shadow : Bool) (n : Int) :
    (setFiles w e p l pw u old h shadow n).1 = PAM_SUCCESS ∨ (setFiles w e p l pw u old h shadow n).1 = PAM_AUTHTOK_ERR := by
  unfold setFiles
  simp only
  repeat' split
  all_goals first | exact Or.inl rfl | exact Or.inr rfl

/-- **C165** On a system with SELinux in force, a change of a password by pam_unix takes the same steps as without it, with the same result, only that the helper takes the lock: for a process that is root, or of the user with the right old password.  (The old password must be known unless none are remembered.) -/
theorem C165_same_partial (w : World) (e : Etc) (p : Proc) (hp : p.euid = 0) (r : URun) (hr : r.Fine) (ctrl : Ctrl) (user : Str) (pw : Pw) (old : Option Str) (new : Str) (remember : Int)
    (hpw : (e.sys w).pwnam user = some pw) (hf : (e.findPw user).isSome = true)
    (ho : old ≠ none ∨ remember < 0) (hn0 : -(2 ^ 31) ≤ remember) (hn1 : remember < 2 ^ 31)
    (ha : NUL ∉ old.getD [] ∧ (old.getD []).length ≤ 512) (hb : NUL ∉ new ∧ new.length ≤ 512)
    (hmay : p.uid = 0 ∨ (pw.uid = p.uid ∧ ∃ x, Account (e.sys w) (e.shadow w) user x ∧ Accepts w.crypts true x (old.getD []))) :
    doSetpassSe w e p r ctrl user old new remember = none ∨
    doSetpassSe w e p r ctrl user old new remember =
      some ((doSetpass w e p r.l ctrl user old new remember).1, .lock :: (doSetpass w e p r.l ctrl user old new remember).2) := by
  have hbytes : pipeBytes r.write old new = old.getD [] ++ [NUL] ++ new ++ [NUL] := by
    unfold pipeBytes
    simp only [hr.write, if_true]
    rw [List.take_of_length_le ha.2, List.take_of_length_le hb.2]
  have hin : received 512 2 (pipeBytes r.write old new) = [old.getD [], new] := by
    unfold received
    rw [hbytes, strings_two ha.1 hb.1]
    simp [ha.2, hb.2]
  have hlock : lockPwdf r.tries = true := by
    obtain ⟨n, hn, ht⟩ := hr.tries
    unfold lockPwdf
    exact List.any_eq_true.mpr ⟨n, List.mem_range.mpr (by omega), ht⟩
  have hsh : decide (Pwh.toInt (Pwh.strtol (if on UNIX_SHADOW ctrl = true then "1".toList else "0".toList)) ≠ 0) = on UNIX_SHADOW ctrl := by
    cases on UNIX_SHADOW ctrl <;> decide +kernel
  have hsave : ∀ l, saveOldPassword w e p l user (some (old.getD [])) remember = saveOldPassword w e p l user old remember := by
    intro l
    unfold saveOldPassword
    by_cases h : remember < 0
    · rw [if_pos h, if_pos h]
    · rcases ho with ho | ho
      · cases old with
        | none => exact absurd rfl ho
        | some o => rfl
      · exact absurd ho h
  unfold doSetpassSe doSetpass runUpdate unixUpdate
  rw [hpw]
  simp only [hf, if_true, hr.pipe, hr.fork, hr.dup, hr.sanitize, hr.exec, hr.wait, hr.exits, Bool.not_true, Bool.false_eq_true, if_false]
  rw [if_neg (by simpa using hp)]
  unfold setPassword
  simp only
  rcases C29_independent_of_chunking [r.buf1, r.buf2] 2 (by simp [hr.buf1, hr.buf2]) (by simp) (pipeBytes r.write old new) r.sched hr.sched with ⟨h, -⟩ | ⟨slots, rest, h, hj⟩
  · rw [h]; exact Or.inl rfl
  · right
    rcases C29_passwords [r.buf1, r.buf2] 2 (by simp [hr.buf1, hr.buf2]) (by simp) (pipeBytes r.write old new) r.sched with h' | ⟨_, _, _, slots', h', _, _, hlen, _⟩
    · rw [h] at h'; cases h'
    rw [h] at h'
    cases h'
    match slots, hlen with
    | [s1, s2], _ =>
      rw [hin] at h hj
      obtain ⟨c1, hc1, g1⟩ := hj 0 (old.getD []) r.buf1 rfl rfl
      obtain ⟨c2, hc2, g2⟩ := hj 1 new r.buf2 rfl rfl
      cases hc1; cases hc2
      have e1 : cstr s1 = old.getD [] := holds_cstr g1 ha.1
      have e2 : cstr s2 = new := holds_cstr g2 hb.1
      rw [h]
      dsimp only
      rw [if_neg (by simp), hlock, e1, e2]
      have hm : mayUpdate (e.sys w) p user (old.getD []) = (PAM_SUCCESS, some pw) := by
        unfold mayUpdate
        rw [hpw]
        dsimp only
        rcases hmay with hu | ⟨hu, x, hx, ha⟩
        · rw [if_neg (by simpa using hu)]
        · split
          · rw [if_neg (by simpa using hu)]
            have hv : helperVerify (e.sys w) p user (old.getD []) true = PAM_SUCCESS := by
              have hst : Stored (e.sys w) p user x := by
                unfold Stored
                rw [rootReads w e p hp]
                exact hx
              unfold helperVerify
              rw [pwdHash_iff.mpr hst]
              exact accepts_iff.mpr ha
            rw [if_neg (by simpa using hv)]
          · rfl
      rw [hm]
      dsimp only
      rw [showInt_back remember hn0 hn1, hsh]
      have hset : setFiles w e p r.l pw user (some (old.getD [])) new (on UNIX_SHADOW ctrl) remember = setFiles w e p r.l pw user old new (on UNIX_SHADOW ctrl) remember := by
        unfold setFiles
        rw [hsave]
      rw [hset]
      have hcode := setFiles_code w e p r.l pw user old new (on UNIX_SHADOW ctrl) remember
      generalize setFiles w e p r.l pw user old new (on UNIX_SHADOW ctrl) remember = q at hcode
      simp only [Bool.not_true, Bool.false_eq_true, if_false, Option.map_some]
      rcases hcode with h | h <;> rw [h] <;> rfl

/-- **C165** When the helper cannot be run, does not end by itself or is not heard of, the change is not said to have worked; when it cannot be run nothing is touched. -/
theorem C165_fails (w : World) (e : Etc) (p : Proc) (r : URun) (ctrl : Ctrl) (user : Str) (old : Option Str) (new : Str) (remember : Int) (hf : (e.findPw user).isSome = true) :
    (r.pipe = false ∨ r.fork = false ∨ r.dup = false ∨ r.sanitize = false ∨ r.exec = false →
      ∃ code, doSetpassSe w e p r ctrl user old new remember = some (code, []) ∧ code ≠ PAM_SUCCESS) ∧
    (r.wait = false ∨ r.exits = false → ∀ code acts, doSetpassSe w e p r ctrl user old new remember = some (code, acts) → code ≠ PAM_SUCCESS) := by
  unfold doSetpassSe
  cases (e.sys w).pwnam user with
  | none =>
    refine ⟨fun _ => ⟨_, rfl, by decide⟩, ?_⟩
    intro _ code acts h
    cases h
    decide
  | some pw =>
    simp only [hf, if_true]
    unfold runUpdate
    constructor
    · intro h
      cases h1 : r.pipe
      · exact ⟨_, rfl, by decide⟩
      cases h2 : r.fork
      · exact ⟨_, rfl, by decide⟩
      have h3 : (!r.dup) = true ∨ (!r.sanitize) = true ∨ (!r.exec) = true := by
        rcases h with h | h | h | h | h
        · rw [h1] at h; cases h
        · rw [h2] at h; cases h
        · rw [h]; exact Or.inl rfl
        · rw [h]; exact Or.inr (Or.inl rfl)
        · rw [h]; exact Or.inr (Or.inr rfl)
      have hc : ∀ x : Option (Int × List Act), (if (!r.dup) = true then some (PAM_AUTHINFO_UNAVAIL, []) else if (!r.sanitize) = true then some (PAM_AUTHINFO_UNAVAIL, [])
          else if (!r.exec) = true then some (PAM_AUTHINFO_UNAVAIL, []) else x) = some (PAM_AUTHINFO_UNAVAIL, []) := by
        intro x
        by_cases g1 : (!r.dup) = true
        · rw [if_pos g1]
        · rw [if_neg g1]
          by_cases g2 : (!r.sanitize) = true
          · rw [if_pos g2]
          · rw [if_neg g2]
            rcases h3 with h3 | h3 | h3
            · exact absurd h3 g1
            · exact absurd h3 g2
            · rw [if_pos h3]
      rw [if_neg (by simp), if_neg (by simp)]
      simp only
      rw [hc]
      refine ⟨_, rfl, ?_⟩
      cases r.wait <;> cases r.exits <;> decide
    · intro h code acts hs
      split at hs
      · cases hs; decide
      · split at hs
        · cases hs; decide
        · simp only [Option.map_eq_some_iff] at hs
          obtain ⟨x, -, hx⟩ := hs
          have := congrArg Prod.fst hx
          simp only at this
          rw [← this]
          have ne : PAM_AUTHTOK_ERR ≠ PAM_SUCCESS := by decide
          rcases h with h | h
          · rw [h]; exact ne
          · rw [h]
            cases r.wait
            · exact ne
            · exact ne

/-- **C165** The user must be known, and nothing is done here for one who is not in /etc/passwd. -/
theorem C165_who (w : World) (e : Etc) (p : Proc) (r : URun) (ctrl : Ctrl) (user : Str) (old : Option Str) (new : Str) (remember : Int) :
    ((e.sys w).pwnam user = none → doSetpassSe w e p r ctrl user old new remember = some (PAM_AUTHTOK_ERR, [])) ∧
    (∀ pw, (e.sys w).pwnam user = some pw → e.findPw user = none → doSetpassSe w e p r ctrl user old new remember = some (PAM_SUCCESS, [])) := by
  unfold doSetpassSe
  constructor
  · intro h
    rw [h]
  · intro pw h hf
    rw [h, hf]
    rfl

/-! ### examples -/

def demoURun : URun where
  sched := [.upto 3, .intr, .upto 0, .upto 2000]
  buf1 := List.replicate 513 'x'
  buf2 := List.replicate 513 'y'
  tries n := n = 2
  l := demoSLuck

theorem demoURun_fine : demoURun.Fine :=
  ⟨rfl, rfl, rfl, rfl, rfl, fun _ => rfl, rfl, rfl, by decide, List.length_replicate .., List.length_replicate .., 2, by decide, rfl⟩

/-- **C165** (against) It is not the same when root changes a password, which asks for no old one, and old ones are remembered: the module itself writes no line into opasswd then, the helper is given an empty old password and writes it down.  modules/pam_unix/pam_unix_passwd.c:284-291, modules/pam_unix/passverify.c:638-640. -/
theorem C165_null_counterexample :
    (doSetpass demoWorld demoEtc rootProc demoSLuck (flagOf UNIX_SHADOW) "bob".toList none "$y$new".toList 3).1 = PAM_SUCCESS ∧
    ((demoEtc.after (doSetpass demoWorld demoEtc rootProc demoSLuck (flagOf UNIX_SHADOW) "bob".toList none "$y$new".toList 3).2).op.main) = demoEtc.op.main ∧
    (doSetpassSe demoWorld demoEtc rootProc demoURun (flagOf UNIX_SHADOW) "bob".toList none "$y$new".toList 3).any
      (fun r => decide (r.1 = PAM_SUCCESS) && decide ((demoEtc.after r.2).op.main ≠ demoEtc.op.main)) = true := by
  decide +kernel

example : fst' (doSetpassSe demoWorld demoEtc rootProc demoURun (flagOf UNIX_SHADOW) "bob".toList (some "secret p".toList) "$y$new".toList 3) = some PAM_SUCCESS := by decide +kernel
example : (doSetpassSe demoWorld demoEtc adaProc demoURun (flagOf UNIX_SHADOW) "ada".toList (some "secret password".toList) "$y$new".toList 3).any
    (fun r => decide (r.1 = PAM_SUCCESS) && decide (r.2.length > 10)) = true := by decide +kernel
example : (demoEtc.findPw "bob".toList).isSome = true ∧ ((demoEtc.sys demoWorld).pwnam "bob".toList).isSome = true := by decide +kernel
example : fst' (doSetpassSe demoWorld demoEtc rootProc { demoURun with exec := false } (flagOf UNIX_SHADOW) "bob".toList none "$y$new".toList 3) = some PAM_AUTHINFO_UNAVAIL := by decide +kernel
example : fst' (doSetpassSe demoWorld demoEtc rootProc { demoURun with exits := false } (flagOf UNIX_SHADOW) "bob".toList none "$y$new".toList 3) = some PAM_AUTHTOK_ERR := by decide +kernel

end Pam.Unix
