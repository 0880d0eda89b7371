import Verif.Unix.CtrlProps
/-
Property theorem C72 (part): what pam_unix takes from the flags of the call is not touched by its arguments or /etc/login.defs.
-/
namespace Pam.Unix
open Pam

/-- a bit that no option with a word and no later stage touches -/
structure Apart (i : Nat) : Prop where
  lt : i < 64
  kept : ∀ j : Fin 35, (args[j.val]?.bind (·.token)).isSome = true → (maskOf j.val).getLsbD i = true
  free : ∀ j : Fin 35, (args[j.val]?.bind (·.token)).isSome = true → (flagOf j.val).getLsbD i = false
  later : i ≠ 24 ∧ i ≠ 14 ∧ i ≠ 9

theorem apart_set {i : Nat} (hi : Apart i) {j : Nat} (hj : j < 35) (hf : (args[j]?.bind (·.token)).isSome = true) (c : Ctrl) :
    (set j c).getLsbD i = c.getLsbD i := by
  have h1 := hi.kept ⟨j, hj⟩ hf
  have h2 := hi.free ⟨j, hj⟩ hf
  simp only at h1 h2
  rw [set_bit, h1, h2, Bool.and_true, Bool.or_false]

theorem apart_step {i : Nat} (hi : Apart i) (o : Opts) (a : Str) : (argStep o a).ctrl.getLsbD i = o.ctrl.getLsbD i := by
  rcases argStep_ctrl o a with h | ⟨j, str, hf, h⟩
  · rw [h]
  · rw [h]
    obtain ⟨-, e, t, he, ht, -⟩ := find_some hf
    rw [Nat.sub_zero] at he
    exact apart_set hi (found_lt hf) (by rw [he]; simp [ht]) _

theorem apart_fold {i : Nat} (hi : Apart i) : ∀ (argv : List Str) (o : Opts), (argv.foldl argStep o).ctrl.getLsbD i = o.ctrl.getLsbD i
  | [], _ => rfl
  | a :: argv, o => by rw [List.foldl_cons, apart_fold hi argv, apart_step hi]

theorem apart_start {i : Nat} (hi : Apart i) (root : Bool) (fl : Flags) (defs : Option Str) :
    (startCtrl root fl defs).getLsbD i = (callCtrl root fl).getLsbD i := by
  rw [start_eq]
  cases Util.searchKey defs "ENCRYPT_METHOD".toList with
  | none => rfl
  | some val =>
    simp only
    cases hm : findMethod val 0 args with
    | none => rfl
    | some j =>
      obtain ⟨-, e, t, h1, h2, -, -⟩ := method_some hm
      rw [Nat.sub_zero] at h1
      obtain ⟨hj, -⟩ := tok h1 h2
      exact apart_set hi hj (by rw [h1]; simp [h2]) _

theorem apart_ctrl {i : Nat} (hi : Apart i) {root : Bool} {fl : Flags} {defs : Option Str} {r1 r2 r3 : Option Int} {argv : List Str} {o : Opts}
    (h : setCtrl root fl defs r1 r2 r3 argv = some o) : o.ctrl.getLsbD i = (callCtrl root fl).getLsbD i := by
  rw [tail_keeps h hi.lt hi.later.1 hi.later.2.1, null_keeps hi.lt hi.later.2.2, apart_fold hi]
  exact apart_start hi root fl defs

theorem apart_bits : Apart (pos UNIX__QUIET) ∧ Apart (pos UNIX__PRELIM) ∧ Apart (pos UNIX__UPDATE) ∧ Apart (pos UNIX__IAMROOT) ∧
    Apart (pos UNIX_EXPIRED_ONLY) :=
  ⟨⟨by decide, by decide +kernel, by decide +kernel, by decide⟩, ⟨by decide, by decide +kernel, by decide +kernel, by decide⟩, ⟨by decide, by decide +kernel, by decide +kernel, by decide⟩,
    ⟨by decide, by decide +kernel, by decide +kernel, by decide⟩, ⟨by decide, by decide +kernel, by decide +kernel, by decide⟩⟩

/-- C72: that the call is silent, is the check or the update of a password change, comes from the superuser who may change any
password, and is for expired passwords only, pam_unix takes from the call, whatever its arguments and /etc/login.defs.  A call that is said to be both the check and the
update is the check. -/
theorem C72_call (root : Bool) (fl : Flags) (defs : Option Str) (r1 r2 r3 : Option Int) (argv : List Str) (o : Opts)
    (h : setCtrl root fl defs r1 r2 r3 argv = some o) :
    on UNIX__QUIET o.ctrl = fl.silent ∧ on UNIX__PRELIM o.ctrl = fl.prelim ∧ on UNIX__UPDATE o.ctrl = (fl.update && !fl.prelim) ∧
      on UNIX__IAMROOT o.ctrl = (root && !fl.changeExpired) ∧ on UNIX_EXPIRED_ONLY o.ctrl = fl.changeExpired := by
  obtain ⟨h1, h2, h3, h4, h5⟩ := apart_bits
  rw [on_bit (by decide) (by decide) (by decide), on_bit (by decide) (by decide) (by decide), on_bit (by decide) (by decide) (by decide),
    on_bit (by decide) (by decide) (by decide), on_bit (by decide) (by decide) (by decide), apart_ctrl h1 h, apart_ctrl h2 h, apart_ctrl h3 h, apart_ctrl h4 h, apart_ctrl h5 h]
  clear h
  obtain ⟨a, b, c, d, e⟩ := fl
  revert root a b c d e
  decide +kernel

/-- the hypothesis is met -/
example : (setCtrl true { changeExpired := false, update := false, prelim := true, silent := true, disallowNull := false } none none none none
    ["nullok".toList]).isSome = true := by decide +kernel

end Pam.Unix
