import Verif.Env.OwnerLemmas
/-
C198: the memory of the variables that pam_env reads from its configuration.
-/
namespace Pam.Env.Owner
open Pam Pam.Small Pam.Env

namespace Spec

/-- the code and the environment, if it came to a result -/
def answer : Res (Int × PEnv × M) → Option (Int × PEnv)
  | .ok (r, e, _) => some (r, e)
  | _ => none

/-- nothing is left in memory -/
def NothingLeft (m : M) : Prop := ∀ n, m.live n = none

/-- how often a word occurs in a text -/
def times (k : Str) : Str → Nat
  | [] => 0
  | c :: s => (if k.isPrefixOf (c :: s) then 1 else 0) + times k s

/-- a line that has no quotes, or each setting at most once -/
def Simple (l : Str) : Prop := '"' ∉ l ∨ (times "DEFAULT=".toList l ≤ 1 ∧ times "OVERRIDE=".toList l ≤ 1)

end Spec

open Spec

theorem times_eq (k : Str) : ∀ l, times k l = occurs k l
  | [] => rfl
  | c :: s => by rw [times, occurs, times_eq k s]

theorem config_ok (q : Bool) (ok moves : Nat → Bool) (w : Who) (e : PEnv) (ls : List Str) (hq : q = true → ∀ l ∈ ls, '"' ∉ l ∨ ∀ o, occurs (word o) l ≤ 1) :
    match configLines ok moves w e ls with
    | .misuse => False
    | .env => Env.confLines w PAM_SUCCESS e ls = none
    | .ok (r, e', m') => Inv q (fun _ => .null) m' ∧
      ((Env.confLines w PAM_SUCCESS e ls).map (fun r => (if r.1 ≠ 0 then PAM_ABORT else PAM_SUCCESS, r.2)) = some (r, e') ∨ (r = PAM_ABORT ∧ Short ok)) := by
  have h := confLines_ok q ok moves w ls PAM_SUCCESS e M.start (start_ok q) hq
  unfold configLines
  generalize confLines ok moves w PAM_SUCCESS e ls M.start = r at h
  cases r with
  | misuse => exact h.elim
  | env => exact h
  | ok x =>
    obtain ⟨r, e', m'⟩ := x
    obtain ⟨x, hi, ht, hc⟩ := h
    obtain ⟨m2, h2, i2⟩ := cleanVar_ok hi ht
    simp only
    rw [h2]
    refine ⟨i2, ?_⟩
    rcases hc with hc | ⟨rfl, hs⟩
    · left; rw [hc]; rfl
    · right; exact ⟨if_pos (by decide), hs⟩

/-- C198.  Whatever the lines say, and wherever memory runs out: only memory that the module got is freed, each piece once, and none is read after that. -/
theorem C198_memory (ok moves : Nat → Bool) (w : Who) (e : PEnv) (ls : List Str) : configLines ok moves w e ls ≠ .misuse := by
  intro h
  have := config_ok false ok moves w e ls (fun e => by cases e)
  rw [h] at this
  exact this

/-- C198.  If each line has no quotes, or each setting at most once, nothing is left in memory at the end, whether or not there was enough of it. -/
theorem C198_nothing_left_partial (ok moves : Nat → Bool) (w : Who) (e : PEnv) (ls : List Str) (hq : ∀ l ∈ ls, Simple l) (r : Int) (e' : PEnv) (m : M)
    (h : configLines ok moves w e ls = .ok (r, e', m)) : NothingLeft m := by
  have hi := config_ok true ok moves w e ls (fun _ l hl => (hq l hl).imp id (fun hh o => by
    rw [times_eq, times_eq] at hh
    cases o
    · exact hh.1
    · exact hh.2))
  rw [h] at hi
  intro n
  cases hn : m.live n with
  | none => rfl
  | some t =>
    obtain ⟨i, hp⟩ := hi.1.exact_ rfl n (by rw [hn]; exact fun e => by cases e)
    rw [ptr_null hi.1 rfl] at hp
    cases hp

/-- C198.  If there is memory, the result is the one of C89. -/
theorem C198_answer (ok moves : Nat → Bool) (hok : ∀ n, ok n = true) (w : Who) (e : PEnv) (content : Str) :
    answer (configLines ok moves w e (Config.fileLines NUL content).1) = Env.configFile w e (some content) := by
  have h := config_ok false ok moves w e (Config.fileLines NUL content).1 (fun e => by cases e)
  unfold Env.configFile
  generalize configLines ok moves w e (Config.fileLines NUL content).1 = r at h
  cases r with
  | misuse => exact h.elim
  | env => simp only at h ⊢; rw [h]; rfl
  | ok x =>
    obtain ⟨r, e', m'⟩ := x
    rcases h.2 with hc | ⟨_, n, hn⟩
    · exact hc.symm
    · rw [hok n] at hn; cases hn

/-- C198.  Lack of memory never passes for success: if the result is success, it is the one of C89. -/
theorem C198_short (ok moves : Nat → Bool) (w : Who) (e : PEnv) (content : Str) (e' : PEnv) (m : M)
    (hs : configLines ok moves w e (Config.fileLines NUL content).1 = .ok (PAM_SUCCESS, e', m)) : Env.configFile w e (some content) = some (PAM_SUCCESS, e') := by
  have h := config_ok false ok moves w e (Config.fileLines NUL content).1 (fun e => by cases e)
  rw [hs] at h
  rcases h.2 with hc | ⟨hc, _⟩
  · exact hc
  · exact absurd hc (by decide)

/-- a user without items -/
def exWho : Who := ⟨some "ann".toList, none, none, none, none, fun _ => none⟩

/-- no variables -/
def exEnv : PEnv := Handle.PEnv.make

/-- a block at the end -/
def left (r : Res (Int × PEnv × M)) (n : Nat) : Option Str := match r with | .ok (_, _, m) => m.live n | _ => none

/-- C198, in full, is false: a value that is replaced by an empty one in quotes is lost. -/
theorem C198_lost_counterexample : left (configLines (fun _ => true) (fun _ => false) exWho exEnv ["X DEFAULT=secret DEFAULT=\"\"".toList]) 1 = some "secret".toList := by
  decide +kernel

/-! The hypotheses are met. -/

/-- a file whose values are replaced and expanded, in old and new memory -/
def exFile : Str := "X DEFAULT=a DEFAULT=@{PAM_USER}\nY OVERRIDE=${X}\n".toList

example : ((answer (configLines (fun _ => true) (fun _ => true) exWho exEnv (Config.fileLines NUL exFile).1)).map (·.1)) = some PAM_SUCCESS := by decide +kernel
example : ∀ l ∈ (Config.fileLines NUL exFile).1, Simple l := by unfold Simple; decide +kernel
example : Simple "X DEFAULT=\"\" OVERRIDE=\"a b\"".toList := by unfold Simple; decide +kernel
example : ¬ Simple "X DEFAULT=secret DEFAULT=\"\"".toList := by unfold Simple; decide +kernel
example : ((answer (configLines (fun _ => true) (fun _ => true) exWho exEnv (Config.fileLines NUL exFile).1)).bind (fun r => (r.2.getenv (some "Y".toList)))) = some (some "ann".toList) := by
  decide +kernel
/-- the fourth request fails: the new memory for the expanded value -/
example : ((answer (configLines (fun n => n ≠ 4) (fun _ => true) exWho exEnv (Config.fileLines NUL exFile).1)).map (·.1)) = some PAM_ABORT := by decide +kernel

end Pam.Env.Owner
