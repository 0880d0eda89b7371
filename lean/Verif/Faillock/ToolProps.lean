import Verif.Faillock.Tool
/-
C157: the command faillock.
-/
namespace Pam.Faillock.Tool
open Pam Pam.Faillock

namespace Spec

/-- the options of the command -/
inductive Opt where
  | conf (v : Str)
  | dir (v : Str)
  | user (v : Str)
  | reset
  | legacy
deriving DecidableEq, Repr

/-- how they are written -/
def written : Opt → List Str
  | .conf v => ["--conf".toList, v]
  | .dir v => ["--dir".toList, v]
  | .user v => ["--user".toList, v]
  | .reset => ["--reset".toList]
  | .legacy => ["--legacy-output".toList]

/-- a value must be given -/
def good : Opt → Prop
  | .conf v => v ≠ []
  | .dir v => v ≠ []
  | .user v => v ≠ []
  | _ => True

def confOf : Opt → Option Str
  | .conf v => some v
  | _ => none
def dirOf : Opt → Option Str
  | .dir v => some v
  | _ => none
def userOf : Opt → Option Str
  | .user v => some v
  | _ => none

/-- the last value counts -/
def lastOf (f : Opt → Option Str) (os : List Opt) : Option Str := (os.filterMap f).getLast?

/-- what a command line says -/
def Says (argv : List Str) (conf dir user : Option Str) (reset legacy : Bool) : Prop :=
  ∃ os : List Opt, (∀ o ∈ os, good o) ∧ argv = os.flatMap written ∧ conf = lastOf confOf os ∧ dir = lastOf dirOf os ∧
    user = lastOf userOf os ∧ (reset = true ↔ Opt.reset ∈ os) ∧ (legacy = true ↔ Opt.legacy ∈ os)

/-- the name of a kind of source -/
def kindName : Kind → Str
  | .rhost => "RHOST".toList
  | .tty => "TTY".toList
  | .service => "SVC".toList

/-- filled up with blanks -/
def fill (n : Nat) (s : Str) : Str := s ++ List.replicate (n - s.length) ' '

/-- a record as it is shown -/
def shown (time : Str) (r : Rec) : Str :=
  fill 19 time ++ " ".toList ++ fill 5 (kindName r.kind) ++ " ".toList ++ fill 52 (r.source.take 52) ++ " ".toList ++ (if r.valid then ['V'] else ['I'])

end Spec
open Spec

/-! ### arguments -/

theorem lastOf_cons (f : Opt → Option Str) (o : Opt) (os : List Opt) : lastOf f (o :: os) = (lastOf f os).or (f o) := by
  unfold lastOf
  cases h : f o with
  | none => rw [List.filterMap_cons_none h]; simp
  | some v =>
    rw [List.filterMap_cons_some h]
    cases h2 : os.filterMap f with
    | nil => rfl
    | cons a b =>
      rw [List.getLast?_cons_cons]
      cases h3 : (a :: b).getLast? with
      | none => simp at h3
      | some z => rfl

/-- the arguments after some options -/
def after (a : Args) (os : List Opt) : Args :=
  ⟨(lastOf confOf os).or a.conf, (lastOf dirOf os).or a.dir, (lastOf userOf os).or a.user, a.reset || decide (Opt.reset ∈ os),
    a.legacy || decide (Opt.legacy ∈ os)⟩

theorem or_assoc' (a b c : Option Str) : (a.or b).or c = a.or (b.or c) := by
  cases a <;> rfl

theorem after_cons (a : Args) (o : Opt) (os : List Opt) : after a (o :: os) = after (after a [o]) os := by
  unfold after
  simp only [lastOf_cons, or_assoc']
  have e : ∀ f, lastOf f [] = none := fun f => rfl
  simp only [e]
  cases o <;> simp [Bool.or_assoc]

theorem parse_one (a : Args) (o : Opt) (ho : good o) (rest : List Str) : parse a (written o ++ rest) = parse (after a [o]) rest := by
  have k1 : "--dir".toList ≠ "--conf".toList := by decide
  have k2 : "--user".toList ≠ "--conf".toList := by decide
  have k3 : "--user".toList ≠ "--dir".toList := by decide
  have k4 : "--reset".toList ≠ "--conf".toList := by decide
  have k5 : "--reset".toList ≠ "--dir".toList := by decide
  have k6 : "--reset".toList ≠ "--user".toList := by decide
  have k7 : "--legacy-output".toList ≠ "--conf".toList := by decide
  have k8 : "--legacy-output".toList ≠ "--dir".toList := by decide
  have k9 : "--legacy-output".toList ≠ "--user".toList := by decide
  have k10 : "--legacy-output".toList ≠ "--reset".toList := by decide
  generalize hA : "--conf".toList = A at *
  generalize hB : "--dir".toList = B at *
  generalize hC : "--user".toList = C at *
  generalize hD : "--reset".toList = D at *
  generalize hE : "--legacy-output".toList = E at *
  cases o with
  | conf v =>
    show parse a (_ :: v :: rest) = _
    rw [parse, hA, if_pos rfl, if_neg ho]
    simp [after, lastOf, confOf, dirOf, userOf]
  | dir v =>
    show parse a (_ :: v :: rest) = _
    rw [parse, hA, hB, if_neg k1, if_pos rfl, if_neg ho]
    simp [after, lastOf, confOf, dirOf, userOf]
  | user v =>
    show parse a (_ :: v :: rest) = _
    rw [parse, hA, hB, hC, if_neg k2, if_neg k3, if_pos rfl, if_neg ho]
    simp [after, lastOf, confOf, dirOf, userOf]
  | reset =>
    show parse a (_ :: rest) = _
    have e : after a [Opt.reset] = { a with reset := true } := by simp [after, lastOf, confOf, dirOf, userOf]
    rw [e]
    cases rest with
    | nil =>
      conv => lhs; rw [parse]
      rw [hA, hB, hC, hD, if_neg (by rintro (h | h | h); exact k4 h; exact k5 h; exact k6 h), if_pos rfl]; rfl
    | cons v r => rw [parse, hA, hB, hC, hD, if_neg k4, if_neg k5, if_neg k6, if_pos rfl]
  | legacy =>
    show parse a (_ :: rest) = _
    have e : after a [Opt.legacy] = { a with legacy := true } := by simp [after, lastOf, confOf, dirOf, userOf]
    rw [e]
    cases rest with
    | nil =>
      conv => lhs; rw [parse]
      rw [hA, hB, hC, hD, hE, if_neg (by rintro (h | h | h); exact k7 h; exact k8 h; exact k9 h), if_neg k10, if_pos rfl]; rfl
    | cons v r => rw [parse, hA, hB, hC, hD, hE, if_neg k7, if_neg k8, if_neg k9, if_neg k10, if_pos rfl]

theorem parse_all : ∀ (os : List Opt) (a : Args), (∀ o ∈ os, good o) → parse a (os.flatMap written) = some (after a os)
  | [], a, _ => by
    show parse a [] = _
    rw [parse]
    simp [after, lastOf]
  | o :: os, a, h => by
    rw [List.flatMap_cons, parse_one a o (h o List.mem_cons_self), parse_all os _ (fun x hx => h x (List.mem_cons_of_mem _ hx)), ← after_cons]

theorem parse_only : ∀ (n : Nat) (argv : List Str) (a b : Args), argv.length ≤ n → parse a argv = some b →
    ∃ os : List Opt, (∀ o ∈ os, good o) ∧ argv = os.flatMap written
  | _, [], _, _, _, _ => ⟨[], nofun, rfl⟩
  | 0, _ :: _, _, _, h, _ => by simp at h
  | n + 1, [w], a, b, _, hp => by
    rw [parse] at hp
    split at hp
    · cases hp
    split at hp
    · rename_i e; exact ⟨[.reset], by intro o ho; simp at ho; subst ho; trivial, by simp [written, e]⟩
    split at hp
    · rename_i e; exact ⟨[.legacy], by intro o ho; simp at ho; subst ho; trivial, by simp [written, e]⟩
    · cases hp
  | n + 1, w :: v :: r, a, b, hl, hp => by
    have add : ∀ (o : Opt), good o → (∃ rest a', parse a' rest = some b ∧ rest.length ≤ n ∧ w :: v :: r = written o ++ rest) →
        ∃ os : List Opt, (∀ o ∈ os, good o) ∧ w :: v :: r = os.flatMap written := by
      rintro o ho ⟨rest, a', h1, h2, h3⟩
      obtain ⟨os, h4, h5⟩ := parse_only n rest a' b h2 h1
      refine ⟨o :: os, ?_, by rw [h3, h5]; rfl⟩
      intro x hx
      rcases List.mem_cons.mp hx with e | e
      · rw [e]; exact ho
      · exact h4 x e
    simp only [List.length_cons] at hl
    rw [parse] at hp
    split at hp
    · rename_i e
      split at hp
      · cases hp
      · rename_i hv; exact add (.conf v) hv ⟨r, _, hp, by omega, by rw [e]; rfl⟩
    split at hp
    · rename_i e
      split at hp
      · cases hp
      · rename_i hv; exact add (.dir v) hv ⟨r, _, hp, by omega, by rw [e]; rfl⟩
    split at hp
    · rename_i e
      split at hp
      · cases hp
      · rename_i hv; exact add (.user v) hv ⟨r, _, hp, by omega, by rw [e]; rfl⟩
    split at hp
    · rename_i e
      exact add .reset trivial ⟨v :: r, _, hp, by simp only [List.length_cons]; omega, by rw [e]; rfl⟩
    split at hp
    · rename_i e
      exact add .legacy trivial ⟨v :: r, _, hp, by simp only [List.length_cons]; omega, by rw [e]; rfl⟩
    · cases hp

/-- the arguments before the first -/
def none0 : Args := ⟨none, none, none, false, false⟩

theorem says_iff (argv : List Str) (a : Args) : parse none0 argv = some a ↔ Says argv a.conf a.dir a.user a.reset a.legacy := by
  constructor
  · intro h
    obtain ⟨os, h1, h2⟩ := parse_only argv.length argv _ _ (Nat.le_refl _) h
    have := parse_all os none0 h1
    rw [← h2, h] at this
    cases this
    exact ⟨os, h1, h2, by simp [after, none0], by simp [after, none0], by simp [after, none0], by simp [after, none0], by simp [after, none0]⟩
  · rintro ⟨os, h1, h2, h3, h4, h5, h6, h7⟩
    rw [h2, parse_all os none0 h1]
    obtain ⟨c, d, u, r, l⟩ := a
    simp only at h3 h4 h5 h6 h7
    have e1 : r = decide (Opt.reset ∈ os) := by cases r <;> simp_all
    have e2 : l = decide (Opt.legacy ∈ os) := by cases l <;> simp_all
    rw [h3, h4, h5, e1, e2]
    simp [after, none0]

/-- what the command does once its arguments are read -/
theorem run_says (env : Env) (argv : List Str) (files : Str → Str → File) (conf dir user : Option Str) (reset legacy : Bool)
    (h : Says argv conf dir user reset legacy) (cdir : Str) (hc : env.config conf = some cdir) :
    (run env argv files).2.1 = some (dir.getD cdir) ∧
    ((run env argv files).1, (run env argv files).2.2) = (match user with
      | none => doAllUsers env ⟨conf, dir, user, reset, legacy⟩ (dir.getD cdir) ⟨files (dir.getD cdir), [], false⟩
      | some u => doUser env ⟨conf, dir, user, reset, legacy⟩ u ⟨files (dir.getD cdir), [], false⟩) := by
  have hp := (says_iff argv ⟨conf, dir, user, reset, legacy⟩).mpr h
  unfold none0 at hp
  unfold run
  simp only [hp, hc]
  cases user <;> exact ⟨by trivial, by rfl⟩

/-- **C157** A command line that says nothing sensible (an option that does not exist, or one without its value), or a configuration that
cannot be read, makes the command fail and touch no directory. -/
theorem C157_refused (env : Env) (argv : List Str) (files : Str → Str → File)
    (h : ∀ conf dir user reset legacy, Says argv conf dir user reset legacy → env.config conf = none) :
    (run env argv files).1 = 1 ∧ (run env argv files).2.1 = none := by
  unfold run
  cases hp : parse ⟨none, none, none, false, false⟩ argv with
  | none => exact ⟨rfl, rfl⟩
  | some a =>
    have hs := (says_iff argv a).mp hp
    simp only [h _ _ _ _ _ hs]
    exact ⟨by trivial, by trivial⟩

/-- **C157** `faillock --user u --reset` with `u` a known user whose file can be opened and cut: the records of the user are gone, those of
all others are as before, nothing is printed, and the command succeeds.  The directory is the one of --dir, or that of the configuration. -/
theorem C157_reset_user (env : Env) (argv : List Str) (files : Str → Str → File) (conf dir : Option Str) (u : Str) (legacy : Bool)
    (h : Says argv conf dir (some u) true legacy) (cdir : Str) (hc : env.config conf = some cdir)
    (hk : env.known u = true) (hd : dotted u = false) (ho : env.open_ u = none) (ht : env.truncate u = true) :
    (run env argv files).1 = 0 ∧ (run env argv files).2.1 = some (dir.getD cdir) ∧ (run env argv files).2.2.out = [] ∧
    (run env argv files).2.2.file u = some [] ∧ ∀ v, v ≠ u → (run env argv files).2.2.file v = files (dir.getD cdir) v := by
  obtain ⟨h1, h2⟩ := run_says env argv files _ _ _ _ _ h cdir hc
  have e1 := congrArg Prod.fst h2
  have e2 := congrArg Prod.snd h2
  simp only at e1 e2
  rw [h1, e1, e2]
  simp only [doUser, hk, hd, ho, ht, Bool.not_true, Bool.false_eq_true, if_false, if_true, St.put]
  exact ⟨trivial, trivial, trivial, trivial, fun v hv => by rw [if_neg hv]⟩

/-- **C157** After that the user is not locked out: whatever the options of the module are, authentication goes on, at any time. -/
theorem C157_unlocked (o : Opts) (now : Nat) (src : Kind × Str) : (act o IO.fine .preauth now src (some [])).1 = PAM_SUCCESS := by
  unfold act checkTally judge
  simp only [IO.fine, if_true, readTally, List.take_nil]
  split
  · rfl
  · rw [if_neg (by rintro ⟨h1, h2⟩; exact h1 (Nat.le_zero.mp h2))]

/-- **C157** The command fails if it cannot clear the records of the named user, and they are as before. -/
theorem C157_reset_fails (env : Env) (argv : List Str) (files : Str → Str → File) (conf dir : Option Str) (u : Str) (legacy : Bool)
    (h : Says argv conf dir (some u) true legacy) (cdir : Str) (hc : env.config conf = some cdir)
    (hx : env.known u = false ∨ (dotted u = false ∧ (∃ e, env.open_ u = some e ∧ e ≠ .enoent)) ∨ (dotted u = false ∧ env.open_ u = none ∧ env.truncate u = false)) :
    (run env argv files).1 ≠ 0 ∧ ∀ v, ((run env argv files).2.2.file v).getD [] = (files (dir.getD cdir) v).getD [] := by
  obtain ⟨h1, h2⟩ := run_says env argv files _ _ _ _ _ h cdir hc
  have e1 := congrArg Prod.fst h2
  have e2 := congrArg Prod.snd h2
  simp only at e1 e2
  rw [e1, e2]
  unfold doUser
  by_cases hk : env.known u = true
  · rcases hx with hx | ⟨hd, e, ho, he⟩ | ⟨hd, ho, ht⟩
    · rw [hk] at hx; cases hx
    · simp only [hk, hd, ho, Bool.not_true, Bool.false_eq_true, if_false]
      cases e with
      | enoent => exact absurd rfl he
      | eacces => exact ⟨by decide, fun _ => by trivial⟩
      | other => exact ⟨by decide, fun _ => by trivial⟩
    · simp only [hk, hd, ho, ht, Bool.not_true, Bool.false_eq_true, if_false, if_true, St.put]
      refine ⟨by decide, fun v => ?_⟩
      split
      · rename_i e; rw [e]; rfl
      · rfl
  · simp only [hk, Bool.not_false, if_true]
    exact ⟨by decide, fun _ => by trivial⟩

/-! ### all users -/

theorem doUser_other (env : Env) (a : Args) (u v : Str) (s : St) (h : v ≠ u) : (doUser env a u s).2.file v = s.file v := by
  unfold doUser
  split
  · rfl
  split
  · rfl
  · rfl
  · simp only
    split
    · split <;> simp [St.put, h]
    · split
      · split <;> simp [St.put, h]
      · simp [St.put, h]

theorem doUser_unknown (env : Env) (a : Args) (u : Str) (s : St) (h : env.known u = false) : (doUser env a u s).2 = s := by
  unfold doUser
  rw [if_pos (by rw [h]; rfl)]

theorem doAll_absent (env : Env) (a : Args) (v : Str) : ∀ (ns : List Str) (s : St), (v ∉ ns ∨ env.known v = false ∨ v = ".".toList ∨ v = "..".toList) →
    (doAll env a ns s).file v = s.file v
  | [], s, _ => rfl
  | n :: ns, s, h => by
    rw [doAll]
    have h' : v ∉ ns ∨ env.known v = false ∨ v = ".".toList ∨ v = "..".toList :=
      h.imp (fun h hm => h (List.mem_cons_of_mem _ hm)) id
    split
    · exact doAll_absent env a v ns s h'
    · rename_i hn
      rw [doAll_absent env a v ns _ h']
      by_cases e : v = n
      · subst e
        rcases h with h | h | h
        · exact absurd List.mem_cons_self h
        · rw [doUser_unknown env a v s h]
        · exact absurd h hn
      · exact doUser_other env a n v s e

theorem doAll_reset (env : Env) (a : Args) (ha : a.reset = true) (v : Str) (hk : env.known v = true) (hd : dotted v = false)
    (ho : env.open_ v = none) (ht : env.truncate v = true) (h1 : v ≠ ".".toList) (h2 : v ≠ "..".toList) :
    ∀ (ns : List Str) (s : St), (v ∈ ns ∨ s.file v = some []) → (doAll env a ns s).file v = some []
  | [], s, h => by
    rcases h with h | h
    · cases h
    · exact h
  | n :: ns, s, h => by
    rw [doAll]
    by_cases e : v = n
    · subst e
      rw [if_neg (by rintro (e | e); exact h1 e; exact h2 e)]
      apply doAll_reset env a ha v hk hd ho ht h1 h2 ns
      right
      simp only [doUser, hk, hd, ho, ht, ha, Bool.not_true, Bool.false_eq_true, if_false, if_true, St.put]
    · have hm : v ∈ ns ∨ s.file v = some [] := by
        rcases h with h | h
        · exact Or.inl ((List.mem_cons.mp h).resolve_left e)
        · exact Or.inr h
      split
      · exact doAll_reset env a ha v hk hd ho ht h1 h2 ns s hm
      · apply doAll_reset env a ha v hk hd ho ht h1 h2 ns
        rw [doUser_other env a n v s e]
        exact hm

/-- **C157** `faillock --reset` clears the records of each known user that has some and whose file can be opened and cut; files of names that
are not users stay as they are. -/
theorem C157_reset_all (env : Env) (argv : List Str) (files : Str → Str → File) (conf dir : Option Str) (legacy : Bool)
    (h : Says argv conf dir none true legacy) (cdir : Str) (hc : env.config conf = some cdir) (names : List Str)
    (hs : env.scandir (dir.getD cdir) = some names) (v : Str) :
    (env.known v = false → (run env argv files).2.2.file v = files (dir.getD cdir) v) ∧
    (v ∉ names → (run env argv files).2.2.file v = files (dir.getD cdir) v) ∧
    (v ∈ names → v ≠ ".".toList → v ≠ "..".toList → env.known v = true → dotted v = false → env.open_ v = none → env.truncate v = true →
      (run env argv files).2.2.file v = some []) := by
  obtain ⟨h1, h2⟩ := run_says env argv files _ _ _ _ _ h cdir hc
  have e2 := congrArg Prod.snd h2
  simp only [doAllUsers, hs] at e2
  rw [e2]
  refine ⟨fun hk => ?_, fun hn => ?_, fun hm a b hk hd ho ht => ?_⟩
  · exact doAll_absent env _ v names _ (Or.inr (Or.inl hk))
  · exact doAll_absent env _ v names _ (Or.inl hn)
  · exact doAll_reset env _ rfl v hk hd ho ht a b names _ (Or.inl hm)

/-- the system of the examples: alice and bob are users -/
def exEnv : Env where
  config := fun _ => some "/var/run/faillock".toList
  known := fun u => decide (u = "alice".toList) || decide (u = "bob".toList)
  scandir := fun _ => some [".".toList, "..".toList, "alice".toList, "bob".toList, "carol".toList]
  open_ := fun _ => none
  read := fun _ => true
  truncate := fun _ => true
  stale := .other
  localtime := fun t => some (Nat.toDigits 10 t)

def exFiles : Str → Str → File := fun _ u =>
  if u = "alice".toList then some [⟨.rhost, "10.0.0.1".toList, true, 1700000000⟩, ⟨.tty, "tty1".toList, false, 1700000100⟩]
  else if u = "bob".toList then some [⟨.service, "sshd".toList, true, 1700000200⟩]
  else if u = "carol".toList then some [⟨.service, "sshd".toList, true, 1⟩] else none

example : Says ["--user".toList, "bob".toList, "--reset".toList, "--user".toList, "alice".toList] none none (some "alice".toList) true false :=
  ⟨[.user "bob".toList, .reset, .user "alice".toList], by intro o ho; revert o; simp [good], rfl, rfl, rfl, rfl, by decide, by decide⟩
example : (run exEnv ["--user".toList, "alice".toList, "--reset".toList] exFiles).2.2.file "alice".toList = some [] := by decide +kernel
example : (run exEnv ["--reset".toList] exFiles).2.2.file "carol".toList ≠ some [] := by decide +kernel

/-- **C157** The full claim is that a command that succeeds has cleared the records.  For all users it is not true: the failure for one
of them is not told by what the command exits with. -/
theorem C157_exit_counterexample : ∃ (env : Env) (argv : List Str) (files : Str → Str → File) (u : Str), Says argv none none none true false ∧
    (env.known u = true ∧ ∃ names, env.scandir "/var/run/faillock".toList = some names ∧ u ∈ names) ∧
    (run env argv files).1 = 0 ∧ (run env argv files).2.2.file u ≠ some [] := by
  refine ⟨{ exEnv with truncate := fun _ => false }, ["--reset".toList], exFiles, "alice".toList, ?_, ?_, ?_, ?_⟩
  · exact ⟨[.reset], by intro o ho; revert o; simp [good], rfl, rfl, rfl, rfl, by decide, by decide⟩
  · exact ⟨by decide +kernel, _, rfl, by decide⟩
  · decide +kernel
  · decide +kernel

/-! ### showing records -/

theorem doUser_keeps (env : Env) (a : Args) (ha : a.reset = false) (u v : Str) (s : St) :
    ((doUser env a u s).2.file v).getD [] = (s.file v).getD [] := by
  by_cases e : v = u
  · subst e
    unfold doUser
    split
    · rfl
    split
    · rfl
    · rfl
    · simp only [ha, Bool.false_eq_true, if_false]
      split
      · split <;> simp [St.put]
      · simp [St.put]
  · rw [doUser_other env a u v s e]

theorem doAll_keeps (env : Env) (a : Args) (ha : a.reset = false) (v : Str) : ∀ (ns : List Str) (s : St),
    ((doAll env a ns s).file v).getD [] = (s.file v).getD []
  | [], s => rfl
  | n :: ns, s => by
    rw [doAll]
    split
    · exact doAll_keeps env a ha v ns s
    · rw [doAll_keeps env a ha v ns, doUser_keeps env a ha]

/-- **C157** Without --reset no record of anybody changes (an empty file may come into being). -/
theorem C157_show_keeps (env : Env) (argv : List Str) (files : Str → Str → File) (conf dir user : Option Str) (legacy : Bool)
    (h : Says argv conf dir user false legacy) (cdir : Str) (hc : env.config conf = some cdir) (v : Str) :
    ((run env argv files).2.2.file v).getD [] = (files (dir.getD cdir) v).getD [] := by
  obtain ⟨h1, h2⟩ := run_says env argv files _ _ _ _ _ h cdir hc
  have e2 := congrArg Prod.snd h2
  cases user with
  | some u =>
    simp only at e2
    rw [e2, doUser_keeps env _ rfl]
  | none =>
    simp only [doAllUsers] at e2
    rw [e2]
    cases env.scandir (dir.getD cdir) with
    | none => rfl
    | some names => exact doAll_keeps env _ rfl v names _

theorem newLine_spec (env : Env) (r : Rec) : newLine env r = ((env.localtime r.time).map (fun t => shown t r)).toList := by
  unfold newLine shown
  cases env.localtime r.time with
  | none => rfl
  | some t =>
    simp only [Option.map_some, Option.toList_some, left, fill]
    cases r.kind <;> cases r.valid <;> simp [kindName]

/-- **C157** `faillock --user u` prints the name, a heading and one line for each record, in their order: when, from where, and V or I for
valid or not.  Only records whose time the system cannot write are left out, and those behind the first 1024. -/
theorem C157_show (env : Env) (argv : List Str) (files : Str → Str → File) (conf dir : Option Str) (u : Str)
    (h : Says argv conf dir (some u) false false) (cdir : Str) (hc : env.config conf = some cdir)
    (hk : env.known u = true) (hd : dotted u = false) (ho : env.open_ u = none) (hr : env.read u = true) :
    ∃ heading, (run env argv files).1 = 0 ∧ (run env argv files).2.2.out = (u ++ ":".toList) :: heading ::
      (((files (dir.getD cdir) u).getD []).take 1024).filterMap (fun r => (env.localtime r.time).map (fun t => shown t r)) := by
  obtain ⟨h1, h2⟩ := run_says env argv files _ _ _ _ _ h cdir hc
  have e1 := congrArg Prod.fst h2
  have e2 := congrArg Prod.snd h2
  simp only at e1 e2
  rw [e1, e2]
  simp only [doUser, hk, hd, ho, hr, Bool.not_true, Bool.false_eq_true, if_false, if_true, St.put, List.nil_append, newFormat, readTally, maxRecords]
  refine ⟨left 19 "When".toList ++ ' ' :: (left 5 "Type".toList ++ ' ' :: (left 48 "Source".toList ++ ' ' :: left 5 "Valid".toList)), trivial, ?_⟩
  rw [show (":".toList : Str) = [':'] from rfl]
  congr 2
  induction ((files (dir.getD cdir) u).getD []).take 1024 with
  | nil => rfl
  | cons r rs ih =>
    rw [List.flatMap_cons, ih, newLine_spec]
    rw [List.filterMap_cons]
    cases (env.localtime r.time).map (fun t => shown t r) <;> rfl

example : (run exEnv ["--user".toList, "alice".toList] exFiles).2.2.out.drop 2 =
    [shown "1700000000".toList ⟨.rhost, "10.0.0.1".toList, true, 1700000000⟩, shown "1700000100".toList ⟨.tty, "tty1".toList, false, 1700000100⟩] := by
  decide +kernel
example : (run exEnv ["--legacy-output".toList] exFiles).2.2.out = ["Login           Failures    Latest failure         From".toList,
    "alice               2                1700000100    tty1".toList, "bob                 1                1700000200    sshd".toList] := by
  decide +kernel

theorem dotted_iff : ∀ u : Str, dotted u = true ↔ ∃ a b, u = a ++ "../".toList ++ b
  | [] => by simp [dotted]
  | c :: r => by
    rw [dotted, Bool.or_eq_true, List.isPrefixOf_iff_prefix, dotted_iff r]
    constructor
    · rintro (⟨b, h⟩ | ⟨a, b, h⟩)
      · exact ⟨[], b, h.symm⟩
      · exact ⟨c :: a, b, by rw [h]; rfl⟩
    · rintro ⟨a, b, h⟩
      cases a with
      | nil => exact Or.inl ⟨b, h.symm⟩
      | cons d a =>
        injection h with _ h
        exact Or.inr ⟨a, b, h⟩

/-- **C157** A name with `../` in it leads to no file: the command prints nothing and changes none, whatever it is asked for. -/
theorem C157_dotted (env : Env) (argv : List Str) (files : Str → Str → File) (conf dir : Option Str) (a b : Str) (reset legacy : Bool)
    (h : Says argv conf dir (some (a ++ "../".toList ++ b)) reset legacy) (cdir : Str) (hc : env.config conf = some cdir) :
    (run env argv files).2.2.out = [] ∧ (run env argv files).2.2.file = files (dir.getD cdir) := by
  obtain ⟨h1, h2⟩ := run_says env argv files _ _ _ _ _ h cdir hc
  have e2 := congrArg Prod.snd h2
  have hd := (dotted_iff (a ++ "../".toList ++ b)).mpr ⟨a, b, rfl⟩
  simp only at e2
  rw [e2]
  unfold doUser
  rw [hd]
  cases env.known (a ++ "../".toList ++ b) with
  | false => exact ⟨rfl, rfl⟩
  | true => cases env.stale <;> exact ⟨rfl, rfl⟩

example : Says ["--user".toList, "../etc/x".toList, "--reset".toList] none none (some ([] ++ "../".toList ++ "etc/x".toList)) true false :=
  ⟨[.user "../etc/x".toList, .reset], by intro o ho; revert o; simp [good], rfl, rfl, rfl, rfl, by decide, by decide⟩

/-- **C157** If the records cannot be read, the command fails and prints nothing. -/
theorem C157_show_fails (env : Env) (argv : List Str) (files : Str → Str → File) (conf dir : Option Str) (u : Str) (legacy : Bool)
    (h : Says argv conf dir (some u) false legacy) (cdir : Str) (hc : env.config conf = some cdir)
    (hk : env.known u = true) (hd : ¬ ∃ a b, u = a ++ "../".toList ++ b) (ho : env.open_ u = none) (hr : env.read u = false) :
    (run env argv files).1 ≠ 0 ∧ (run env argv files).2.2.out = [] := by
  obtain ⟨h1, h2⟩ := run_says env argv files _ _ _ _ _ h cdir hc
  have e1 := congrArg Prod.fst h2
  have e2 := congrArg Prod.snd h2
  have hd2 : dotted u = false := by
    cases e : dotted u with
    | false => rfl
    | true => exact absurd ((dotted_iff u).mp e) hd
  simp only at e1 e2
  rw [e1, e2]
  simp only [doUser, hk, hd2, ho, hr, Bool.not_true, Bool.false_eq_true, if_false, St.put]
  exact ⟨by decide, trivial⟩

example : (run { exEnv with read := fun _ => false } ["--user".toList, "alice".toList] exFiles).1 = 5 := by decide +kernel

/-- **C157** If no user is named and the directory cannot be read, the command fails, prints nothing and changes nothing. -/
theorem C157_dir_fails (env : Env) (argv : List Str) (files : Str → Str → File) (conf dir : Option Str) (reset legacy : Bool)
    (h : Says argv conf dir none reset legacy) (cdir : Str) (hc : env.config conf = some cdir) (hs : env.scandir (dir.getD cdir) = none) :
    (run env argv files).1 ≠ 0 ∧ (run env argv files).2.2.out = [] ∧ (run env argv files).2.2.file = files (dir.getD cdir) := by
  obtain ⟨h1, h2⟩ := run_says env argv files _ _ _ _ _ h cdir hc
  have e1 := congrArg Prod.fst h2
  have e2 := congrArg Prod.snd h2
  simp only [doAllUsers, hs] at e1 e2
  rw [e1, e2]
  exact ⟨by decide, rfl, rfl⟩

example : (run { exEnv with scandir := fun _ => none } ["--reset".toList] exFiles).1 = 2 := by decide +kernel

end Pam.Faillock.Tool
