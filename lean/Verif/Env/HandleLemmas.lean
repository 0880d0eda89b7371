import Verif.Env.EnvFileLemmas
/-
Files and options of pam_env, against the specification.
-/
namespace Pam.Env
open Pam Pam.Small Spec

theorem configFile_read {w : Who} {e : PEnv} {m : Vars} (hm : Reads e m) {c : Option Str} {m' : Vars} {code : Int} (h : ConfRead w c m m' code) :
    ∃ e', configFile w e c = some (code, e') ∧ Reads e' m' := by
  rcases h with ⟨rfl, rfl, rfl⟩ | ⟨its, es, r, rfl, hits, hl, hr, rfl⟩
  · exact ⟨e, rfl, hm⟩
  · obtain ⟨code, e', hc, hm', hcode⟩ := confLines_runs hr (retval := PAM_SUCCESS) hm hl (by decide)
    refine ⟨e', ?_, hm'⟩
    unfold configFile
    dsimp only
    rw [fileLines_only its hits, hc]
    dsimp only [Option.map_some]
    by_cases h : r = some true
    · rw [if_pos h, if_neg (not_not_intro (hcode.mpr h))]
    · rw [if_neg h, if_pos (fun hh => h (hcode.mp hh))]

theorem envFile_read {e : PEnv} {m : Vars} (hm : Reads e m) {c : Option Str} {m' : Vars} (h : EnvRead c m m') :
    ∃ e', envFile e c = some (PAM_SUCCESS, e') ∧ Reads e' m' := by
  rcases h with ⟨rfl, rfl⟩ | ⟨its, fs, rfl, hits, hl, rfl⟩
  · exact ⟨e, rfl, hm⟩
  · unfold envFile
    dsimp only
    rw [fileLines_only its hits]
    refine envLines_means hm hl (fun l hl => ?_)
    rw [← fileLines_only its hits] at hl
    exact lines_shape _ l hl

/-! ### options -/

/-- an argument that does not begin with the key of an option does not change it -/
theorem fold_same {α} (get : Opts → α) (P : Str → Prop) (h : ∀ o x, P x → get (envArg o x) = get o) : ∀ (xs : List Str) (o : Opts), (∀ x ∈ xs, P x) →
    get (xs.foldl envArg o) = get o
  | [], _, _ => rfl
  | x :: xs, o, hx => by
    rw [List.foldl_cons, fold_same get P h xs _ (fun y hy => hx y (List.mem_cons_of_mem _ hy)), h o x (hx x List.mem_cons_self)]

theorem file_eq (get : Opts → Str) (key : Str) (h1 : ∀ o x, (∀ v, x = key ++ v → v = []) → get (envArg o x) = get o)
    (h2 : ∀ o v, v ≠ [] → get (envArg o (key ++ v)) = v) {argv : List Str} {file : Str} (h : File key argv (get {}) file) :
    get (argv.foldl envArg {}) = file := by
  rcases h with ⟨h, rfl⟩ | ⟨a, b, rfl, hf, hb⟩
  · exact fold_same get _ h1 argv {} h
  · rw [List.foldl_append, List.foldl_cons, fold_same get _ h1 b _ hb, h2 _ _ hf]

theorem flag_eq (get : Opts → Bool) (key : Str) (h1 : ∀ o x, ¬ key <+: x → get (envArg o x) = get o)
    (h2 : ∀ o b, get (envArg o (key ++ if b then ['1'] else ['0'])) = b) {argv : List Str} {flag : Bool} (h : Flag key argv (get {}) flag) :
    get (argv.foldl envArg {}) = flag := by
  rcases h with ⟨h, rfl⟩ | ⟨a, b, rfl, hb⟩
  · exact fold_same get _ h1 argv {} h
  · rw [List.foldl_append, List.foldl_cons, fold_same get _ h1 b _ hb, h2]

theorem prefix_head {a b : Char} (hab : a ≠ b) (p v : Str) : skipPrefix (b :: v) (a :: p) = none := by
  rw [skipPrefix_none]
  rintro ⟨t, h⟩
  exact hab (by injection h)

theorem prefix_user (v : Str) : skipPrefix ("user_readenv=".toList ++ v) "user_envfile=".toList = none := by
  rw [skipPrefix_none]
  rintro ⟨t, h⟩
  have := congrArg (fun l => (l.drop 5).head?) h
  exact absurd (show some 'e' = some 'r' from this) (by decide)

theorem skipPrefix_self (p v : Str) : skipPrefix (p ++ v) p = some v := skipPrefix_some.mpr rfl

/-- the argument decides which field is set -/
theorem envArg_cases (o : Opts) (x : Str) :
    (∃ v, x = "conffile=".toList ++ v ∧ envArg o x = if v = [] then o else { o with conffile := some v }) ∨
    (∃ v, x = "envfile=".toList ++ v ∧ envArg o x = if v = [] then o else { o with envfile := some v }) ∨
    (∃ v, x = "user_envfile=".toList ++ v ∧ envArg o x = if v = [] then o else { o with userEnvfile := v }) ∨
    (∃ v, x = "readenv=".toList ++ v ∧ envArg o x = { o with readenv := atoiNonzero v }) ∨
    (∃ v, x = "user_readenv=".toList ++ v ∧ envArg o x = { o with userReadenv := atoiNonzero v }) ∨
    envArg o x = o := by
  unfold envArg
  split
  · exact .inr (.inr (.inr (.inr (.inr rfl))))
  split
  · next v h => exact .inl ⟨v, skipPrefix_some.mp h, rfl⟩
  split
  · next v h => exact .inr (.inl ⟨v, skipPrefix_some.mp h, rfl⟩)
  split
  · next v h => exact .inr (.inr (.inl ⟨v, skipPrefix_some.mp h, rfl⟩))
  split
  · next v h => exact .inr (.inr (.inr (.inl ⟨v, skipPrefix_some.mp h, rfl⟩)))
  split
  · next v h => exact .inr (.inr (.inr (.inr (.inl ⟨v, skipPrefix_some.mp h, rfl⟩))))
  · exact .inr (.inr (.inr (.inr (.inr rfl))))

theorem envArg_conffile (o : Opts) (v : Str) : envArg o ("conffile=".toList ++ v) = if v = [] then o else { o with conffile := some v } := by
  unfold envArg
  rw [if_neg (by intro h; have := congrArg List.head? h; exact absurd (show some 'c' = some 'd' from this) (by decide)), skipPrefix_self]

theorem envArg_envfile (o : Opts) (v : Str) : envArg o ("envfile=".toList ++ v) = if v = [] then o else { o with envfile := some v } := by
  unfold envArg
  rw [if_neg (by intro h; have := congrArg List.head? h; exact absurd (show some 'e' = some 'd' from this) (by decide)),
    show skipPrefix ("envfile=".toList ++ v) "conffile=".toList = none from prefix_head (by decide) _ _, skipPrefix_self]

theorem envArg_user_envfile (o : Opts) (v : Str) : envArg o ("user_envfile=".toList ++ v) = if v = [] then o else { o with userEnvfile := v } := by
  unfold envArg
  rw [if_neg (by intro h; have := congrArg List.head? h; exact absurd (show some 'u' = some 'd' from this) (by decide)),
    show skipPrefix ("user_envfile=".toList ++ v) "conffile=".toList = none from prefix_head (by decide) _ _,
    show skipPrefix ("user_envfile=".toList ++ v) "envfile=".toList = none from prefix_head (by decide) _ _, skipPrefix_self]

theorem envArg_readenv (o : Opts) (v : Str) : envArg o ("readenv=".toList ++ v) = { o with readenv := atoiNonzero v } := by
  unfold envArg
  rw [if_neg (by intro h; have := congrArg List.head? h; exact absurd (show some 'r' = some 'd' from this) (by decide)),
    show skipPrefix ("readenv=".toList ++ v) "conffile=".toList = none from prefix_head (by decide) _ _,
    show skipPrefix ("readenv=".toList ++ v) "envfile=".toList = none from prefix_head (by decide) _ _,
    show skipPrefix ("readenv=".toList ++ v) "user_envfile=".toList = none from prefix_head (by decide) _ _, skipPrefix_self]

theorem envArg_user_readenv (o : Opts) (v : Str) : envArg o ("user_readenv=".toList ++ v) = { o with userReadenv := atoiNonzero v } := by
  unfold envArg
  rw [if_neg (by intro h; have := congrArg List.head? h; exact absurd (show some 'u' = some 'd' from this) (by decide)),
    show skipPrefix ("user_readenv=".toList ++ v) "conffile=".toList = none from prefix_head (by decide) _ _,
    show skipPrefix ("user_readenv=".toList ++ v) "envfile=".toList = none from prefix_head (by decide) _ _,
    prefix_user,
    show skipPrefix ("user_readenv=".toList ++ v) "readenv=".toList = none from prefix_head (by decide) _ _, skipPrefix_self]

theorem atoi_flag (b : Bool) : atoiNonzero (if b then ['1'] else ['0']) = b := by
  cases b <;> decide +kernel

theorem conffile_eq {argv : List Str} {default file : Str} (h : File "conffile=".toList argv default file) :
    (argv.foldl envArg {}).conffile.getD default = file :=
  file_eq (fun o => o.conffile.getD default) _ (by
    intro o x hx
    rcases envArg_cases o x with ⟨v, rfl, h⟩ | ⟨v, rfl, h⟩ | ⟨v, rfl, h⟩ | ⟨v, rfl, h⟩ | ⟨v, rfl, h⟩ | h <;> rw [h]
    · rw [if_pos (hx v rfl)]
    · split <;> rfl
    · split <;> rfl) (by intro o v hv; rw [envArg_conffile, if_neg hv]; rfl) h

theorem envfile_eq {argv : List Str} {default file : Str} (h : File "envfile=".toList argv default file) :
    (argv.foldl envArg {}).envfile.getD default = file :=
  file_eq (fun o => o.envfile.getD default) _ (by
    intro o x hx
    rcases envArg_cases o x with ⟨v, rfl, h⟩ | ⟨v, rfl, h⟩ | ⟨v, rfl, h⟩ | ⟨v, rfl, h⟩ | ⟨v, rfl, h⟩ | h <;> rw [h]
    · split <;> rfl
    · rw [if_pos (hx v rfl)]
    · split <;> rfl) (by intro o v hv; rw [envArg_envfile, if_neg hv]; rfl) h

theorem userEnvfile_eq {argv : List Str} {file : Str} (h : File "user_envfile=".toList argv ".pam_environment".toList file) :
    (argv.foldl envArg {}).userEnvfile = file :=
  file_eq (fun o => o.userEnvfile) _ (by
    intro o x hx
    rcases envArg_cases o x with ⟨v, rfl, h⟩ | ⟨v, rfl, h⟩ | ⟨v, rfl, h⟩ | ⟨v, rfl, h⟩ | ⟨v, rfl, h⟩ | h <;> rw [h]
    · split <;> rfl
    · split <;> rfl
    · rw [if_pos (hx v rfl)]) (by intro o v hv; rw [envArg_user_envfile, if_neg hv]) h

theorem readenv_eq {argv : List Str} {b : Bool} (h : Flag "readenv=".toList argv true b) : (argv.foldl envArg {}).readenv = b :=
  flag_eq (fun o => o.readenv) _ (by
    intro o x hx
    rcases envArg_cases o x with ⟨v, rfl, h⟩ | ⟨v, rfl, h⟩ | ⟨v, rfl, h⟩ | ⟨v, rfl, h⟩ | ⟨v, rfl, h⟩ | h <;> rw [h]
    · split <;> rfl
    · split <;> rfl
    · split <;> rfl
    · exact absurd (List.prefix_append _ _) hx) (by intro o b; rw [envArg_readenv]; exact atoi_flag b) h

theorem userReadenv_eq {argv : List Str} {b : Bool} (h : Flag "user_readenv=".toList argv false b) : (argv.foldl envArg {}).userReadenv = b :=
  flag_eq (fun o => o.userReadenv) _ (by
    intro o x hx
    rcases envArg_cases o x with ⟨v, rfl, h⟩ | ⟨v, rfl, h⟩ | ⟨v, rfl, h⟩ | ⟨v, rfl, h⟩ | ⟨v, rfl, h⟩ | h <;> rw [h]
    · split <;> rfl
    · split <;> rfl
    · split <;> rfl
    · exact absurd (List.prefix_append _ _) hx) (by intro o b; rw [envArg_user_readenv]; exact atoi_flag b) h

end Pam.Env
