import Verif.Env.HandleLemmas
import Verif.Handle.EnvProps
/-
Whatever the files contain, there is no bad memory access, and the environment stays one that calls of `pam_putenv` lead to.
-/
namespace Pam.Env
open Pam Pam.Small Spec

/-- an environment that some history of `pam_putenv` leads to -/
def Reachable (e : PEnv) : Prop := ∃ cs h, Handle.Spec.runPuts cs = some (h, e)

theorem reads_of_reachable {e : PEnv} (h : Reachable e) : ∃ m, Reads e m := by
  obtain ⟨cs, h, hr⟩ := h
  obtain ⟨h', e', hr', -, hg⟩ := Handle.C17_environment_is_a_map cs
  rw [hr] at hr'
  cases hr'
  exact ⟨fun n => Handle.Spec.valueAfter n h, ⟨cs, h, hr⟩, hg⟩

theorem getenv_total {e : PEnv} (h : Reachable e) (n : Str) : ∃ v, e.getenv (some n) = some v := by
  obtain ⟨cs, h, hr⟩ := h
  obtain ⟨h', e', vs, hr', -, h3, -, -⟩ := Handle.runPuts_spec cs
  rw [hr] at hr'
  cases hr'
  unfold Handle.PEnv.getenv
  dsimp only
  have hs : e.search n = e.searchBelow n vs.length := by unfold Handle.PEnv.search; rw [h3.req]; rfl
  rw [hs]
  rcases Handle.searchBelow_total h3 n vs.length (Nat.le_refl _) with h | ⟨j, hj, h⟩
  · rw [h]; exact ⟨_, rfl⟩
  · rw [h]
    dsimp only
    rw [Handle.rep_at h3 j hj]
    exact ⟨_, rfl⟩

theorem put_total {e : PEnv} (h : Reachable e) (t : Str) : ∃ code e', put e t = some (code, e') ∧ Reachable e' := by
  obtain ⟨cs, h, hr⟩ := h
  obtain ⟨h1, e1, code, e', hr1, hp, -⟩ := Handle.C17_putenv_codes cs ⟨some t, true, true⟩
  rw [hr] at hr1
  cases hr1
  exact ⟨code, e', hp, _, _, runPuts_snoc hr _ hp⟩

theorem cons_bad {a : Str} {x : Expanded} (h : x ≠ .bad) : x.cons a ≠ .bad := by
  cases x with
  | done s => exact nofun
  | abort => exact nofun
  | bad => exact absurd rfl h

theorem expandLoop_total {e : PEnv} (h : Reachable e) (w : Who) : ∀ (fuel : Nat) (s : Str), expandLoop e w fuel s ≠ .bad
  | _, [] => by unfold expandLoop; exact nofun
  | 0, _ :: _ => by unfold expandLoop; exact nofun
  | fuel + 1, c :: s => by
    unfold expandLoop
    split
    · split
      · split
        · exact cons_bad (expandLoop_total h w fuel _)
        · exact expandLoop_total h w fuel _
      · exact expandLoop_total h w fuel _
    · split
      · split
        · split
          · exact nofun
          · dsimp only
            split
            · next hb =>
              split at hb
              · obtain ⟨v, hv⟩ := getenv_total h (s.tail.takeWhile (· ≠ '}'))
                rw [hv] at hb; cases hb
              · cases hb
            · exact cons_bad (expandLoop_total h w fuel _)
        · exact cons_bad (expandLoop_total h w fuel _)
      · exact cons_bad (expandLoop_total h w fuel _)

theorem expandVal_total {e : PEnv} (h : Reachable e) (w : Who) (v : Val) : expandVal e w v ≠ .bad := by
  unfold expandVal
  split
  · unfold expandArg
    split
    · exact nofun
    · exact expandLoop_total h w _ _
  · exact nofun

theorem checkVar_total {e : PEnv} (h : Reachable e) (w : Who) (v : Var) : checkVar e w v ≠ .bad := by
  unfold checkVar
  split
  · next hb => exact absurd hb (expandVal_total h w _)
  · exact nofun
  · split
    · next hb => exact absurd hb (expandVal_total h w _)
    · exact nofun
    · split
      · exact nofun
      · split <;> exact nofun

theorem confLine_total {e : PEnv} (h : Reachable e) (w : Who) (l : Str) : ∃ code e', confLine w e l = some (code, e') ∧ Reachable e' := by
  unfold confLine
  split
  · exact ⟨_, _, rfl, h⟩
  · split
    · next hb => exact absurd hb (checkVar_total h w _)
    · exact ⟨_, _, rfl, h⟩
    · exact put_total h _
    · exact put_total h _

theorem confLines_total (w : Who) : ∀ (ls : List Str) {e : PEnv} (retval : Int), Reachable e → ∃ code e', confLines w retval e ls = some (code, e') ∧ Reachable e'
  | [], e, retval, h => ⟨retval, e, rfl, h⟩
  | l :: ls, e, retval, h => by
    obtain ⟨code, e1, hc, h1⟩ := confLine_total h w l
    unfold confLines
    rw [hc]
    dsimp only
    split
    · exact ⟨_, _, rfl, h1⟩
    · exact confLines_total w ls _ h1

theorem configFile_total {e : PEnv} (h : Reachable e) (w : Who) (c : Option Str) :
    ∃ code e', configFile w e c = some (code, e') ∧ Reachable e' ∧ (code = PAM_SUCCESS ∨ code = PAM_IGNORE ∨ code = PAM_ABORT) := by
  unfold configFile
  cases c with
  | none => exact ⟨_, _, rfl, h, Or.inr (Or.inl rfl)⟩
  | some c =>
    obtain ⟨code, e', hc, h'⟩ := confLines_total w (Config.fileLines NUL c).1 PAM_SUCCESS h
    dsimp only
    rw [hc]
    refine ⟨_, _, rfl, h', ?_⟩
    dsimp only
    split
    · exact Or.inr (Or.inr rfl)
    · exact Or.inl rfl

theorem envMeanings_total : ∀ ls : List Str, ∃ fs, EnvMeanings ls fs
  | [] => ⟨[], .nil⟩
  | l :: ls => by
    obtain ⟨f, hf⟩ := envMeans_total l
    obtain ⟨fs, hfs⟩ := envMeanings_total ls
    exact ⟨f :: fs, .cons hf hfs⟩

theorem envFile_total {e : PEnv} (h : Reachable e) (c : Option Str) : ∃ e', envFile e c = some (PAM_SUCCESS, e') ∧ Reachable e' := by
  unfold envFile
  cases c with
  | none => exact ⟨_, rfl, h⟩
  | some c =>
    obtain ⟨m, hm⟩ := reads_of_reachable h
    obtain ⟨fs, hfs⟩ := envMeanings_total (Config.fileLines NUL c).1
    obtain ⟨e', he, hr⟩ := envLines_means hm hfs (fun l hl => lines_shape c l hl)
    exact ⟨e', he, hr.1⟩

theorem userFile_total {e : PEnv} (h : Reachable e) (w : World) (f : Str) :
    ∃ code e', userFile w e f = some (code, e') ∧ Reachable e' ∧ (code = PAM_SUCCESS ∨ code = PAM_ABORT ∨ code = PAM_SESSION_ERR) := by
  unfold userFile
  split
  · exact ⟨_, _, rfl, h, Or.inl rfl⟩
  · dsimp only
    split
    · split
      · exact ⟨_, _, rfl, h, Or.inr (Or.inr rfl)⟩
      · obtain ⟨code, e', hc, h', hcode⟩ := configFile_total h w.who (w.read false (_ ++ '/' :: f))
        rw [hc]
        refine ⟨_, _, rfl, h', ?_⟩
        cases w.regain
        · exact Or.inr (Or.inr rfl)
        · rcases hcode with rfl | rfl | rfl
          · exact Or.inl rfl
          · exact Or.inl rfl
          · exact Or.inr (Or.inl rfl)
    · exact ⟨_, _, rfl, h, Or.inl rfl⟩

theorem handleEnv_total {e : PEnv} (h : Reachable e) (w : World) (argv : List Str) :
    ∃ code e', handleEnv w e argv = some (code, e') ∧ Reachable e' ∧
      (code = PAM_SUCCESS ∨ code = PAM_IGNORE ∨ code = PAM_ABORT ∨ code = PAM_SESSION_ERR) := by
  unfold handleEnv
  generalize argv.foldl envArg {} = o
  obtain ⟨c1, e1, h1, r1, hc1⟩ := configFile_total h w.who (w.read true (o.conffile.getD w.conf))
  dsimp only
  rw [h1]
  dsimp only
  have hstep : ∃ c2 e2, (if o.readenv = true ∧ c1 = PAM_SUCCESS then envFile e1 (w.read true (o.envfile.getD "/etc/environment".toList)) else some (c1, e1)) = some (c2, e2) ∧
      Reachable e2 ∧ (c2 = PAM_SUCCESS ∨ c2 = PAM_IGNORE ∨ c2 = PAM_ABORT) := by
    split
    · obtain ⟨e2, h2, r2⟩ := envFile_total r1 (w.read true (o.envfile.getD "/etc/environment".toList))
      exact ⟨_, _, h2, r2, Or.inl rfl⟩
    · exact ⟨_, _, rfl, r1, hc1⟩
  obtain ⟨c2, e2, h2, r2, hc2⟩ := hstep
  rw [h2]
  dsimp only
  split
  · obtain ⟨c3, e3, h3, r3, hc3⟩ := userFile_total r2 w o.userEnvfile
    refine ⟨_, _, h3, r3, ?_⟩
    rcases hc3 with rfl | rfl | rfl
    · exact Or.inl rfl
    · exact Or.inr (Or.inr (Or.inl rfl))
    · exact Or.inr (Or.inr (Or.inr rfl))
  · refine ⟨_, _, rfl, r2, ?_⟩
    rcases hc2 with rfl | rfl | rfl
    · exact Or.inl rfl
    · exact Or.inr (Or.inl rfl)
    · exact Or.inr (Or.inr (Or.inl rfl))

end Pam.Env
