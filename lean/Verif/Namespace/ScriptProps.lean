import Verif.Namespace.SafeProps
/-
C169: the script that initialises an instance.
-/
namespace Pam.Namespace.Spec
open Pam

/-- the script of an entry: its own, if it has one; otherwise that of the administrator; that of the vendor if there is one and the administrator has none -/
inductive Chosen (y : ScriptSys) (p : Poly) : Str → Prop
  | own (s : Str) : p.flags.iscript = true → p.initScript = some s → Chosen y p s
  | admin : (p.flags.iscript = true → p.initScript = none) → (y.missing = false ∨ y.vendor = none) → Chosen y p "/etc/security/namespace.init".toList
  | vendor (s : Str) : (p.flags.iscript = true → p.initScript = none) → y.missing = true → y.vendor = some s → Chosen y p s

/-- a flag as the script gets it -/
def Flag (P : Prop) (s : Str) : Prop := (P ∧ s = ['1']) ∨ (¬ P ∧ s = ['0'])

end Pam.Namespace.Spec

namespace Pam.Namespace
open Pam

theorem chosen (y : ScriptSys) (p : Poly) : Spec.Chosen y p (whichScript y p) := by
  unfold whichScript
  by_cases hi : p.flags.iscript = true
  · rw [if_pos hi]
    cases hs : p.initScript with
    | some s => exact .own s hi hs
    | none =>
      rw [Option.getD_none]
      cases hv : y.vendor with
      | none => exact .admin (fun _ => hs) (.inr hv)
      | some v =>
        cases hm : y.missing with
        | true => exact .vendor v (fun _ => hs) hm hv
        | false => exact .admin (fun _ => hs) (.inl hm)
  · rw [if_neg hi]
    cases hv : y.vendor with
    | none => exact .admin (fun h => absurd h hi) (.inr hv)
    | some v =>
      cases hm : y.missing with
      | true => exact .vendor v (fun h => absurd h hi) hm hv
      | false => exact .admin (fun h => absurd h hi) (.inl hm)

theorem chosen_unique {y : ScriptSys} {p : Poly} {s t : Str} (h1 : Spec.Chosen y p s) (h2 : Spec.Chosen y p t) : s = t := by
  cases h1 with
  | own s hi hs =>
    cases h2 with
    | own t _ ht => exact Option.some.inj (hs.symm.trans ht)
    | admin hn _ => rw [hn hi] at hs; cases hs
    | vendor _ hn _ _ => rw [hn hi] at hs; cases hs
  | admin hn hm =>
    cases h2 with
    | own t hi ht => rw [hn hi] at ht; cases ht
    | admin _ _ => rfl
    | vendor _ _ hm' hv =>
      rcases hm with hm | hm
      · rw [hm] at hm'; cases hm'
      · rw [hm] at hv; cases hv
  | vendor s hn hm hv =>
    cases h2 with
    | own t hi ht => rw [hn hi] at ht; cases ht
    | admin _ hm' =>
      rcases hm' with hm' | hm'
      · rw [hm] at hm'; cases hm'
      · rw [hm'] at hv; cases hv
    | vendor t _ _ hv' => exact Option.some.inj (hv.symm.trans hv')

theorem digit_flag {b : Bool} {P : Prop} (h : b = true ↔ P) : Spec.Flag P (digit b) := by
  cases b with
  | true => exact .inl ⟨h.1 rfl, rfl⟩
  | false => exact .inr ⟨fun hp => (by cases h.2 hp), rfl⟩

/-- the outcomes of `inst_init` -/
theorem instInit_cases (y : ScriptSys) (lstat stat : Str → Option Stat) (p : Poly) (ipath user : Str) (newdir : Bool) (h : Nat) :
    let o := instInit y lstat stat p ipath user newdir h
    let s := whichScript y p
    let r := scriptChild y lstat stat s p ipath user newdir
    o.2.2 = h ∧
    ((y.there s = false ∧ o.1 = PAM_SUCCESS ∧ o.2.1 = none) ∨
     (y.there s = true ∧ (y.executable s = false ∨ y.sigaction = false ∨ y.fork = false) ∧ o.1 = PAM_SESSION_ERR ∧ o.2.1 = none) ∨
     (y.there s = true ∧ y.executable s = true ∧ y.sigaction = true ∧ y.fork = true ∧ o.2.1 = r ∧
       ((o.1 = PAM_SUCCESS ∧ y.ended ≠ none ∧ (r.isSome = true → ∃ k, y.ended = some (.exited k))) ∨
        (o.1 = PAM_SESSION_ERR ∧ (y.ended = none ∨ (r.isSome = true ∧ y.ended = some .killed)))))) := by
  unfold instInit
  dsimp only
  generalize whichScript y p = s
  generalize scriptChild y lstat stat s p ipath user newdir = r
  cases ht : y.there s with
  | false => simp
  | true =>
    cases hx : y.executable s with
    | false => simp
    | true =>
      cases hs : y.sigaction with
      | false => simp
      | true =>
        cases hf : y.fork with
        | false => simp
        | true =>
          cases r with
          | none => cases he : y.ended with
            | none => simp
            | some e => cases e <;> simp
          | some r => cases he : y.ended with
            | none => simp
            | some e => cases e <;> simp

/-- C169: what is run is the script of the entry, which exists and may be executed.  It gets the path of the directory, the instance, whether the instance is new, the user, and
whether the two paths are safe.  It gets no environment, and SIGCHLD as it is by default. -/
theorem C169_script (y : ScriptSys) (lstat stat : Str → Option Stat) (p : Poly) (ipath user : Str) (newdir : Bool) (h : Nat) (r : Run)
    (hr : (instInit y lstat stat p ipath user newdir h).2.1 = some r) :
    ∃ s n f g, Spec.Chosen y p s ∧ y.there s = true ∧ y.executable s = true ∧ r = ⟨[s, p.dir, ipath, n, user, f, g], [], 0⟩ ∧
      Spec.Flag (newdir = true) n ∧ Spec.Flag (Spec.SafePath lstat stat p.dir) f ∧ Spec.Flag (Spec.SafePath lstat stat ipath) g := by
  have hc := chosen y p
  have k := (instInit_cases y lstat stat p ipath user newdir h).2
  revert hr
  generalize whichScript y p = s at k hc
  rcases k with ⟨_, _, e⟩ | ⟨_, _, _, e⟩ | ⟨ht, hx, _, _, e, _⟩
  · rw [e]; intro hr; cases hr
  · rw [e]; intro hr; cases hr
  · rw [e]
    unfold scriptChild
    intro hr
    split at hr
    · cases hr
    split at hr
    · cases hr
    split at hr
    · cases hr
    exact ⟨s, _, _, _, hc, ht, hx, (Option.some.inj hr).symm, digit_flag Iff.rfl, digit_flag (C168_safe_partial lstat stat p.dir),
      digit_flag (C168_safe_partial lstat stat ipath)⟩

/-- C169: SIGCHLD is handled afterwards as it was before, whatever happened. -/
theorem C169_signals (y : ScriptSys) (lstat stat : Str → Option Stat) (p : Poly) (ipath user : Str) (newdir : Bool) (h : Nat) :
    (instInit y lstat stat p ipath user newdir h).2.2 = h := (instInit_cases y lstat stat p ipath user newdir h).1

/-- C169: if there is no script, nothing is run, and that is no error. -/
theorem C169_none (y : ScriptSys) (lstat stat : Str → Option Stat) (p : Poly) (ipath user : Str) (newdir : Bool) (h : Nat) (s : Str) (hs : Spec.Chosen y p s)
    (ht : y.there s = false) : instInit y lstat stat p ipath user newdir h = (PAM_SUCCESS, none, h) := by
  have e := chosen_unique hs (chosen y p)
  subst e
  unfold instInit
  simp only
  rw [if_pos (by rw [ht]; decide)]

/-- C169: if there is a script and all calls work, it is run, and the outcome is that of the script only so far as it is a matter of signals. -/
theorem C169_works (y : ScriptSys) (lstat stat : Str → Option Stat) (p : Poly) (ipath user : Str) (newdir : Bool) (h : Nat) (s : Str) (hs : Spec.Chosen y p s)
    (ht : y.there s = true) (hx : y.executable s = true) (h1 : y.sigaction = true) (h2 : y.fork = true) (h3 : y.context = true) (h4 : y.sanitize = true)
    (h5 : y.exec = true) (e : End) (he : y.ended = some e) :
    (∃ r, (instInit y lstat stat p ipath user newdir h).2.1 = some r) ∧
    (instInit y lstat stat p ipath user newdir h).1 = match e with | .exited _ => PAM_SUCCESS | .killed => PAM_SESSION_ERR := by
  have e' := chosen_unique hs (chosen y p)
  subst e'
  have hr : ∃ r, scriptChild y lstat stat (whichScript y p) p ipath user newdir = some r := by
    unfold scriptChild
    simp [h3, h4, h5]
  obtain ⟨r, hr⟩ := hr
  unfold instInit
  simp only [ht, hx, h1, h2, hr, he]
  cases e <;> simp

/-- C169: success means that there is no script, or that it may be executed, was started in a process of its own and that this process was waited for and ended by itself.  That the
script succeeded, or was run at all, is missing. -/
theorem C169_success_partial (y : ScriptSys) (lstat stat : Str → Option Stat) (p : Poly) (ipath user : Str) (newdir : Bool) (h : Nat) (s : Str) (hs : Spec.Chosen y p s)
    (hc : (instInit y lstat stat p ipath user newdir h).1 = PAM_SUCCESS) :
    y.there s = false ∨ (y.executable s = true ∧ y.sigaction = true ∧ y.fork = true ∧ y.ended ≠ none ∧
      ∀ r, (instInit y lstat stat p ipath user newdir h).2.1 = some r → ∃ k, y.ended = some (.exited k)) := by
  have e := chosen_unique hs (chosen y p)
  subst e
  rcases (instInit_cases y lstat stat p ipath user newdir h).2 with ⟨ht, _, _⟩ | ⟨_, _, e, _⟩ | ⟨_, hx, h1, h2, er, (⟨_, h3, h4⟩ | ⟨e, _⟩)⟩
  · exact .inl ht
  · exact absurd (hc.symm.trans e) (by decide)
  · refine .inr ⟨hx, h1, h2, h3, fun r hr => h4 ?_⟩
    rw [← er, hr]; rfl
  · exact absurd (hc.symm.trans e) (by decide)

/-- C169: the only other outcome is PAM_SESSION_ERR, and then there is a script. -/
theorem C169_failure (y : ScriptSys) (lstat stat : Str → Option Stat) (p : Poly) (ipath user : Str) (newdir : Bool) (h : Nat) (s : Str) (hs : Spec.Chosen y p s)
    (hc : (instInit y lstat stat p ipath user newdir h).1 ≠ PAM_SUCCESS) :
    (instInit y lstat stat p ipath user newdir h).1 = PAM_SESSION_ERR ∧ y.there s = true ∧
    (y.executable s = false ∨ y.sigaction = false ∨ y.fork = false ∨ y.ended = none ∨ y.ended = some .killed) := by
  have e := chosen_unique hs (chosen y p)
  subst e
  rcases (instInit_cases y lstat stat p ipath user newdir h).2 with ⟨_, e, _⟩ | ⟨ht, h1, e, _⟩ | ⟨ht, _, _, _, _, (⟨e, _, _⟩ | ⟨e, h2⟩)⟩
  · exact absurd e hc
  · exact ⟨e, ht, by rcases h1 with h1 | h1 | h1 <;> simp [h1]⟩
  · exact absurd e hc
  · exact ⟨e, ht, by rcases h2 with h2 | ⟨_, h2⟩ <;> simp [h2]⟩

/-- a system with the administrator's script, all calls of which work; the script ends with `e` -/
def demoScript (e : Option End) : ScriptSys := ⟨fun s => s = adminScript, fun _ => true, false, none, true, true, true, true, true, e⟩

/-- an entry for /tmp with instances in /tmp-inst -/
def demoTmp : Poly :=
  { Poly.zero .user with dir := "/tmp".toList, rdir := "/tmp".toList, pre := "/tmp-inst/".toList, uids := [1000], flags := ⟨true, false, false, false, false, false⟩ }

example : instInit (demoScript (some (.exited 0))) demoLstat demoStat demoTmp "/tmp-inst/ann".toList "ann".toList true 7 =
    (PAM_SUCCESS, some ⟨["/etc/security/namespace.init".toList, "/tmp".toList, "/tmp-inst/ann".toList, "1".toList, "ann".toList, "1".toList, "0".toList], [], 0⟩, 7) := by
  decide +kernel
example : Spec.Chosen (demoScript none) demoTmp "/etc/security/namespace.init".toList := .admin nofun (.inl rfl)
example : (instInit (demoScript (some .killed)) demoLstat demoStat demoTmp "/tmp-inst/ann".toList "ann".toList true 7).1 = PAM_SESSION_ERR := by decide +kernel

/-- The full claim (the directory is used only if it was initialised) is false: a script that fails makes no difference, nor does one that cannot be run. -/
theorem C169_status_counterexample :
    (instInit (demoScript (some (.exited 1))) demoLstat demoStat demoTmp "/tmp-inst/ann".toList "ann".toList true 7).1 = PAM_SUCCESS ∧
    instInit { demoScript (some (.exited 1)) with exec := false } demoLstat demoStat demoTmp "/tmp-inst/ann".toList "ann".toList true 7 = (PAM_SUCCESS, none, 7) := by
  constructor <;> decide +kernel

end Pam.Namespace
