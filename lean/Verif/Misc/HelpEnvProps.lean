import Verif.Misc.HelpEnv
import Verif.Handle.PEnvHist
/-
C103: the functions of libpam_misc for the environment of a handle.  Vocabulary: Handle/PEnvSpec.lean.
-/
namespace Pam.Misc
open Pam Pam.Handle Pam.Handle.Spec

theorem name_of {name value : Handle.Str} (h0 : name ≠ []) (h1 : '=' ∉ name) (o1 o2 : Bool) :
    (Put.mk (some (name ++ ['='] ++ value)) o1 o2).name = some name ∧ (Put.mk (some (name ++ ['='] ++ value)) o1 o2).value = some value := by
  have ht : (name ++ ['='] ++ value).takeWhile (· ≠ '=') = name ∧ (name ++ ['='] ++ value).dropWhile (· ≠ '=') = '=' :: value := by
    clear h0
    induction name with
    | nil => simp
    | cons c l ih =>
      have hc : c ≠ '=' := fun e => h1 (by simp [e])
      have := ih fun x => h1 (by simp [x])
      simp only [List.cons_append]
      rw [List.takeWhile_cons_of_pos (by simpa using hc), List.dropWhile_cons_of_pos (by simpa using hc), this.1, this.2]
      exact ⟨rfl, rfl⟩
  unfold Put.name Put.value
  dsimp only
  rw [ht.1, ht.2, if_neg h0]
  exact ⟨rfl, rfl⟩

/-- C103: With memory, a variable is set to the value that is given and no other variable changes; but with `readonly` nothing changes if it is set
already, and the code is PAM_PERM_DENIED. -/
theorem C103_setenv (cs : List Put) : ∃ h e, runPuts cs = some (h, e) ∧ ∀ (name value : Handle.Str) (readonly : Bool), name ≠ [] → '=' ∉ name →
    (readonly = true ∧ valueAfter name h ≠ none → setenv e name value readonly true true true = some (PAM_PERM_DENIED, e)) ∧
    (¬ (readonly = true ∧ valueAfter name h ≠ none) → ∃ e', setenv e name value readonly true true true = some (PAM_SUCCESS, e') ∧
      ∀ n : Handle.Str, '=' ∉ n → e'.getenv (some n) = some (if n = name then some value else valueAfter n h)) := by
  obtain ⟨h, e, vs, h1, h2, h3, h4, h5⟩ := runPuts_spec cs
  refine ⟨h, e, h1, fun name value readonly hn0 hn1 => ⟨?_, ?_⟩⟩
  · rintro ⟨hr, hv⟩
    unfold setenv
    dsimp only
    rw [if_pos hr, getenv_rep h3 h4 name hn1, h5.val]
    cases hx : valueAfter name h with
    | none => exact absurd hx hv
    | some v => rfl
  · intro hno
    obtain ⟨p1, p2⟩ := name_of (value := value) hn0 hn1 true true
    obtain ⟨e', q1, q2, q3⟩ := putenv_spec h3 h4 ⟨some (name ++ ['='] ++ value), true, true⟩
    have hcode : (putVars (decide (e.requested < e.slots.length)) vs ⟨some (name ++ ['='] ++ value), true, true⟩).1 = PAM_SUCCESS := by
      simp only [putVars, p1, p2]
      simp; split <;> rfl
    have hh := hist_step h5 (decide (e.requested < e.slots.length)) ⟨some (name ++ ['='] ++ value), true, true⟩
    refine ⟨e', ?_, fun n hn => ?_⟩
    · unfold setenv
      dsimp only
      dsimp only at q1
      rw [q1, hcode]
      by_cases hr : readonly = true
      · rw [if_pos hr, getenv_rep h3 h4 name hn1, h5.val]
        cases hx : valueAfter name h with
        | none => rfl
        | some v => exact absurd ⟨hr, by rw [hx]; simp⟩ hno
      · rw [if_neg hr]; rfl
    · rw [getenv_rep q2 q3 n hn, hh.val, valueAfter_snoc]
      dsimp only
      rw [p1]
      by_cases he : n = name
      · subst he
        rw [if_pos rfl, if_pos rfl]
        unfold Sets
        simp only [p2, hcode]
        rfl
      · rw [if_neg he, if_neg (by simpa using fun e => he e.symm)]

example : ∃ h e, runPuts [⟨some "A=1".toList, true, true⟩] = some (h, e) ∧ setenv e "A".toList "2".toList true true true true = some (PAM_PERM_DENIED, e) ∧
    ∃ e', setenv e "A".toList "2".toList false true true true = some (PAM_SUCCESS, e') ∧ e'.getenv (some "A".toList) = some (some "2".toList) := by
  refine ⟨_, _, rfl, rfl, _, rfl, by decide⟩

/-- With a name that has a `=` in it, a read-only setting overwrites a variable that is set. -/
theorem C103_readonly_counterexample : ∃ h e e', runPuts [⟨some "A=1".toList, true, true⟩] = some (h, e) ∧
    setenv e "A=x".toList "2".toList true true true true = some (PAM_SUCCESS, e') ∧ e'.getenv (some "A".toList) = some (some "x=2".toList) := by
  refine ⟨_, _, _, rfl, rfl, by decide⟩

/-- the calls that pam_misc_paste_env makes -/
def calls (l : List (Handle.Str × Bool × Bool)) : List Put := l.map fun x => ⟨some x.1, x.2.1, x.2.2⟩

theorem paste_go : ∀ (l : List (Handle.Str × Bool × Bool)) (h : List Done) (e : PEnv) (vs : List (Handle.Str × Handle.Str)), Rep e vs → GoodVars vs → Hist h vs →
    ∃ k hp e' code, pasteEnv e l = some (code, e') ∧ runPuts.go (calls (l.take k)) h e = some (h ++ hp, e') ∧
      ((code = PAM_SUCCESS ∧ l.take k = l ∧ ∀ d ∈ hp, d.2 = PAM_SUCCESS) ∨
       (code ≠ PAM_SUCCESS ∧ ∃ init d, hp = init ++ [d] ∧ d.2 = code ∧ ∀ x ∈ init, x.2 = PAM_SUCCESS)) := by
  intro l
  induction l with
  | nil => intro h e vs _ _ _; exact ⟨0, [], e, PAM_SUCCESS, rfl, by simp [calls, runPuts.go], .inl ⟨rfl, rfl, by simp⟩⟩
  | cons x l ih =>
    obtain ⟨s, o1, o2⟩ := x
    intro h e vs h1 h2 h3
    obtain ⟨e1, p1, p2, p3⟩ := putenv_spec h1 h2 ⟨some s, o1, o2⟩
    have hh := hist_step h3 (decide (e.requested < e.slots.length)) ⟨some s, o1, o2⟩
    generalize hc : (putVars (decide (e.requested < e.slots.length)) vs ⟨some s, o1, o2⟩).1 = c at p1 hh
    dsimp only at p1
    by_cases hs : c = PAM_SUCCESS
    · obtain ⟨k, hp, e', code, q1, q2, q3⟩ := ih _ e1 _ p2 p3 hh
      refine ⟨k + 1, (⟨some s, o1, o2⟩, c) :: hp, e', code, ?_, ?_, ?_⟩
      · unfold pasteEnv
        rw [p1]; dsimp only; rw [if_neg (by simp [hs])]; exact q1
      · simp only [List.take_succ_cons, calls, List.map_cons]
        rw [runPuts.go, p1]
        dsimp only
        have : runPuts.go (calls (l.take k)) (h ++ [(⟨some s, o1, o2⟩, c)]) e1 = some (h ++ [(⟨some s, o1, o2⟩, c)] ++ hp, e') := q2
        rw [show List.map (fun x => (⟨some x.1, x.2.1, x.2.2⟩ : Put)) (List.take k l) = calls (l.take k) from rfl, this]; simp
      · rcases q3 with ⟨a, b, c'⟩ | ⟨a, init, d, b, c', f⟩
        · exact .inl ⟨a, by simp [b], by intro y hy; rcases List.mem_cons.1 hy with rfl | hy; exact hs; exact c' y hy⟩
        · exact .inr ⟨a, _ :: init, d, by rw [b]; rfl, c', by intro y hy; rcases List.mem_cons.1 hy with rfl | hy; exact hs; exact f y hy⟩
    · refine ⟨1, [(⟨some s, o1, o2⟩, c)], e1, c, ?_, ?_, .inr ⟨hs, [], _, rfl, rfl, by simp⟩⟩
      · unfold pasteEnv
        rw [p1]; dsimp only; rw [if_pos hs]
      · simp only [List.take_succ_cons, calls, List.map_cons, List.take_zero, List.map_nil]
        rw [runPuts.go, p1]
        rfl

theorem go_append (a b : List Put) : ∀ (h : List Done) (e : PEnv), runPuts.go (a ++ b) h e =
    match runPuts.go a h e with
    | none => none
    | some (h', e') => runPuts.go b h' e' := by
  induction a with
  | nil => intro h e; simp [runPuts.go]
  | cons c a ih =>
    intro h e
    rw [List.cons_append, runPuts.go, runPuts.go]
    cases e.putenv c.arg c.ok1 c.ok2 with
    | none => rfl
    | some p => exact ih _ _

/-- C103: Pasting an environment is the same as handing its strings to pam_putenv one after the other, up to and including the first that fails; the
code is that of the last call. -/
theorem C103_paste (cs : List Put) (l : List (Handle.Str × Bool × Bool)) : ∃ h e k hp e' code, runPuts cs = some (h, e) ∧ pasteEnv e l = some (code, e') ∧
    runPuts (cs ++ (l.take k).map fun x => ⟨some x.1, x.2.1, x.2.2⟩) = some (h ++ hp, e') ∧
    ((code = PAM_SUCCESS ∧ l.take k = l ∧ ∀ d ∈ hp, d.2 = PAM_SUCCESS) ∨
      (code ≠ PAM_SUCCESS ∧ ∃ init d, hp = init ++ [d] ∧ d.2 = code ∧ ∀ x ∈ init, x.2 = PAM_SUCCESS)) := by
  obtain ⟨h, e, vs, h1, h2, h3, h4, h5⟩ := runPuts_spec cs
  obtain ⟨k, hp, e', code, q1, q2, q3⟩ := paste_go l h e vs h3 h4 h5
  refine ⟨h, e, k, hp, e', code, h1, q1, ?_, q3⟩
  have hg : runPuts.go cs [] .make = some (h, e) := h1
  show runPuts.go (cs ++ calls (l.take k)) [] .make = _
  rw [go_append, hg]
  exact q2

theorem paste_vars : ∀ (ws vs : List (Handle.Str × Handle.Str)) (e : PEnv), Rep e vs → GoodVars (vs ++ ws) →
    ∃ e', pasteEnv e (ws.map fun v => (v.1 ++ ['='] ++ v.2, true, true)) = some (PAM_SUCCESS, e') ∧ Rep e' (vs ++ ws) := by
  intro ws
  induction ws with
  | nil => intro vs e h _; exact ⟨e, rfl, by simpa using h⟩
  | cons w ws ih =>
    obtain ⟨n, v⟩ := w
    intro vs e h hg
    have hn0 : n ≠ [] := hg.ne (n, v) (by simp)
    have hn1 : '=' ∉ n := hg.noEq (n, v) (by simp)
    have hgv : GoodVars vs := by
      refine ⟨fun p hp => hg.ne p (by simp [hp]), fun p hp => hg.noEq p (by simp [hp]), ?_⟩
      have := hg.nodup
      rw [List.map_append, List.nodup_append] at this
      exact this.1
    have hnin : n ∉ vs.map Prod.fst := by
      have := hg.nodup
      rw [List.map_append, List.nodup_append] at this
      intro hm
      exact this.2.2 n hm n (by simp) rfl
    obtain ⟨p1, p2⟩ := name_of (value := v) hn0 hn1 true true
    obtain ⟨e1, q1, q2, q3⟩ := putenv_spec h hgv ⟨some (n ++ ['='] ++ v), true, true⟩
    have hput : putVars (decide (e.requested < e.slots.length)) vs ⟨some (n ++ ['='] ++ v), true, true⟩ = (PAM_SUCCESS, vs ++ [(n, v)]) := by
      simp only [putVars, p1, p2]
      rw [if_neg hnin, if_pos (by simp)]
    rw [hput] at q1 q2
    obtain ⟨e', r1, r2⟩ := ih (vs ++ [(n, v)]) e1 q2 (by simpa using hg)
    refine ⟨e', ?_, by simpa using r2⟩
    simp only [List.map_cons]
    unfold pasteEnv
    dsimp only at q1
    rw [q1]
    dsimp only
    rw [if_neg (by simp)]
    exact r1

/-- C103: The list pam_getenvlist gives, pasted into a new handle, makes the same environment: the same list, and the same value for every name. -/
theorem C103_copy (cs : List Put) : ∃ h e l, runPuts cs = some (h, e) ∧ e.getenvlist (fun _ => true) = some (some l) ∧
    ∃ e', pasteEnv .make (l.map fun s => (s, true, true)) = some (PAM_SUCCESS, e') ∧ e'.getenvlist (fun _ => true) = some (some l) ∧
      ∀ n : Handle.Str, '=' ∉ n → e'.getenv (some n) = e.getenv (some n) := by
  obtain ⟨h, e, vs, h1, h2, h3, h4, h5⟩ := runPuts_spec cs
  obtain ⟨e', r1, r2⟩ := paste_vars vs [] .make make_rep (by simpa using h4)
  rw [List.nil_append] at r2
  refine ⟨h, e, vs.map text, h1, by rw [getenvlist_rep h3]; simp, e', ?_, by rw [getenvlist_rep r2]; simp, fun n hn => by rw [getenv_rep r2 h4 n hn, getenv_rep h3 h4 n hn]⟩
  rw [List.map_map]
  have : ((fun s => (s, true, true)) ∘ text) = fun v : Handle.Str × Handle.Str => (v.1 ++ ['='] ++ v.2, true, true) := by
    funext v; simp [text]
  rw [this]; exact r1

example : ∃ e', pasteEnv .make [("A=1".toList, true, true), ("B=".toList, true, true), ("A=2".toList, true, true)] = some (PAM_SUCCESS, e') ∧
    e'.getenvlist (fun _ => true) = some (some ["A=2".toList, "B=".toList]) := ⟨_, rfl, by decide⟩

/-- deleting a variable that is not there stops the pasting -/
example : ∃ e', pasteEnv .make [("A=1".toList, true, true), ("B".toList, true, true), ("A=2".toList, true, true)] = some (PAM_BAD_ITEM, e') ∧
    e'.getenvlist (fun _ => true) = some (some ["A=1".toList]) := ⟨_, rfl, by decide⟩

end Pam.Misc
