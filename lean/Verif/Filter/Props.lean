import Verif.Filter.Spec
/-
C162: when pam_filter starts which program, and with which environment.
-/
namespace Pam.Filter
open Pam Pam.Small Spec

theorem scan_pre : ∀ (pre : List Str) (c : Ctrl) (rest : List Str), (∀ a ∈ pre, ¬ IsRun a) →
    ∃ c', scan c (pre ++ rest) = scan c' rest ∧ c'.run1 = c.run1 ∧ c'.run2 = c.run2 ∧
      (c'.newTerm = true ↔ c.newTerm = true ∨ "new_term".toList ∈ pre) ∧ (c'.nonTerm = true ↔ c.nonTerm = true ∨ "non_term".toList ∈ pre)
  | [], c, rest, _ => ⟨c, rfl, rfl, rfl, by simp, by simp⟩
  | a :: pre, c, rest, h => by
    have h1 : a ≠ "run1".toList := fun e => h a (by simp) (Or.inl e)
    have h2 : a ≠ "run2".toList := fun e => h a (by simp) (Or.inr e)
    have hp : ∀ b ∈ pre, ¬ IsRun b := fun b hb => h b (by simp [hb])
    have ih := fun c => scan_pre pre c rest hp
    rw [List.cons_append]
    have d1 : "debug".toList ≠ "new_term".toList := by decide
    have d2 : "debug".toList ≠ "non_term".toList := by decide
    have d3 : "new_term".toList ≠ "non_term".toList := by decide
    conv => enter [1, c', 1, 1]; rw [scan]
    rw [if_neg h1, if_neg h2]
    generalize "debug".toList = A at *
    generalize "new_term".toList = B at *
    generalize "non_term".toList = C at *
    by_cases ha : a = A
    · subst ha
      rw [if_pos rfl]
      obtain ⟨c', e, r1, r2, t1, t2⟩ := ih { c with debug := true }
      exact ⟨c', e, r1, r2, by grind, by grind⟩
    rw [if_neg ha]
    by_cases hb : a = B
    · subst hb
      rw [if_pos rfl]
      obtain ⟨c', e, r1, r2, t1, t2⟩ := ih { c with newTerm := true }
      exact ⟨c', e, r1, r2, by grind, by grind⟩
    rw [if_neg hb]
    by_cases hc : a = C
    · subst hc
      rw [if_pos rfl]
      obtain ⟨c', e, r1, r2, t1, t2⟩ := ih { c with nonTerm := true }
      exact ⟨c', e, r1, r2, by grind, by grind⟩
    rw [if_neg hc]
    obtain ⟨c', e, r1, r2, t1, t2⟩ := ih c
    exact ⟨c', e, r1, r2, by grind, by grind⟩

theorem scan_run1 (c : Ctrl) (f : Str) (rest : List Str) : scan c ("run1".toList :: f :: rest) = ({ c with run1 := true }, some (f :: rest)) := by
  rw [scan]
  rw [if_neg (by decide), if_neg (by decide), if_neg (by decide), if_pos rfl, if_neg (by simp)]

theorem scan_run2 (c : Ctrl) (f : Str) (rest : List Str) : scan c ("run2".toList :: f :: rest) = ({ c with run2 := true }, some (f :: rest)) := by
  rw [scan]
  rw [if_neg (by decide), if_neg (by decide), if_neg (by decide), if_neg (by decide), if_pos rfl, if_neg (by simp)]

theorem scan_last1 (c : Ctrl) : scan c ["run1".toList] = ({ c with run1 := true }, none) := by
  rw [scan]
  rw [if_neg (by decide), if_neg (by decide), if_neg (by decide), if_pos rfl, if_pos rfl, scan]

theorem scan_last2 (c : Ctrl) : scan c ["run2".toList] = ({ c with run2 := true }, none) := by
  rw [scan]
  rw [if_neg (by decide), if_neg (by decide), if_neg (by decide), if_neg (by decide), if_pos rfl, if_pos rfl, scan]

/-- words with a blank before each -/
def tailWords (ws : List Str) : Str := ws.flatMap (fun w => ' ' :: w)

theorem words_cons (w : Str) : ∀ ws : List Str, words (w :: ws) = w ++ tailWords ws
  | [] => by simp [words, tailWords]
  | v :: ws => by
    rw [words, words_cons v ws]
    · simp [tailWords]
    · simp

theorem argsSize_pos : ∀ (ws : List Str) (i n : Nat), 0 < i → argsSize i ws n = n + (tailWords ws).length
  | [], _, _, _ => by simp [argsSize, tailWords]
  | w :: ws, i, n, h => by
    rw [argsSize, if_pos (by omega), argsSize_pos ws (i + 1) _ (by omega)]
    simp only [tailWords, List.flatMap_cons, List.length_append, List.length_cons]
    omega

theorem argsFill_pos : ∀ (ws : List Str) (size i : Nat) (buf : Str), 0 < i → buf.length + (tailWords ws).length + 1 ≤ size →
    argsFill size i ws buf = some (buf ++ tailWords ws)
  | [], _, _, _, _, _ => by simp [argsFill, tailWords]
  | w :: ws, size, i, buf, h, hs => by
    have e : (tailWords (w :: ws)).length = 1 + w.length + (tailWords ws).length := by
      simp only [tailWords, List.flatMap_cons, List.length_append, List.length_cons]; omega
    have e2 : tailWords (w :: ws) = ' ' :: w ++ tailWords ws := by simp [tailWords]
    rw [argsFill, if_pos (by omega), stpcpy, if_pos (by simp only [List.length_singleton]; omega)]
    simp only
    rw [stpcpy, if_pos (by simp only [List.length_append, List.length_singleton]; omega)]
    simp only
    rw [argsFill_pos ws size (i + 1) _ (by omega) (by simp only [List.length_append, List.length_singleton]; omega), e2]
    simp

/-- the variable ARGS is written within its buffer -/
theorem args_ok (f : Str) (rest : List Str) :
    (stpcpy (argsSize 0 (f :: rest) 6) [] "ARGS=".toList).bind (fun b => argsFill (argsSize 0 (f :: rest) 6) 0 (f :: rest) b) = some ("ARGS=".toList ++ words (f :: rest)) := by
  have e : argsSize 0 (f :: rest) 6 = 6 + f.length + (tailWords rest).length := by
    rw [argsSize, argsSize_pos rest 1 _ (by omega)]
    simp
  rw [e, stpcpy, if_pos (by rw [show "ARGS=".toList.length = 5 from rfl, List.length_nil]; omega)]
  simp only [Option.bind_some, List.nil_append]
  rw [argsFill, if_neg (by simp)]
  simp only
  rw [stpcpy, if_pos (by rw [show "ARGS=".toList.length = 5 from rfl]; omega)]
  simp only
  rw [argsFill_pos rest _ 1 _ (by omega) (by rw [List.length_append, show "ARGS=".toList.length = 5 from rfl]; omega), words_cons]
  simp

/-- the environment of the filter -/
def envOf (w : World) (f : Str) (rest : List Str) (s type : Str) : List Str :=
  ["ARGS=".toList ++ words (f :: rest), "SERVICE=".toList ++ s, "USER=".toList ++ w.user.getD "<unknown>".toList, "TYPE=".toList ++ type]

theorem process_some (w : World) (args : List Str) (type : Str) (c : Ctrl) (f : Str) (rest : List Str) (hs : scan {} args = (c, some (f :: rest))) :
    processArgs w args type = .failed ∨ ∃ s, w.service = some s ∧ processArgs w args type = .filter c f (envOf w f rest s type) := by
  have ha := args_ok f rest
  unfold processArgs
  rw [hs]
  simp only
  cases h1 : stpcpy (argsSize 0 (f :: rest) 6) [] "ARGS=".toList with
  | none => rw [h1] at ha; cases ha
  | some b =>
    rw [h1] at ha
    simp only [Option.bind_some] at ha
    simp only
    rw [ha]
    simp only
    cases w.service with
    | none => left; grind
    | some s =>
      simp only [List.headD_cons]
      by_cases m0 : w.mem 0 = true
      · by_cases m1 : w.mem 1 = true
        · by_cases m2 : w.mem 2 = true
          · by_cases m3 : w.mem 3 = true
            · by_cases m4 : w.mem 4 = true
              · right
                refine ⟨s, rfl, ?_⟩
                simp only [m0, m1, m2, m3, m4, not_true_eq_false, if_false]
                rfl
              · left; simp [m0, m1, m2, m3, m4]
            · left; simp [m0, m1, m2, m3]
          · left; simp [m0, m1, m2]
        · left; simp [m0, m1]
      · left; simp [m0]

theorem scan_some_ne : ∀ (args : List Str) (c c' : Ctrl) (ws : List Str), scan c args = (c', some ws) →
    ∃ pre run, args = pre ++ run :: ws ∧ IsRun run ∧ (∀ a ∈ pre, ¬ IsRun a) ∧ ws ≠ []
  | [], c, c', ws, h => by simp [scan] at h
  | a :: rest, c, c', ws, h => by
    by_cases hr : IsRun a
    · cases rest with
      | nil =>
        rcases hr with rfl | rfl
        · rw [scan_last1] at h
          exact absurd (congrArg Prod.snd h) (by simp)
        · rw [scan_last2] at h
          exact absurd (congrArg Prod.snd h) (by simp)
      | cons f rest =>
        rcases hr with rfl | rfl
        · rw [scan_run1] at h
          have e := Option.some.inj (congrArg Prod.snd h)
          subst e
          exact ⟨[], _, rfl, Or.inl rfl, by simp, by simp⟩
        · rw [scan_run2] at h
          have e := Option.some.inj (congrArg Prod.snd h)
          subst e
          exact ⟨[], _, rfl, Or.inr rfl, by simp, by simp⟩
    · have hr1 : a ≠ "run1".toList := fun e => hr (Or.inl e)
      have hr2 : a ≠ "run2".toList := fun e => hr (Or.inr e)
      rw [scan, if_neg hr1, if_neg hr2] at h
      have key : ∀ c0, scan c0 rest = (c', some ws) → ∃ pre run, a :: rest = pre ++ run :: ws ∧ IsRun run ∧ (∀ a ∈ pre, ¬ IsRun a) ∧ ws ≠ [] := by
        intro c0 h0
        obtain ⟨pre, run, e, k1, k2, k3⟩ := scan_some_ne rest c0 c' ws h0
        refine ⟨a :: pre, run, by rw [e]; rfl, k1, ?_, k3⟩
        intro b hb
        rcases List.mem_cons.mp hb with rfl | hb
        · exact hr
        · exact k2 b hb
      split at h
      · exact key _ h
      split at h
      · exact key _ h
      split at h
      · exact key _ h
      exact key _ h

theorem run_ne : "run1".toList ≠ "run2".toList := by decide

/-- the scan when the arguments ask for a filter -/
theorem scan_asks {args : List Str} {run f : Str} {rest : List Str} (h : Asks args run f rest) :
    ∃ c, scan {} args = (c, some (f :: rest)) ∧ (c.run1 = true ↔ run = "run1".toList) ∧ (c.run2 = true ↔ run = "run2".toList) := by
  obtain ⟨pre, rfl, hr, hp⟩ := h
  obtain ⟨c', e, r1, r2, _, _⟩ := scan_pre pre {} (run :: f :: rest) hp
  rw [e]
  rcases hr with rfl | rfl
  · rw [scan_run1]
    refine ⟨_, rfl, by simp, ?_⟩
    simp only
    rw [r2]
    simp
  · rw [scan_run2]
    refine ⟨_, rfl, ?_, by simp⟩
    simp only
    rw [r1]
    simp

/-- **C162** Whatever the arguments are, nothing is written beyond the end of a buffer. -/
theorem C162_bounds (w : World) (y : Sys) (t : Tty) (pts : Option Str) (s : St) (args : List Str) (op : Op) : operation w y t pts s args op ≠ none := by
  have key : ∀ type which, needAFilter w y t pts s args type which ≠ none := by
    intro type which
    unfold needAFilter
    cases h : scan {} args with
    | mk c o =>
      cases o with
      | none =>
        have : processArgs w args type = .noFilter c := by unfold processArgs; rw [h]
        rw [this]
        simp
      | some ws =>
        obtain ⟨_, _, _, _, _, hne⟩ := scan_some_ne _ _ _ _ h
        cases ws with
        | nil => exact absurd rfl hne
        | cons f rest =>
          rcases process_some w args type c f rest h with e | ⟨s, _, e⟩ <;> rw [e] <;> simp
  cases op with
  | chauthtok p u => cases p <;> cases u <;> first | exact key _ _ | simp [operation]
  | _ => exact key _ _

theorem parentEnd_not_started (y : Sys) (s : St) (b : Bool) (p : Str) (e : List Str) (s' : St) : parentEnd y s b ≠ .started p e s' := by
  unfold parentEnd
  split <;> simp

theorem childSide_returned (y : Sys) (s : St) : ∃ code s', childSide y s = .returned code s' := by
  unfold childSide
  split
  · exact ⟨_, _, rfl⟩
  · simp only
    split
    · exact ⟨_, _, rfl⟩
    · split <;> exact ⟨_, _, rfl⟩

theorem setFilter_started {y : Sys} {name : Option Str} {env : List Str} {s : St} {path : Str} {env' : List Str} {s' : St}
    (h : setFilter y name env s = .started path env' s') : name = some path ∧ path.head? = some '/' ∧ env' = env ∧ s'.tok = none ∧ s'.oldtok = none := by
  cases name with
  | none => simp [setFilter] at h
  | some n =>
    simp only [setFilter] at h
    by_cases h0 : n.head? = some '/'
    · rw [if_neg (by simp [h0])] at h
      split at h
      · cases h
      split at h
      · cases h
      split at h
      · cases h
      split at h
      · cases h
      generalize (if y.tty = true then { s with raw := true, fds := s.fds + 1 } else { s with fds := s.fds + 2 } : St) = s2 at h
      cases hf : y.fork1 with
      | failed => rw [hf] at h; cases h
      | child =>
        rw [hf] at h
        obtain ⟨c, s3, e⟩ := childSide_returned y s2
        simp only at h
        rw [e] at h
        cases h
      | parent =>
        rw [hf] at h
        simp only [parentSide] at h
        cases hf2 : y.fork2 with
        | failed => rw [hf2] at h; exact absurd h (parentEnd_not_started _ _ _ _ _ _)
        | parent => rw [hf2] at h; exact absurd h (parentEnd_not_started _ _ _ _ _ _)
        | child =>
          rw [hf2] at h
          simp only at h
          split at h
          · cases h
          split at h
          · cases h
          split at h
          · injection h with h1 h2 h3
            subst h1 h2 h3
            exact ⟨rfl, h0, rfl, rfl, rfl⟩
          · cases h
    · rw [if_pos h0] at h
      cases h

theorem need_started {w : World} {y : Sys} {t : Tty} {pts : Option Str} {s : St} {args : List Str} {type : Str} {which : Ctrl → Bool} {path : Str} {env : List Str} {s' : St} {t' : Tty}
    (h : needAFilter w y t pts s args type which = some ⟨.started path env s', t'⟩) :
    ∃ c rest sv, scan {} args = (c, some (path :: rest)) ∧ which c = true ∧ path.head? = some '/' ∧ w.service = some sv ∧ env = envOf w path rest sv type ∧
      s'.tok = none ∧ s'.oldtok = none := by
  have go : ∀ (c : Ctrl) (name : Option Str) (env0 : List Str) (r : Int × Tty),
      (if r.1 ≠ PAM_SUCCESS then (⟨.returned r.1 s, r.2⟩ : Done)
       else
        match (if which c then setFilter y name env0 s else .returned PAM_SUCCESS s) with
        | .returned code s2 =>
          if code = PAM_SUCCESS ∧ c.nonTerm = false ∧ c.newTerm = true then
            ⟨.returned (setTheTerminal (if which c then { r.2 with name := pts } else r.2)).1 s2, (setTheTerminal (if which c then { r.2 with name := pts } else r.2)).2⟩
          else ⟨.returned code s2, r.2⟩
        | o => ⟨o, r.2⟩) = (⟨.started path env s', t'⟩ : Done) →
      which c = true ∧ setFilter y name env0 s = .started path env s' := by
    intro c name env0 r h
    split at h
    · cases h
    · by_cases hw : which c = true
      · rw [if_pos hw] at h
        refine ⟨hw, ?_⟩
        generalize setFilter y name env0 s = o at h
        cases o with
        | returned code s2 =>
          simp only at h
          split at h <;> cases h
        | _ => injection h
      · rw [if_neg hw] at h
        simp only at h
        split at h <;> cases h
  unfold needAFilter at h
  cases hs : scan {} args with
  | mk c o =>
    cases o with
    | none =>
      have : processArgs w args type = .noFilter c := by unfold processArgs; rw [hs]
      rw [this] at h
      obtain ⟨_, h2⟩ := go _ _ _ _ (Option.some.inj h)
      have := setFilter_started h2
      cases this.1
    | some ws =>
      obtain ⟨_, _, _, _, _, hne⟩ := scan_some_ne _ _ _ _ hs
      cases ws with
      | nil => exact absurd rfl hne
      | cons f rest =>
        rcases process_some w args type c f rest hs with e | ⟨sv, hv, e⟩
        · rw [e] at h
          cases h
        · rw [e] at h
          obtain ⟨h1, h2⟩ := go _ _ _ _ (Option.some.inj h)
          obtain ⟨k1, k2, k3, k4, k5⟩ := setFilter_started h2
          cases k1
          exact ⟨c, rest, sv, rfl, h1, k2, hv, k3, k4, k5⟩

/-- **C162** The module starts a program only if the word after `run1` or `run2` is its full path, in an operation that word is for, and with four variables for an environment: that path and the words behind it, the service, the user, and the name of the operation, which for account management is wrong.  There are no authentication tokens in the process then. -/
theorem C162_started_partial (w : World) (y : Sys) (t : Tty) (pts : Option Str) (s : St) (args : List Str) (op : Op) (path : Str) (env : List Str) (s' : St) (t' : Tty)
    (h : operation w y t pts s args op = some ⟨.started path env s', t'⟩) :
    ∃ run rest service type, Asks args run path rest ∧ startsAt run op ∧ (∃ p, path = '/' :: p) ∧ w.service = some service ∧
      env = ["ARGS=".toList ++ words (path :: rest), "SERVICE=".toList ++ service, "USER=".toList ++ w.user.getD "<unknown>".toList, "TYPE=".toList ++ type] ∧
      (op ≠ .acctMgmt → type = opName op) ∧ s'.tok = none ∧ s'.oldtok = none := by
  have key : ∀ type which, needAFilter w y t pts s args type which = some ⟨.started path env s', t'⟩ →
      (op ≠ .acctMgmt → type = opName op) → (∀ c run, which c = true → (c.run1 = true ↔ run = "run1".toList) → (c.run2 = true ↔ run = "run2".toList) → IsRun run → startsAt run op) →
      ∃ run rest service type, Asks args run path rest ∧ startsAt run op ∧ (∃ p, path = '/' :: p) ∧ w.service = some service ∧
        env = ["ARGS=".toList ++ words (path :: rest), "SERVICE=".toList ++ service, "USER=".toList ++ w.user.getD "<unknown>".toList, "TYPE=".toList ++ type] ∧
        (op ≠ .acctMgmt → type = opName op) ∧ s'.tok = none ∧ s'.oldtok = none := by
    intro type which hn ht hw
    obtain ⟨c, rest, sv, k1, k2, k3, k4, k5, k6, k7⟩ := need_started hn
    obtain ⟨pre, run, e1, e2, e3, _⟩ := scan_some_ne _ _ _ _ k1
    have ha : Asks args run path rest := ⟨pre, e1, e2, e3⟩
    obtain ⟨c', g1, g2, g3⟩ := scan_asks ha
    rw [k1] at g1
    have hc : c = c' := congrArg Prod.fst g1
    rw [← hc] at g2 g3
    refine ⟨run, rest, sv, type, ha, hw c run k2 g2 g3 e2, ?_, k4, k5, ht, k6, k7⟩
    cases path with
    | nil => cases k3
    | cons a p => exact ⟨p, by rw [Option.some.inj k3]⟩
  cases op with
  | authenticate => exact key _ _ h (fun _ => rfl) (fun c run hw h1 _ _ => h1.mp hw)
  | setcred => exact key _ _ h (fun _ => rfl) (fun c run hw _ h2 _ => h2.mp hw)
  | acctMgmt => exact key _ _ h (fun h => absurd rfl h) (fun _ _ _ _ _ _ => trivial)
  | openSession => exact key _ _ h (fun _ => rfl) (fun c run hw h1 _ _ => h1.mp hw)
  | closeSession => exact key _ _ h (fun _ => rfl) (fun c run hw _ h2 _ => h2.mp hw)
  | chauthtok p u =>
    cases p with
    | true => exact key _ _ h (fun _ => rfl) (fun c run hw h1 _ _ => Or.inl ⟨rfl, h1.mp hw⟩)
    | false =>
      cases u with
      | true => exact key _ _ h (fun _ => rfl) (fun c run hw _ h2 _ => Or.inr ⟨rfl, rfl, h2.mp hw⟩)
      | false => simp [operation] at h

theorem process_good {w : World} {args : List Str} {run f : Str} {rest : List Str} (type sv : Str) (ha : Asks args run f rest) (hm : ∀ i, w.mem i = true) (hv : w.service = some sv) :
    ∃ c, processArgs w args type = .filter c f (envOf w f rest sv type) ∧ (c.run1 = true ↔ run = "run1".toList) ∧ (c.run2 = true ↔ run = "run2".toList) := by
  obtain ⟨c, g1, g2, g3⟩ := scan_asks ha
  refine ⟨c, ?_, g2, g3⟩
  rcases process_some w args type c f rest g1 with e | ⟨sv', hv', e⟩
  · exfalso
    have hargs := args_ok f rest
    unfold processArgs at e
    rw [g1] at e
    simp only [hm, hv, not_true_eq_false, if_false] at e
    cases h1 : stpcpy (argsSize 0 (f :: rest) 6) [] "ARGS=".toList with
    | none => rw [h1] at e; cases e
    | some b =>
      rw [h1] at hargs e
      simp only [Option.bind_some] at hargs
      simp only at e
      rw [hargs] at e
      cases e
  · rw [hv] at hv'
    rw [e, Option.some.inj hv']

/-- the filter's process when all goes well -/
structure Goes (y : Sys) : Prop where
  tty : y.tty = true → y.master = true ∧ y.getattr = true ∧ y.setraw = true
  pair : y.tty = false → y.pair = true
  fork : y.fork1 = .parent ∧ y.fork2 = .child
  rest : y.dup2 = true ∧ y.keep2 = true ∧ y.exec = true

theorem setFilter_goes {y : Sys} (hy : Goes y) (f : Str) (p : Str) (hf : f = '/' :: p) (env : List Str) (s : St) : ∃ s', setFilter y (some f) env s = .started f env s' := by
  subst hf
  obtain ⟨f1, f2⟩ := hy.fork
  obtain ⟨g1, g2, g3⟩ := hy.rest
  simp only [setFilter, List.head?_cons, ne_eq, not_true_eq_false, if_false]
  rw [if_neg (by rintro ⟨a, b⟩; exact b (hy.tty a).1), if_neg (by rintro ⟨a, b⟩; exact b (hy.tty a).2.1), if_neg (by rintro ⟨a, b⟩; exact b (hy.tty a).2.2),
    if_neg (by rintro ⟨a, b⟩; exact b (hy.pair (by simpa using a)))]
  rw [f1]
  simp only [parentSide, f2, g1, g2, g3, not_true_eq_false, if_false, if_true]
  exact ⟨_, rfl⟩

/-- **C162** And it does: if the arguments ask for a filter by its full path, in each operation the word is for the process of the filter starts that program, unless a system call fails. -/
theorem C162_starts (w : World) (y : Sys) (t : Tty) (pts : Option Str) (s : St) (args : List Str) (op : Op) (run path p service : Str) (rest : List Str)
    (ha : Asks args run path rest) (ho : startsAt run op) (hp : path = '/' :: p) (hm : ∀ i, w.mem i = true) (hv : w.service = some service) (ht : t.item ≠ none) (hy : Goes y) :
    ∃ env s' t', operation w y t pts s args op = some ⟨.started path env s', t'⟩ := by
  have key : ∀ type (which : Ctrl → Bool), (∀ c : Ctrl, (c.run1 = true ↔ run = "run1".toList) → (c.run2 = true ↔ run = "run2".toList) → which c = true) →
      ∃ env s' t', needAFilter w y t pts s args type which = some ⟨.started path env s', t'⟩ := by
    intro type which hw
    obtain ⟨c, e, g1, g2⟩ := process_good type service ha hm hv
    obtain ⟨s', e2⟩ := setFilter_goes hy path p hp (envOf w path rest service type) s
    unfold needAFilter
    rw [e]
    simp only [hw c g1 g2, if_true, e2]
    have et : setTheTerminal t = (PAM_SUCCESS, t) := by
      unfold setTheTerminal
      cases hi : t.item with
      | none => exact absurd hi ht
      | some x => rfl
    rw [et]
    simp only [ite_self, ne_eq, not_true_eq_false, if_false]
    exact ⟨_, _, _, rfl⟩
  have hr : IsRun run := ha.choose_spec.2.1
  cases op with
  | authenticate => exact key _ _ (fun c h1 _ => h1.mpr ho)
  | setcred => exact key _ _ (fun c _ h2 => h2.mpr ho)
  | acctMgmt =>
    refine key _ _ (fun c h1 h2 => ?_)
    rcases hr with hr | hr
    · simp [h1.mpr hr]
    · simp [h2.mpr hr]
  | openSession => exact key _ _ (fun c h1 _ => h1.mpr ho)
  | closeSession => exact key _ _ (fun c _ h2 => h2.mpr ho)
  | chauthtok pr up =>
    rcases ho with ⟨rfl, ho⟩ | ⟨rfl, rfl, ho⟩
    · exact key _ _ (fun c h1 _ => h1.mpr ho)
    · exact key _ _ (fun c _ h2 => h2.mpr ho)

def exWorld : World := ⟨fun _ => true, some "login".toList, some "kim".toList⟩
def exSys : Sys := ⟨false, true, true, true, true, .parent, true, true, true, true, true, true, true, true, .child, true, true, true, []⟩
def exArgs : List Str := ["non_term".toList, "run1".toList, "/lib/f".toList, "-x".toList, "run2".toList]

example : ((operation exWorld exSys ⟨some [], none, true⟩ none { tok := some "pw".toList } exArgs .openSession).map Done.out) =
    some (.started "/lib/f".toList ["ARGS=/lib/f -x run2".toList, "SERVICE=login".toList, "USER=kim".toList, "TYPE=open_session".toList] { fds := 1 }) := by decide +kernel

example : Asks exArgs "run1".toList "/lib/f".toList ["-x".toList, "run2".toList] ∧ Goes exSys :=
  ⟨⟨["non_term".toList], rfl, Or.inl rfl, by intro a ha; rw [List.mem_singleton] at ha; subst ha; rintro (h | h) <;> revert h <;> decide⟩,
    ⟨by decide, by decide, by decide, by decide⟩⟩

/-- **C162** (counterexample) For account management the filter is told the operation is `setcred`. -/
theorem C162_type_counterexample : ((operation exWorld exSys ⟨some [], none, true⟩ none {} exArgs .acctMgmt).map Done.out) =
    some (.started "/lib/f".toList ["ARGS=/lib/f -x run2".toList, "SERVICE=login".toList, "USER=kim".toList, "TYPE=setcred".toList] { fds := 1 }) := by decide +kernel

/-- the module returns, having changed nothing in the process but perhaps PAM_TTY if that was not set -/
def Quiet (t : Tty) (s : St) (d : Done) : Prop :=
  (∃ code, d.out = .returned code s) ∧ (d.tty.item = t.item ∨ t.item = none)

theorem terminal_item (t : Tty) : (setTheTerminal t).2.item = t.item ∨ t.item = none := by
  unfold setTheTerminal
  cases h : t.item with
  | none => exact Or.inr rfl
  | some x => exact Or.inl h

/-- **C162** In the other operations, and if no filter is asked for in the proper way, there is no new process, and the terminal and the tokens stay as they are. -/
theorem C162_otherwise (w : World) (y : Sys) (t : Tty) (pts : Option Str) (s : St) (args : List Str) (op : Op)
    (h : ∀ run path rest, Asks args run path rest → ¬ startsAt run op) : ∃ d, operation w y t pts s args op = some d ∧ Quiet t s d := by
  have key : ∀ type (which : Ctrl → Bool), (∀ (c : Ctrl) run path rest, Asks args run path rest → (c.run1 = true ↔ run = "run1".toList) → (c.run2 = true ↔ run = "run2".toList) → which c = false) →
      ∃ d, needAFilter w y t pts s args type which = some d ∧ Quiet t s d := by
    intro type which hw
    unfold needAFilter
    generalize hr0 : setTheTerminal t = rt
    have hrt : rt.2.item = t.item ∨ t.item = none := by rw [← hr0]; exact terminal_item t
    have fin : ∀ (c : Ctrl) (name : Option Str) (env : List Str), (which c = true → ∃ code, setFilter y name env s = .returned code s ∧ code ≠ PAM_SUCCESS) → Quiet t s
        (if (if c.nonTerm = false ∧ c.newTerm = false then rt else (PAM_SUCCESS, t)).1 ≠ PAM_SUCCESS then (⟨.returned (if c.nonTerm = false ∧ c.newTerm = false then rt else (PAM_SUCCESS, t)).1 s, (if c.nonTerm = false ∧ c.newTerm = false then rt else (PAM_SUCCESS, t)).2⟩ : Done)
         else
          match (if which c then setFilter y name env s else .returned PAM_SUCCESS s) with
          | .returned code s2 =>
            if code = PAM_SUCCESS ∧ c.nonTerm = false ∧ c.newTerm = true then
              ⟨.returned (setTheTerminal (if which c then { (if c.nonTerm = false ∧ c.newTerm = false then rt else (PAM_SUCCESS, t)).2 with name := pts } else (if c.nonTerm = false ∧ c.newTerm = false then rt else (PAM_SUCCESS, t)).2)).1 s2,
                (setTheTerminal (if which c then { (if c.nonTerm = false ∧ c.newTerm = false then rt else (PAM_SUCCESS, t)).2 with name := pts } else (if c.nonTerm = false ∧ c.newTerm = false then rt else (PAM_SUCCESS, t)).2)).2⟩
            else ⟨.returned code s2, (if c.nonTerm = false ∧ c.newTerm = false then rt else (PAM_SUCCESS, t)).2⟩
          | o => ⟨o, (if c.nonTerm = false ∧ c.newTerm = false then rt else (PAM_SUCCESS, t)).2⟩) := by
      intro c name env hc
      have hr : (if c.nonTerm = false ∧ c.newTerm = false then rt else (PAM_SUCCESS, t)).2.item = t.item ∨ t.item = none := by
        split
        · exact hrt
        · exact Or.inl rfl
      generalize (if c.nonTerm = false ∧ c.newTerm = false then rt else (PAM_SUCCESS, t)) = r at hr
      split
      · exact ⟨⟨_, rfl⟩, hr⟩
      · by_cases hwc : which c = true
        · obtain ⟨code, e, hne⟩ := hc hwc
          rw [if_pos hwc, e]
          simp only
          rw [if_neg (fun h2 => hne h2.1)]
          exact ⟨⟨_, rfl⟩, hr⟩
        · rw [if_neg hwc, if_neg hwc]
          simp only
          split
          · refine ⟨⟨_, rfl⟩, ?_⟩
            rcases terminal_item r.2 with e | e
            · rcases hr with hr | hr
              · left; exact e.trans hr
              · right; exact hr
            · rcases hr with hr | hr
              · right; rw [← hr]; exact e
              · right; exact hr
          · exact ⟨⟨_, rfl⟩, hr⟩
    cases hs : scan {} args with
    | mk c o =>
      cases o with
      | none =>
        have : processArgs w args type = .noFilter c := by unfold processArgs; rw [hs]
        rw [this]
        exact ⟨_, rfl, fin c none [] (fun _ => ⟨PAM_ABORT, rfl, by decide⟩)⟩
      | some ws =>
        obtain ⟨pre, run, e1, e2, e3, hne⟩ := scan_some_ne _ _ _ _ hs
        cases ws with
        | nil => exact absurd rfl hne
        | cons f rest =>
          have ha : Asks args run f rest := ⟨pre, e1, e2, e3⟩
          obtain ⟨c', g1, g2, g3⟩ := scan_asks ha
          rw [hs] at g1
          have hc : c = c' := congrArg Prod.fst g1
          rw [← hc] at g2 g3
          have hwc := hw c run f rest ha g2 g3
          rcases process_some w args type c f rest hs with e | ⟨sv, hv, e⟩
          · rw [e]
            exact ⟨_, rfl, ⟨_, rfl⟩, Or.inl rfl⟩
          · rw [e]
            exact ⟨_, rfl, fin c (some f) _ (fun h2 => by rw [hwc] at h2; cases h2)⟩
  cases op with
  | authenticate => exact key _ _ (fun c run path rest ha h1 _ => by have := h run path rest ha; simp only [startsAt] at this; grind)
  | setcred => exact key _ _ (fun c run path rest ha _ h2 => by have := h run path rest ha; simp only [startsAt] at this; grind)
  | acctMgmt => exact key _ _ (fun c run path rest ha _ _ => absurd trivial (h run path rest ha))
  | openSession => exact key _ _ (fun c run path rest ha h1 _ => by have := h run path rest ha; simp only [startsAt] at this; grind)
  | closeSession => exact key _ _ (fun c run path rest ha _ h2 => by have := h run path rest ha; simp only [startsAt] at this; grind)
  | chauthtok pr up =>
    cases pr with
    | true => exact key _ _ (fun c run path rest ha h1 _ => by have := h run path rest ha; simp only [startsAt] at this; grind)
    | false =>
      cases up with
      | true => exact key _ _ (fun c run path rest ha _ h2 => by have := h run path rest ha; simp only [startsAt] at this; grind)
      | false => exact ⟨_, rfl, ⟨_, rfl⟩, Or.inl rfl⟩

/-- `run1` is not for closing a session -/
example : ((operation exWorld exSys ⟨some [], none, true⟩ none {} exArgs .closeSession).map Done.out) = some (.returned 0 {}) := by decide +kernel

/-- `run1` with nothing behind it: refused -/
example : ((operation exWorld exSys ⟨some [], none, true⟩ none {} ["run1".toList] .authenticate).map Done.out) = some (.returned PAM_ABORT {}) := by decide +kernel

end Pam.Filter
