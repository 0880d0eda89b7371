import Verif.Selinux.SessionProps
/-
C159 and C160: what the arguments of pam_selinux ask for, when opening a session works, and what the audit system is told.
-/
namespace Pam.Selinux
open Pam Pam.Small Spec

/-- a field that exactly one word sets -/
theorem foldl_field (f : Args → Bool) (wd : Str) (h : ∀ a s, f (arg a s) = (f a || decide (s = wd))) (argv : List Str) (a : Args) :
    f (argv.foldl arg a) = true ↔ f a = true ∨ wd ∈ argv := by
  induction argv generalizing a with
  | nil => simp
  | cons s r ih => rw [List.foldl_cons, ih, h, Bool.or_eq_true, decide_eq_true_iff, List.mem_cons, or_assoc, eq_comm (a := s)]

theorem arg_select (a : Args) (s : Str) : (arg a s).select = (a.select || decide (s = "select_context".toList)) := by
  unfold arg
  by_cases h : s = "select_context".toList
  · subst h
    rw [if_neg (by decide), if_pos rfl]; simp
  · rw [decide_eq_false h, Bool.or_false]
    repeat' split
    all_goals first | rfl | contradiction

theorem arg_current (a : Args) (s : Str) : (arg a s).current = (a.current || decide (s = "use_current_range".toList)) := by
  unfold arg
  by_cases h : s = "use_current_range".toList
  · subst h
    rw [if_neg (by decide), if_neg (by decide), if_pos rfl]; simp
  · rw [decide_eq_false h, Bool.or_false]
    repeat' split
    all_goals first | rfl | contradiction

theorem arg_params (a : Args) (s : Str) : (arg a s).params = (a.params || decide (s = "env_params".toList)) := by
  unfold arg
  by_cases h : s = "env_params".toList
  · subst h
    rw [if_neg (by decide), if_neg (by decide), if_neg (by decide), if_pos rfl]; simp
  · rw [decide_eq_false h, Bool.or_false]
    repeat' split
    all_goals first | rfl | contradiction

theorem arg_restore (a : Args) (s : Str) : (arg a s).restore = (a.restore || decide (s = "restore".toList)) := by
  unfold arg
  by_cases h : s = "restore".toList
  · subst h
    rw [if_neg (by decide), if_neg (by decide), if_neg (by decide), if_neg (by decide), if_neg (by decide), if_pos rfl]; simp
  · rw [decide_eq_false h, Bool.or_false]
    repeat' split
    all_goals first | rfl | contradiction

theorem arg_nottys (a : Args) (s : Str) : (!(arg a s).ttys) = (!a.ttys || decide (s = "nottys".toList)) := by
  unfold arg
  by_cases h : s = "nottys".toList
  · subst h
    rw [if_pos rfl]; simp
  · rw [decide_eq_false h, Bool.or_false]
    repeat' split
    all_goals first | rfl | contradiction

/-- **C159** The arguments, wherever they stand in the list: each turns on what it is for and nothing else. -/
theorem C159_words (argv : List Str) :
    ((args argv).select = true ↔ "select_context".toList ∈ argv) ∧ ((args argv).current = true ↔ "use_current_range".toList ∈ argv) ∧
    ((args argv).params = true ↔ "env_params".toList ∈ argv) ∧ ((args argv).restore = true ↔ "restore".toList ∈ argv) ∧
    ((args argv).ttys = true ↔ "nottys".toList ∉ argv) := by
  have fin : ∀ (x : Bool) (P : Prop), (x = true ↔ false = true ∨ P) → (x = true ↔ P) := by
    intro x P h; rw [h]; simp
  refine ⟨fin _ _ (foldl_field (·.select) _ arg_select argv {}), fin _ _ (foldl_field (·.current) _ arg_current argv {}),
    fin _ _ (foldl_field (·.params) _ arg_params argv {}), fin _ _ (foldl_field (·.restore) _ arg_restore argv {}), ?_⟩
  have := fin _ _ (foldl_field (fun a => !a.ttys) _ arg_nottys argv {})
  show (argv.foldl arg {}).ttys = true ↔ _
  rw [← this]
  cases (argv.foldl arg {}).ttys <;> simp

/-- **C159** Who chooses: with "env_params" the environment, whatever else is said; otherwise with "select_context" the user; with "use_current_range" alone only the level of the
process is looked at, which SELINUX_LEVEL_REQUESTED cannot change; with none of them the default is taken. -/
theorem C159_arguments (w : World) (n : Nat) (argv : List Str) (default : Str) :
    ("env_params".toList ∈ argv → ∃ current, (current = true ↔ "use_current_range".toList ∈ argv) ∧
      choose w n (args argv) default = some (contextFromEnv w.policy default true current w.env)) ∧
    ("env_params".toList ∉ argv → "select_context".toList ∈ argv → ∃ current, (current = true ↔ "use_current_range".toList ∈ argv) ∧
      choose w n (args argv) default = configContext w.policy default current w.ask n 0) ∧
    ("env_params".toList ∉ argv → "select_context".toList ∉ argv → "use_current_range".toList ∈ argv →
      choose w n (args argv) default = some (contextFromEnv w.policy default false true w.env)) ∧
    ("env_params".toList ∉ argv → "select_context".toList ∉ argv → "use_current_range".toList ∉ argv → choose w n (args argv) default = some (some default, [])) := by
  obtain ⟨h1, h2, h3, -, -⟩ := C159_words argv
  have f : ∀ {b : Bool} {P : Prop}, (b = true ↔ P) → ¬ P → b = false := by
    intro b P h hn
    cases b with
    | false => rfl
    | true => exact absurd (h.mp rfl) hn
  unfold choose
  refine ⟨fun hp => ⟨(args argv).current, h2, ?_⟩, fun hp hs => ⟨(args argv).current, h2, ?_⟩, fun hp hs hc => ?_, fun hp hs hc => ?_⟩
  · rw [h3.mpr hp, if_neg (by rintro ⟨-, h⟩; cases h), if_pos (Or.inl rfl)]
  · rw [h1.mpr hs, f h3 hp, if_pos ⟨rfl, rfl⟩]
  · rw [f h1 hs, f h3 hp, h2.mpr hc, if_neg (by rintro ⟨h, -⟩; cases h), if_pos (Or.inr rfl)]
  · rw [f h1 hs, f h3 hp, f h2 hc, if_neg (by rintro ⟨h, -⟩; cases h), if_neg (by rintro (h | h) <;> cases h)]

/-- **C160** When all that is needed works, the first opening of a session succeeds, enforcing or not; a terminal that does not exist, or is gone before it gets its label, does no harm. -/
theorem C160_works (w : World) (n : Nat) (argv : List Str) (st : State) (user service default exec : Str) (sent : List Rec) (hon : w.enabled = true) (hd : st.data = none)
    (hclose : "close".toList ∉ argv) (hrest : "restore".toList ∉ argv) (hu : w.user = some user) (hs : w.service = some service)
    (hc : w.contexts ((w.pwname user).getD user) service = some default) (hch : choose w n (args argv) default = some (some exec, sent)) (hsave : w.save = true)
    (hset : w.setexec = true ∧ w.setkey = true ∧ w.setfile ≠ .fail)
    (htty : ∀ f, Terminal w f → w.getfile f = .enoent ∨ (w.getfile f = .ok ∧ w.tclass = true ∧ w.relabel exec (st.file f) ≠ none)) :
    ∃ st', openSession w n argv st = .done PAM_SUCCESS st' := by
  obtain ⟨-, -, -, hr, -⟩ := C159_words argv
  have h1 : (args argv).close = false := by
    cases hcl : (args argv).close with
    | false => rfl
    | true => rcases (args_close argv {}).mp hcl with h | h
              · cases h
              · exact absurd h hclose
  have h2 : (args argv).restore = false := by
    cases hcl : (args argv).restore with
    | false => rfl
    | true => exact absurd (hr.mp hcl) hrest
  have hset2 : ∀ (d : Data) (s : State), (d.ttyPath ≠ none → d.ttyContext ≠ none) → ∃ st', setContext w d s = some (PAM_SUCCESS, st') := by
    intro d s hdt
    unfold setContext
    have : ∃ s1, setFileContext w d.ttyContext d.ttyPath s = some (true, s1) := by
      unfold setFileContext
      cases hp : d.ttyPath with
      | none => exact ⟨_, rfl⟩
      | some f =>
        cases hx : d.ttyContext with
        | none => exact absurd hx (hdt (by rw [hp]; nofun))
        | some c =>
          cases hf : w.setfile with
          | ok => exact ⟨_, rfl⟩
          | enoent => exact ⟨_, rfl⟩
          | fail => exact absurd hf hset.2.2
    obtain ⟨s1, e⟩ := this
    rw [e]
    simp only [hset.1, hset.2.1, Bool.and_self, Bool.true_eq_false, if_false, if_true]
    exact ⟨_, rfl⟩
  unfold openSession
  simp only [h1, h2, hd, Bool.false_eq_true, if_false]
  unfold createContext
  rw [if_neg (by rw [hon]; decide), hu]
  simp only [hs, hc, hch]
  unfold createFrom
  simp only
  have ht : ∀ t, t = (if (args argv).ttys then computeTty w { st with sent := st.sent ++ sent } exec else (PAM_SUCCESS, none, none, none)) →
      t.1 = PAM_SUCCESS ∧ (t.2.1 ≠ none → t.2.2.2 ≠ none) := by
    intro t e
    split at e
    · unfold computeTty at e
      cases hp : ttyPath w with
      | none => rw [hp] at e; subst e; exact ⟨rfl, fun h => absurd rfl h⟩
      | some f =>
        rw [hp] at e
        simp only at e
        rcases htty f (ttyPath_iff.mp hp) with h | ⟨ha, hb, hx⟩
        · rw [h] at e; subst e; exact ⟨rfl, fun h => absurd rfl h⟩
        · rw [ha, hb] at e
          simp only [Bool.true_eq_false, if_false] at e
          cases hl : w.relabel exec (st.file f) with
          | none => exact absurd hl hx
          | some new => rw [hl] at e; subst e; exact ⟨rfl, nofun⟩
    · subst e; exact ⟨rfl, fun h => absurd rfl h⟩
  obtain ⟨ht1, ht2⟩ := ht _ rfl
  generalize (if (args argv).ttys then computeTty w { st with sent := st.sent ++ sent } exec else (PAM_SUCCESS, none, none, none)) = t at ht1 ht2
  rw [if_neg (fun h => h ht1), if_neg (by rw [hsave]; decide)]
  obtain ⟨st', e⟩ := hset2 ⟨exec, if w.getexec then st.exec else none, default, t.2.2.2, t.2.2.1, t.2.1⟩
    { st with sent := st.sent ++ sent, data := some ⟨exec, if w.getexec then st.exec else none, default, t.2.2.2, t.2.2.1, t.2.1⟩ } ht2
  exact ⟨st', by rw [e]; rfl⟩

theorem setContext_sent {w : World} {d : Data} {st st' : State} {k : Int} (h : setContext w d st = some (k, st')) :
    ∃ r : Rec, st'.sent = st.sent ++ [r] ∧ r.selected = some d.exec ∧ r.default = some d.default ∧ (r.ok = true ↔ w.setexec = true) ∧
      (w.setexec = true → st'.exec = some d.exec) ∧ (w.setexec = false → st'.exec = st.exec) := by
  unfold setContext at h
  cases hf : setFileContext w d.ttyContext d.ttyPath st with
  | none => rw [hf] at h; cases h
  | some r =>
    obtain ⟨ok, s1⟩ := r
    rw [hf] at h
    obtain ⟨g1, -, -, g4, -⟩ := setFile_file hf
    have hst := congrArg Prod.snd (Option.some.inj h)
    simp only at hst
    subst hst
    refine ⟨⟨w.setexec, some d.default, some d.exec⟩, by simp only [g4], rfl, rfl, Iff.rfl, ?_, ?_⟩
    · intro h; simp only [h, if_true]
    · intro h; simp only [h, Bool.false_eq_true, if_false]; exact g1

/-- **C160** What the audit system is told when a session is opened is true: a record of a success names the context that programs of the session now get.  If it is
told of successes only when there was one, then it is told of failures if there was one: where the context was not set there is no record of a success. -/
theorem C160_audit (w : World) (n : Nat) (argv : List Str) (st st' : State) (k : Int) (h : openSession w n argv st = .done k st') :
    ∃ more, st'.sent = st.sent ++ more ∧ ∀ r ∈ more, r.ok = true → st'.exec = r.selected := by
  have hset : ∀ (d : Data) (s : State) (pre : List Rec), (∀ r ∈ pre, r.ok = false) → s.sent = st.sent ++ pre → Out.of (setContext w d s) = .done k st' →
      ∃ more, st'.sent = st.sent ++ more ∧ ∀ r ∈ more, r.ok = true → st'.exec = r.selected := by
    intro d s pre hpre hs h
    cases hc : setContext w d s with
    | none => rw [hc] at h; cases h
    | some x =>
      obtain ⟨k1, s1⟩ := x
      rw [hc] at h
      cases h
      obtain ⟨r, e1, e2, -, e4, e5, -⟩ := setContext_sent hc
      refine ⟨pre ++ [r], by rw [e1, hs, List.append_assoc], ?_⟩
      intro x hx hk
      rcases List.mem_append.mp hx with hx | hx
      · rw [hpre x hx] at hk; cases hk
      · rw [List.mem_singleton.mp hx] at hk ⊢
        rw [e2, e5 (e4.mp hk)]
  have hnone : ∀ (o : Out), o = .done k st' → (∃ k0, o = .done k0 st) → ∃ more, st'.sent = st.sent ++ more ∧ ∀ r ∈ more, r.ok = true → st'.exec = r.selected := by
    rintro o h ⟨k0, e⟩
    rw [e] at h
    cases h
    exact ⟨[], by rw [List.append_nil], nofun⟩
  unfold openSession at h
  simp only at h
  split at h
  · exact hnone _ h ⟨_, rfl⟩
  split at h
  · cases hd : st.data with
    | none => unfold restoreContext at h; rw [hd] at h; exact hnone _ h ⟨_, rfl⟩
    | some d =>
      unfold restoreContext at h
      rw [hd] at h
      simp only at h
      cases hf : setFileContext w d.prevTty d.ttyPath st with
      | none => rw [hf] at h; cases h
      | some r =>
        obtain ⟨ok, s1⟩ := r
        rw [hf] at h
        obtain ⟨-, -, -, g4, -⟩ := setFile_file hf
        have hst := (Out.done.inj h).2
        subst hst
        exact ⟨[], by rw [List.append_nil]; exact g4, nofun⟩
  cases hd : st.data with
  | some d => rw [hd] at h; exact hset d st [] nofun (by rw [List.append_nil]) h
  | none =>
    rw [hd] at h
    simp only at h
    unfold createContext at h
    split at h
    · exact hnone _ h ⟨_, rfl⟩
    cases hu : w.user with
    | none => rw [hu] at h; exact hnone _ h ⟨_, rfl⟩
    | some user =>
      rw [hu] at h
      simp only at h
      cases hs : w.service with
      | none => rw [hs] at h; exact hnone _ h ⟨_, rfl⟩
      | some service =>
        rw [hs] at h
        simp only at h
        cases hx : w.contexts ((w.pwname user).getD user) service with
        | none => rw [hx] at h; exact hnone _ h ⟨_, rfl⟩
        | some default =>
          rw [hx] at h
          simp only at h
          cases hch : choose w n (args argv) default with
          | none => rw [hch] at h; cases h
          | some r =>
            obtain ⟨exec, sent⟩ := r
            rw [hch] at h
            have hsent : ∀ r ∈ sent, r.ok = false := by
              unfold choose at hch
              split at hch
              · exact fun r hr => ((C159_asked_records _ _ _ _ _ _ _ _ hch).1 r hr).1
              split at hch
              · have e := Option.some.inj hch
                obtain ⟨r1, r2⟩ := C159_env_records w.policy default (args argv).params (args argv).current w.env
                rw [e] at r1 r2
                cases exec with
                | none => obtain ⟨s, es⟩ := r1 rfl
                          simp only at es
                          subst es
                          intro r hr
                          rw [List.mem_singleton.mp hr]
                | some x => have := r2 x rfl
                            simp only at this
                            subst this
                            nofun
              · cases hch; nofun
            cases exec with
            | none =>
              have hst := (Out.done.inj h).2
              subst hst
              exact ⟨sent, rfl, fun r hr hk => by rw [hsent r hr] at hk; cases hk⟩
            | some exec =>
              simp only at h
              unfold createFrom at h
              simp only at h
              generalize (if (args argv).ttys then computeTty w { st with sent := st.sent ++ sent } exec else (PAM_SUCCESS, none, none, none)) = t at h
              split at h
              · have hst := (Out.done.inj h).2
                subst hst
                exact ⟨sent, rfl, fun r hr hk => by rw [hsent r hr] at hk; cases hk⟩
              split at h
              · have hst := (Out.done.inj h).2
                subst hst
                exact ⟨sent, rfl, fun r hr hk => by rw [hsent r hr] at hk; cases hk⟩
              · exact hset _ _ sent hsent rfl h

example : Terminal exWorld "/dev/tty1".toList := ttyPath_iff.mp (by decide)
example : Terminal { exWorld with tty := some "ssh".toList, stdin := none, stdout := some "pts/3".toList } "/dev/pts/3".toList := ttyPath_iff.mp (by decide)
example : ∃ st', openSession { exWorld with setfile := .enoent } 1 ["env_params".toList] exState = .done PAM_SUCCESS st' :=
  C160_works _ 1 _ _ _ _ _ _ _ rfl rfl (by decide) (by decide) rfl rfl rfl rfl rfl ⟨rfl, rfl, by decide⟩ (by
    intro f hf
    have h : some "/dev/tty1".toList = some f := ttyPath_iff.mpr hf
    rw [← Option.some.inj h]
    exact Or.inr ⟨rfl, rfl, nofun⟩)

end Pam.Selinux
