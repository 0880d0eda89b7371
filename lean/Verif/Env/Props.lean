import Verif.Env.TotalLemmas
/-
C89 to C91: pam_env.
-/
namespace Pam.Env
open Pam Pam.Small Spec

/-! ## C89 -/

/-- C89: a file of entries and comments, read as pam_env.conf, changes the variables line by line as the entries say; the result is PAM_SUCCESS if
the last line was good and no value was malformed.  Missing: lines in which `DEFAULT=` or `OVERRIDE=` without a value follows a value in quotes (see
`C89_quote_counterexample`), and names with `=` in them. -/
theorem C89_configuration_partial (w : Who) {e : PEnv} {m : Vars} (hm : Reads e m) (its : List Config.Spec.Item) (hits : ∀ it ∈ its, it.Ok)
    {es : List (Option Entry)} (hl : Meanings (its.filterMap Config.Spec.Item.glued) es) {m' : Vars} {r : Option Bool} (h : Runs w m es true m' r) :
    ∃ e', configFile w e (some (its.flatMap Config.Spec.Item.text)) = some (if r = some true then PAM_SUCCESS else PAM_ABORT, e') ∧ Reads e' m' :=
  configFile_read hm (.inr ⟨its, es, r, rfl, hits, hl, h, rfl⟩)

/-- C89: a line is ignored exactly if it is no entry -/
theorem C89_bad_line (w : Who) (e : PEnv) (l : Str) (h : ¬ ∃ en : Entry, en.IsLine l) : ∃ code, confLine w e l = some (code, e) ∧ code ≠ PAM_SUCCESS :=
  ⟨_, confLine_bad h, by decide⟩

/-- C89: the whole module: the files of the system, then the user's own -/
theorem C89_session_partial {w : World} {e : PEnv} {m : Vars} (hm : Reads e m) {argv : List Str} {a : Args} (ha : a.Of argv w.conf) {m' : Vars} {code : Int}
    (h : Session w a m m' code) : ∃ e', handleEnv w e argv = some (code, e') ∧ Reads e' m' := by
  have hsys : ∀ {m2}, SystemFiles w a m m2 → ∃ e2, Reads e2 m2 ∧
      handleEnv w e argv = if a.userReadenv = true then userFile w e2 a.ownfile else some (PAM_SUCCESS, e2) := by
    rintro m2 ⟨m1, h1, h2⟩
    obtain ⟨e1, hc1, hm1⟩ := configFile_read hm h1
    unfold handleEnv
    dsimp only
    rw [conffile_eq ha.conffile, readenv_eq ha.readenv, envfile_eq ha.envfile, userEnvfile_eq ha.ownfile, userReadenv_eq ha.userReadenv, hc1]
    dsimp only
    rcases h2 with ⟨hr, h2⟩ | ⟨hr, rfl⟩
    · obtain ⟨e2, hc2, hm2⟩ := envFile_read hm1 h2
      rw [if_pos ⟨hr, rfl⟩, hc2]
      refine ⟨e2, hm2, ?_⟩
      dsimp only
      cases a.userReadenv <;> rfl
    · rw [if_neg (by rw [hr]; exact fun h => Bool.noConfusion h.1)]
      refine ⟨e1, hm1, ?_⟩
      dsimp only
      cases a.userReadenv <;> rfl
  cases h with
  | conf h1 hne =>
    obtain ⟨e1, hc1, hm1⟩ := configFile_read hm h1
    refine ⟨e1, ?_, hm1⟩
    unfold handleEnv
    dsimp only
    rw [conffile_eq ha.conffile, hc1]
    dsimp only
    rw [if_neg (fun h => hne h.2)]
    dsimp only
    rw [if_neg (fun h => hne h.2)]
  | system h1 hno =>
    obtain ⟨e2, hm2, hh⟩ := hsys h1
    refine ⟨e2, ?_, hm2⟩
    rw [hh]
    split
    · next hu =>
      unfold userFile
      cases hw : w.who.user with
      | none => rfl
      | some u =>
        dsimp only [Option.bind_some]
        rcases hp : w.who.pw u with - | ⟨dir, shell⟩
        · rfl
        · dsimp only
          rw [if_neg]
          intro hx
          exact hno _ ⟨hu, u, dir, shell, hw, hp, rfl, hx⟩
    · rfl
  | privileged h1 ho hd =>
    obtain ⟨e2, hm2, hh⟩ := hsys h1
    obtain ⟨hu, u, dir, shell, hw, hp, rfl, hx⟩ := ho
    refine ⟨e2, ?_, hm2⟩
    rw [hh, if_pos hu]
    unfold userFile
    rw [hw]
    dsimp only [Option.bind_some]
    rw [hp]
    dsimp only
    rw [if_pos hx, hd]
    rfl
  | @own m2 path m3 code h1 ho hd h3 =>
    obtain ⟨e2, hm2, hh⟩ := hsys h1
    obtain ⟨hu, u, dir, shell, hw, hp, rfl, hx⟩ := ho
    obtain ⟨e3, hc3, hm3⟩ := configFile_read hm2 h3
    refine ⟨e3, ?_, hm3⟩
    rw [hh, if_pos hu]
    unfold userFile
    rw [hw]
    dsimp only [Option.bind_some]
    rw [hp]
    dsimp only
    rw [if_pos hx, hd, hc3]
    cases w.regain
    · rfl
    · rfl

/-! ### witnesses -/

/-- a user with nothing but a name -/
def exWho : Who := { user := some "u".toList, userPrompt := none, tty := none, ruser := none, rhost := none, pw := fun _ => some ("/h".toList, "/bin/sh".toList) }

theorem reads_make : Reads .make (fun _ => none) := by
  refine ⟨⟨[], [], rfl⟩, fun n hn => ?_⟩
  obtain ⟨h, e, hr, hm, hg⟩ := Handle.C17_environment_is_a_map []
  have : (h, e) = ([], Handle.PEnv.make) := Option.some.inj (hr.symm.trans rfl)
  cases this
  exact hg n hn

/-- `A DEFAULT=x@{PAM_USER} OVERRIDE=""` -/
def exEntry : Entry := ⟨"A".toList, [⟨" ".toList, false, false, "x@{PAM_USER}".toList⟩, ⟨"\t ".toList, true, true, []⟩]⟩

/-- the file with a comment and that line -/
def exFile : List Config.Spec.Item := [.blank [] (some " c".toList), .entry [] " ".toList "A DEFAULT=x@{PAM_USER}\t OVERRIDE=\"\"".toList none]

theorem exFile_ok : ∀ it ∈ exFile, it.Ok := by
  intro it hit
  unfold exFile at hit
  simp only [List.mem_cons, List.not_mem_nil, or_false] at hit
  rcases hit with rfl | rfl
  · exact ⟨by simp [Config.Spec.Blanks], by intro t ht; cases ht; decide⟩
  · refine ⟨by simp, by simp [Config.Spec.Blanks], ⟨by decide, by decide, by decide, by decide⟩, by simp [Config.Spec.CommentOk], Or.inl (by decide), ?_⟩
    rintro _ ⟨x, w, h, -⟩
    have hm : '\\' ∈ "A DEFAULT=x@{PAM_USER}\t OVERRIDE=\"\"".toList := by rw [h]; simp
    exact absurd hm (by decide)

theorem exEntry_does : exEntry.Does (fun _ => none) exWho (.set "xu".toList) := by
  refine .default (o := some []) (v := "xu".toList) ?_ ?_ (Or.inr rfl)
  · refine ⟨some "xu".toList, ?_, rfl⟩
    have h0 : Expands (fun _ => none) exWho [] (some []) := .nil
    have h1 := Expands.item (m := fun _ => none) (w := exWho) (n := "PAM_USER".toList) (by decide) h0
    have h2 := Expands.char (c := 'x') (by simp [Special]) h1
    exact h2
  · exact ⟨some [], .nil, rfl⟩

theorem exFile_means : Meanings (exFile.filterMap Config.Spec.Item.glued) [some exEntry] := by
  refine .cons (l := "A DEFAULT=x@{PAM_USER}\t OVERRIDE=\"\"\n".toList) (ls := []) ⟨⟨?_, ?_, "\n".toList, rfl, Or.inr ⟨[], rfl⟩⟩, ?_, by decide, by decide⟩ .nil
  · intro c hc
    have : c = 'A' := by simpa [exEntry] using hc
    subst this
    simp [Blank]
  · intro s hs
    simp only [exEntry, List.mem_cons, List.not_mem_nil, or_false] at hs
    rcases hs with rfl | rfl
    · refine ⟨by decide, by simp [Blank], by simp, fun _ => ⟨?_, by decide⟩⟩
      intro c hc
      have : c = ' ' ∨ c = '\t' ∨ c = '\n' → False := by rintro (rfl | rfl | rfl) <;> revert hc <;> decide
      simp only [Blank]
      exact ⟨fun h => this (h.elim Or.inl (fun h => Or.inr (Or.inl h))), fun h => this (Or.inr (Or.inr h))⟩
    · exact ⟨by decide, by simp [Blank], by simp, by simp⟩
  · intro a s b hab hq hne
    have : s ∈ exEntry.settings := by rw [hab]; simp
    simp only [exEntry, List.mem_cons, List.not_mem_nil, or_false] at this
    rcases this with rfl | rfl
    · cases hq
    · exact absurd rfl hne

/-- witness for C89: the file sets A to `xu` -/
example : ∃ e', configFile exWho .make (some (exFile.flatMap Config.Spec.Item.text)) = some (PAM_SUCCESS, e') ∧ e'.getenv (some "A".toList) = some (some "xu".toList) := by
  obtain ⟨e', h1, h2⟩ := C89_configuration_partial exWho reads_make exFile exFile_ok exFile_means (.set exEntry_does .nil)
  exact ⟨e', h1, (h2.2 "A".toList (by decide)).trans rfl⟩

/-- the rest of the system for the witnesses: that configuration and no other file -/
def exWorld : World where
  who := exWho
  conf := "c".toList
  read := fun priv p => if priv ∧ p = "c".toList then some (exFile.flatMap Config.Spec.Item.text) else none
  exists_ := fun _ => true
  drop := true
  regain := true

/-- no arguments but `user_readenv=1` -/
theorem exArgs : Args.Of ⟨"c".toList, "/etc/environment".toList, ".pam_environment".toList, true, true⟩ ["debug".toList, "user_readenv=1".toList] "c".toList where
  conffile := .inl ⟨by
    intro x hx v hv
    have := congrArg List.head? hv
    simp only [List.mem_cons, List.not_mem_nil, or_false] at hx
    rcases hx with rfl | rfl <;> exact absurd this (show some _ ≠ some 'c' by decide), rfl⟩
  envfile := .inl ⟨by
    intro x hx v hv
    have := congrArg List.head? hv
    simp only [List.mem_cons, List.not_mem_nil, or_false] at hx
    rcases hx with rfl | rfl <;> exact absurd this (show some _ ≠ some 'e' by decide), rfl⟩
  ownfile := .inl ⟨by
    intro x hx v hv
    have := congrArg (fun l => (l.drop 5).head?) hv
    simp only [List.mem_cons, List.not_mem_nil, or_false] at hx
    rcases hx with rfl | rfl
    · exact absurd this (show (none : Option Char) ≠ some 'e' by decide)
    · exact absurd this (show some 'r' ≠ some 'e' by decide), rfl⟩
  readenv := .inl ⟨by
    rintro x hx ⟨v, hv⟩
    have := congrArg List.head? hv.symm
    simp only [List.mem_cons, List.not_mem_nil, or_false] at hx
    rcases hx with rfl | rfl <;> exact absurd this (show some _ ≠ some 'r' by decide), rfl⟩
  userReadenv := .inr ⟨["debug".toList], [], rfl, by simp⟩

/-- witness for C89: a session with these -/
example : ∃ e', handleEnv exWorld .make ["debug".toList, "user_readenv=1".toList] = some (PAM_SUCCESS, e') ∧ e'.getenv (some "A".toList) = some (some "xu".toList) := by
  have hc : ConfRead exWho (exWorld.read true "c".toList) (fun _ => none) (update (fun _ => none) "A".toList (some "xu".toList)) PAM_SUCCESS :=
    .inr ⟨exFile, [some exEntry], some true, rfl, exFile_ok, exFile_means, .set exEntry_does .nil, rfl⟩
  have hs : SystemFiles exWorld ⟨"c".toList, "/etc/environment".toList, ".pam_environment".toList, true, true⟩ (fun _ => none)
      (update (fun _ => none) "A".toList (some "xu".toList)) := ⟨_, hc, .inl ⟨rfl, .inl ⟨rfl, rfl⟩⟩⟩
  obtain ⟨e', h1, h2⟩ := C89_session_partial reads_make exArgs (.own hs ⟨rfl, "u".toList, "/h".toList, "/bin/sh".toList, rfl, rfl, rfl, rfl⟩ rfl (.inl ⟨rfl, rfl, rfl⟩))
  exact ⟨e', h1, (h2.2 "A".toList (by decide)).trans rfl⟩

/-! ### what does not hold -/

/-- not so: without a value that counts the variable is removed.  `DEFAULT=` gives no value, but after a value in quotes it gives an empty one: the first
line sets A to nothing, the second, without quotes, removes it (there is no variable B). -/
theorem C89_quote_counterexample :
    (confLine exWho .make "A OVERRIDE=\"${B}\" DEFAULT=\n".toList).map (fun r => (r.1, r.2.getenv (some "A".toList))) = some (PAM_SUCCESS, some (some [])) ∧
    (confLine exWho .make "A OVERRIDE=${B} DEFAULT=\n".toList).map (fun r => (r.1, r.2.getenv (some "A".toList))) = some (PAM_BAD_ITEM, some none) := by
  decide +kernel

/-- not so: bad lines are ignored.  One at the end of the file makes the module fail, with the variables set. -/
theorem C89_last_line_counterexample :
    (confLines exWho PAM_SUCCESS .make ["X Y\n".toList, "A DEFAULT=b\n".toList]).map (fun r => (r.1, r.2.getenv (some "A".toList))) = some (PAM_SUCCESS, some (some "b".toList)) ∧
    (confLines exWho PAM_SUCCESS .make ["A DEFAULT=b\n".toList, "X Y\n".toList]).map (fun r => (r.1, r.2.getenv (some "A".toList))) = some (BAD_LINE, some (some "b".toList)) := by
  decide +kernel

/-- not so: a comment or blanks may follow the settings (the text of the line is what is left of `A DEFAULT=b # c`) -/
theorem C89_comment_counterexample : parseLine "A DEFAULT=b ".toList = none := by decide +kernel

/-! ## C90 -/

/-- C90: a file of lines and comments, read as /etc/environment, changes the variables line by line; the result is PAM_SUCCESS -/
theorem C90_environment_file {e : PEnv} {m : Vars} (hm : Reads e m) (its : List Config.Spec.Item) (hits : ∀ it ∈ its, it.Ok) {fs : List EnvEffect}
    (h : EnvMeanings (its.filterMap Config.Spec.Item.glued) fs) :
    ∃ e', envFile e (some (its.flatMap Config.Spec.Item.text)) = some (PAM_SUCCESS, e') ∧ Reads e' (fs.foldl EnvEffect.on m) :=
  envFile_read hm (.inr ⟨its, fs, rfl, hits, h, rfl⟩)

/-- C90: every line means something, so the file is never refused -/
theorem C90_every_line (its : List Config.Spec.Item) : ∃ fs, EnvMeanings (its.filterMap Config.Spec.Item.glued) fs := envMeanings_total _

/-- C90: a line means one thing only -/
theorem C90_one_meaning {l : Str} {f f' : EnvEffect} (h : EnvMeans l f) (h' : EnvMeans l f') : f = f' := by
  obtain ⟨t, hb, hf⟩ := h
  obtain ⟨t', hb', hf'⟩ := h'
  cases body_unique hb hb'
  cases f with
  | set n v =>
    obtain ⟨h1, h2, q, rfl, hq⟩ := hf
    cases f' with
    | set n' v' =>
      obtain ⟨h1', h2', q', he, hq'⟩ := hf'
      obtain ⟨rfl, rfl⟩ := Handle.append_eq_cons_inj '=' _ _ _ _ (nameChar_eq h2) (nameChar_eq h2') he
      rw [← unquote_eq hq, ← unquote_eq hq']
    | unset n' =>
      obtain ⟨-, rfl, h2'⟩ := hf'
      exact absurd (by simp) (nameChar_eq h2')
    | nothing => exact absurd ⟨n, _, rfl, h1, h2, Or.inr ⟨q, rfl⟩⟩ hf'
  | unset n =>
    obtain ⟨h1, rfl, h2⟩ := hf
    cases f' with
    | set n' v' =>
      obtain ⟨h1', h2', q', rfl, hq'⟩ := hf'
      exact absurd (by simp) (nameChar_eq h2)
    | unset n' => rw [hf'.2.1]
    | nothing => exact absurd ⟨t, [], (List.append_nil t).symm, h1, h2, Or.inl rfl⟩ hf'
  | nothing =>
    cases f' with
    | set n v =>
      obtain ⟨h1, h2, q, rfl, -⟩ := hf'
      exact absurd ⟨n, _, rfl, h1, h2, Or.inr ⟨q, rfl⟩⟩ hf
    | unset n =>
      obtain ⟨h1, rfl, h2⟩ := hf'
      exact absurd ⟨t, [], (List.append_nil t).symm, h1, h2, Or.inl rfl⟩ hf
    | nothing => rfl

/-- witness for C90: `export A="b"`, `B` and a line that is ignored -/
example : ∃ e', envFile .make (some "export A=\"b'\nB\nC D=e\n".toList) = some (PAM_SUCCESS, e') ∧ e'.getenv (some "A".toList) = some (some "b".toList) := by
  let its : List Config.Spec.Item := [.entry [] [] "export A=\"b'".toList none, .entry [] [] "B".toList none, .entry [] [] "C D=e".toList none]
  have hits : ∀ it ∈ its, it.Ok := by
    have key : ∀ b : Str, Config.Spec.Body b → b ≠ [] → '\\' ∉ b → (Config.Spec.Item.entry [] [] b none).Ok := by
      intro b h1 h2 h3
      refine ⟨by simp, by simp [Config.Spec.Blanks], h1, by simp [Config.Spec.CommentOk], Or.inl h2, ?_⟩
      rintro _ ⟨x, w, rfl, -⟩
      exact h3 (by simp)
    intro it hit
    simp only [its, List.mem_cons, List.not_mem_nil, or_false] at hit
    rcases hit with rfl | rfl | rfl <;> exact key _ ⟨by decide, by decide, by decide, by decide⟩ (by decide) (by decide)
  have hb : ∀ b : Str, '\n' ∉ b → ¬ "export ".toList <+: b ++ ['\n'] → Body (b ++ ['\n']) b := fun b h1 h2 => ⟨[], ['\n'], rfl, Or.inr ⟨rfl, h2⟩, h1, Or.inr ⟨[], rfl⟩⟩
  have m1 : EnvMeans "export A=\"b'\n".toList (.set "A".toList "b".toList) :=
    ⟨"A=\"b'".toList, ⟨"export ".toList, ['\n'], rfl, Or.inl rfl, by decide, Or.inr ⟨[], rfl⟩⟩, by decide,
      fun c hc => (isNameChar_iff c).mp (by revert c; decide), "\"b'".toList, rfl, .closed (v := ['b']) (Or.inl rfl) (Or.inr rfl)⟩
  have m2 : EnvMeans "B\n".toList (.unset "B".toList) :=
    ⟨"B".toList, hb "B".toList (by decide) (by decide), by decide, rfl, fun c hc => (isNameChar_iff c).mp (by revert c; decide)⟩
  have m3 : EnvMeans "C D=e\n".toList .nothing := by
    refine ⟨"C D=e".toList, hb "C D=e".toList (by decide) (by decide), ?_⟩
    rintro ⟨n, q, he, h1, h2, h3⟩
    have hn : ∀ c ∈ n, isNameChar c = true := fun c hc => (isNameChar_iff c).mpr (h2 c hc)
    have hd := dropWhile_all (b := q) hn (by
      intro c hc
      rcases h3 with rfl | ⟨q', rfl⟩
      · cases hc
      · cases hc; decide)
    rw [← he] at hd
    rcases h3 with rfl | ⟨q', rfl⟩
    · revert hd; decide
    · exact absurd (congrArg List.head? hd) (show some ' ' ≠ some '=' by decide)
  obtain ⟨e', h1, h2⟩ := C90_environment_file reads_make its hits (.cons m1 (.cons m2 (.cons m3 .nil)))
  exact ⟨e', h1, (h2.2 "A".toList (by decide)).trans rfl⟩

/-! ## C91 -/

/-- C91: whatever the files and arguments are, there is no bad memory access, the environment stays intact, and the result is one of four -/
theorem C91_total {e : PEnv} (h : ∃ cs hist, Handle.Spec.runPuts cs = some (hist, e)) (w : World) (argv : List Str) :
    ∃ code e', handleEnv w e argv = some (code, e') ∧ (∃ cs hist, Handle.Spec.runPuts cs = some (hist, e')) ∧
      (code = PAM_SUCCESS ∨ code = PAM_IGNORE ∨ code = PAM_ABORT ∨ code = PAM_SESSION_ERR) :=
  handleEnv_total h w argv

/-- C91: with privileges, only the two files of the system are read: nothing else that can be read with them makes a difference -/
theorem C91_only_system_files_with_privileges (w : World) (e : PEnv) (argv : List Str) {a : Args} (ha : a.Of argv w.conf) (read' : Bool → Str → Option Str)
    (h1 : read' true a.conffile = w.read true a.conffile) (h2 : read' true a.envfile = w.read true a.envfile) (h3 : ∀ p, read' false p = w.read false p) :
    handleEnv { w with read := read' } e argv = handleEnv w e argv := by
  unfold handleEnv
  dsimp only
  rw [conffile_eq ha.conffile, readenv_eq ha.readenv, envfile_eq ha.envfile, userEnvfile_eq ha.ownfile, userReadenv_eq ha.userReadenv, h1, h2]
  have hu : ∀ e f, userFile { w with read := read' } e f = userFile w e f := by
    intro e f
    unfold userFile
    simp only [h3]
  simp only [hu]

/-- C91: unless `user_readenv=1` is given, nothing in the user's home directory makes a difference -/
theorem C91_own_file_only_if_asked (w : World) (e : PEnv) (argv : List Str) (ha : Flag "user_readenv=".toList argv false false) (read' : Bool → Str → Option Str)
    (h1 : ∀ p, read' true p = w.read true p) (exists' : Str → Bool) (drop' regain' : Bool) :
    handleEnv { w with read := read', exists_ := exists', drop := drop', regain := regain' } e argv = handleEnv w e argv := by
  unfold handleEnv
  dsimp only
  rw [userReadenv_eq ha]
  simp only [h1, Bool.false_eq_true, false_and, if_false]

/-- C91: with `user_readenv=1`, only the one file in the user's home directory is read -/
theorem C91_only_that_file (w : World) (e : PEnv) (argv : List Str) {a : Args} (ha : a.Of argv w.conf) (read' : Bool → Str → Option Str)
    (h1 : ∀ p, read' true p = w.read true p)
    (h2 : ∀ u dir shell, w.who.user = some u → w.who.pw u = some (dir, shell) → read' false (dir ++ '/' :: a.ownfile) = w.read false (dir ++ '/' :: a.ownfile)) :
    handleEnv { w with read := read' } e argv = handleEnv w e argv := by
  have hu : ∀ e, userFile { w with read := read' } e a.ownfile = userFile w e a.ownfile := by
    intro e
    unfold userFile
    dsimp only
    cases hw : w.who.user with
    | none => rfl
    | some u =>
      dsimp only [Option.bind_some]
      rcases hp : w.who.pw u with - | ⟨dir, shell⟩
      · rfl
      · dsimp only
        rw [h2 u dir shell hw hp]
  unfold handleEnv
  dsimp only
  rw [userEnvfile_eq ha.ownfile]
  simp only [h1, hu]

/-- witness for C91: the arguments above meet what is required of them -/
example (e : PEnv) (other : Str → Option Str) :
    handleEnv { exWorld with read := fun priv p => if priv ∧ p ≠ "c".toList ∧ p ≠ "/etc/environment".toList then other p else exWorld.read priv p } e
      ["debug".toList, "user_readenv=1".toList] = handleEnv exWorld e ["debug".toList, "user_readenv=1".toList] :=
  C91_only_system_files_with_privileges exWorld e _ exArgs _ (by simp) (by simp) (by simp)

end Pam.Env
