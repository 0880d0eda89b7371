import Verif.Timestamp.CheckLemmas
/-
C96 to C99: pam_timestamp and pam_timestamp_check.
-/
namespace Pam.Timestamp
open Pam Pam.Digest Spec

/-- An ordinary configuration: an absolute directory of less than 4096 bytes, a timeout below 2^62 seconds, a clock after 1970, a root directory,
a key file that is not gigantic, and login times between 1970 and 2038. -/
structure Ordinary (w : World) (argv : List Str) : Prop where
  dir : ∀ d, DirOf argv d → d.head? = some slash ∧ d.length < 4096
  timeout : ∀ v, Timeout argv v → -(2 ^ 62) ≤ v ∧ v < 2 ^ 62
  clock : 0 ≤ w.now ∧ w.now < 2 ^ 63
  root : ∃ st, w.lstat [slash] = .ok st
  key : ∀ b, w.key = .bytes b → b.length ≤ 2 ^ 32
  logins : SaneLogins w.utmp

/-- There is a recent time stamp, made with the secret key for this very request, in a regular file of root's in a directory that is safe, and the
requesting user has been logged in since before it was made. -/
def Justified (w : World) (argv : List Str) : Prop :=
  ∃ p f key thn r iv, FileOf w.lstat w.items argv p ∧ w.file p = some f ∧ f.uid = 0 ∧ f.gid = 0 ∧ f.regular = true ∧ f.readOk = true ∧
    KeyOf w.keyIO w.key key ∧ 20 ≤ key.length ∧ Stamp key p thn f.content ∧
    Requester w.items r ∧ LoggedInBy w.utmp r thn ∧ Timeout argv iv ∧ Fresh thn w.now iv

/-- C96: pam_timestamp lets the user in exactly if there is such a time stamp. -/
theorem C96_success_iff (w : World) (argv : List Str) (ho : Ordinary w argv) : authenticate w argv = some PAM_SUCCESS ↔ Justified w argv := by
  have htime : ∀ {key p thn c}, Stamp key p thn c → -(2 ^ 63) ≤ thn ∧ thn < 2 ^ 63 := by
    rintro key p thn c ⟨x, t, ht, rfl, _⟩; exact timeValue_lt ht
  unfold authenticate Justified
  constructor
  · intro h
    cases hn : getName w.lstat w.items argv with
    | bad => rw [hn] at h; cases h
    | fail => rw [hn] at h; cases h
    | path p =>
      rw [hn] at h; dsimp only at h
      cases hf : w.file p with
      | none => rw [hf] at h; cases h
      | some f =>
        rw [hf] at h; dsimp only at h
        have hfo := getName_sound hn
        have hpl : p.length < 4096 := (fileOf_short hfo).1
        obtain ⟨a, b, c, d, key, thn, r, hk, h20, hst, hr, hl, hg⟩ := (checkFile_iff w argv p f hpl ho.key).1 h
        have hto := (interval_iff argv _).1 rfl
        have hne : r ≠ [] := by
          obtain ⟨_, r', hreq, hrl⟩ := fileOf_short hfo
          have h' := (getRuser_iff w.items r').2 ⟨hreq, hrl⟩
          rw [hr] at h'
          have := Option.some.inj h'.1
          subst this; exact h'.2
        refine ⟨p, f, key, thn, r, _, hfo, hf, a, b, c, d, hk, h20, hst, ((getRuser_iff w.items r).1 ⟨hr, hne⟩).1,
          (checkLoginTime_iff _ _ _ ho.logins).1 hl, hto, (timestampGood_iff (htime hst) ho.clock (ho.timeout _ hto).2).1 hg⟩
  · rintro ⟨p, f, key, thn, r, iv, hfo, hf, a, b, c, d, hk, h20, hst, hr, hl, hto, hfr⟩
    rw [getName_complete (fun d hd => (ho.dir d hd).1) ho.root hfo]
    dsimp only
    rw [hf]
    dsimp only
    have hpl : p.length < 4096 := (fileOf_short hfo).1
    have hr4096 : r.length < 4096 := by
      obtain ⟨_, r', hreq, hrl⟩ := fileOf_short hfo
      rw [requester_unique hr hreq]; exact hrl
    refine (checkFile_iff w argv p f hpl ho.key).2 ⟨a, b, c, d, key, thn, r, hk, h20, hst, ((getRuser_iff w.items r).2 ⟨hr, hr4096⟩).1,
      (checkLoginTime_iff _ _ _ ho.logins).2 hl, ?_⟩
    rw [(interval_iff argv iv).2 hto]
    exact (timestampGood_iff (htime hst) ho.clock (ho.timeout _ hto).2).2 hfr

/-- C96: in all other cases the answer is PAM_AUTH_ERR, and nothing undefined happens. -/
theorem C96_otherwise (w : World) (argv : List Str) (ho : Ordinary w argv) (h : ¬ Justified w argv) : authenticate w argv = some PAM_AUTH_ERR := by
  have hns : authenticate w argv ≠ some PAM_SUCCESS := fun e => h ((C96_success_iff w argv ho).1 e)
  unfold authenticate at hns ⊢
  cases hn : getName w.lstat w.items argv with
  | bad => exact absurd hn (getName_defined ho.dir ho.root)
  | fail => rfl
  | path p =>
    rw [hn] at hns
    dsimp only at hns ⊢
    cases hf : w.file p with
    | none => rfl
    | some f =>
      rw [hf] at hns
      dsimp only at hns ⊢
      have hfo := getName_sound hn
      have hpl : p.length < 4096 := (fileOf_short hfo).1
      rcases checkFile_cases w argv p f hpl ho.key ho.logins ho.clock (ho.timeout _ ((interval_iff argv _).1 rfl)) with h | h
      · exact absurd h hns
      · exact h

/-- a world for the examples: everything is safe, alice is logged in on pts/3 since the second 1000 -/
def sampleWorld : World where
  lstat := fun _ => .ok ⟨.dir, 0, 0, false, 5000⟩
  items := ⟨some (lit "root"), some (lit "alice"), none, some (lit "/dev/pts/3"), []⟩
  file := fun _ => none
  key := .bytes (List.replicate 64 0x0b)
  keyIO := ⟨false, false, none, 0, false, true, true⟩
  utmp := [⟨true, lit "bob", 1⟩, ⟨false, lit "alice", 7⟩, ⟨true, lit "alice", 1000⟩]
  now := 5000

/-- the path of the sample -/
def samplePath : Str := lit "/var/run/pam_timestamp/alice/3:root"

theorem sampleName : getName sampleWorld.lstat sampleWorld.items [] = .path samplePath := by decide +kernel

theorem sample_ordinary (w : World) (h1 : w.lstat = sampleWorld.lstat) (h2 : w.key = sampleWorld.key) (h3 : w.utmp = sampleWorld.utmp)
    (h4 : 0 ≤ w.now ∧ w.now < 2 ^ 63) : Ordinary w [] where
  dir := by
    intro d hd
    have := (timestampDir_iff [] d).2 hd
    subst this
    exact ⟨rfl, by decide⟩
  timeout := by
    intro v hv
    have := (interval_iff [] v).2 hv
    subst this
    decide
  clock := h4
  root := by rw [h1]; exact ⟨_, rfl⟩
  key := by intro b hb; rw [h2] at hb; cases hb; decide
  logins := by rw [h3]; unfold SaneLogins; decide

/-- a session is opened, and then the stamp is accepted for 300 seconds -/
example : ∃ c, openSession sampleWorld ⟨fun _ => true, true, true, 1000⟩ [] = some (PAM_SUCCESS, some (samplePath, c), sampleWorld.key) ∧
    let f : TFile := ⟨0, 0, true, c, true⟩
    authenticate { sampleWorld with file := fun _ => some f, now := 5299 } [] = some PAM_SUCCESS ∧
    authenticate { sampleWorld with file := fun _ => some f, now := 5300 } [] = some PAM_AUTH_ERR ∧
    authenticate { sampleWorld with file := fun _ => some f, now := 4401 } [] = some PAM_SUCCESS ∧
    authenticate { sampleWorld with file := fun _ => some f, now := 4400 } [] = some PAM_AUTH_ERR ∧
    authenticate { sampleWorld with file := fun _ => some { f with uid := 1 } } [] = some PAM_AUTH_ERR ∧
    authenticate { sampleWorld with file := fun _ => some { f with content := c.set 30 0x34 } } [] = some PAM_AUTH_ERR := by
  refine ⟨samplePath ++ 0 :: timeBytes 5000 ++ (match Sha1.hmac (List.replicate 64 0x0b) (samplePath ++ 0 :: timeBytes 5000) with
    | some (some m) => m | _ => []), ?_⟩
  decide +kernel

/-! ### where nothing can be said -/

/-- C96 needs an absolute directory: for a relative one that does not exist an uninitialised buffer is looked at. -/
theorem C96_relative_counterexample : ∃ w : World, authenticate w [lit "timestampdir=stamps"] = none :=
  ⟨{ sampleWorld with lstat := fun _ => .noent }, by decide +kernel⟩

theorem dirLoop_skip (lstat : Str → LRes) (b : Str) (hb : b ≠ []) : ∀ (a done : Str) (st : Option Stat), slash ∉ a → done.length + a.length < 4096 →
    dirLoop lstat done st (a ++ b) = dirLoop lstat (done ++ a) st b := by
  intro a
  induction a with
  | nil => intro done st _ _; simp
  | cons c q ih =>
    intro done st hs hl
    rw [List.cons_append]
    conv => lhs; unfold dirLoop
    rw [if_neg (by simp at hl; omega)]
    dsimp only
    rw [if_neg (by simp at hs ⊢; exact ⟨fun e => hs.1 e.symm, fun _ => hb⟩), ih _ _ (fun h => hs (List.mem_cons_of_mem _ h)) (by simp at hl ⊢; omega)]
    simp

theorem long_dir_bad (m : Str) (hm : m.length = 4094) (hs : slash ∉ m) : checkDirPerms sampleWorld.lstat (slash :: (m ++ [slash])) = .bad := by
  unfold checkDirPerms
  rw [if_neg (by simp)]
  unfold dirLoop
  rw [if_neg (by simp)]
  dsimp only
  rw [if_pos (.inl rfl), if_neg (by simp)]
  show (match checkStat (some ⟨.dir, 0, 0, false, 5000⟩) with
    | .bad => .bad | .fail => .fail | .good => dirLoop sampleWorld.lstat ([] ++ [slash]) (some ⟨.dir, 0, 0, false, 5000⟩) (m ++ [slash])) = Check.bad
  rw [show checkStat (some ⟨.dir, 0, 0, false, 5000⟩) = .good from rfl]
  dsimp only
  rw [dirLoop_skip _ _ (by simp) _ _ _ hs (by simp; omega)]
  unfold dirLoop
  rw [if_neg (by simp; omega)]
  dsimp only
  rw [if_pos (.inl rfl), if_pos (by simp; omega)]

/-- C96 needs a short directory: one of 4096 bytes that ends in '/' is handed to `lstat` from a buffer without a NUL. -/
theorem C96_long_dir_counterexample (m : Str) (hm : m.length = 4094) (hs : slash ∉ m) (w : World) (hw : w.lstat = sampleWorld.lstat) :
    authenticate w [lit "timestampdir=" ++ slash :: (m ++ [slash])] = none := by
  have hd : timestampDir [lit "timestampdir=" ++ slash :: (m ++ [slash])] = slash :: (m ++ [slash]) :=
    (timestampDir_iff _ _).2 (.inl ⟨[], [], rfl, by simp⟩)
  unfold authenticate getName
  dsimp only
  rw [hd, hw, long_dir_bad m hm hs]

example : ∃ m : Str, m.length = 4094 ∧ slash ∉ m := ⟨List.replicate 4094 0x61, List.length_replicate, by rw [List.mem_replicate]; decide⟩

/-- C96 needs a timeout below 2^62: with more, a time stamp from the future makes `2 * interval` overflow. -/
theorem C96_timeout_counterexample : timestampGood 5001 5000 (2 ^ 62) = none := by decide

/-- C96 needs login times before 2038: for a login after that, a time stamp from long before it is accepted. -/
theorem C96_2038_counterexample : ∃ us r thn, checkLoginTime r us thn = true ∧ ¬ LoggedInBy us r thn :=
  ⟨[⟨true, lit "alice", 0x80000005⟩], lit "alice", 100, by decide, by
    rintro ⟨u, hu, _, _, h⟩
    simp at hu; subst hu
    exact absurd h (by decide)⟩

/-- and with a login time of zero after another one the user does not count as logged in -/
theorem C96_epoch_counterexample : ∃ us r thn, checkLoginTime r us thn = false ∧ LoggedInBy us r thn :=
  ⟨[⟨true, lit "alice", 100⟩, ⟨true, lit "alice", 0⟩], lit "alice", 5000, by decide, _, List.mem_cons_self, rfl, rfl, by decide⟩

/-! ### C97: writing and reading -/

/-- a file as `pam_sm_open_session` leaves it: root's, mode 0600 -/
def written (c : Str) : TFile := ⟨0, 0, true, c, true⟩

theorem openSession_path {w : World} {io : WriteIO} {argv : List Str} {r : Int} {p c : Str} {k : KeyFile}
    (h : openSession w io argv = some (r, some (p, c), k)) :
    ∃ mac, getName w.lstat w.items argv = .path p ∧ macFile w.keyIO w.key (p ++ [0] ++ timeBytes (BitVec.ofInt 64 w.now)) = (some (some mac), k) ∧
    ((r = PAM_SUCCESS ∧ c = p ++ [0] ++ timeBytes (BitVec.ofInt 64 w.now) ++ mac) ∨
     (r = PAM_SESSION_ERR ∧ c.length < (p ++ [0] ++ timeBytes (BitVec.ofInt 64 w.now) ++ mac).length)) := by
  unfold openSession at h
  cases hn : getName w.lstat w.items argv with
  | bad => rw [hn] at h; cases h
  | fail => rw [hn] at h; cases h
  | path q =>
    rw [hn] at h; dsimp only at h
    by_cases c1 : ¬ (dirsOf [] q).all io.mkdirs = true
    · rw [if_pos c1] at h; cases h
    rw [if_neg c1] at h
    obtain ⟨⟨a, k'⟩, hm⟩ : ∃ t, macFile w.keyIO w.key (q ++ [0] ++ timeBytes (BitVec.ofInt 64 w.now)) = t := ⟨_, rfl⟩
    rw [hm] at h
    match a, hm with
    | none, hm => cases h
    | some none, hm => dsimp only at h; cases h
    | some (some mac), hm =>
      dsimp only at h
      by_cases c2 : ¬ io.openOk = true
      · rw [if_pos c2] at h; cases h
      rw [if_neg c2] at h
      by_cases c3 : ¬ io.chown = true
      · rw [if_pos c3] at h; cases h
        exact ⟨mac, rfl, hm, .inr ⟨rfl, by simp; omega⟩⟩
      rw [if_neg c3] at h
      by_cases c4 : io.written < (q ++ [0] ++ timeBytes (BitVec.ofInt 64 w.now) ++ mac).length
      · rw [if_pos c4] at h; cases h
        exact ⟨mac, rfl, hm, .inr ⟨rfl, by rw [List.length_take]; omega⟩⟩
      · rw [if_neg c4] at h; cases h
        exact ⟨mac, rfl, hm, .inl ⟨rfl, rfl⟩⟩

theorem keyRead_after {io : KeyIO} {f k : KeyFile} {key : Str} (h : keyRead io f = (some key, k)) : k = .bytes key := by
  have hc : ∀ {b}, keyContents io b = some key → b = key := by
    intro b hb; unfold keyContents at hb
    cases h1 : io.fstat <;> cases h2 : io.readAll <;> rw [h1, h2] at hb <;> simp at hb
    exact hb
  cases f with
  | bytes b =>
    unfold keyRead at h
    obtain ⟨h1, rfl⟩ := Prod.mk.inj h
    rw [hc h1]
  | denied => unfold keyRead at h; cases h
  | absent =>
    unfold keyRead at h
    cases hk : keyCreate io with
    | bytes b =>
      rw [hk] at h; dsimp only at h
      by_cases hr : io.reopen = true
      · rw [if_pos hr] at h
        obtain ⟨h1, rfl⟩ := Prod.mk.inj h
        rw [hc h1]
      · rw [if_neg hr] at h; cases h
    | absent => rw [hk] at h; cases h
    | denied => rw [hk] at h; cases h

theorem macFile_after {io : KeyIO} {f k : KeyFile} {text mac : Str} (ht : text.length ≤ 2 ^ 32) (hk : ∀ b, f = .bytes b → b.length ≤ 2 ^ 32)
    (h : macFile io f text = (some (some mac), k)) : ∃ key, k = .bytes key ∧ KeyOf io f key ∧ 20 ≤ key.length ∧ mac = Digest.Spec.hmacSha1 key text := by
  obtain ⟨key, hko, h20, hm⟩ := (macFile_iff io f text mac ht hk).1 (by rw [h])
  refine ⟨key, ?_, hko, h20, hm⟩
  have hr := (keyRead_iff io f key h20).2 hko
  unfold macFile at h
  obtain ⟨⟨a, b⟩, he⟩ : ∃ t, keyRead io f = t := ⟨_, rfl⟩
  rw [he] at h hr
  cases hr
  dsimp only at h
  obtain ⟨_, rfl⟩ := Prod.mk.inj h
  exact keyRead_after he

/-- C97: What `pam_open_session` wrote lets the same request in later, as long as the key file is what it was then, the clock is in the window and
the user was logged in when it was written. -/
theorem C97_round_trip (w w' : World) (io : WriteIO) (argv : List Str) (p c : Str) (k : KeyFile)
    (h : openSession w io argv = some (PAM_SUCCESS, some (p, c), k))
    (ho : Ordinary w argv) (ho' : Ordinary w' argv)
    (hl : w'.lstat = w.lstat) (hi : w'.items = w.items) (hf : w'.file p = some (written c))
    (hk : w'.key = k) (hio : w'.keyIO.fstat = true ∧ w'.keyIO.readAll = true)
    (r : Str) (hr : Requester w.items r) (hlog : LoggedInBy w'.utmp r w.now) (iv : Int) (hiv : Timeout argv iv) (hfr : Fresh w.now w'.now iv) :
    authenticate w' argv = some PAM_SUCCESS := by
  obtain ⟨mac, hn, hm, ⟨_, hc⟩ | ⟨hbad, _⟩⟩ := openSession_path h
  · have hfo := getName_sound hn
    have hpl : p.length < 4096 := (fileOf_short hfo).1
    obtain ⟨key, rfl, hko, h20, hmac⟩ := macFile_after (by simp [timeBytes_length]; omega) ho.key hm
    refine (C96_success_iff w' argv ho').2 ⟨p, written c, key, w.now, r, iv, by rw [hl, hi]; exact hfo, hf, rfl, rfl, rfl, rfl,
      ⟨hio.1, hio.2, .inl hk⟩, h20, ⟨0, timeBytes (BitVec.ofInt 64 w.now), timeBytes_length _, timeValue_timeBytes ho.clock.1 ho.clock.2, ?_⟩,
      by rw [hi]; exact hr, hlog, hiv, hfr⟩
    show c = _
    rw [hc, hmac]
    simp
  · exact absurd hbad (by decide)

/-- C97: what was written for one request is not accepted for another: if the path differs, a copy of the file is worthless. -/
theorem C97_other_request (w w' : World) (io : WriteIO) (argv argv' : List Str) (p p' c : Str) (k : KeyFile)
    (h : openSession w io argv = some (PAM_SUCCESS, some (p, c), k)) (ho' : Ordinary w' argv')
    (ho : Ordinary w argv) (hn : getName w'.lstat w'.items argv' = .path p') (hne : p' ≠ p) (f : TFile) (hf : w'.file p' = some f) (hc : f.content = c) :
    authenticate w' argv' = some PAM_AUTH_ERR := by
  refine C96_otherwise w' argv' ho' fun hj => ?_
  have hs := (C96_success_iff w' argv' ho').2 hj
  unfold authenticate at hs
  rw [hn] at hs; dsimp only at hs
  rw [hf] at hs; dsimp only at hs
  have hpl : p'.length < 4096 := (fileOf_short (getName_sound hn)).1
  have hpl' : ∀ q, getName w.lstat w.items argv = .path q → q.length < 4096 := fun q hq => (fileOf_short (getName_sound hq)).1
  obtain ⟨_, _, _, _, key, thn, r, hko, h20, hst, _⟩ := (checkFile_iff w' argv' p' f hpl ho'.key).1 hs
  obtain ⟨h1, h2, _, _⟩ := stamp_split hst
  rw [hc] at h1 h2
  obtain ⟨mac, hn0, hm, ⟨_, rfl⟩ | ⟨hbad, _⟩⟩ := openSession_path h
  · obtain ⟨key', _, _, _, hmac⟩ := macFile_after (by have := hpl' p hn0; simp [timeBytes_length]; omega) ho.key hm
    have : mac.length = 20 := by rw [hmac]; exact hmacSha1_length _ _
    simp [timeBytes_length, this] at h1
    apply hne
    have hlen : p'.length = p.length := by omega
    rw [← h2, hlen]
    simp
  · exact absurd hbad (by decide)

/-- C97: a session that could not be opened properly leaves no file behind that would be accepted in its place. -/
theorem C97_interrupted (w w' : World) (io : WriteIO) (argv : List Str) (r : Int) (p c : Str) (k : KeyFile)
    (h : openSession w io argv = some (r, some (p, c), k)) (hr : r ≠ PAM_SUCCESS) (ho : Ordinary w argv) (ho' : Ordinary w' argv)
    (hl : w'.lstat = w.lstat) (hi : w'.items = w.items) (f : TFile) (hf : w'.file p = some f) (hc : f.content = c) :
    authenticate w' argv = some PAM_AUTH_ERR := by
  refine C96_otherwise w' argv ho' fun hj => ?_
  have hs := (C96_success_iff w' argv ho').2 hj
  obtain ⟨mac, hn0, hm, ⟨hbad, _⟩ | ⟨_, hlen⟩⟩ := openSession_path h
  · exact absurd hbad hr
  unfold authenticate at hs
  rw [hl, hi, hn0] at hs; dsimp only at hs
  rw [hf] at hs; dsimp only at hs
  have hpl : p.length < 4096 := (fileOf_short (getName_sound hn0)).1
  obtain ⟨_, _, _, _, key, thn, r, hko, h20, hst, _⟩ := (checkFile_iff w' argv p f hpl ho'.key).1 hs
  obtain ⟨h1, _, _, _⟩ := stamp_split hst
  obtain ⟨key', _, _, _, hmac⟩ := macFile_after (by simp [timeBytes_length]; omega) ho.key hm
  have : mac.length = 20 := by rw [hmac]; exact hmacSha1_length _ _
  rw [hc] at h1
  simp [timeBytes_length, this] at hlen
  omega

example : ∃ c, openSession sampleWorld ⟨fun _ => true, true, true, 50⟩ [] = some (PAM_SESSION_ERR, some (samplePath, c), sampleWorld.key) ∧ c.length = 50 := by
  refine ⟨(samplePath ++ 0 :: timeBytes 5000 ++ (match Sha1.hmac (List.replicate 64 0x0b) (samplePath ++ 0 :: timeBytes 5000) with
    | some (some m) => m | _ => [])).take 50, ?_⟩
  decide +kernel

theorem dirsOf_mem (d : Str) : ∀ (rest done : Str), d ∈ dirsOf done rest ↔ d ≠ [] ∧ ∃ a b, d = done ++ a ∧ rest = a ++ slash :: b := by
  intro rest
  induction rest with
  | nil => intro done; simp [dirsOf]
  | cons c q ih =>
    intro done
    have step : d ∈ dirsOf (done ++ [c]) q ↔ d ≠ [] ∧ ∃ a b, d = done ++ c :: a ∧ q = a ++ slash :: b := by
      rw [ih]; simp
    unfold dirsOf
    by_cases hc : c = slash ∧ done ≠ []
    · rw [if_pos hc, List.mem_cons, step]
      constructor
      · rintro (rfl | ⟨h, a, b, rfl, rfl⟩)
        · exact ⟨hc.2, [], q, by simp, by simp [hc.1]⟩
        · exact ⟨h, c :: a, b, rfl, rfl⟩
      · rintro ⟨h, a, b, rfl, e⟩
        cases a with
        | nil => left; simp
        | cons x a =>
          obtain ⟨rfl, rfl⟩ := List.cons.inj e
          exact .inr ⟨h, a, b, rfl, rfl⟩
    · rw [if_neg hc, step]
      constructor
      · rintro ⟨h, a, b, rfl, rfl⟩; exact ⟨h, c :: a, b, rfl, rfl⟩
      · rintro ⟨h, a, b, rfl, e⟩
        cases a with
        | nil =>
          obtain ⟨rfl, rfl⟩ := List.cons.inj e
          exact absurd ⟨rfl, by simpa using h⟩ hc
        | cons x a =>
          obtain ⟨rfl, rfl⟩ := List.cons.inj e
          exact ⟨h, a, b, rfl, rfl⟩

/-- C97: when a session is opened, every directory on the way to the file has been made for root, or was there. -/
theorem C97_directories (w : World) (io : WriteIO) (argv : List Str) (p c : Str) (k : KeyFile)
    (h : openSession w io argv = some (PAM_SUCCESS, some (p, c), k)) (d : Str) (hd : d ≠ []) (hp : d ++ [slash] <+: p) : io.mkdirs d = true := by
  unfold openSession at h
  cases hn : getName w.lstat w.items argv with
  | bad => rw [hn] at h; cases h
  | fail => rw [hn] at h; cases h
  | path q =>
    have hq : q = p := by
      have := openSession_path (w := w) (io := io) (argv := argv) (by unfold openSession; exact h)
      obtain ⟨_, h', _⟩ := this
      rw [hn] at h'; cases h'; rfl
    subst hq
    rw [hn] at h; dsimp only at h
    by_cases c1 : ¬ (dirsOf [] q).all io.mkdirs = true
    · rw [if_pos c1] at h; cases h
    obtain ⟨b, hb⟩ := hp
    have c1' : (dirsOf [] q).all io.mkdirs = true := by simpa using c1
    exact List.all_eq_true.1 c1' d ((dirsOf_mem d q []).2 ⟨hd, d, b, rfl, by rw [← hb]; simp⟩)

theorem append_sep_inj {a b c d : Str} {s : Byte} (ha : s ∉ a) (hc : s ∉ c) (h : a ++ s :: b = c ++ s :: d) : a = c ∧ b = d := by
  induction a generalizing c with
  | nil =>
    cases c with
    | nil => exact ⟨rfl, by simpa using h⟩
    | cons x c => obtain ⟨h1, _⟩ := List.cons.inj h; exact absurd (by simp [h1]) hc
  | cons x a ih =>
    cases c with
    | nil => obtain ⟨h1, _⟩ := List.cons.inj h; exact absurd (by simp [h1]) ha
    | cons y c =>
      obtain ⟨h1, h2⟩ := List.cons.inj h
      obtain ⟨e1, e2⟩ := ih (fun h => ha (by simp [h])) (fun h => hc (by simp [h])) h2
      exact ⟨by rw [h1, e1], e2⟩

/-- C97: different requests have different files: the path determines who asks, from where, and to become whom, if no name of a terminal has a ':'
and no name of a user who asks a '/'. -/
theorem C97_injective (dir r t u r' t' u' : Str) (hr : slash ∉ r) (hr' : slash ∉ r') (ht : colon ∉ t) (ht' : colon ∉ t')
    (h : fileFor dir r t u = fileFor dir r' t' u') : r = r' ∧ t = t' ∧ u = u' := by
  unfold fileFor at h
  have h1 := List.append_cancel_left h
  obtain ⟨_, h2⟩ := List.cons.inj h1
  obtain ⟨rfl, h3⟩ := append_sep_inj hr hr' h2
  have key : t = t' ∧ u = u' := by
    by_cases e : r = u
    · by_cases e' : r = u'
      · rw [if_pos e, if_pos e'] at h3
        exact ⟨by simpa using h3, by rw [← e, ← e']⟩
      · rw [if_pos e, if_neg e'] at h3
        exact absurd (by rw [show t = t' ++ colon :: u' by simpa using h3]; simp) ht
    · by_cases e' : r = u'
      · rw [if_neg e, if_pos e'] at h3
        exact absurd (by rw [show t' = t ++ colon :: u by simpa using h3.symm]; simp) ht'
      · rw [if_neg e, if_neg e'] at h3
        exact append_sep_inj ht ht' h3
  exact ⟨rfl, key⟩

/-- the file of a request is the one for who asks, from where, and to become whom -/
theorem C97_file (w : World) (argv : List Str) (p : Str) (h : getName w.lstat w.items argv = .path p) : FileOf w.lstat w.items argv p := getName_sound h

/-- With a ':' in the name of the terminal two requests share a file: bob on the terminal `0:root` to become bob, and bob on `0` to become root. -/
theorem C97_colon_counterexample : ∃ dir r t u t' u', u ≠ u' ∧ fileFor dir r t u = fileFor dir r t' u' ∧
    Terminal (lit "/dev/0:root") t ∧ Terminal (lit "/dev/0") t' ∧
    getName sampleWorld.lstat ⟨some u, some r, none, some (lit "/dev/0:root"), []⟩ [] = .path (fileFor dir r t u) ∧
    getName sampleWorld.lstat ⟨some u', some r, none, some (lit "/dev/0"), []⟩ [] = .path (fileFor dir r t' u') :=
  ⟨lit "/var/run/pam_timestamp", lit "bob", lit "0:root", lit "bob", lit "0", lit "root", by decide, by decide,
    (checkTty_iff _ _).1 (by decide), (checkTty_iff _ _).1 (by decide), by decide +kernel, by decide +kernel⟩

/-- The name of the user to become is not checked for '/': it goes into the path as it is. -/
theorem C97_slash_counterexample : ∃ u p, getName sampleWorld.lstat { sampleWorld.items with user := some u } [] = .path p ∧
    p = lit "/var/run/pam_timestamp/alice/3:x/../../bob/3:root" :=
  ⟨lit "x/../../bob/3:root", _, by decide +kernel, rfl⟩

/-! ### C98: the key -/

/-- a run of the module as far as the key is concerned: what happens to the files, and the text -/
def keyAfter (f : KeyFile) : List (KeyIO × Str) → KeyFile
  | [] => f
  | (io, text) :: r => keyAfter (macFile io f text).2 r

theorem macFile_bytes (io : KeyIO) (b text : Str) : (macFile io (.bytes b) text).2 = .bytes b := by
  unfold macFile keyRead
  dsimp only
  cases keyContents io b <;> rfl

/-- C98: an existing key is never changed, however often the module runs and whatever fails. -/
theorem C98_key_stays (b : Str) (runs : List (KeyIO × Str)) : keyAfter (.bytes b) runs = .bytes b := by
  induction runs with
  | nil => rfl
  | cons x r ih =>
    obtain ⟨io, text⟩ := x
    unfold keyAfter
    rw [macFile_bytes]; exact ih

/-- C98: so every MAC that is ever made is the HMAC with that key, which has at least 20 bytes. -/
theorem C98_mac (b : Str) (hb : b.length ≤ 2 ^ 32) (runs : List (KeyIO × Str)) (io : KeyIO) (text mac : Str) (ht : text.length ≤ 2 ^ 32)
    (h : (macFile io (keyAfter (.bytes b) runs) text).1 = some (some mac)) : 20 ≤ b.length ∧ mac = Digest.Spec.hmacSha1 b text := by
  rw [C98_key_stays] at h
  obtain ⟨key, hko, h20, hm⟩ := (macFile_iff io _ text mac ht (by intro b' e; cases e; exact hb)).1 h
  rcases hko.2.2 with e | ⟨e, _⟩
  · cases e; exact ⟨h20, hm⟩
  · cases e

/-- C98: a file that is created has nothing but random bytes in it, and is used only if there are at least 20 of them. -/
theorem C98_created (io : KeyIO) (text : Str) (ht : text.length ≤ 2 ^ 32) :
    ((macFile io .absent text).2 = .absent ∨ ∃ r n, (macFile io .absent text).2 = .bytes (List.take n r) ∧ n ≤ 64 ∧ (n = 0 ∨ io.random = some r)) ∧
    ∀ mac, (macFile io .absent text).1 = some (some mac) → ∃ r n, io.random = some r ∧ 20 ≤ n ∧ n ≤ 64 ∧ n ≤ r.length ∧
      (macFile io .absent text).2 = .bytes (r.take n) ∧ mac = Digest.Spec.hmacSha1 (r.take n) text := by
  have hsnd : (macFile io .absent text).2 = (keyRead io .absent).2 := by
    unfold macFile
    obtain ⟨⟨a, b⟩, h⟩ : ∃ t, keyRead io .absent = t := ⟨_, rfl⟩
    rw [h]; cases a <;> rfl
  have hk2 : (keyRead io .absent).2 = keyCreate io := by
    unfold keyRead
    cases h : keyCreate io with
    | bytes b => dsimp only; cases io.reopen <;> rfl
    | absent => rfl
    | denied => rfl
  constructor
  · rw [hsnd, hk2]
    unfold keyCreate
    cases io.create with
    | false => exact .inl rfl
    | true =>
    right
    cases io.chown with
    | false => exact ⟨[], 0, rfl, by decide, .inl rfl⟩
    | true =>
    cases hr : io.random with
    | none => exact ⟨[], 0, rfl, by decide, .inl rfl⟩
    | some r =>
      by_cases hl : r.length < 64
      · exact ⟨r, 0, by simp [hl], by decide, .inl rfl⟩
      · refine ⟨r, min io.written 64, ?_, by omega, .inr rfl⟩
        simp [hl, List.take_take]
  · intro mac hm
    obtain ⟨key, hko, h20, hmac⟩ := (macFile_iff io .absent text mac ht (by intro b e; cases e)).1 hm
    have hkr := (keyRead_iff io .absent key h20).2 hko
    have ha : (macFile io .absent text).2 = .bytes key := by
      rw [hsnd]
      obtain ⟨⟨a, b⟩, h⟩ : ∃ t, keyRead io .absent = t := ⟨_, rfl⟩
      rw [h] at hkr ⊢
      cases hkr
      exact keyRead_after h
    rcases hko.2.2 with e | ⟨_, _, _, _, r, hr, hl, rfl⟩
    · cases e
    · refine ⟨r, min io.written 64, hr, ?_, by omega, by omega, ha, hmac⟩
      simp at h20; omega

/-- C98: a key file that is too short, as a failed creation leaves it, is never repaired: no session can be opened and nobody is let in again. -/
theorem C98_short_key_locks (w : World) (argv : List Str) (io : WriteIO) (b : Str) (hk : w.key = .bytes b) (hb : b.length < 20) :
    authenticate w argv ≠ some PAM_SUCCESS ∧
    ∀ r f k, openSession w io argv = some (r, f, k) → r = PAM_SESSION_ERR ∧ f = none ∧ k = .bytes b := by
  have hmac : ∀ text, macFile w.keyIO w.key text = (some none, .bytes b) := by
    intro text
    rw [hk]
    unfold macFile keyRead
    dsimp only
    unfold keyContents
    cases w.keyIO.fstat <;> cases w.keyIO.readAll <;> simp
    unfold Sha1.hmac; rw [if_pos hb]
  constructor
  · intro h
    unfold authenticate at h
    cases hn : getName w.lstat w.items argv with
    | bad => rw [hn] at h; cases h
    | fail => rw [hn] at h; cases h
    | path p =>
      rw [hn] at h; dsimp only at h
      cases hf : w.file p with
      | none => rw [hf] at h; cases h
      | some f =>
        rw [hf] at h; dsimp only at h
        have hpl : p.length < 4096 := (fileOf_short (getName_sound hn)).1
        obtain ⟨_, _, _, _, key, _, _, hko, h20, _⟩ := (checkFile_iff w argv p f hpl (by intro b' e; rw [hk] at e; cases e; omega)).1 h
        rcases hko.2.2 with e | ⟨e, _⟩
        · rw [hk] at e; cases e; omega
        · rw [hk] at e; cases e
  · intro r f k h
    unfold openSession at h
    cases hn : getName w.lstat w.items argv with
    | bad => rw [hn] at h; cases h
    | fail => rw [hn] at h; cases h; exact ⟨rfl, rfl, hk⟩
    | path p =>
      rw [hn] at h; dsimp only at h
      by_cases c1 : ¬ (dirsOf [] p).all io.mkdirs = true
      · rw [if_pos c1] at h; cases h; exact ⟨rfl, rfl, hk⟩
      rw [if_neg c1, hmac] at h
      dsimp only at h
      cases h; exact ⟨rfl, rfl, rfl⟩

/-- the key is created on first use; the disk fills up and it stays useless -/
example : keyAfter .absent [(⟨true, true, some (List.replicate 64 7), 64, true, true, true⟩, lit "x")] = .bytes (List.replicate 64 7) ∧
    keyAfter .absent [(⟨true, true, some (List.replicate 64 7), 10, true, true, true⟩, lit "x"), (⟨true, true, some (List.replicate 64 7), 64, true, true, true⟩, lit "x")] =
      .bytes (List.replicate 10 7) := by decide +kernel

/-! ### C99: pam_timestamp_check -/

/-- the arguments of pam_timestamp_check as the module would see them -/
def checkItems (user : Option Str) (ttyname : List (Option Str)) (target : Option Str) : Items := ⟨some (target.getD (user.getD [])), none, user, none, ttyname⟩

/-- C99: pam_timestamp_check succeeds exactly if the directory is safe, the file of the request is there, its modification time is in the window of
five minutes, and the user was logged in by then. -/
theorem C99_check_iff (lstat : Str → LRes) (user : Str) (hu : user ≠ []) (ttyname : List (Option Str)) (target : Option Str) (ht : target ≠ some [])
    (utmp : List Ut) (now : Int) (hroot : ∃ st, lstat [slash] = .ok st) (hs : SaneLogins utmp) (hnow : 0 ≤ now ∧ now < 2 ^ 63)
    (hm : ∀ p st, lstat p = .ok st → -(2 ^ 63) ≤ st.mtime ∧ st.mtime < 2 ^ 63) :
    checkMain lstat (some user) ttyname target utmp now = some 0 ↔
      (0x2e ∉ target.getD user ∧ slash ∉ target.getD user ∧ 0x25 ∉ target.getD user) ∧
      ∃ p st, FileOf lstat (checkItems (some user) ttyname target) [] p ∧ lstat p = .ok st ∧ LoggedInBy utmp user st.mtime ∧ Fresh st.mtime now 300 := by
  have hdir : ∀ d, DirOf [] d → d = defaultDir := fun d h => ((timestampDir_iff [] d).2 h).symm
  have hreq : ∀ r, Requester (checkItems (some user) ttyname target) r → r = user := by
    rintro r ⟨_, ⟨h, _⟩ | ⟨_, h⟩⟩
    · cases h
    · exact (Option.some.inj h).symm
  have hfirst : ∀ t, FirstName ((checkItems (some user) ttyname target).tty :: (checkItems (some user) ttyname target).ttyname) t → firstTty ttyname = t :=
    fun t h => (firstTty_iff (none :: ttyname) t).2 h
  unfold checkMain checkName
  dsimp only
  by_cases c1 : 0x2e ∈ target.getD user ∨ slash ∈ target.getD user ∨ 0x25 ∈ target.getD user
  · rw [if_pos c1]
    dsimp only
    constructor
    · intro h; exact absurd h (by decide)
    · rintro ⟨⟨a, b, c⟩, _⟩
      rcases c1 with h | h | h
      · exact absurd h a
      · exact absurd h b
      · exact absurd h c
  rw [if_neg c1]
  simp only [not_or] at c1
  cases htt : checkTty (firstTty ttyname) with
  | none =>
    dsimp only
    constructor
    · intro h; exact absurd h (by decide)
    · rintro ⟨_, p, st, ⟨dir, u, r, full, t, _, _, _, _, _, hf, htm, _, _⟩, _⟩
      have e1 := hfirst full hf
      rw [e1, (checkTty_iff full t).2 htm] at htt
      cases htt
  | some t =>
    dsimp only
    cases hfn : formatName defaultDir t user (target.getD user) with
    | none =>
      dsimp only
      constructor
      · intro h; exact absurd h (by decide)
      · rintro ⟨_, p, st, ⟨dir, u, r, full, t', hd, _, hu', _, hr, hf, htm, hp, hl⟩, _⟩
        have e1 := hfirst full hf
        rw [e1, (checkTty_iff full t').2 htm] at htt
        have e2 := hreq r hr
        have e3 := hdir dir hd
        have e4 : target.getD user = u := Option.some.inj hu'
        rw [← Option.some.inj htt, e4, ← e2, ← e3, (formatName_iff _ _ _ _ _).2 ⟨hp, hl⟩] at hfn
        cases hfn
    | some p =>
      dsimp only
      obtain ⟨hp, hl⟩ := (formatName_iff _ _ _ _ _).1 hfn
      have hpath : FileOf lstat (checkItems (some user) ttyname target) [] p ↔ checkDirPerms lstat defaultDir = .good := by
        constructor
        · rintro ⟨dir, u, r, full, t', hd, hsafe, _⟩
          rw [hdir dir hd] at hsafe
          exact checkDir_complete (by decide) rfl hroot hsafe
        · intro h
          refine ⟨defaultDir, target.getD user, user, firstTty ttyname, t, (timestampDir_iff [] _).1 rfl, checkDir_sound (by decide) h, rfl, ?_,
            ⟨hu, .inr ⟨.inl rfl, rfl⟩⟩, (firstTty_iff _ _).1 rfl, (checkTty_iff _ _).1 htt, hp, hl⟩
          cases target with
          | none => exact hu
          | some x => exact fun e => ht (by rw [show x = [] from e])
      have huniq : ∀ p', FileOf lstat (checkItems (some user) ttyname target) [] p' → p' = p := by
        rintro p' ⟨dir, u, r, full, t', hd, _, hu', _, hr, hf, htm, hp', _⟩
        have e1 := hfirst full hf
        rw [e1, (checkTty_iff full t').2 htm] at htt
        have e4 : target.getD user = u := Option.some.inj hu'
        rw [hp', hp, hreq r hr, hdir dir hd, ← e4, Option.some.inj htt]
      cases hdc : checkDirPerms lstat defaultDir with
      | bad => exact absurd hdc (checkDir_defined (by decide) rfl hroot)
      | fail =>
        dsimp only
        constructor
        · intro h; exact absurd h (by decide)
        · rintro ⟨_, p', st, hf, _⟩
          have := huniq p' hf; subst this
          rw [hpath.1 hf] at hdc; cases hdc
      | good =>
        dsimp only
        have hf := hpath.2 hdc
        have nostat : (∀ st, lstat p ≠ .ok st) → ¬ ∃ p st, FileOf lstat (checkItems (some user) ttyname target) [] p ∧ lstat p = .ok st ∧
            LoggedInBy utmp user st.mtime ∧ Fresh st.mtime now 300 := by
          rintro h ⟨p', st, hf', h', _⟩
          rw [huniq p' hf'] at h'
          exact h st h'
        cases hst : lstat p with
        | noent =>
          dsimp only
          constructor
          · intro h; exact absurd h (by decide)
          · rintro ⟨_, h⟩; exact absurd h (nostat (by intro st; rw [hst]; simp))
        | error =>
          dsimp only
          constructor
          · intro h; exact absurd h (by decide)
          · rintro ⟨_, h⟩; exact absurd h (nostat (by intro st; rw [hst]; simp))
        | ok st =>
          dsimp only [Option.getD_some]
          have hmt := hm p st hst
          have hself : (∃ p st, FileOf lstat (checkItems (some user) ttyname target) [] p ∧ lstat p = .ok st ∧
              LoggedInBy utmp user st.mtime ∧ Fresh st.mtime now 300) ↔ LoggedInBy utmp user st.mtime ∧ Fresh st.mtime now 300 := by
            constructor
            · rintro ⟨p', st', hf', h', h1, h2⟩
              rw [huniq p' hf', hst] at h'
              cases h'; exact ⟨h1, h2⟩
            · rintro ⟨h1, h2⟩; exact ⟨p, st, hf, hst, h1, h2⟩
          have hg := timestampGood_iff (iv := 5 * 60) hmt hnow (by decide)
          rw [hself, ← checkLoginTime_iff _ _ _ hs, show (Fresh st.mtime now 300) = Fresh st.mtime now (5 * 60) from rfl, ← hg]
          by_cases hl' : checkLoginTime user utmp st.mtime = true
          · rw [if_neg (by simp [hl'])]
            cases hgood : timestampGood st.mtime now (5 * 60) with
            | none => simp
            | some b =>
              cases b with
              | false => simp
              | true => exact ⟨fun _ => ⟨c1, hl', rfl⟩, fun _ => rfl⟩
          · rw [if_pos hl']
            simp [hl']

/-- C99: it looks at the same file as the module does when that runs for the same user. -/
theorem C99_same_file (lstat : Str → LRes) (user : Str) (hu : user ≠ []) (ttyname : List (Option Str)) (target : Option Str) (ht : target ≠ some []) (p p' : Str)
    (h : checkName (some user) ttyname target = .inr p) (h' : getName lstat (checkItems (some user) ttyname target) [] = .path p') : p = p' := by
  obtain ⟨dir, u, r, full, t', hd, _, hu', _, hr, hf, htm, hp', _⟩ := getName_sound h'
  have e4 : target.getD user = u := Option.some.inj hu'
  have e3 : dir = defaultDir := ((timestampDir_iff [] dir).2 hd).symm
  have e2 : r = user := by
    rcases hr with ⟨_, ⟨h, _⟩ | ⟨_, h⟩⟩
    · cases h
    · exact (Option.some.inj h).symm
  have e1 : firstTty ttyname = full := (firstTty_iff (none :: ttyname) full).2 hf
  unfold checkName at h
  dsimp only at h
  by_cases c1 : 0x2e ∈ target.getD user ∨ slash ∈ target.getD user ∨ 0x25 ∈ target.getD user
  · rw [if_pos c1] at h; cases h
  rw [if_neg c1, e1, (checkTty_iff _ _).2 htm] at h
  dsimp only at h
  cases hfn : formatName defaultDir t' user (target.getD user) with
  | none => rw [hfn] at h; cases h
  | some q =>
    rw [hfn] at h
    cases h
    obtain ⟨hq, _⟩ := (formatName_iff _ _ _ _ _).1 hfn
    rw [hq, hp', e2, e3, e4]

/-- C99: if the module lets the user in with the default timeout, and the file was modified when its time stamp says, then pam_timestamp_check
succeeds too. -/
theorem C99_agrees (w : World) (user : Str) (hu : user ≠ []) (ttyname : List (Option Str)) (target : Option Str) (ht : target ≠ some [])
    (hi : w.items = checkItems (some user) ttyname target) (hok : 0x2e ∉ target.getD user ∧ slash ∉ target.getD user ∧ 0x25 ∉ target.getD user)
    (ho : Ordinary w []) (hm : ∀ p st, w.lstat p = .ok st → -(2 ^ 63) ≤ st.mtime ∧ st.mtime < 2 ^ 63)
    (hsame : ∀ p f key thn, w.file p = some f → Stamp key p thn f.content → ∃ st, w.lstat p = .ok st ∧ st.mtime = thn)
    (h : authenticate w [] = some PAM_SUCCESS) : checkMain w.lstat (some user) ttyname target w.utmp w.now = some 0 := by
  obtain ⟨p, f, key, thn, r, iv, hfo, hf, _, _, _, _, _, _, hst, hr, hl, hto, hfr⟩ := (C96_success_iff w [] ho).1 h
  obtain ⟨st, hls, rfl⟩ := hsame p f key thn hf hst
  rw [hi] at hfo hr
  have e2 : r = user := by
    rcases hr with ⟨_, ⟨h, _⟩ | ⟨_, h⟩⟩
    · cases h
    · exact (Option.some.inj h).symm
  subst e2
  have : iv = 300 := ((interval_iff [] iv).2 hto).symm
  subst this
  exact (C99_check_iff w.lstat r hu ttyname target ht w.utmp w.now ho.root ho.logins ho.clock hm).2 ⟨hok, p, st, hfo, hls, hl, hfr⟩

/-- But not the other way round: pam_timestamp_check looks neither at the contents of the file nor at its owner. -/
theorem C99_weaker_counterexample : ∃ w : World, w.items = checkItems (some (lit "alice")) [some (lit "/dev/pts/3")] (some (lit "root")) ∧
    checkMain w.lstat (some (lit "alice")) [some (lit "/dev/pts/3")] (some (lit "root")) w.utmp w.now = some 0 ∧
    authenticate w [] = some PAM_AUTH_ERR :=
  ⟨{ sampleWorld with items := checkItems (some (lit "alice")) [some (lit "/dev/pts/3")] (some (lit "root")), file := fun _ => some ⟨77, 77, true, lit "x", true⟩ },
    rfl, by decide +kernel, by decide +kernel⟩

example : checkMain sampleWorld.lstat (some (lit "alice")) [some (lit "/dev/pts/3")] (some (lit "root")) sampleWorld.utmp 5299 = some 0 ∧
    checkMain sampleWorld.lstat (some (lit "alice")) [some (lit "/dev/pts/3")] (some (lit "root")) sampleWorld.utmp 5300 = some 7 ∧
    checkMain sampleWorld.lstat (some (lit "alice")) [some (lit "/tmp/x")] (some (lit "root")) sampleWorld.utmp 5299 = some 6 ∧
    checkMain sampleWorld.lstat (some (lit "alice")) [some (lit "/dev/pts/3")] (some (lit "../root")) sampleWorld.utmp 5299 = some 4 := by decide +kernel

end Pam.Timestamp
