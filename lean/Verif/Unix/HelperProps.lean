import Verif.Unix.Helper
import Verif.Unix.CryptProps
import Verif.Util.InlineProps
/-
Property theorem C73: the helper unix_chkpwd.
-/
namespace Pam.Unix
open Pam Util Util.Spec

/-! ### vocabulary -/

/-- a process right after execve -/
def Proc.Started (p : Proc) : Prop := p.suid = p.euid ∧ p.sgid = p.egid

/-- the identity of the caller, with nothing a set-user-id or set-group-id program adds -/
def Proc.self (p : Proc) : Proc := ⟨p.uid, p.uid, p.uid, p.gid, p.gid, p.gid⟩

/-- the password field refers to the shadow database -/
def Pw.Shadowed (pw : Pw) : Prop := pw.passwd = "x".toList ∨ pw.passwd = "##".toList ++ pw.name

/-- the hash stored for an account, as a process with an identity finds it -/
def Stored (s : Sys) (p : Proc) (name h : Str) : Prop :=
  ∃ pw, s.pwnam name = some pw ∧ ((¬ pw.Shadowed ∧ h = pw.passwd) ∨ (pw.Shadowed ∧ ∃ sp, s.spnam p name = some sp ∧ h = sp.hash))

/-- a stored hash accepts a password (C69) -/
def Accepts (c : Crypts) (nullok : Bool) (stored p : Str) : Prop :=
  ∃ s, Counts stored s ∧
    ((s = [] ∧ p = [] ∧ nullok = true) ∨
     (s ≠ [] ∧ s.head? ≠ some '*' ∧ s.head? ≠ some '!' ∧ (p ≠ [] ∨ nullok = true) ∧ Gives c p s))

/-- the caller is root or asks about their own name -/
def Entitled (s : Sys) (p : Proc) (user : Str) : Prop := p.uid = 0 ∨ ∃ pw, s.pwuid p.uid = some pw ∧ pw.name = user

/-- the password that comes in on standard input: the first string, if it ends and is not too long -/
def typed (bytes : List Char) : Str := (received 512 1 bytes).headD []

/-! ### helper lemmas -/

theorem shadowed_iff {pw : Pw} : isShadowed pw = true ↔ pw.Shadowed := by
  unfold isShadowed Pw.Shadowed
  simp only [Bool.or_eq_true, Bool.and_eq_true, beq_iff_eq]
  constructor
  · rintro (h | ⟨h1, h2⟩)
    · exact Or.inl h
    · right; rw [← h1, ← h2, List.take_append_drop]
  · rintro (h | h)
    · exact Or.inl h
    · right; rw [h]; exact ⟨rfl, rfl⟩

theorem accepts_iff {c : Crypts} {nullok : Bool} {stored p : Str} :
    verifyHash c (some p) stored nullok = PAM_SUCCESS ↔ Accepts c nullok stored p := by
  constructor
  · intro h
    exact ⟨stripAging stored, counts_strip.mpr rfl, (C69_accepts c p stored _ nullok (counts_strip.mpr rfl)).mp h⟩
  · rintro ⟨s, hs, h⟩
    exact (C69_accepts c p stored s nullok hs).mpr h

theorem pwdHash_iff {s : Sys} {p : Proc} {name h : Str} : pwdHash s p name = some h ↔ Stored s p name h := by
  unfold pwdHash accountInfo Stored
  cases hp : s.pwnam name with
  | none => simp [show PAM_USER_UNKNOWN ≠ PAM_SUCCESS from by decide]
  | some pw =>
    simp only [Option.some.injEq, exists_eq_left']
    by_cases hs : isShadowed pw = true
    · rw [if_pos hs]
      have hS := shadowed_iff.mp hs
      cases hsp : s.spnam p name with
      | none => simp [show PAM_AUTHINFO_UNAVAIL ≠ PAM_SUCCESS from by decide, hS]
      | some sp => simp [hS, eq_comm]
    · rw [if_neg hs]
      have hS : ¬ pw.Shadowed := fun h => hs (shadowed_iff.mpr h)
      simp [hS, eq_comm]

theorem strings_no_nul {bs f : List Char} (h : f ∈ strings bs) : NUL ∉ f := by
  induction bs generalizing f with
  | nil => cases h
  | cons c cs ih =>
    unfold strings at h
    split at h
    · rcases List.mem_cons.mp h with rfl | h
      · simp
      · exact ih h
    · next hc =>
      split at h
      · cases h
      · next g gs hg =>
        rcases List.mem_cons.mp h with rfl | h
        · intro hm
          rcases List.mem_cons.mp hm with hm | hm
          · exact hc hm.symm
          · exact ih (by rw [hg]; exact List.mem_cons_self) hm
        · exact ih (by rw [hg]; exact List.mem_cons_of_mem _ h)

theorem cstr_nul {p rest : List Char} (h : NUL ∉ p) : cstr (p ++ NUL :: rest) = p := by
  unfold cstr
  induction p with
  | nil => simp
  | cons c p ih =>
    rw [List.mem_cons, not_or] at h
    rw [List.cons_append, List.takeWhile_cons, if_pos (by simpa using fun e => h.1 e.symm), ih h.2]

theorem received_one {bytes : List Char} : received 512 1 bytes = [] ∨ ∃ f, received 512 1 bytes = [f] ∧ NUL ∉ f := by
  unfold received
  cases hs : strings bytes with
  | nil => left; rfl
  | cons f fs =>
    have hf : NUL ∉ f := strings_no_nul (bs := bytes) (by rw [hs]; exact List.mem_cons_self)
    simp only [List.take_succ_cons, List.take_zero, List.takeWhile_cons, List.takeWhile_nil]
    split
    · exact Or.inr ⟨f, rfl, hf⟩
    · exact Or.inl rfl

theorem slot_typed {got : List Char} {n : Nat} {o b : List Char} (hn : n = (received 512 1 got).length)
    (hb : ∀ p, (received 512 1 got)[0]? = some p → Holds o p b) : (if n ≠ 1 then [] else cstr b) = typed got := by
  unfold typed
  rcases received_one (bytes := got) with h | ⟨f, h, hf⟩
  · rw [h] at hn ⊢
    simp [hn]
  · rw [h] at hn hb ⊢
    obtain ⟨rest, hr, -⟩ := hb f rfl
    simp only [List.length_singleton] at hn
    rw [hn, hr]
    simp only [ne_eq, not_true, if_false, List.headD_cons]
    exact cstr_nul hf

theorem readPass_any {i : Stdin} (hbuf : i.buf.length = 513) :
    readPass i = none ∨ ∃ got rest, i.bytes = got ++ rest ∧ readPass i = some (typed got) := by
  unfold readPass
  rcases C29_passwords [i.buf] 1 (by simpa using hbuf) (by simp) i.bytes i.sched with h | ⟨got, rest, k, slots, h, hs, hk, hl, hj⟩
  · left; rw [h]
  · right
    refine ⟨got, rest, hs, ?_⟩
    rw [h]
    obtain ⟨b, hb, hh, -⟩ := hj 0 i.buf rfl
    cases slots with
    | nil => cases hl
    | cons b' bs =>
      cases hb
      simp only [Option.some.injEq]
      exact slot_typed hk hh

theorem readPass_ok {i : Stdin} (hbuf : i.buf.length = 513) (hok : Ev.err ∉ i.sched) :
    readPass i = none ∨ readPass i = some (typed i.bytes) := by
  unfold readPass
  rcases C29_independent_of_chunking [i.buf] 1 (by simpa using hbuf) (by simp) i.bytes i.sched hok with ⟨h, -⟩ | ⟨slots, rest, h, hj⟩
  · left; rw [h]
  · right
    rw [h]
    rcases C29_passwords [i.buf] 1 (by simpa using hbuf) (by simp) i.bytes i.sched with h' | ⟨_, _, _, slots', h', _, _, hl, _⟩
    · rw [h] at h'; cases h'
    · rw [h] at h'
      cases h'
      cases slots with
      | nil => cases hl
      | cons b bs =>
        simp only [Option.some.injEq]
        refine slot_typed (o := i.buf) rfl ?_
        intro p hp
        obtain ⟨b', hb, hh⟩ := hj 0 p i.buf hp rfl
        cases hb
        exact hh

/-- C73: a helper that must not use its privileges gets rid of them for good: it goes on with nothing but the identity of the caller,
or exits, and that only if the kernel refuses a call. -/
theorem C73_drop (p : Proc) (hst : p.Started) (hu : p.uid ≠ 0) (noG noU : Bool) :
    (∀ q, p.dropAll noG noU = some q → q = p.self) ∧
    (p.dropAll noG noU = none ↔ (p.gid ≠ p.egid ∧ noG = true) ∨ (p.uid ≠ p.euid ∧ noU = true)) := by
  obtain ⟨h1, h2⟩ := hst
  obtain ⟨u, e0, e, g, eg0, eg⟩ := p
  simp only at h1 h2 hu
  subst h1 h2
  unfold Proc.dropAll Proc.setregid Proc.setreuid Proc.setegid Proc.seteuid Proc.self
  by_cases hg : g = eg
  · subst hg
    by_cases he : u = e
    · subst he
      simp
    · cases noU <;> simp [he, hu, Ne.symm he]
  · by_cases he : u = e
    · subst he
      cases noG <;> simp [hg, hu, Ne.symm hg]
    · cases noG <;> cases noU <;> simp [hg, he, hu, Ne.symm hg, Ne.symm he]

theorem entitled_iff {s : Sys} {p : Proc} {user : Str} :
    ¬ (p.uid ≠ 0 ∧ (s.pwuid p.uid).map Pw.name ≠ some user) ↔ Entitled s p user := by
  unfold Entitled
  rw [Classical.not_and_iff_not_or_not, Classical.not_not, Classical.not_not, Option.map_eq_some_iff]

/-- the identity the helper looks at the shadow database with -/
theorem chkpwd_as {s : Sys} {p : Proc} (hst : p.Started) (i : Stdin) (user option : Str) :
    (Entitled s p user ∧ chkpwd s p i false [user, option] = chkpwdAs s p i user option) ∨
    (¬ Entitled s p user ∧ (chkpwd s p i false [user, option] = chkpwdAs s p.self i user option ∨
      ((i.noG = true ∨ i.noU = true) ∧ chkpwd s p i false [user, option] = some ⟨PAM_AUTH_ERR, none⟩))) := by
  unfold chkpwd
  simp only
  by_cases h : p.uid ≠ 0 ∧ (s.pwuid p.uid).map Pw.name ≠ some user
  · right
    refine ⟨fun he => (entitled_iff.mpr he) h, ?_⟩
    rw [if_pos h]
    obtain ⟨d1, d2⟩ := C73_drop p hst h.1 i.noG i.noU
    cases hd : p.dropAll i.noG i.noU with
    | none =>
      right
      refine ⟨?_, rfl⟩
      rcases d2.mp hd with h | h
      · exact Or.inl h.2
      · exact Or.inr h.2
    | some q =>
      left
      rw [d1 q hd]
  · left
    refine ⟨entitled_iff.mp h, ?_⟩
    rw [if_neg h]

/-- C73: someone who is neither root nor asks about their own name learns nothing they could not see with their own rights: whatever the
shadow database holds that is hidden from them, the run is the same. -/
theorem C73_others (s s' : Sys) (p : Proc) (hst : p.Started) (i : Stdin) (tty : Bool) (args : List Str)
    (h1 : s'.pwnam = s.pwnam) (h2 : s'.pwuid = s.pwuid) (h3 : s'.today = s.today) (h4 : s'.crypts = s.crypts)
    (h5 : s'.spnam p.self = s.spnam p.self) (hn : ∀ user, args.head? = some user → ¬ Entitled s p user) :
    chkpwd s' p i tty args = chkpwd s p i tty args := by
  have hacc : ∀ user, accountInfo s' p.self user = accountInfo s p.self user := by
    intro user; unfold accountInfo; rw [h1, h5]
  have has : ∀ user opt, chkpwdAs s' p.self i user opt = chkpwdAs s p.self i user opt := by
    intro user opt
    unfold chkpwdAs checkExpiryOf helperVerify pwdHash
    rw [hacc, h3, h4]
  unfold chkpwd
  split
  · next user opt =>
    have hne := hn user rfl
    have hc : p.uid ≠ 0 ∧ (s.pwuid p.uid).map Pw.name ≠ some user := by
      by_cases h : p.uid ≠ 0 ∧ (s.pwuid p.uid).map Pw.name ≠ some user
      · exact h
      · exact absurd (entitled_iff.mp h) hne
    rw [h2, if_pos hc, if_pos hc]
    cases hd : p.dropAll i.noG i.noU with
    | none => rfl
    | some q =>
      rw [(C73_drop p hst hc.1 i.noG i.noU).1 q hd]
      exact has user opt
  · rfl

/-- the identity that counts for a question about `user` -/
def Sees (s : Sys) (p : Proc) (user : Str) (q : Proc) : Prop := (Entitled s p user ∧ q = p) ∨ (¬ Entitled s p user ∧ q = p.self)

theorem helper_codes {s : Sys} {q : Proc} {user pass : Str} {nullok : Bool} :
    (helperVerify s q user pass nullok = PAM_SUCCESS ∧ ∃ h, Stored s q user h ∧ Accepts s.crypts nullok h pass) ∨
    (helperVerify s q user pass nullok = PAM_AUTH_ERR ∧ ∃ h, Stored s q user h ∧ ¬ Accepts s.crypts nullok h pass) ∨
    (helperVerify s q user pass nullok = PAM_USER_UNKNOWN ∧ ¬ ∃ h, Stored s q user h) := by
  unfold helperVerify
  cases hp : pwdHash s q user with
  | none =>
    right; right
    refine ⟨rfl, ?_⟩
    rintro ⟨h, hh⟩
    rw [pwdHash_iff.mpr hh] at hp
    cases hp
  | some h =>
    have hs := pwdHash_iff.mp hp
    rcases (C69_codes s.crypts (some pass) h nullok).1 with hc | hc
    · exact Or.inl ⟨hc, h, hs, accepts_iff.mp hc⟩
    · refine Or.inr (Or.inl ⟨hc, h, hs, fun ha => ?_⟩)
      have := accepts_iff.mpr ha
      rw [hc] at this
      exact absurd this (by decide)

theorem stored_unique {s : Sys} {q : Proc} {user h h' : Str} (a : Stored s q user h) (b : Stored s q user h') : h = h' := by
  have := (pwdHash_iff.mpr a).symm.trans (pwdHash_iff.mpr b)
  exact Option.some.inj this

/-- what the helper says about a password -/
theorem check_answer {s : Sys} {q : Proc} {i : Stdin} {user opt pass : Str} (hopt : opt = "nullok".toList ∨ opt = "nonull".toList)
    (hr : readPass i = some pass) : ∃ e, chkpwdAs s q i user opt = some e ∧ e.out = none ∧
      (e.code = PAM_SUCCESS ↔ ∃ h, Stored s q user h ∧ Accepts s.crypts (decide (opt = "nullok".toList)) h pass) ∧
      (e.code = PAM_AUTHINFO_UNAVAIL ↔ ¬ ∃ h, Stored s q user h) ∧
      (e.code = PAM_AUTH_ERR ↔ ∃ h, Stored s q user h ∧ ¬ Accepts s.crypts (decide (opt = "nullok".toList)) h pass) := by
  unfold chkpwdAs
  rw [if_neg (by rcases hopt with h | h <;> rw [h] <;> decide), if_pos hopt, hr]
  simp only
  rw [show (opt == "nullok".toList) = decide (opt = "nullok".toList) from by
    rw [Bool.eq_iff_iff, beq_iff_eq, decide_eq_true_iff]]
  generalize decide (opt = "nullok".toList) = nullok
  rcases helper_codes (s := s) (q := q) (user := user) (pass := pass) (nullok := nullok) with ⟨hc, h, a, b⟩ | ⟨hc, h, a, b⟩ | ⟨hc, a⟩
  · rw [hc]
    refine ⟨_, rfl, rfl, ⟨fun _ => ⟨h, a, b⟩, fun _ => rfl⟩, ⟨fun x => absurd x (by decide), fun x => absurd ⟨h, a⟩ x⟩,
      ⟨fun x => absurd x (by decide), ?_⟩⟩
    rintro ⟨h', a', b'⟩
    exact absurd (stored_unique a a' ▸ b) b'
  · rw [hc]
    refine ⟨_, rfl, rfl, ⟨fun x => absurd x (by decide), ?_⟩, ⟨fun x => absurd x (by decide), fun x => absurd ⟨h, a⟩ x⟩,
      ⟨fun _ => ⟨h, a, b⟩, fun _ => rfl⟩⟩
    rintro ⟨h', a', b'⟩
    exact absurd (stored_unique a' a ▸ b') b
  · rw [hc]
    refine ⟨_, rfl, rfl, ⟨fun x => absurd x (by decide), ?_⟩, ⟨fun _ => a, fun _ => rfl⟩, ⟨fun x => absurd x (by decide), ?_⟩⟩
    · rintro ⟨h', a', -⟩; exact absurd ⟨h', a'⟩ a
    · rintro ⟨h', a', -⟩; exact absurd ⟨h', a'⟩ a

/-- C73: asked about a password, the helper exits with success exactly if the stored hash accepts the password it was sent, with
PAM_AUTHINFO_UNAVAIL exactly if no hash can be read, and else with PAM_AUTH_ERR. -/
theorem C73_answer (s : Sys) (p q : Proc) (hst : p.Started) (i : Stdin) (hbuf : i.buf.length = 513) (hok : Ev.err ∉ i.sched)
    (hG : i.noG = false) (hU : i.noU = false) (user opt : Str) (hopt : opt = "nullok".toList ∨ opt = "nonull".toList) (hq : Sees s p user q) :
    chkpwd s p i false [user, opt] = none ∨ ∃ e, chkpwd s p i false [user, opt] = some e ∧ e.out = none ∧
      (e.code = PAM_SUCCESS ↔ ∃ h, Stored s q user h ∧ Accepts s.crypts (decide (opt = "nullok".toList)) h (typed i.bytes)) ∧
      (e.code = PAM_AUTHINFO_UNAVAIL ↔ ¬ ∃ h, Stored s q user h) ∧
      (e.code = PAM_AUTH_ERR ↔ ∃ h, Stored s q user h ∧ ¬ Accepts s.crypts (decide (opt = "nullok".toList)) h (typed i.bytes)) := by
  have hrun : chkpwd s p i false [user, opt] = chkpwdAs s q i user opt := by
    rcases chkpwd_as (s := s) hst i user opt with ⟨h, e⟩ | ⟨h, e | ⟨e, -⟩⟩
    · rcases hq with ⟨-, rfl⟩ | ⟨h', -⟩
      · exact e
      · exact absurd h h'
    · rcases hq with ⟨h', -⟩ | ⟨-, rfl⟩
      · exact absurd h' h
      · exact e
    · rw [hG, hU] at e; rcases e with e | e <;> cases e
  rw [hrun]
  rcases readPass_ok hbuf hok with hr | hr
  · left
    unfold chkpwdAs
    rw [if_neg (by rcases hopt with h | h <;> rw [h] <;> decide), if_pos hopt, hr]
  · right
    exact check_answer hopt hr

/-- C73: whatever fails, the helper vouches for a password only if the stored hash accepts what it has received, the empty password if
reading stopped early. -/
theorem C73_sound (s : Sys) (p : Proc) (hst : p.Started) (i : Stdin) (hbuf : i.buf.length = 513) (tty : Bool) (args : List Str) (e : Exit)
    (hc : chkpwd s p i tty args = some e) (hs : e.code = PAM_SUCCESS) (ho : e.out = none) :
    ∃ user opt q h got rest, args = [user, opt] ∧ Sees s p user q ∧ (opt = "nullok".toList ∨ opt = "nonull".toList) ∧ Stored s q user h ∧
      i.bytes = got ++ rest ∧ Accepts s.crypts (decide (opt = "nullok".toList)) h (typed got) := by
  have shape : ∃ user opt, tty = false ∧ args = [user, opt] := by
    unfold chkpwd at hc
    split at hc
    · exact ⟨_, _, rfl, rfl⟩
    · cases hc; exact absurd hs (by decide)
  obtain ⟨user, opt, rfl, rfl⟩ := shape
  have fin : ∀ q, chkpwdAs s q i user opt = some e → (opt = "nullok".toList ∨ opt = "nonull".toList) ∧ ∃ h got rest, Stored s q user h ∧
      i.bytes = got ++ rest ∧ Accepts s.crypts (decide (opt = "nullok".toList)) h (typed got) := by
    intro q hq
    by_cases hopt : opt = "nullok".toList ∨ opt = "nonull".toList
    · refine ⟨hopt, ?_⟩
      rcases readPass_any hbuf with hr | ⟨got, rest, hb, hr⟩
      · unfold chkpwdAs at hq
        rw [if_neg (by rcases hopt with h | h <;> rw [h] <;> decide), if_pos hopt, hr] at hq
        cases hq
      · obtain ⟨e', he, -, h1, -⟩ := check_answer (s := s) (q := q) (i := i) (user := user) hopt hr
        rw [hq] at he
        cases he
        obtain ⟨h, a, b⟩ := h1.mp hs
        exact ⟨h, got, rest, a, hb, b⟩
    · unfold chkpwdAs at hq
      rw [if_neg hopt] at hq
      split at hq
      · unfold checkExpiryOf at hq
        simp only at hq
        split at hq
        · cases hq; cases ho
        · split at hq
          · cases hq; cases ho
          · obtain ⟨r, -, rfl⟩ := Option.map_eq_some_iff.mp hq
            cases ho
      · cases hq; exact absurd hs (by decide)
  rcases chkpwd_as (s := s) hst i user opt with ⟨h, e'⟩ | ⟨h, e' | ⟨-, e'⟩⟩
  · rw [e'] at hc
    obtain ⟨ho', h', got, rest, a, b, c⟩ := fin p hc
    exact ⟨user, opt, p, h', got, rest, rfl, Or.inl ⟨h, rfl⟩, ho', a, b, c⟩
  · rw [e'] at hc
    obtain ⟨ho', h', got, rest, a, b, c⟩ := fin p.self hc
    exact ⟨user, opt, p.self, h', got, rest, rfl, Or.inr ⟨h, rfl⟩, ho', a, b, c⟩
  · rw [e'] at hc
    cases hc
    exact absurd hs (by decide)

/-- C73: asked about the age of a password, the helper gives the answer of C71 for the entry it can read; success and no number of days
without a shadow entry; and the reason why there is none. -/
theorem C73_expiry (s : Sys) (p q : Proc) (hst : p.Started) (i : Stdin) (hG : i.noG = false) (hU : i.noU = false) (user : Str)
    (hq : Sees s p user q) :
    (s.pwnam user = none → chkpwd s p i false [user, "chkexpiry".toList] = some ⟨PAM_USER_UNKNOWN, some (-1)⟩) ∧
    (∀ pw, s.pwnam user = some pw →
      (¬ pw.Shadowed → chkpwd s p i false [user, "chkexpiry".toList] = some ⟨PAM_SUCCESS, some (-1)⟩) ∧
      (pw.Shadowed → s.spnam q user = none → chkpwd s p i false [user, "chkexpiry".toList] = some ⟨PAM_AUTHINFO_UNAVAIL, some (-1)⟩) ∧
      (pw.Shadowed → ∀ sp code days, s.spnam q user = some sp → checkExpiry sp.aging s.today = some (code, days) →
        chkpwd s p i false [user, "chkexpiry".toList] = some ⟨code, some days⟩)) := by
  have hrun : chkpwd s p i false [user, "chkexpiry".toList] = checkExpiryOf s q user := by
    have e0 : ∀ q, chkpwdAs s q i user "chkexpiry".toList = checkExpiryOf s q user := by
      intro q; unfold chkpwdAs; rw [if_pos rfl]
    rcases chkpwd_as (s := s) hst i user "chkexpiry".toList with ⟨h, e⟩ | ⟨h, e | ⟨e, -⟩⟩
    · rcases hq with ⟨-, rfl⟩ | ⟨h', -⟩
      · rw [e, e0]
      · exact absurd h h'
    · rcases hq with ⟨h', -⟩ | ⟨-, rfl⟩
      · exact absurd h' h
      · rw [e, e0]
    · rw [hG, hU] at e; rcases e with e | e <;> cases e
  rw [hrun]
  unfold checkExpiryOf accountInfo
  refine ⟨fun h => by rw [h]; rfl, fun pw hpw => ?_⟩
  rw [hpw]
  refine ⟨fun h => ?_, fun h hn => ?_, fun h sp code days hsp hce => ?_⟩
  · have : ¬ isShadowed pw = true := fun x => h (shadowed_iff.mp x)
    simp [this]
  · simp only [if_pos (shadowed_iff.mpr h), hn]; rfl
  · simp only [if_pos (shadowed_iff.mpr h), hsp, hce]; rfl

/-! ### examples -/

/-- a system with one ordinary user; only root reads the shadow database -/
def demoSys : Sys where
  pwnam n := if n = "root".toList then some ⟨"root".toList, "x".toList, 0⟩ else if n = "ada".toList then some ⟨"ada".toList, "x".toList, 1000⟩
    else if n = "bob".toList then some ⟨"bob".toList, "x".toList, 1001⟩ else none
  pwuid u := if u = 0 then some ⟨"root".toList, "x".toList, 0⟩ else if u = 1000 then some ⟨"ada".toList, "x".toList, 1000⟩
    else if u = 1001 then some ⟨"bob".toList, "x".toList, 1001⟩ else none
  spnam p n := if p.euid = 0 ∧ (n = "ada".toList ∨ n = "bob".toList) then some ⟨"ABsecret.p...assword....".toList, ⟨20000, 0, 99999, 7, -1, -1⟩⟩ else none
  today := 20010
  crypts := ⟨toyCrypt, fun p s => p ++ s, fun _ _ => []⟩

/-- ada runs the helper, which is set-user-id root -/
def adaProc : Proc := ⟨1000, 0, 0, 1000, 1000, 1000⟩

/-- the password comes in pieces -/
def demoIn (t : Str) : Stdin := { bytes := t ++ [NUL], sched := [.upto 3, .intr, .upto 0, .upto 511], buf := List.replicate 513 'x' }

example : adaProc.Started ∧ Entitled demoSys adaProc "ada".toList ∧ ¬ Entitled demoSys adaProc "bob".toList := by
  refine ⟨⟨rfl, rfl⟩, Or.inr ⟨_, rfl, rfl⟩, ?_⟩
  rintro (h | ⟨pw, h, h'⟩)
  · exact absurd h (by decide)
  · cases h; exact absurd h' (by decide)
example : chkpwd demoSys adaProc (demoIn "secret password".toList) false ["ada".toList, "nonull".toList] = some ⟨PAM_SUCCESS, none⟩ := by
  decide +kernel
example : chkpwd demoSys adaProc (demoIn "secret passwort".toList) false ["ada".toList, "nonull".toList] = some ⟨PAM_AUTH_ERR, none⟩ := by
  decide +kernel
example : chkpwd demoSys adaProc (demoIn "secret password".toList) false ["bob".toList, "nonull".toList] = some ⟨PAM_AUTHINFO_UNAVAIL, none⟩ := by
  decide +kernel
example : chkpwd demoSys adaProc (demoIn []) false ["ada".toList, "chkexpiry".toList] = some ⟨PAM_SUCCESS, some (-1)⟩ := by decide +kernel
example : adaProc.dropAll false false = some adaProc.self := by decide

end Pam.Unix
