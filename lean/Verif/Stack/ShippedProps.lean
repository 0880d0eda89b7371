import Verif.Stack.ShippedCall
/-
C175: what the configuration file that comes with Linux-PAM allows.
-/
namespace Pam.Stack
open Pam Pam.Config Pam.Config.Spec
open Pam.Dispatch (Flag)
open Pam.Small (Invoker TheGroup Agrees Belongs Terminal Secure PlainCmdline NologinFile Readable FileLine Entry)

/-! ### Vocabulary -/

/-- the services of the file -/
def shippedNames : List String :=
  ["chfn", "chsh", "ftp", "imap", "login", "netatalk", "other", "passwd", "rexec", "rlogin", "rsh", "samba", "su", "vlock", "xdm", "xlock"]

/-- The user may not use ftp: /etc/ftpusers has a line with the name, or it is no regular file or everybody may write it. -/
def Banned (c : Scene) : Prop :=
  c.user ≠ [] ∧ ∃ ww reg, c.lstat "/etc/ftpusers".toList = some (ww, reg) ∧
    (ww = true ∨ reg = false ∨ ∃ content, c.list "/etc/ftpusers".toList = some content ∧ Entry content c.user)

/-- The user has an account whose shell is a line of /etc/shells; no shell means /bin/sh. -/
def GoodShell (c : Scene) : Prop :=
  ∃ u content, c.accounts.pwnam c.user = some u ∧ c.shellsStat = some (false, true) ∧ c.shellsText = some content ∧
    ∃ l, FileLine content l ∧ l.head? = some '/' ∧ (l = u.shell ∨ (u.shell = [] ∧ l = "/bin/sh".toList))

/-- The user is not root, or sits at a safe terminal. -/
def SafeTerminal (c : Scene) : Prop :=
  (∃ u, c.accounts.pwnam c.user = some u ∧ u.uid ≠ 0) ∨
  ((∀ u, c.accounts.pwnam c.user = some u → u.uid = 0) ∧ ∃ t tty, c.tty = some t ∧ Terminal t tty ∧
    (c.secureStat = none ∨
     ∃ content, c.secureStat = some (false, true) ∧ c.secureText = some content ∧ Secure c.ttyCall [] content tty))

/-- the kernel's command line is not one that pam_securetty misreads (see C87) -/
def FineCmdline (c : Scene) : Prop := ∀ t tty, c.tty = some t → Terminal t tty → PlainCmdline c.ttyCall tty

/-- the system does not refuse logins, or the user is root -/
def Open (c : Scene) : Prop :=
  (¬ ∃ f, NologinFile c.nologinCall [] f) ∨ ∃ u, c.accounts.pwnam c.user = some u ∧ u.uid = 0

/-- the file that refuses logins can be read, if it is there -/
def FineNologin (c : Scene) : Prop := ∀ f, NologinFile c.nologinCall [] f → ∃ t, Readable f t

/-- root calls, and SELinux does not object -/
def ByRoot (c : Scene) : Prop := c.uid = 0 ∧ c.selinux ≠ some false

/-- pam_unix and the modules without a model give answers of the kind that ends a call -/
structure Fine (c : Scene) : Prop where
  unix : Settled c.unix
  notIgnored : c.unix ≠ PAM_IGNORE
  rest : ∀ p a, Settled (c.rest p a)

/-! ### What the modules answer -/

theorem answer_unix (c : Scene) (fn : Fn) (a : List Str) : c.answer fn "pam_unix.so".toList a = c.unix := by
  unfold Scene.answer; rw [if_pos rfl]

theorem answer_wheel (c : Scene) (fn : Fn) (a : List Str) :
    c.answer fn "pam_wheel.so".toList a = Small.wheel c.accounts c.wheelCall a := by
  unfold Scene.answer; iterate 3 rw [if_neg (by decide)]
  rw [if_pos rfl]

theorem answer_rootok (c : Scene) (fn : Fn) (a : List Str) : c.answer fn "pam_rootok.so".toList a = Small.rootok c.uid c.selinux := by
  unfold Scene.answer; iterate 4 rw [if_neg (by decide)]
  rw [if_pos rfl]

theorem answer_listfile (c : Scene) (fn : Fn) (a : List Str) :
    c.answer fn "pam_listfile.so".toList a = Small.listfile c.accounts c.listCall a := by
  unfold Scene.answer; iterate 5 rw [if_neg (by decide)]
  rw [if_pos rfl]

theorem answer_nologin (c : Scene) (fn : Fn) (a : List Str) :
    c.answer fn "pam_nologin.so".toList a = (Small.nologin c.accounts c.nologinCall a).1 := by
  unfold Scene.answer; iterate 6 rw [if_neg (by decide)]
  rw [if_pos rfl]

theorem answer_shells (c : Scene) (fn : Fn) (a : List Str) : c.answer fn "pam_shells.so".toList a = Small.shells c.accounts c.shellsCall := by
  unfold Scene.answer; iterate 7 rw [if_neg (by decide)]
  rw [if_pos rfl]

theorem answer_securetty (c : Scene) (fn : Fn) (a : List Str) :
    c.answer fn "pam_securetty.so".toList a = (Small.securettyArgs c.accounts c.ttyCall a).getD PAM_ABORT := by
  unfold Scene.answer; iterate 8 rw [if_neg (by decide)]
  rw [if_pos rfl]

theorem answer_rest (c : Scene) (fn : Fn) (p : String) (hp : p = "pam_group.so" ∨ p = "pam_time.so" ∨ p = "pam_limits.so") (a : List Str) :
    c.answer fn p.toList a = c.rest p.toList a := by
  rcases hp with rfl | rfl | rfl <;> unfold Scene.answer <;> (iterate 9 rw [if_neg (by decide)]) <;> rw [if_pos (by decide)]

theorem answer_rhosts_auth (c : Scene) (fn : Fn) (a : List Str) : c.answer fn "pam_rhosts_auth.so".toList a = PAM_MODULE_UNKNOWN := by
  unfold Scene.answer; iterate 9 rw [if_neg (by decide)]
  rw [if_neg (by decide)]

/-- the words after pam_listfile.so -/
def ftpArgs : List Str := ["item=user".toList, "sense=deny".toList, "file=/etc/ftpusers".toList, "onerr=succeed".toList]

theorem ftp_configured : Small.Configured ftpArgs .user true "/etc/ftpusers".toList where
  proper := by
    intro x hx
    simp only [ftpArgs, List.mem_cons, List.not_mem_nil, or_false] at hx
    rcases hx with rfl | rfl | rfl | rfl
    · exact Or.inr (Or.inr (Or.inr (Or.inr (Or.inr (Or.inr (Or.inl ⟨"user".toList, rfl⟩))))))
    · exact Or.inr (Or.inr (Or.inr (Or.inr (Or.inl rfl))))
    · exact Or.inr (Or.inr (Or.inr (Or.inr (Or.inr (Or.inl ⟨"/etc/ftpusers".toList, rfl⟩)))))
    · exact Or.inr (Or.inl rfl)
  about := ⟨⟨[], _, rfl, by decide⟩, by decide, by decide⟩
  sense := ⟨["item=user".toList], _, rfl, by decide⟩
  file := ⟨["item=user".toList, "sense=deny".toList], _, rfl, by decide⟩
  apply := Or.inl (by unfold Small.Without; decide)

theorem ftpusers_answer (c : Scene) : (Banned c → Small.listfile c.accounts c.listCall ftpArgs = PAM_AUTH_ERR) ∧
    (¬ Banned c → Small.listfile c.accounts c.listCall ftpArgs = PAM_SUCCESS) := by
  have hnc : ¬ Small.NotConcerned c.accounts c.listCall ftpArgs .user := by
    rintro ⟨h | h, -⟩ <;> cases h
  have herr : ∀ r, Small.ErrorCode ftpArgs r → r = PAM_SUCCESS := by
    rintro r (⟨-, h⟩ | ⟨h, -⟩)
    · exact h
    · exact absurd ⟨["item=user".toList, "sense=deny".toList, "file=/etc/ftpusers".toList], _, rfl, by decide⟩ h
  obtain ⟨h0, h1⟩ := (Small.C83_answer ftp_configured c.accounts c.listCall).2.2.2 hnc rfl c.user (Or.inl rfl)
  by_cases hu : c.user = []
  · exact ⟨fun h => absurd hu h.1, fun _ => h0 hu⟩
  obtain ⟨k1, k2, k3⟩ := h1 hu
  have hks : ¬ (Small.Kind.user = .shell ∧ c.accounts.pwnam c.user = none) := fun h => by cases h.1
  cases hl : c.lstat "/etc/ftpusers".toList with
  | none =>
    refine ⟨fun ⟨_, ww, reg, h, _⟩ => (by rw [hl] at h; cases h), fun _ => herr _ (k1 (Or.inr (Or.inl hl)))⟩
  | some st =>
    obtain ⟨ww, reg⟩ := st
    by_cases hbad : ww = true ∨ reg = false
    · refine ⟨fun _ => k2 hks ww reg hl hbad, fun hn => absurd ⟨hu, ww, reg, hl, ?_⟩ hn⟩
      exact hbad.elim Or.inl (fun h => Or.inr (Or.inl h))
    · have hww : ww = false := by cases ww; rfl; exact absurd (Or.inl rfl) hbad
      have hreg : reg = true := by cases reg; exact absurd (Or.inr rfl) hbad; rfl
      subst hww hreg
      cases ho : c.list "/etc/ftpusers".toList with
      | none =>
        refine ⟨fun ⟨_, ww, reg, h, h'⟩ => ?_, fun _ => herr _ (k1 (Or.inr (Or.inr ⟨hl, ho⟩)))⟩
        rw [hl] at h; cases h
        rcases h' with h' | h' | ⟨content, h', -⟩
        · cases h'
        · cases h'
        · rw [ho] at h'; cases h'
      | some content =>
        obtain ⟨m1, m2⟩ := k3 hks hl content ho
        by_cases hent : Entry content c.user
        · refine ⟨fun _ => m2 ⟨fun _ => rfl, fun _ => hent⟩, fun hn => absurd ⟨hu, false, true, hl, Or.inr (Or.inr ⟨content, ho, hent⟩)⟩ hn⟩
        · refine ⟨fun ⟨_, ww, reg, h, h'⟩ => ?_, fun _ => m1 ⟨fun h => absurd h hent, fun h => by cases h⟩⟩
          rw [hl] at h; cases h
          rcases h' with h' | h' | ⟨content', h', h''⟩
          · cases h'
          · cases h'
          · rw [ho] at h'; cases h'; exact absurd h'' hent

theorem securetty_answer (c : Scene) (hc : FineCmdline c) (fn : Fn) :
    (SafeTerminal c → c.answer fn "pam_securetty.so".toList [] = PAM_SUCCESS) ∧
    (¬ SafeTerminal c → c.answer fn "pam_securetty.so".toList [] ≠ PAM_SUCCESS ∧ c.answer fn "pam_securetty.so".toList [] ≠ PAM_IGNORE) := by
  rw [answer_securetty]
  obtain ⟨-, h2, h3⟩ := Small.C87_answer_partial c.accounts c.ttyCall []
  by_cases hr : ∃ u, c.accounts.pwnam c.user = some u ∧ u.uid ≠ 0
  · rw [h2 rfl hr]
    exact ⟨fun _ => rfl, fun h => absurd (Or.inl hr) h⟩
  have hroot : ∀ u, c.accounts.pwnam c.user = some u → u.uid = 0 := by
    intro u hu; exact Classical.byContradiction fun h => hr ⟨u, hu, h⟩
  obtain ⟨k1, k2⟩ := h3 rfl hroot
  cases ht : c.tty with
  | none =>
    rw [k1 (Or.inr ht)]
    refine ⟨fun h => ?_, fun _ => by decide⟩
    rcases h with h | ⟨-, t, _, h, -⟩
    · exact absurd h hr
    · rw [ht] at h; cases h
  | some t =>
    obtain ⟨tty, htty⟩ : ∃ tty, Terminal t tty := by
      by_cases h : "/dev/".toList <+: t
      · obtain ⟨v, hv⟩ := h; exact ⟨v, Or.inl hv.symm⟩
      · exact ⟨t, Or.inr ⟨rfl, h⟩⟩
    have huniq : ∀ tty', Terminal t tty' → tty' = tty := by
      rintro tty' (h | ⟨h, hn⟩) <;> rcases htty with h' | ⟨h', hn'⟩
      · rw [h] at h'; exact List.append_cancel_left h'
      · exact absurd ⟨tty', h.symm⟩ hn'
      · exact absurd ⟨tty, h'.symm⟩ hn
      · rw [← h, ← h']
    obtain ⟨m1, m2, m3, m4⟩ := k2 t tty (by show (PAM_SUCCESS, c.tty) = _; rw [ht]) htty
    have hsafe : ∀ (P : Prop), ((c.secureStat = none ∨ ∃ content, c.secureStat = some (false, true) ∧ c.secureText = some content ∧
        Secure c.ttyCall [] content tty) → P) → SafeTerminal c → P := by
      rintro P hP (h | ⟨-, t', tty', h1, h4, h5⟩)
      · exact absurd h hr
      · rw [ht] at h1; cases h1
        have := huniq tty' h4; subst this
        exact hP h5
    cases hs : c.secureStat with
    | none =>
      rw [m1 hs]
      exact ⟨fun _ => rfl, fun h => absurd (Or.inr ⟨hroot, t, tty, ht, htty, Or.inl hs⟩) h⟩
    | some st =>
      obtain ⟨ww, reg⟩ := st
      by_cases hbad : ww = true ∨ reg = false
      · rw [m2 ww reg hs hbad]
        refine ⟨fun h => ?_, fun _ => by decide⟩
        refine hsafe _ ?_ h
        rintro (h | ⟨_, h, -⟩)
        · rw [hs] at h; cases h
        · rw [hs] at h; cases h; rcases hbad with h | h <;> cases h
      · have hww : ww = false := by cases ww; rfl; exact absurd (Or.inl rfl) hbad
        have hreg : reg = true := by cases reg; exact absurd (Or.inr rfl) hbad; rfl
        subst hww hreg
        cases ho : c.secureText with
        | none =>
          rw [m3 hs ho]
          refine ⟨fun h => ?_, fun _ => by decide⟩
          refine hsafe _ ?_ h
          rintro (h | ⟨_, -, h, -⟩)
          · rw [hs] at h; cases h
          · rw [ho] at h; cases h
        | some content =>
          obtain ⟨n1, n2⟩ := m4 content hs ho (hc t tty ht htty)
          by_cases hsec : Secure c.ttyCall [] content tty
          · rw [n1 hsec]
            exact ⟨fun _ => rfl, fun h => absurd (Or.inr ⟨hroot, t, tty, ht, htty, Or.inr ⟨content, hs, ho, hsec⟩⟩) h⟩
          · rw [n2 hsec]
            refine ⟨fun h => ?_, fun _ => ?_⟩
            · refine hsafe _ ?_ h
              rintro (h | ⟨_, -, h, h'⟩)
              · rw [hs] at h; cases h
              · rw [ho] at h; cases h; exact absurd h' hsec
            · show (if c.accounts.pwnam c.user = none then PAM_USER_UNKNOWN else PAM_AUTH_ERR) ≠ PAM_SUCCESS ∧
                (if c.accounts.pwnam c.user = none then PAM_USER_UNKNOWN else PAM_AUTH_ERR) ≠ PAM_IGNORE
              split <;> decide

theorem nologin_answer (c : Scene) (hf : FineNologin c) (fn : Fn) :
    (Open c → c.answer fn "pam_nologin.so".toList [] = PAM_IGNORE) ∧
    (¬ Open c → c.answer fn "pam_nologin.so".toList [] ≠ PAM_SUCCESS ∧ c.answer fn "pam_nologin.so".toList [] ≠ PAM_IGNORE) := by
  rw [answer_nologin]
  have ho := Small.C85_open c.accounts c.nologinCall [] rfl
  have hq : Small.quietAnswer [] = PAM_IGNORE := by unfold Small.quietAnswer; rw [if_neg (by simp)]
  rw [hq] at ho
  constructor
  · intro h
    by_cases hn : ∃ f, NologinFile c.nologinCall [] f
    · obtain ⟨f, hf'⟩ := hn
      obtain ⟨t, ht⟩ := hf f hf'
      rcases h with h | ⟨u, h1, h2⟩
      · exact absurd ⟨f, hf'⟩ h
      · rw [ho.2.1 f t u hf' ht h1 h2]
    · rw [ho.1 hn]
  · intro h
    have hn : ∃ f, NologinFile c.nologinCall [] f := Classical.byContradiction fun k => h (Or.inl k)
    obtain ⟨f, hf'⟩ := hn
    have := Small.C85_closed c.accounts c.nologinCall [] f hf' (fun u hu h0 => h (Or.inr ⟨u, hu, h0⟩))
    exact ⟨this.1, this.2.1⟩

theorem shells_answer (c : Scene) (fn : Fn) (a : List Str) : (c.answer fn "pam_shells.so".toList a = PAM_SUCCESS ↔ GoodShell c) ∧
    c.answer fn "pam_shells.so".toList a ≠ PAM_IGNORE := by
  rw [answer_shells]
  refine ⟨?_, ?_⟩
  · rw [Small.C86_answer]
    exact ⟨fun h => h.2, fun h => ⟨rfl, h⟩⟩
  · intro hi
    have hne : Small.shells c.accounts c.shellsCall ≠ PAM_SUCCESS := by rw [hi]; decide
    rcases Small.C86_codes _ _ hne with ⟨-, e⟩ | ⟨-, -, e⟩ | ⟨-, -, -, -, e⟩ | ⟨-, -, e⟩ <;> rw [hi] at e <;> exact absurd e (by decide)

theorem usual_of (c : Scene) (fn : Fn) (hc : Fine c) (ls : List Line) : Usual (c.answer fn) ls := fun l _ =>
  ⟨(settled_answer c fn hc.unix hc.rest l.path l.args).1, (settled_answer c fn hc.unix hc.rest l.path l.args).2.1⟩

/-- a requisite line at the beginning -/
theorem walk_requisite_cons (ans : Str → List Str → Int) (p : Str) (args : List Str) (rest : List Line) (w : List Str)
    (hr : ¬ Foreign (ans p args)) :
    (ans p args = PAM_SUCCESS ∨ ans p args = PAM_IGNORE → ∀ v, ∃ v', walk (traced ans) (⟨.requisite, p, args⟩ :: rest) v w =
      walk (traced ans) rest v' (w ++ [p])) ∧
    (ans p args ≠ PAM_SUCCESS → ans p args ≠ PAM_IGNORE → ans p args ≠ PAM_NEW_AUTHTOK_REQD → ∀ v,
      (walk (traced ans) (⟨.requisite, p, args⟩ :: rest) v w).2 = w ++ [p]) := by
  refine ⟨fun h v => ?_, fun h1 h2 h3 v => ?_⟩
  · rw [walk]
    have e : (traced ans p args w) = (ans p args, w ++ [p]) := rfl
    simp only [e]
    rcases h with h | h <;> simp only [h]
    · exact ⟨v.accept PAM_SUCCESS, by simp [Positive]⟩
    · exact ⟨v, by
        rw [if_neg (by decide : ¬ Positive PAM_IGNORE), if_neg (by decide : ¬ Foreign PAM_IGNORE)]; simp⟩
  · rw [walk]
    have e : (traced ans p args w) = (ans p args, w ++ [p]) := rfl
    have hp : ¬ Positive (ans p args) := fun h => h.elim h1 h3
    simp only [e, if_neg hp, if_neg hr, if_neg h2]

/-! ### The theorems -/

/-- C175: a service that the file does not name is refused everything; refused authentications and password changes are logged. -/
theorem C175_unknown (sys : Sys) (hs : HasShipped sys) (svc : Str) (hsvc : ∀ n ∈ shippedNames, ieq n.toList svc = false) (T : Tables)
    (hT : initHandlers sys svc = some T) (fn : Fn) (hf : fn.first = true) (c : Scene) (hc : Fine c) :
    c.call sys svc fn = some (refusal fn,
      if fn = .authenticate ∨ fn = .chauthtok then ["pam_deny.so".toList, "pam_warn.so".toList] else ["pam_deny.so".toList]) := by
  refine call_other c sys hs svc T hT fn hf hc.unix hc.rest ?_
  have hn : ∀ r ∈ shippedRows, ∃ n ∈ shippedNames, r.head? = some n := by decide +kernel
  have : confRows (fun w => ieq w svc && !ieq w otherName) shipped = [] := by
    rw [confRows_shipped, List.filterMap_eq_nil_iff]
    intro ws hws
    obtain ⟨r, hr, rfl⟩ := List.mem_map.mp hws
    obtain ⟨n, h1, h2⟩ := hn r hr
    rw [List.head?_map, h2]
    simp [hsvc n h1]
  unfold confLinesOf
  rw [this]
  rfl

theorem own_password : ∀ svc ∈ ["chfn", "chsh", "imap", "netatalk", "samba", "vlock", "xdm", "xlock"],
    shippedOwn svc .auth = some [must "pam_unix.so"] := by decide +kernel

theorem own_account : ∀ svc ∈ ["chfn", "chsh", "ftp", "imap", "netatalk", "rexec", "rlogin", "rsh", "samba", "su", "xdm"],
    shippedOwn svc .acct = some [must "pam_unix.so"] := by decide +kernel

theorem own_no_session : ∀ svc ∈ ["chfn", "chsh", "ftp", "imap", "netatalk", "passwd", "samba", "vlock", "xdm", "xlock"],
    shippedOwn svc .sess = some [] := by decide +kernel

theorem call_unix (sys : Sys) (hs : HasShipped sys) (svc : String) (T : Tables) (hT : initHandlers sys svc.toList = some T)
    (fn : Fn) (hf : fn.first = true) (c : Scene) (hc : Fine c) (ho : shippedOwn svc fn.mtype = some [must "pam_unix.so"]) :
    ∃ code, c.call sys svc.toList fn = some (code, ["pam_unix.so".toList]) ∧ (code = PAM_SUCCESS ↔ c.unix = PAM_SUCCESS) := by
  rw [call_own c sys hs svc T hT fn hf hc.unix hc.rest _ ho (by simp), walk_required]
  have : traced (c.answer fn) "pam_unix.so".toList [] [] = (c.unix, ["pam_unix.so".toList]) := by
    unfold traced; rw [answer_unix]; rfl
  rw [this]
  exact ⟨_, rfl, rstep_none_code c.unix⟩

/-- C175: where only the password counts -/
theorem C175_password (sys : Sys) (hs : HasShipped sys) (svc : String)
    (hsvc : svc ∈ ["chfn", "chsh", "imap", "netatalk", "samba", "vlock", "xdm", "xlock"]) (T : Tables)
    (hT : initHandlers sys svc.toList = some T) (c : Scene) (hc : Fine c) :
    ∃ code, c.call sys svc.toList .authenticate = some (code, ["pam_unix.so".toList]) ∧ (code = PAM_SUCCESS ↔ c.unix = PAM_SUCCESS) :=
  call_unix sys hs svc T hT .authenticate rfl c hc (own_password svc hsvc)

/-- C175: where only pam_unix decides about the account -/
theorem C175_account (sys : Sys) (hs : HasShipped sys) (svc : String)
    (hsvc : svc ∈ ["chfn", "chsh", "ftp", "imap", "netatalk", "rexec", "rlogin", "rsh", "samba", "su", "xdm"]) (T : Tables)
    (hT : initHandlers sys svc.toList = some T) (c : Scene) (hc : Fine c) :
    ∃ code, c.call sys svc.toList .acctMgmt = some (code, ["pam_unix.so".toList]) ∧ (code = PAM_SUCCESS ↔ c.unix = PAM_SUCCESS) :=
  call_unix sys hs svc T hT .acctMgmt rfl c hc (own_account svc hsvc)

/-- C175: the services of the file that can open no session, xdm and ftp among them: they have no session line, so `other` counts. -/
theorem C175_no_session (sys : Sys) (hs : HasShipped sys) (svc : String)
    (hsvc : svc ∈ ["chfn", "chsh", "ftp", "imap", "netatalk", "passwd", "samba", "vlock", "xdm", "xlock"]) (T : Tables)
    (hT : initHandlers sys svc.toList = some T) (c : Scene) (hc : Fine c) :
    c.call sys svc.toList .openSession = some (PAM_SESSION_ERR, ["pam_deny.so".toList]) := by
  rw [call_other c sys hs svc.toList T hT .openSession rfl hc.unix hc.rest
    (by unfold confLinesOf; rw [confRows_shipped]; exact own_no_session svc hsvc)]
  rfl

/-- a requisite line without arguments -/
abbrev gate (p : String) : Line := ⟨.requisite, p.toList, []⟩

theorem own_ftp : shippedOwn "ftp" .auth =
    some [⟨.requisite, "pam_listfile.so".toList, ftpArgs⟩, gate "pam_shells.so", must "pam_unix.so"] := by decide +kernel

/-- C175: ftp is for users who are not banned and have a shell of /etc/shells, with their password; nobody else is asked for one. -/
theorem C175_ftp (sys : Sys) (hs : HasShipped sys) (T : Tables) (hT : initHandlers sys "ftp".toList = some T) (c : Scene) (hc : Fine c) :
    ∃ code called, c.call sys "ftp".toList .authenticate = some (code, called) ∧
      (code = PAM_SUCCESS ↔ ¬ Banned c ∧ GoodShell c ∧ c.unix = PAM_SUCCESS) ∧
      ("pam_unix.so".toList ∈ called ↔ ¬ Banned c ∧ GoodShell c) := by
  rw [call_own c sys hs "ftp" T hT .authenticate rfl hc.unix hc.rest _ own_ftp (by simp)]
  refine ⟨_, _, rfl, ?_, ?_⟩
  · rw [walk_success _ _ (usual_of c .authenticate hc _)]
    simp only [shortcut_cons, allPass_cons, shortcut_nil, allPass_nil, Mandatory, reduceCtorEq, false_and, false_or, or_false, and_false,
      or_true, true_or, forall_const, and_true, List.mem_cons, List.not_mem_nil, exists_eq_or_imp, exists_false, answer_unix, hc.notIgnored]
    rw [answer_listfile]
    obtain ⟨b1, b2⟩ := shells_answer c .authenticate []
    obtain ⟨f1, f2⟩ := ftpusers_answer c
    simp only [b2, or_false, b1]
    by_cases hb : Banned c
    · rw [f1 hb]; simp only [hb, not_true_eq_false, false_and, iff_false]
      rintro ⟨⟨h | h, -⟩, -⟩ <;> exact absurd h (by decide)
    · rw [f2 hb]; simp [hb]
  · obtain ⟨b1, b2⟩ := shells_answer c .authenticate []
    obtain ⟨f1, f2⟩ := ftpusers_answer c
    have hset := fun p a => settled_answer c .authenticate hc.unix hc.rest p a
    by_cases hb : Banned c
    · rw [(walk_requisite_cons _ _ _ _ [] (hset _ _).1).2 (by rw [answer_listfile, f1 hb]; decide) (by rw [answer_listfile, f1 hb]; decide) (hset _ _).2.1]
      simp only [hb, not_true_eq_false, false_and, iff_false]
      decide
    · obtain ⟨v', e⟩ := (walk_requisite_cons _ "pam_listfile.so".toList ftpArgs [gate "pam_shells.so", must "pam_unix.so"] [] (hset _ _).1).1
        (by rw [answer_listfile, f2 hb]; exact Or.inl rfl) .none
      rw [e]
      by_cases hg : GoodShell c
      · obtain ⟨v'', e'⟩ := (walk_requisite_cons _ "pam_shells.so".toList [] [must "pam_unix.so"] ([] ++ ["pam_listfile.so".toList]) (hset _ _).1).1
          (Or.inl (b1.mpr hg)) v'
        rw [e', walk_required]
        simp [hb, hg, traced]
      · rw [(walk_requisite_cons _ _ _ _ _ (hset _ _).1).2 (fun h => hg (b1.mp h)) b2 (hset _ _).2.1]
        simp only [hg, and_false, iff_false]
        decide

theorem own_login : shippedOwn "login" .auth = some [gate "pam_securetty.so", must "pam_unix.so", ⟨.optional, "pam_group.so".toList, []⟩] := by
  decide +kernel

/-- C175: login is for users with their password, and for root only at a safe terminal; elsewhere root is not asked for the password. -/
theorem C175_login (sys : Sys) (hs : HasShipped sys) (T : Tables) (hT : initHandlers sys "login".toList = some T) (c : Scene) (hc : Fine c)
    (hcmd : FineCmdline c) :
    ∃ code called, c.call sys "login".toList .authenticate = some (code, called) ∧
      (code = PAM_SUCCESS ↔ SafeTerminal c ∧ c.unix = PAM_SUCCESS) ∧ ("pam_unix.so".toList ∈ called ↔ SafeTerminal c) := by
  rw [call_own c sys hs "login" T hT .authenticate rfl hc.unix hc.rest _ own_login (by simp)]
  obtain ⟨s1, s2⟩ := securetty_answer c hcmd .authenticate
  refine ⟨_, _, rfl, ?_, ?_⟩
  · rw [walk_success _ _ (usual_of c .authenticate hc _)]
    simp only [shortcut_cons, allPass_cons, shortcut_nil, allPass_nil, Mandatory, reduceCtorEq, false_and, false_or, or_false, and_false,
      or_true, true_or, forall_const, and_true, List.mem_cons, List.not_mem_nil, exists_eq_or_imp, exists_false, answer_unix, hc.notIgnored,
      false_implies]
    by_cases h : SafeTerminal c
    · rw [s1 h]; simp [h]
    · simp only [(s2 h).1, (s2 h).2, h, or_self, false_and]
  · have hset := fun p a => settled_answer c .authenticate hc.unix hc.rest p a
    by_cases h : SafeTerminal c
    · obtain ⟨v', e⟩ := (walk_requisite_cons _ "pam_securetty.so".toList [] [must "pam_unix.so", ⟨.optional, "pam_group.so".toList, []⟩] [] (hset _ _).1).1
        (Or.inl (s1 h)) .none
      rw [e, walk_required_cons]
      simp only [h, iff_true]
      have : ∀ (ls : List Line) v w, ∀ x ∈ w, x ∈ (walk (traced (c.answer .authenticate)) ls v w).2 := traced_keeps _
      exact this _ _ _ _ (by simp [traced])
    · rw [(walk_requisite_cons _ _ _ _ _ (hset _ _).1).2 (s2 h).1 (s2 h).2 (hset _ _).2.1]
      simp only [h, iff_false]
      decide

theorem own_su : shippedOwn "su" .auth = some [must "pam_wheel.so", ⟨.sufficient, "pam_rootok.so".toList, []⟩, must "pam_unix.so"] := by
  decide +kernel

/-- C175: su is for members of the group, who give the password unless they are root.  That holds for root too: root must be a member. -/
theorem C175_su (sys : Sys) (hs : HasShipped sys) (T : Tables) (hT : initHandlers sys "su".toList = some T) (c : Scene) (hc : Fine c)
    (target : Small.User) (htarget : c.accounts.pwnam c.user = some target)
    (u : Small.User) (hinv : Invoker c.accounts c.wheelCall [] u) (g : Small.Group) (hg : TheGroup c.accounts [] g)
    (hag : Agrees c.accounts u g) :
    ∃ code called, c.call sys "su".toList .authenticate = some (code, called) ∧
      (code = PAM_SUCCESS ↔ Belongs c.accounts u g ∧ (ByRoot c ∨ c.unix = PAM_SUCCESS)) := by
  rw [call_own c sys hs "su" T hT .authenticate rfl hc.unix hc.rest _ own_su (by simp)]
  refine ⟨_, _, rfl, ?_⟩
  obtain ⟨member, hm, hans⟩ := (((Small.C84_answer c.accounts c.wheelCall []).2.2 target rfl htarget).2 (by simp)).2 u hinv |>.2 g hg hag
  have hans' : Small.wheel c.accounts c.wheelCall [] = if member then PAM_IGNORE else PAM_PERM_DENIED := by
    rw [hans]; cases member <;> rfl
  rw [walk_success _ _ (usual_of c .authenticate hc _)]
  simp only [shortcut_cons, allPass_cons, shortcut_nil, allPass_nil, Mandatory, reduceCtorEq, false_and, false_or, or_false, and_false,
      or_true, true_or, forall_const, and_true, true_and, List.mem_cons, List.not_mem_nil, exists_eq_or_imp, exists_false, answer_unix, hc.notIgnored,
      false_implies, answer_wheel, answer_rootok, (Small.C88_rootok c.uid c.selinux).1, hans', ← hm]
  show _ ↔ _ ∧ ((c.uid = 0 ∧ c.selinux ≠ some false) ∨ _)
  generalize (c.uid = 0 ∧ c.selinux ≠ some false) = R
  have d1 : ¬ PAM_IGNORE = PAM_SUCCESS := by decide
  have d2 : ¬ PAM_PERM_DENIED = PAM_SUCCESS := by decide
  have d3 : ¬ PAM_PERM_DENIED = PAM_IGNORE := by decide
  cases member
  · simp [d2, d3]
  · simp only [if_true, d1, false_or, true_and]
    constructor
    · rintro (h | ⟨h, -⟩)
      · exact Or.inl h
      · exact Or.inr h
    · rintro (h | h)
      · exact Or.inl h
      · exact Or.inr ⟨h, Or.inr ⟨_, rfl, (answer_unix c _ _).trans h⟩⟩

theorem own_rlogin : shippedOwn "rlogin" .auth = some [gate "pam_securetty.so", gate "pam_nologin.so", must "pam_rhosts_auth.so"] := by
  decide +kernel

/-- C175: rlogin is never let in without login asking for the password: the module that the line names does not exist any more. -/
theorem C175_rlogin (sys : Sys) (hs : HasShipped sys) (T : Tables) (hT : initHandlers sys "rlogin".toList = some T) (c : Scene) (hc : Fine c) :
    ∃ code called, c.call sys "rlogin".toList .authenticate = some (code, called) ∧ code ≠ PAM_SUCCESS := by
  rw [call_own c sys hs "rlogin" T hT .authenticate rfl hc.unix hc.rest _ own_rlogin (by simp)]
  refine ⟨_, _, rfl, ?_⟩
  rw [ne_eq, walk_success _ _ (usual_of c .authenticate hc _)]
  have d1 : ¬ PAM_MODULE_UNKNOWN = PAM_SUCCESS := by decide
  have d2 : ¬ PAM_MODULE_UNKNOWN = PAM_IGNORE := by decide
  simp only [shortcut_cons, allPass_cons, shortcut_nil, allPass_nil, Mandatory, reduceCtorEq, false_and, false_or, or_false, and_false,
      or_true, true_or, forall_const, and_true, answer_rhosts_auth, d1, d2, not_false_eq_true]

theorem own_rsh : ∀ svc ∈ ["rexec", "rsh"], shippedOwn svc .auth = some [gate "pam_securetty.so", gate "pam_nologin.so",
    ⟨.sufficient, "pam_rhosts_auth.so".toList, []⟩, must "pam_unix.so"] := by decide +kernel

/-- C175: rexec and rsh always want the password, and the two gates must be open. -/
theorem C175_rsh (sys : Sys) (hs : HasShipped sys) (svc : String) (hsvc : svc ∈ ["rexec", "rsh"]) (T : Tables)
    (hT : initHandlers sys svc.toList = some T) (c : Scene) (hc : Fine c) (hcmd : FineCmdline c) (hno : FineNologin c) :
    ∃ code called, c.call sys svc.toList .authenticate = some (code, called) ∧
      (code = PAM_SUCCESS ↔ SafeTerminal c ∧ Open c ∧ c.unix = PAM_SUCCESS) := by
  rw [call_own c sys hs svc T hT .authenticate rfl hc.unix hc.rest _ (own_rsh svc hsvc) (by simp)]
  refine ⟨_, _, rfl, ?_⟩
  obtain ⟨s1, s2⟩ := securetty_answer c hcmd .authenticate
  obtain ⟨n1, n2⟩ := nologin_answer c hno .authenticate
  have d1 : ¬ PAM_MODULE_UNKNOWN = PAM_SUCCESS := by decide
  have d2 : ¬ PAM_IGNORE = PAM_SUCCESS := by decide
  rw [walk_success _ _ (usual_of c .authenticate hc _)]
  simp only [shortcut_cons, allPass_cons, shortcut_nil, allPass_nil, Mandatory, reduceCtorEq, false_and, false_or, or_false, and_false,
      or_true, true_or, forall_const, and_true, true_and, List.mem_cons, List.not_mem_nil, exists_eq_or_imp, exists_false, answer_unix, hc.notIgnored,
      false_implies, answer_rhosts_auth, d1]
  by_cases h : SafeTerminal c
  · rw [s1 h]
    by_cases hn : Open c
    · rw [n1 hn]; simp [h, hn]
    · simp only [(n2 hn).1, (n2 hn).2, hn, or_self, false_and, and_false]
  · simp only [(s2 h).1, (s2 h).2, h, or_self, false_and]

/-! ### The hypotheses can be met -/

/-- a user at a terminal who knows the password -/
def sceneOf (who : String) (uid : Nat) (target : String) (tty : String) : Scene where
  accounts := Small.wheelAccounts
  user := target.toList
  uid := uid
  login := some who.toList
  rhost := none
  ruser := none
  selinux := none
  tty := some tty.toList
  lstat := fun _ => some (false, true)
  list := fun _ => some "root\nuucp\n".toList
  nologin := fun _ => none
  secureStat := some (false, true)
  secureText := some "tty1\n".toList
  cmdline := some "ro quiet splash".toList
  active := some "tty0\n".toList
  shellsStat := some (false, true)
  shellsText := some "/bin/sh\n".toList
  unix := PAM_SUCCESS
  rest := fun _ _ => PAM_SUCCESS

theorem shipped_loads : ∃ T, initHandlers (exConf shipped) "su".toList = some T := Option.isSome_iff_exists.mp (by decide +kernel)

theorem shipped_has : HasShipped (exConf shipped) := ⟨by decide, by show (if pamConf = pamConf then some shipped else none) = _; rw [if_pos rfl]⟩

theorem scene_fine (who : String) (uid : Nat) (target : String) (tty : String) : Fine (sceneOf who uid target tty) :=
  ⟨(by decide : Settled PAM_SUCCESS), (by decide : PAM_SUCCESS ≠ PAM_IGNORE), fun _ _ => (by decide : Settled PAM_SUCCESS)⟩

/-- root is on the list of ftp, ann is not -/
example : Banned (sceneOf "root" 0 "root" "tty1") ∧ ¬ Banned (sceneOf "ann" 1000 "ann" "tty1") := by
  refine ⟨Classical.byContradiction fun h => ?_, fun h => ?_⟩
  · exact absurd ((ftpusers_answer _).2 h) (by decide +kernel)
  · exact absurd ((ftpusers_answer _).1 h) (by decide +kernel)

example : FineCmdline (sceneOf "root" 0 "root" "tty1") ∧ FineNologin (sceneOf "root" 0 "root" "tty1") := by
  refine ⟨?_, ?_⟩
  · intro t tty h1 h2 line hl
    cases h1; cases hl
    refine ⟨by decide, Or.inr ?_⟩
    rcases h2 with h | ⟨h, -⟩
    · exact absurd (List.isPrefixOf_iff_prefix.mpr (⟨tty, h.symm⟩ : "/dev/".toList <+: "tty1".toList)) (by decide)
    · subst h; decide
  · rintro f (⟨p, -, h⟩ | ⟨-, h | ⟨-, h⟩⟩) <;> cases h

/-- root, who is not in the group wheel of these accounts, may not use su, although pam_rootok agrees -/
example : ∃ code called, (sceneOf "root" 0 "ann" "tty1").call (exConf shipped) "su".toList .authenticate = some (code, called) ∧ code ≠ PAM_SUCCESS := by
  obtain ⟨T, hT⟩ := shipped_loads
  obtain ⟨code, called, h1, h2⟩ := C175_su (exConf shipped) shipped_has T hT (sceneOf "root" 0 "ann" "tty1") (scene_fine ..)
    ⟨"ann".toList, 1000, 100, []⟩ rfl ⟨"root".toList, 0, 0, []⟩
    (by unfold Invoker; rw [if_neg (by decide)]; exact ⟨"root".toList, rfl, Or.inl rfl⟩)
    ⟨"wheel".toList, 10, ["ann".toList]⟩ (Or.inr ⟨Or.inl nofun, Or.inl rfl⟩) ⟨rfl, rfl⟩
  refine ⟨code, called, h1, fun h => ?_⟩
  exact absurd (h2.mp h).1 (by show ¬ Belongs Small.wheelAccounts _ _; unfold Belongs; decide)

end Pam.Stack
