import Verif.Whole.LoginProps
import Verif.Whole.AcctCall
import Verif.Unix.CallFlags
/-
Property theorems C177: pam_authenticate and pam_acct_mgmt with pam_unix.
-/
namespace Pam.Whole
open Pam Pam.Handle
open Pam.Stack (rstep)

variable {W : Type}

/-! ### helper lemmas -/

/-- the messages for a remark -/
def saidOf : Option Unix.Remark → List (Style × Str)
  | none => []
  | some r => [(if (remarkOf r).1 then .error else .info, (remarkOf r).2)]

theorem uttered_talk (cv : Convs W) (msg : Option Unix.Remark) (s : S W) :
    ∃ ts, (uttered cv msg s).talk = s.talk ++ ts ∧ messages ts = saidOf msg := by
  cases msg with
  | none => exact ⟨[], (List.append_nil _).symm, rfl⟩
  | some r => exact ⟨_, rfl, rfl⟩

theorem quiet_ctrl {H : Host} {flags : Nat} {args : List Str} {ctrl : Unix.Ctrl} (h : unixCtrl H flags args = some ctrl) :
    Unix.on Unix.UNIX__QUIET ctrl = flags.testBit 15 := by
  unfold unixCtrl at h
  obtain ⟨o, ho, rfl⟩ := Option.map_eq_some_iff.mp h
  exact (Unix.C72_call _ _ _ _ _ _ _ _ ho).1

theorem remark_soon {days : Int} {n : Nat} (h : days = n) : remarkOf (.warn days) = (false, "Warning: your password will expire in ".toList ++ (toString n).toList ++
    (if n = 1 then " day.".toList else " days.".toList)) := by
  subst h
  unfold remarkOf
  have e : (((n : Int) = 1)) = (n = 1) := by apply propext; omega
  simp only [e]
  rfl

/-- what pam_unix says of an account, on a machine in order -/
theorem acct_code {H : Host} {shadow : Str → Option Unix.Sp} {name : Str} (hH : Healthy H shadow name) {flags : Nat} {args : List Str}
    (hbroken : Lacks args "broken_shadow") {ctrl : Unix.Ctrl} (hc : unixCtrl H flags args = some ctrl) (saved : Option Int)
    (hw : ¬ Unix.Waived ctrl saved) :
    ∃ code msg, Unix.acctMgmt H.sys H.bin (H.luck 4) H.proc ctrl saved (some name) = some (code, msg) ∧ code ≠ PAM_INCOMPLETE ∧
      (rstep .none code).code = code ∧ (code = PAM_SUCCESS ↔ InOrder H shadow name) ∧
      (code = PAM_ACCT_EXPIRED ↔ ∃ e, Ages H shadow name e ∧ Unix.Closed e H.sys.today) ∧
      (code = PAM_AUTHTOK_EXPIRED ↔ ∃ e, Ages H shadow name e ∧ Unix.TooLate e H.sys.today) ∧
      (code = PAM_NEW_AUTHTOK_REQD ↔ ∃ e, Ages H shadow name e ∧ Unix.MustChange e H.sys.today) ∧
      (flags.testBit 15 = true → msg = none) ∧ ((∀ e, ¬ Ages H shadow name e) → msg = none) ∧
      (flags.testBit 15 = false → ∀ e, Ages H shadow name e → Told e H.sys.today (saidOf msg)) := by
  obtain ⟨ctrl', c1, -, c3⟩ := ctrl_of H flags args
  rw [hc] at c1
  have e := Option.some.inj c1
  subst e
  have hbs : Unix.on Unix.UNIX_BROKEN_SHADOW ctrl = false := by
    have := c3 "broken_shadow".toList Unix.UNIX_BROKEN_SHADOW (by decide)
    cases hx : Unix.on Unix.UNIX_BROKEN_SHADOW ctrl with
    | false => rfl
    | true =>
      obtain ⟨a, ha, hp⟩ := this.mp hx
      exact absurd hp (hbroken a ha)
  obtain ⟨k1, k2⟩ := Unix.C76_answer H.sys H.bin (H.luck 4) (hH.fine 4) H.proc ctrl saved name shadow hH.reads hH.trusted hH.day
  cases hp : H.sys.pwnam name with
  | none =>
    have na : ∀ e, ¬ Ages H shadow name e := by
      rintro e ⟨pw, sp, a, -⟩
      rw [hp] at a; cases a
    refine ⟨_, _, k1 hp, by decide, by decide, ⟨fun h => absurd h (by decide), ?_⟩, ⟨fun h => absurd h (by decide), fun ⟨e, h, _⟩ => absurd h (na e)⟩,
      ⟨fun h => absurd h (by decide), fun ⟨e, h, _⟩ => absurd h (na e)⟩, ⟨fun h => absurd h (by decide), fun ⟨e, h, _⟩ => absurd h (na e)⟩,
      fun _ => rfl, fun _ => rfl, fun _ e h => absurd h (na e)⟩
    rintro (⟨pw, a, -⟩ | ⟨e, a, -⟩)
    · rw [hp] at a; cases a
    · exact absurd a (na e)
  | some pw =>
    obtain ⟨k3, k4, k5⟩ := k2 pw hp
    by_cases hs : pw.Shadowed
    · cases hsp : shadow name with
      | none =>
        have na : ∀ e, ¬ Ages H shadow name e := by
          rintro e ⟨pw, sp, -, -, a, -⟩
          rw [hsp] at a; cases a
        have := k4 hs hsp
        rw [hbs] at this
        refine ⟨_, _, this, by decide, by decide, ⟨fun h => absurd h (by decide), ?_⟩, ⟨fun h => absurd h (by decide), fun ⟨e, h, _⟩ => absurd h (na e)⟩,
          ⟨fun h => absurd h (by decide), fun ⟨e, h, _⟩ => absurd h (na e)⟩, ⟨fun h => absurd h (by decide), fun ⟨e, h, _⟩ => absurd h (na e)⟩,
          fun _ => rfl, fun _ => rfl, fun _ e h => absurd h (na e)⟩
        rintro (⟨pw', a, b⟩ | ⟨e, a, -⟩)
        · rw [hp] at a; cases a; exact absurd hs b
        · exact absurd a (na e)
      | some sp =>
        obtain ⟨code, msg, a1, a2, a3, a4, a5, a6, a7⟩ := k5 hs sp hsp (hH.aging sp hsp)
        have hag : ∀ e, Ages H shadow name e ↔ e = sp.aging := by
          intro e
          constructor
          · rintro ⟨pw', sp', -, -, x, y⟩
            rw [hsp] at x; cases x; exact y.symm
          · rintro rfl; exact ⟨pw, sp, hp, hs, hsp, rfl⟩
        have hex : ∀ P : Unix.Aging → Prop, (∃ e, Ages H shadow name e ∧ P e) ↔ P sp.aging := by
          intro P
          constructor
          · rintro ⟨e, x, y⟩; rw [(hag e).mp x] at y; exact y
          · intro y; exact ⟨_, (hag _).mpr rfl, y⟩
        have hin : InOrder H shadow name ↔ ¬ Unix.Closed sp.aging H.sys.today ∧ ¬ Unix.TooLate sp.aging H.sys.today ∧ ¬ Unix.MustChange sp.aging H.sys.today := by
          unfold InOrder
          rw [hex fun e => ¬ Unix.Closed e H.sys.today ∧ ¬ Unix.TooLate e H.sys.today ∧ ¬ Unix.MustChange e H.sys.today]
          constructor
          · rintro (⟨pw', a, b⟩ | h)
            · rw [hp] at a; cases a; exact absurd hs b
            · exact h
          · exact Or.inr
        have h5 : code = PAM_SUCCESS ↔ InOrder H shadow name := by
          rw [hin, a5]
          constructor
          · rintro ⟨x, y | y⟩
            · exact ⟨x, y⟩
            · exact absurd y hw
          · rintro ⟨x, y⟩; exact ⟨x, Or.inl y⟩
        have h3 : code = PAM_AUTHTOK_EXPIRED ↔ Unix.TooLate sp.aging H.sys.today := by rw [a3]; exact ⟨fun x => x.1, fun x => ⟨x, hw⟩⟩
        have h4 : code = PAM_NEW_AUTHTOK_REQD ↔ Unix.MustChange sp.aging H.sys.today := by rw [a4]; exact ⟨fun x => x.1, fun x => ⟨x, hw⟩⟩
        have hall : code = PAM_ACCT_EXPIRED ∨ code = PAM_AUTHTOK_EXPIRED ∨ code = PAM_NEW_AUTHTOK_REQD ∨ code = PAM_SUCCESS := by
          rw [a2, h3, h4, h5, hin]
          by_cases x : Unix.Closed sp.aging H.sys.today
          · exact Or.inl x
          · by_cases y : Unix.TooLate sp.aging H.sys.today
            · exact Or.inr (Or.inl y)
            · by_cases z : Unix.MustChange sp.aging H.sys.today
              · exact Or.inr (Or.inr (Or.inl z))
              · exact Or.inr (Or.inr (Or.inr ⟨x, y, z⟩))
        refine ⟨code, msg, a1, ?_, ?_, h5, by rw [hex fun e => Unix.Closed e H.sys.today]; exact a2, by rw [hex fun e => Unix.TooLate e H.sys.today]; exact h3,
          by rw [hex fun e => Unix.MustChange e H.sys.today]; exact h4, fun hq => a6 ((quiet_ctrl hc).trans hq), fun hn => absurd ((hag _).mpr rfl) (hn _), ?_⟩
        · rcases hall with h | h | h | h <;> rw [h] <;> decide
        · rcases hall with h | h | h | h <;> rw [h] <;> decide
        · intro hq e he
          rw [(hag e).mp he]
          obtain ⟨b1, b2, b3⟩ := a7 (by unfold Unix.off; have := (quiet_ctrl hc).trans hq; rw [this]; rfl)
          by_cases x : Unix.Closed sp.aging H.sys.today ∨ Unix.TooLate sp.aging H.sys.today
          · rw [b1 (by rw [a2, h3]; exact x)]
            exact .expired x
          · have x1 : ¬ Unix.Closed sp.aging H.sys.today := fun h => x (Or.inl h)
            have x2 : ¬ Unix.TooLate sp.aging H.sys.today := fun h => x (Or.inr h)
            by_cases z : Unix.MustChange sp.aging H.sys.today
            · rw [b2 (h4.mpr z)]
              by_cases y : sp.aging.lstchg = 0
              · rw [if_pos y]; exact .enforced z y
              · rw [if_neg y]; exact .aged z y
            · by_cases y : Unix.Counting sp.aging H.sys.today ∧ Unix.WarnTime sp.aging H.sys.today
              · rw [(b3 x1 x2 z).1 y]
                have hold : ¬ Unix.Old sp.aging H.sys.today := by
                  intro ho
                  by_cases hd : Unix.Dead sp.aging H.sys.today
                  · exact x2 ⟨x1, y.1, hd⟩
                  · exact z ⟨x1, Or.inr ⟨y.1, ho, hd⟩⟩
                have hnn : sp.aging.lstchg + sp.aging.max - H.sys.today = ((sp.aging.lstchg + sp.aging.max - H.sys.today).toNat : Int) := by
                  have h0 := y.2.1
                  have : ¬ sp.aging.lstchg + sp.aging.max ≤ H.sys.today := fun hle => hold ⟨h0, hle⟩
                  omega
                show Told _ _ [(if (remarkOf _).1 then Style.error else .info, (remarkOf _).2)]
                rw [remark_soon hnn]
                exact .soon _ x1 x2 z y.1 y.2 (by omega)
              · rw [(b3 x1 x2 z).2 y]
                exact .nothing x1 x2 z y
    · have na : ∀ e, ¬ Ages H shadow name e := by
        rintro e ⟨pw', sp, a, b, -⟩
        rw [hp] at a; cases a; exact hs b
      refine ⟨_, _, k3 hs, by decide, by decide, ⟨fun _ => Or.inl ⟨pw, hp, hs⟩, fun _ => rfl⟩, ⟨fun h => absurd h (by decide), fun ⟨e, h, _⟩ => absurd h (na e)⟩,
        ⟨fun h => absurd h (by decide), fun ⟨e, h, _⟩ => absurd h (na e)⟩, ⟨fun h => absurd h (by decide), fun ⟨e, h, _⟩ => absurd h (na e)⟩,
        fun _ => rfl, fun _ => rfl, fun _ e h => absurd h (na e)⟩

/-- C177: pam_acct_mgmt after a successful pam_authenticate: it says whether the account may be used today, whatever arguments
but `broken_shadow` are given to it; `no_pass_expiry` changes nothing for a user let in by this module.  Unless the call is
silent, the user is told why not, or that the password is to expire; nothing else is said, and nothing is asked. -/
theorem C177_account (lib : Lib W) (host : W → Host) (hst : Still host lib) (service : Str) (args acctArgs : List Str)
    (hline : OneLine lib service .authenticate (unixAuth host) args) (hfirst : Lacks args "use_first_pass")
    (hacct : OneLine lib service .acctMgmt (unixAcct host) acctArgs) (hbroken : Lacks acctArgs "broken_shadow")
    (user : Option Str) (conv : Nat) (w : W) (h : Handle W) (hs : start lib service user conv w = some h)
    (name : Str) (w1 : W) (talk1 : List Talk) (hk : Knows lib conv w user name w1 talk1)
    (shadow : Str → Option Unix.Sp) (hH : Healthy (host w) shadow name) (flags aflags : Nat)
    (hend : Ends (host w) flags args name (tokOf (lib.conv conv .echoOff "Password: ".toList w1).1))
    (h1 : Handle W) (hauth : run lib .authenticate flags h = some (PAM_SUCCESS, h1)) :
    ∃ code h2, run lib .acctMgmt aflags h1 = some (code, h2) ∧
      (code = PAM_SUCCESS ↔ InOrder (host w) shadow name) ∧
      (code = PAM_ACCT_EXPIRED ↔ ∃ e, Ages (host w) shadow name e ∧ Unix.Closed e (host w).sys.today) ∧
      (code = PAM_AUTHTOK_EXPIRED ↔ ∃ e, Ages (host w) shadow name e ∧ Unix.TooLate e (host w).sys.today) ∧
      (code = PAM_NEW_AUTHTOK_REQD ↔ ∃ e, Ages (host w) shadow name e ∧ Unix.MustChange e (host w).sys.today) ∧
      ∃ said, h2.m.s.talk = h1.m.s.talk ++ said ∧ (aflags.testBit 15 = true → said = []) ∧
        ((∀ e, ¬ Ages (host w) shadow name e) → said = []) ∧
        (aflags.testBit 15 = false → ∀ e, Ages (host w) shadow name e → Told e (host w).sys.today (messages said)) := by
  obtain ⟨ctrl, c1, -⟩ := ctrl_of (host w) flags args
  obtain ⟨actrl, d1, -⟩ := ctrl_of (host w) aflags acctArgs
  obtain ⟨r, h', -, a1, a2, ⟨x1, x2, x3, x4, hx⟩, a4, a5, -, -, a8⟩ := login_core hst hline hfirst hs hk c1 hend
  rw [a1] at hauth
  have e := Option.some.inj hauth
  have e1 : r.code = PAM_SUCCESS := congrArg Prod.fst e
  have e2 : h' = h1 := congrArg Prod.snd e
  subst e2
  rw [e1] at a8
  have hw' : host h'.m.s.world = host w := by
    rw [a5]
    split
    · rw [hst, a4]
    · exact a4
  have hwaived : ¬ Unix.Waived actrl (heeded actrl h'.inner) := by
    rintro ⟨y1, y2⟩
    unfold heeded at y2
    rw [if_pos y1, a8] at y2
    exact y2 rfl
  obtain ⟨path, hl, hm⟩ := hacct.line
  obtain ⟨code, msg, k1, k2, k3, k4, k5, k6, k7, k8, k9, k10⟩ := acct_code hH hbroken d1 (heeded actrl h'.inner) hwaived
  obtain ⟨h2, b1, -, -, -, b5⟩ := acct_named a2 hacct.dir hacct.own path acctArgs hl hm aflags (name := name) (by rw [hw']; exact d1) (by rw [hx]) (by rw [hw']; exact k1) k2
  rw [k3] at b1
  obtain ⟨ts, t1, t2⟩ := uttered_talk lib.conv msg h'.m.s
  have hnil : msg = none → ts = [] := by
    intro hm
    rw [hm] at t2
    exact List.map_eq_nil_iff.mp t2
  exact ⟨code, h2, b1, k4, k5, k6, k7, ts, by rw [b5, t1], fun q => hnil (k8 q), fun q => hnil (k9 q), fun q e he => by rw [t2]; exact k10 q e he⟩

/-- C177 (a user another way let in): pam_acct_mgmt on a new handle, without pam_authenticate: the same, unless `no_pass_expiry` is
given. -/
theorem C177_alone (lib : Lib W) (host : W → Host) (service : Str) (acctArgs : List Str)
    (hacct : OneLine lib service .acctMgmt (unixAcct host) acctArgs) (hbroken : Lacks acctArgs "broken_shadow") (hexp : Lacks acctArgs "no_pass_expiry")
    (conv : Nat) (w : W) (h : Handle W) (name : Str) (hs : start lib service (some name) conv w = some h)
    (shadow : Str → Option Unix.Sp) (hH : Healthy (host w) shadow name) (aflags : Nat) :
    ∃ code h2, run lib .acctMgmt aflags h = some (code, h2) ∧
      (code = PAM_SUCCESS ↔ InOrder (host w) shadow name) ∧
      (code = PAM_ACCT_EXPIRED ↔ ∃ e, Ages (host w) shadow name e ∧ Unix.Closed e (host w).sys.today) ∧
      (code = PAM_AUTHTOK_EXPIRED ↔ ∃ e, Ages (host w) shadow name e ∧ Unix.TooLate e (host w).sys.today) ∧
      (code = PAM_NEW_AUTHTOK_REQD ↔ ∃ e, Ages (host w) shadow name e ∧ Unix.MustChange e (host w).sys.today) ∧
      (aflags.testBit 15 = true → h2.m.s.talk = []) ∧ ((∀ e, ¬ Ages (host w) shadow name e) → h2.m.s.talk = []) ∧
      (aflags.testBit 15 = false → ∀ e, Ages (host w) shadow name e → Told e (host w).sys.today (messages h2.m.s.talk)) := by
  obtain ⟨hr, hw, ht, hi, -⟩ := start_ready hs
  obtain ⟨actrl, d1, -, d3⟩ := ctrl_of (host w) aflags acctArgs
  have hwaived : ¬ Unix.Waived actrl (heeded actrl h.inner) := by
    rintro ⟨y1, -⟩
    have := d3 "no_pass_expiry".toList Unix.UNIX_NO_PASS_EXPIRY (by decide)
    obtain ⟨a, ha, hp⟩ := this.mp y1
    exact absurd hp (hexp a ha)
  obtain ⟨path, hl, hm⟩ := hacct.line
  obtain ⟨code, msg, k1, k2, k3, k4, k5, k6, k7, k8, k9, k10⟩ := acct_code hH hbroken d1 (heeded actrl h.inner) hwaived
  obtain ⟨h2, b1, -, -, -, b5⟩ := acct_named hr hacct.dir hacct.own path acctArgs hl hm aflags (name := name) (by rw [hw]; exact d1) (by rw [hi]) (by rw [hw]; exact k1) k2
  rw [k3] at b1
  obtain ⟨ts, t1, t2⟩ := uttered_talk lib.conv msg h.m.s
  have hts : h2.m.s.talk = ts := by rw [b5, t1, ht]; rfl
  have hnil : msg = none → ts = [] := by
    intro hm
    rw [hm] at t2
    exact List.map_eq_nil_iff.mp t2
  exact ⟨code, h2, b1, k4, k5, k6, k7, fun q => by rw [hts]; exact hnil (k8 q), fun q => by rw [hts]; exact hnil (k9 q),
    fun q e he => by rw [hts, t2]; exact k10 q e he⟩

end Pam.Whole
