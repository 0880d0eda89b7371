import Verif.Whole.LoginProps
/-
Property theorems C178: pam_authenticate called again and again with pam_unix.
-/
namespace Pam.Whole
open Pam Pam.Handle

variable {W : Type}

/-- calls of pam_authenticate one after the other on a handle, with their codes, the last one first -/
inductive Calls (lib : Lib W) (h : Handle W) : List Int → Handle W → Prop
  | none : Calls lib h [] h
  | more {codes : List Int} {h1 h2 : Handle W} (flags : Nat) (code : Int) :
      Calls lib h codes h1 → run lib .authenticate flags h1 = some (code, h2) → Calls lib h (code :: codes) h2

/-- how many of the last calls failed -/
def failing (codes : List Int) : Nat := (codes.takeWhile (fun c => decide (c ≠ PAM_SUCCESS))).length

/-! ### helper lemmas -/

theorem streak_failing (name : Str) : ∀ codes : List Int, Unix.streak name (codes.map fun c => (name, c)) = failing codes
  | [] => rfl
  | c :: cs => by
    have ih := streak_failing name cs
    unfold failing at ih ⊢
    simp only [List.map_cons, Unix.streak, if_true]
    by_cases hc : c = PAM_SUCCESS
    · rw [if_pos hc, List.takeWhile_cons_of_neg (by simpa using hc)]; rfl
    · rw [if_neg hc, List.takeWhile_cons_of_pos (by simpa using hc), ih]; rfl

theorem blank_strict {s : Unix.Sys} {b : Unix.Bin} {l : Nat → Unix.Luck} {p : Unix.Proc} {ctrl : Unix.Ctrl} {name : Str}
    (h1 : Unix.on Unix.UNIX__NONULL ctrl = true) (h2 : Unix.on Unix.UNIX_NULLRESETOK ctrl = false) :
    Unix.blankPasswd s b l p ctrl name = some (false, []) := by
  have : Unix.resetCtrl s b (l 0) p ctrl name = some ctrl := by
    unfold Unix.resetCtrl
    rw [h2]
    simp
  unfold Unix.blankPasswd
  rw [this]
  simp only [Option.bind_eq_bind, Option.bind_some]
  rw [if_pos h1]

/-- the machine, the arguments and the application for C178 -/
structure Strict (lib : Lib W) (host : W → Host) (service : Str) (args : List Str) (conv : Nat) (name : Str) (w : W) : Prop where
  still : Still host lib
  line : OneLine lib service .authenticate (unixAuth host) args
  nullok : Lacks args "nullok"
  reset : Lacks args "nullresetok"
  first : Lacks args "use_first_pass"
  sign : name.head? ≠ some '-' ∧ name.head? ≠ some '+'
  answers : ∀ w1, ∃ pw w2, lib.conv conv .echoOff "Password: ".toList w1 = ((PAM_SUCCESS, some (some pw)), w2) ∧
    ∀ flags, Ends (host w) flags args name (PAM_SUCCESS, pw)
  buf : ∀ i, ((host w).luck i).buf.length = 513

theorem same_user {i : Inner} {name : Str} (h : i.user = some name) : i = { i with user := some name } := by
  cases i
  cases h
  rfl

/-- one call -/
theorem strict_call {lib : Lib W} {host : W → Host} {service : Str} {args : List Str} {conv : Nat} {name : Str} {w : W}
    (hS : Strict lib host service args conv name w) {h : Handle W} (hr : Ready lib (serviceName service) h) (hu : h.inner.user = some name)
    (hconv : h.inner.conv = conv) (hw : host h.m.s.world = host w) (flags : Nat) :
    ∃ ctrl pw code h', run lib .authenticate flags h = some (code, h') ∧ Ready lib (serviceName service) h' ∧ h'.inner.user = some name ∧
      h'.inner.conv = conv ∧ host h'.m.s.world = host w ∧
      Unix.verifyPassword (host w).sys (host w).bin ((host w).luck 3) (host w).proc ctrl (failsOf h.inner) name pw = some (code, failsOf h'.inner) ∧
      h'.m.s.talk = h.m.s.talk ++ [⟨.echoOff, "Password: ".toList, PAM_SUCCESS, some pw⟩] ∧
      (lib.conv conv .echoOff "Password: ".toList h.m.s.world).1 = (PAM_SUCCESS, some (some pw)) ∧
      Unix.on Unix.UNIX__NONULL ctrl = true ∧ Unix.on Unix.UNIX_NULLRESETOK ctrl = false ∧
      Unix.authenticate (host w).sys (host w).bin (host w).luck (host w).proc ctrl (failsOf h.inner) (PAM_SUCCESS, name) (PAM_SUCCESS, pw) =
        some ⟨code, failsOf h'.inner, true⟩ := by
  obtain ⟨ctrl, c1, c2, c3⟩ := ctrl_of (host w) flags args
  have hnr : Unix.on Unix.UNIX_NULLRESETOK ctrl = false := by
    have := c3 "nullresetok".toList Unix.UNIX_NULLRESETOK (by decide)
    cases hx : Unix.on Unix.UNIX_NULLRESETOK ctrl with
    | false => rfl
    | true =>
      obtain ⟨a, ha, hp⟩ := this.mp hx
      exact absurd hp (hS.reset a ha)
  have hon : Unix.on Unix.UNIX__NONULL ctrl = true := by
    have hoff : Unix.off Unix.UNIX__NONULL ctrl = false := by
      cases hx : Unix.off Unix.UNIX__NONULL ctrl with
      | false => rfl
      | true =>
        obtain ⟨⟨a, ha, hp⟩, -⟩ := c2.mp hx
        exact absurd hp (hS.nullok a ha)
    unfold Unix.off at hoff
    simpa using hoff
  obtain ⟨path, hl, hm⟩ := hS.line.line
  obtain ⟨pw, w2, hans, hends⟩ := hS.answers h.m.s.world
  have hst := onStage_eq (args := args) hr.idle
  have hworld : (onStage args h).world = h.m.s.world := by rw [hst]
  obtain ⟨r, hauth⟩ := authenticate_fails (fun _ => 0) (failsOf h.inner) (hends flags ctrl c1)
  have hauth' := hauth
  have htok : tokOf (lib.conv h.inner.conv .echoOff "Password: ".toList (onStage args h).world).1 = (PAM_SUCCESS, pw) := by
    rw [hconv, hworld, hans]; rfl
  rw [← hw, ← htok] at hauth
  obtain ⟨h', a1, a2, ⟨x1, x2, x3, x4, hx⟩, a4, a5, a6, -⟩ := authenticate_named hS.still hr hS.line.dir hS.line.own path args hl hm (lacks_option hS.first) flags
    (by rw [hw]; exact c1) (getUser_known (by rw [hst]; exact hu)) (same_user (by rw [hst]; exact hu)) (by rw [hworld]) hauth
  have hauth2 := hauth'
  unfold Unix.authenticate at hauth'
  rw [if_pos rfl, if_neg (by rintro (x | x); exact hS.sign.1 x; exact hS.sign.2 x), blank_strict hon hnr] at hauth'
  dsimp only at hauth'
  rw [if_neg (by simp)] at hauth'
  obtain ⟨q, hq, rfl⟩ := Option.map_eq_some_iff.mp hauth'
  dsimp only at a1 a4 a5 a6
  rw [if_pos rfl] at a4 a5
  refine ⟨ctrl, pw, q.1, h', a1, a2, by rw [hx], by rw [hx]; exact hconv, ?_, by rw [a6]; exact hq, ?_, by rw [hans], hon, hnr, by rw [a6]; exact hauth2⟩
  · rw [a4, hS.still, hworld, hw]
  · rw [a5, hconv, hworld, hans, hst]; rfl

theorem calls_inv {lib : Lib W} {host : W → Host} {service : Str} {args : List Str} {conv : Nat} {name : Str} {w : W}
    (hS : Strict lib host service args conv name w) {h : Handle W} (hs : start lib service (some name) conv w = some h) {codes : List Int} {h1 : Handle W}
    (hc : Calls lib h codes h1) : Ready lib (serviceName service) h1 ∧ h1.inner.user = some name ∧ h1.inner.conv = conv ∧ host h1.m.s.world = host w ∧
      Unix.Attempts (codes.map fun c => (name, c)) (failsOf h1.inner) ∧ h1.m.s.talk.length = codes.length := by
  obtain ⟨hr, hw, ht, hi, -⟩ := start_ready hs
  induction hc with
  | none =>
    refine ⟨hr, by rw [hi], by rw [hi], by rw [hw], ?_, by rw [ht]; rfl⟩
    have : failsOf h.inner = fun _ => 0 := by rw [hi]; rfl
    rw [this]
    exact .none
  | more flags code _ hrun ih =>
    obtain ⟨i1, i2, i3, i4, i5, i6⟩ := ih
    obtain ⟨ctrl, pw, code', h', a1, a2, a3, a4, a5, a6, a7, -⟩ := strict_call hS i1 i2 i3 i4 flags
    rw [hrun] at a1
    have e := Option.some.inj a1
    have e1 : code = code' := congrArg Prod.fst e
    have e2 : _ = h' := congrArg Prod.snd e
    subst e1
    subst e2
    exact ⟨a2, a3, a4, a5, .more _ _ _ _ _ _ _ _ i5 (hS.buf 3) a6, by rw [a7]; simp [i6]⟩

/-- C178: pam_authenticate answers PAM_MAXTRIES exactly if the password is wrong and the last two or more calls on the handle failed as
well; each call asks for the password once. -/
theorem C178_maxtries (lib : Lib W) (host : W → Host) (service : Str) (args : List Str) (conv : Nat) (name : Str) (w : W)
    (hS : Strict lib host service args conv name w) (h : Handle W) (hs : start lib service (some name) conv w = some h)
    (codes : List Int) (h1 : Handle W) (hc : Calls lib h codes h1) (flags : Nat) :
    ∃ code h2, run lib .authenticate flags h1 = some (code, h2) ∧ (code = PAM_MAXTRIES ↔ code ≠ PAM_SUCCESS ∧ 2 ≤ failing codes) ∧
      h2.m.s.talk.length = codes.length + 1 := by
  obtain ⟨i1, i2, i3, i4, i5, i6⟩ := calls_inv hS hs hc
  obtain ⟨ctrl, pw, code, h2, a1, -, -, -, -, a6, a7, -⟩ := strict_call hS i1 i2 i3 i4 flags
  refine ⟨code, h2, a1, ?_, by rw [a7]; simp [i6]⟩
  rw [← streak_failing name]
  exact Unix.C75_maxtries _ _ _ i5 _ _ _ _ _ _ _ _ a6

/-- C178 (no memory between the calls): whether a call succeeds does not depend on the calls before: the right password is accepted after
any number of failures on the same handle, also after PAM_MAXTRIES. -/
theorem C178_memoryless (lib : Lib W) (host : W → Host) (service : Str) (args : List Str) (conv : Nat) (name : Str) (w : W)
    (hS : Strict lib host service args conv name w) (h : Handle W) (hs : start lib service (some name) conv w = some h)
    (shadow : Str → Option Unix.Sp) (hH : Healthy (host w) shadow name)
    (codes : List Int) (h1 : Handle W) (hc : Calls lib h codes h1) (flags : Nat)
    (pw : Str) (hpw : (lib.conv conv .echoOff "Password: ".toList h1.m.s.world).1 = (PAM_SUCCESS, some (some pw))) (hnul : NUL ∉ pw) :
    ∃ code h2, run lib .authenticate flags h1 = some (code, h2) ∧ (code = PAM_SUCCESS ↔ Right (host w) shadow false name pw) := by
  obtain ⟨i1, i2, i3, i4, -, -⟩ := calls_inv hS hs hc
  obtain ⟨ctrl, pw', code, h2, a1, -, -, -, -, -, -, b1, b2, b3, b4⟩ := strict_call hS i1 i2 i3 i4 flags
  have e : pw' = pw := by
    rw [hpw] at b1
    exact (Option.some.inj (Option.some.inj (congrArg Prod.snd b1))).symm
  subst e
  obtain ⟨-, k2⟩ := Unix.C77_answer _ _ _ hH.fine _ _ _ _ _ hnul shadow hH.reads hH.trusted hH.nobody hH.day hH.aging hH.sign _ b4
  have hoff : Unix.off Unix.UNIX__NONULL ctrl = false := by unfold Unix.off; rw [b2]; rfl
  refine ⟨code, h2, a1, ?_⟩
  unfold Unix.BlankAllowed at k2
  rw [hoff, b3] at k2
  dsimp only at k2
  rw [k2]
  constructor
  · rintro (⟨x | x, -⟩ | ⟨-, x⟩)
    · cases x
    · cases x.1
    · exact x
  · exact fun x => Or.inr ⟨rfl, x⟩

end Pam.Whole
