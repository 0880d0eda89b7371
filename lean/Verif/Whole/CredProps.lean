import Verif.Whole.CredCall
import Verif.Whole.LoginProps
/-
Property theorems C180: pam_setcred after pam_authenticate, with pam_unix.
-/
namespace Pam.Whole
open Pam Pam.Handle
open Pam.Stack (fileLinesOf)

variable {W : Type}

/-- the service leaves authentication and credentials to pam_unix -/
structure ByUnix (lib : Lib W) (host : W → Host) (service : Str) (args : List Str) : Prop where
  dir : lib.sys.confdir.isSome ∨ lib.sys.haveDir
  own : ieq (serviceName service) Config.otherName = false
  line : ∃ path, fileLinesOf lib.sys (serviceName service) .auth = some [⟨.required, path, args⟩] ∧ Config.Spec.nameOk (some path) = true ∧
    lib.modules .authenticate path = some (unixAuth host) ∧ lib.modules .setcred path = some (unixSetcred host)

/-- calls of pam_setcred one after the other on a handle, with their codes, the last one first -/
inductive Creds (lib : Lib W) (h : Handle W) : List Int → Handle W → Prop
  | none : Creds lib h [] h
  | more {codes : List Int} {h1 h2 : Handle W} (flags : Nat) (code : Int) :
      Creds lib h codes h1 → run lib .setcred flags h1 = some (code, h2) → Creds lib h (code :: codes) h2

/-- the argument `likeauth` is given -/
def LikeAuth (args : List Str) : Prop := ∃ a ∈ args, "likeauth".toList <+: a

/-! ### helper lemmas -/

theorem ByUnix.auth {lib : Lib W} {host : W → Host} {service : Str} {args : List Str} (h : ByUnix lib host service args) :
    OneLine lib service .authenticate (unixAuth host) args :=
  ⟨h.dir, h.own, by obtain ⟨p, a, -, b, -⟩ := h.line; exact ⟨p, a, b⟩⟩

theorem frozen_cell {a c : Int} (ha : Ordinary a) (h : a = frozen c c) : c = a := by
  unfold frozen at h
  have h6 : a ≠ PAM_PERM_DENIED := by rintro rfl; exact absurd ha (by decide)
  split at h
  · exact absurd h h6
  split at h
  · split at h
    · exact h.symm
    · exact absurd h h6
  split at h
  · exact absurd h h6
  split at h
  · exact absurd h h6
  · exact h.symm

theorem setcred_runs {cv : Convs W} {host : W → Host} {s : S W} (hc : s.inner.caller = .module) (flags : Nat) (args : List Str) :
    ∃ now s', Runs cv (unixSetcred host flags args) s now s' ∧
      (LikeAuth args → now = (savedOf s.inner).getD PAM_SUCCESS ∧ savedOf s'.inner = none) ∧
      (¬ LikeAuth args → now = PAM_SUCCESS ∧ savedOf s'.inner = savedOf s.inner) ∧ Noted s.inner s'.inner ∧ s'.world = s.world ∧ s'.talk = s.talk := by
  obtain ⟨ctrl, c1, -, c3⟩ := ctrl_of (host s.world) flags args
  have hlike := c3 "likeauth".toList Unix.UNIX_LIKE_AUTH (by decide)
  by_cases hl : LikeAuth args
  · have hon : Unix.on Unix.UNIX_LIKE_AUTH ctrl = true := hlike.mpr hl
    cases hsv : savedOf s.inner with
    | none =>
      refine ⟨PAM_SUCCESS, s, ?_, fun _ => ⟨rfl, hsv⟩, fun h => absurd hl h, ⟨_, _, _, rfl⟩, rfl, rfl⟩
      unfold unixSetcred
      refine runs_look ?_
      rw [c1]
      dsimp only
      rw [if_pos hon]
      refine runs_api (s1 := s) (a := { code := (getData s.inner (some savedName)).1, data := (getData s.inner (some savedName)).2 }) rfl ?_
      rw [savedCode_module hc, hsv]
      exact runs_ret _ _ _
    | some rv =>
      obtain ⟨data, nextId, cleaned, h1, h2⟩ := setData_module hc savedName 0 false
      refine ⟨rv, { s with inner := { s.inner with data := data, nextId := nextId, cleaned := cleaned } }, ?_, fun _ => ⟨rfl, ?_⟩, fun h => absurd hl h,
        ⟨_, _, _, rfl⟩, rfl, rfl⟩
      · unfold unixSetcred
        refine runs_look ?_
        rw [c1]
        dsimp only
        rw [if_pos hon]
        refine runs_api (s1 := s) (a := { code := (getData s.inner (some savedName)).1, data := (getData s.inner (some savedName)).2 }) rfl ?_
        rw [savedCode_module hc, hsv]
        refine runs_api (a := { code := PAM_SUCCESS }) ?_ (runs_ret _ _ _)
        unfold effect
        dsimp only
        rw [h1]
      · unfold savedOf
        rw [h2, if_pos rfl]
  · have hon : Unix.on Unix.UNIX_LIKE_AUTH ctrl = false := by
      cases hx : Unix.on Unix.UNIX_LIKE_AUTH ctrl with
      | false => rfl
      | true => exact absurd (hlike.mp hx) hl
    refine ⟨PAM_SUCCESS, s, ?_, fun h => absurd h hl, fun _ => ⟨rfl, rfl⟩, ⟨_, _, _, rfl⟩, rfl, rfl⟩
    unfold unixSetcred
    refine runs_look ?_
    rw [c1]
    dsimp only
    rw [if_neg (by rw [hon]; decide)]
    exact runs_ret _ _ _

/-- one call of pam_setcred -/
theorem setcred_call {lib : Lib W} {host : W → Host} {service : Str} {args : List Str} (hu : ByUnix lib host service args)
    {h : Handle W} (hr : Ready lib (serviceName service) h) (hs : savedOf h.inner ≠ some PAM_INCOMPLETE) (flags : Nat) :
    ∃ now h', run lib .setcred flags h = some (frozen (if h.cells false .auth 0 = INVALID_RETVAL then now else h.cells false .auth 0) now, h') ∧
      (LikeAuth args → now = (savedOf h.inner).getD PAM_SUCCESS ∧ savedOf h'.inner = none) ∧
      (¬ LikeAuth args → now = PAM_SUCCESS ∧ savedOf h'.inner = savedOf h.inner) ∧
      Ready lib (serviceName service) h' ∧ h'.m.s.talk = h.m.s.talk ∧ h'.m.s.world = h.m.s.world ∧ h'.cells false .auth 0 = h.cells false .auth 0 := by
  obtain ⟨path, hl, hn, -, hm⟩ := hu.line
  let s0 : S W := { (entered .setcred h).s with inner := { (entered .setcred h).s.inner with modArgs := args } }
  obtain ⟨now, s', r1, r2, r3, r4, r5, r6⟩ := setcred_runs (cv := lib.conv) (host := host) (s := s0) rfl (if flags = 0 then 2 else flags) args
  have hsv : savedOf s0.inner = savedOf h.inner := rfl
  rw [hsv] at r2 r3
  have hnow : now ≠ PAM_INCOMPLETE := by
    by_cases hla : LikeAuth args
    · rw [(r2 hla).1]
      cases hx : savedOf h.inner with
      | none => exact (show PAM_SUCCESS ≠ PAM_INCOMPLETE by decide)
      | some v => intro e; exact hs (hx.trans (congrArg some e))
    · rw [(r3 hla).1]; decide
  have hcall := runs_call (lib := lib) (m := entered .setcred h) (argv := args) r1
  have hmods : modsOf lib .setcred (if flags = 0 then 2 else flags) path args (entered .setcred h) =
      callProg lib (unixSetcred host (if flags = 0 then 2 else flags) args) args (entered .setcred h) := by
    unfold modsOf; rw [hm]
  obtain ⟨h', d1, d2, d3, d4, d5⟩ := dispatch_one hr hu.dir hu.own .setcred path args hl hn (by rw [hm]; rfl) (if flags = 0 then 2 else flags)
    (by rw [hmods, hcall.1]; exact hnow)
  rw [hmods, hcall.1] at d1
  rw [hmods] at d2
  unfold left at d2
  rw [hcall.2] at d2
  have hrun : run lib .setcred flags h = dispatch lib .setcred (if flags = 0 then 2 else flags) h := by
    unfold run refused
    rw [if_neg (by rw [hr.app]; decide)]
  obtain ⟨x1, x2, x3, hx⟩ := r4
  have hin : h'.inner = { s'.inner with modArgs := [], caller := .app } := by show h'.m.s.inner = _; rw [d2]
  have hsv' : savedOf h'.inner = savedOf s'.inner := by rw [hin]; rfl
  refine ⟨now, h', by rw [hrun, d1]; rfl, by rw [hsv']; exact r2, by rw [hsv']; exact r3, ⟨?_, ?_, d3, by rw [hin]⟩, ?_, ?_, d5⟩
  · rw [hin, hx]; exact hr.loaded
  · rw [d4]; exact hr.tables
  · rw [d2]; exact r6
  · rw [d2]; exact r5

/-- what holds between the calls -/
theorem creds_inv {lib : Lib W} {host : W → Host} {service : Str} {args : List Str} (hu : ByUnix lib host service args) {a : Int} (ha : Ordinary a)
    {h : Handle W} (hr : Ready lib (serviceName service) h) (hcell : h.cells false .auth 0 = a) (hsv : savedOf h.inner = some a)
    {codes : List Int} {h1 : Handle W} (hc : Creds lib h codes h1) :
    Ready lib (serviceName service) h1 ∧ h1.cells false .auth 0 = a ∧ h1.m.s.talk = h.m.s.talk ∧ h1.m.s.world = h.m.s.world ∧
      (LikeAuth args → savedOf h1.inner = if codes = [] then some a else none) ∧ (¬ LikeAuth args → savedOf h1.inner = some a) := by
  induction hc with
  | none => exact ⟨hr, hcell, rfl, rfl, fun _ => hsv, fun _ => hsv⟩
  | more flags code _ hrun ih =>
    rename_i codes h1 h2 _
    obtain ⟨i1, i2, i3, i4, i5, i6⟩ := ih
    have hs : savedOf h1.inner ≠ some PAM_INCOMPLETE := by
      intro e
      by_cases hl : LikeAuth args
      · rw [i5 hl] at e
        split at e
        · exact ordinary_whole ha (Option.some.inj e)
        · cases e
      · rw [i6 hl] at e
        exact ordinary_whole ha (Option.some.inj e)
    obtain ⟨now, h', d1, d2, d3, d4, d5, d6, d7⟩ := setcred_call hu i1 hs flags
    rw [hrun] at d1
    have e := congrArg Prod.snd (Option.some.inj d1)
    dsimp only at e
    subst e
    exact ⟨d4, by rw [d7, i2], by rw [d5, i3], by rw [d6, i4], fun hl => by rw [(d2 hl).2]; rfl, fun hl => by rw [(d3 hl).2, i6 hl]⟩

theorem frozen_self {a : Int} (ha : Ordinary a) : frozen a a = a := by
  unfold Ordinary at ha
  simp only [List.mem_cons, List.not_mem_nil, or_false] at ha
  rcases ha with rfl | rfl | rfl | rfl | rfl | rfl | rfl | rfl | rfl <;> decide

theorem frozen_success {a : Int} (ha : Ordinary a) : frozen a PAM_SUCCESS = if a = PAM_SUCCESS then PAM_SUCCESS else PAM_PERM_DENIED := by
  unfold Ordinary at ha
  simp only [List.mem_cons, List.not_mem_nil, or_false] at ha
  rcases ha with rfl | rfl | rfl | rfl | rfl | rfl | rfl | rfl | rfl <;> decide

/-- C180: pam_setcred after pam_authenticate, for a service that leaves both to pam_unix, called any number of times and with any
flags: it succeeds exactly if the authentication did.  Otherwise it is PAM_PERM_DENIED, or with `likeauth` the first time the code of
the authentication.  Nothing is asked or said. -/
theorem C180_setcred (lib : Lib W) (host : W → Host) (hst : Still host lib) (service : Str) (args : List Str)
    (hu : ByUnix lib host service args) (hfirst : Lacks args "use_first_pass")
    (user : Option Str) (conv : Nat) (w : W) (h : Handle W) (hs : start lib service user conv w = some h)
    (name : Str) (w1 : W) (talk1 : List Talk) (hk : Knows lib conv w user name w1 talk1) (flags : Nat)
    (hend : Ends (host w) flags args name (tokOf (lib.conv conv .echoOff "Password: ".toList w1).1)) :
    ∃ a h', run lib .authenticate flags h = some (a, h') ∧
      ∀ codes h2, Creds lib h' codes h2 → ∀ credFlags, ∃ code h3, run lib .setcred credFlags h2 = some (code, h3) ∧
        (a = PAM_SUCCESS → code = PAM_SUCCESS) ∧
        (a ≠ PAM_SUCCESS → LikeAuth args → codes = [] → code = a) ∧
        (a ≠ PAM_SUCCESS → ¬ LikeAuth args ∨ codes ≠ [] → code = PAM_PERM_DENIED) ∧
        h3.m.s.talk = h'.m.s.talk ∧ h3.m.s.world = h'.m.s.world := by
  obtain ⟨ctrl, c1, c2, c3⟩ := ctrl_of (host w) flags args
  obtain ⟨r, h', hauth, a1, a2, -, -, -, -, -, a9⟩ := login_core hst hu.auth hfirst hs hk c1 hend
  have hord := authenticate_ordinary hauth (show Ordinary PAM_SUCCESS by decide) (tokOf_ordinary _)
  obtain ⟨path, hl, hn, hm, -⟩ := hu.line
  have hcell := frozen_cell hord (authenticate_cell (start_ready hs).1 hu.dir hu.own path args hl hn (by rw [hm]; rfl) a1 (ordinary_whole hord))
  have hnat : (r.code.toNat : Int) = r.code := by
    unfold Ordinary at hord
    simp only [List.mem_cons, List.not_mem_nil, or_false] at hord
    rcases hord with e | e | e | e | e | e | e | e | e <;> rw [e] <;> decide
  rw [hnat] at a9
  refine ⟨r.code, h', a1, fun codes h2 hc credFlags => ?_⟩
  obtain ⟨i1, i2, i3, i4, i5, i6⟩ := creds_inv hu hord a2 hcell a9 hc
  have hsv : savedOf h2.inner ≠ some PAM_INCOMPLETE := by
    intro e
    by_cases hl : LikeAuth args
    · rw [i5 hl] at e
      split at e
      · exact ordinary_whole hord (Option.some.inj e)
      · cases e
    · rw [i6 hl] at e
      exact ordinary_whole hord (Option.some.inj e)
  obtain ⟨now, h3, d1, d2, d3, d4, d5, d6, d7⟩ := setcred_call hu i1 hsv credFlags
  have hinv : r.code ≠ INVALID_RETVAL := by
    intro e; rw [e] at hord; exact absurd hord (by decide)
  rw [i2, if_neg hinv] at d1
  refine ⟨_, h3, d1, ?_, ?_, ?_, by rw [d5, i3], by rw [d6, i4]⟩
  · intro ha
    have : now = PAM_SUCCESS := by
      by_cases hl : LikeAuth args
      · rw [(d2 hl).1, i5 hl]
        split
        · exact ha
        · rfl
      · exact (d3 hl).1
    rw [this, frozen_success hord, if_pos ha]
  · intro ha hl hc
    rw [(d2 hl).1, i5 hl, if_pos hc]
    exact frozen_self hord
  · intro ha hc
    have : now = PAM_SUCCESS := by
      by_cases hl : LikeAuth args
      · rw [(d2 hl).1, i5 hl, if_neg (hc.resolve_left (fun x => x hl))]
        rfl
      · exact (d3 hl).1
    rw [this, frozen_success hord, if_neg ha]

/-- C180 (finding): on a new handle, where nobody has been authenticated, pam_setcred succeeds. -/
theorem C180_alone (lib : Lib W) (host : W → Host) (service : Str) (args : List Str) (hu : ByUnix lib host service args)
    (user : Option Str) (conv : Nat) (w : W) (h : Handle W) (hs : start lib service user conv w = some h) (flags : Nat) :
    ∃ h', run lib .setcred flags h = some (PAM_SUCCESS, h') := by
  obtain ⟨hr, -, -, hi, -⟩ := start_ready hs
  have hsv : savedOf h.inner = none := by rw [hi]; rfl
  have hcell : h.cells false .auth 0 = INVALID_RETVAL := by
    unfold start load at hs
    simp only [Bool.false_eq_true, if_false] at hs
    cases hx : Config.initHandlers lib.sys ((Config.afterLast '/' service).map lower) with
    | none => rw [hx] at hs; cases hs
    | some T =>
      rw [hx] at hs
      have e := Option.some.inj hs
      subst e
      rfl
  obtain ⟨now, h', d1, d2, d3, -⟩ := setcred_call hu hr (by rw [hsv]; simp) flags
  have hnow : now = PAM_SUCCESS := by
    by_cases hl : LikeAuth args
    · rw [(d2 hl).1, hsv]; rfl
    · exact (d3 hl).1
  rw [hcell, if_pos rfl, hnow] at d1
  exact ⟨h', d1⟩

end Pam.Whole
