import Verif.Whole.ChangePasses
import Verif.Whole.AcctCall
import Verif.Unix.CallFlags
/-
pam_chauthtok with one line for pam_unix, in the terms of the model of the module.
-/
namespace Pam.Whole
open Pam Pam.Handle Pam.Handle.Spec
open Pam.Config (otherName)
open Pam.Stack (fileLinesOf rstep)

variable {W : Type}

theorem rstep_code {c : Int} (hc : c ≠ PAM_INCOMPLETE) : (rstep .none c).code ≠ PAM_INCOMPLETE ∧ ((rstep .none c).code = PAM_SUCCESS ↔ c = PAM_SUCCESS) := by
  unfold rstep
  by_cases h1 : c = PAM_SUCCESS ∨ c = PAM_NEW_AUTHTOK_REQD
  · rw [if_pos h1]
    rcases h1 with rfl | rfl <;> exact ⟨by decide, by decide⟩
  · rw [if_neg h1]
    rw [not_or] at h1
    by_cases h2 : c = PAM_IGNORE
    · rw [if_pos h2, h2]; exact ⟨by decide, by decide⟩
    · rw [if_neg h2]
      have hb : Stack.badCode c ≠ PAM_IGNORE ∧ Stack.badCode c ≠ PAM_SUCCESS ∧ Stack.badCode c ≠ PAM_INCOMPLETE := by
        unfold Stack.badCode
        split
        · decide
        · exact ⟨h2, h1.1, hc⟩
      show (if (if Stack.badCode c = PAM_IGNORE then PAM_PERM_DENIED else Stack.badCode c) = PAM_SUCCESS then PAM_PERM_DENIED
        else (if Stack.badCode c = PAM_IGNORE then PAM_PERM_DENIED else Stack.badCode c)) ≠ PAM_INCOMPLETE ∧
        ((if (if Stack.badCode c = PAM_IGNORE then PAM_PERM_DENIED else Stack.badCode c) = PAM_SUCCESS then PAM_PERM_DENIED
        else (if Stack.badCode c = PAM_IGNORE then PAM_PERM_DENIED else Stack.badCode c)) = PAM_SUCCESS ↔ c = PAM_SUCCESS)
      rw [if_neg hb.1, if_neg hb.2.1]
      exact ⟨hb.2.2, fun h => absurd h hb.2.1, fun h => absurd h h1.1⟩

/-- one pass, once the name is known -/
theorem pass_named {D : Disk W} {cv : Convs W} {s : S W} {name : Str} (hu : s.inner.user = some name) {flags : Nat} {args : List Str} {o : Unix.Opts}
    (ho : changeOpts (D.mach s.world) flags args = some o) {c : Int} {s' : S W} (h : Runs cv (unixChangeNamed D o name) s c s') :
    Runs cv (unixChange D flags args) s c s' := by
  unfold unixChange
  refine runs_look ?_
  rw [ho]
  refine runs_api (getUser_known hu) ?_
  exact h

/-- the first pass -/
theorem first_pass {D : Disk W} {cv : Convs W} (hq : Quiet D cv) (hconv : ∀ c st msg w, (cv c st msg w).1.1 ≠ PAM_INCOMPLETE) {s : S W}
    (hc : s.inner.caller = .module) (ho : s.inner.oldauthtok = none) {name : Str} (hu : s.inner.user = some name) {flags : Nat} (hf : flags.testBit 14 = true)
    (args : List Str) {M : Mach} (hM : D.mach s.world = M) :
    ∃ c s' ts info oldTok fails o, Runs cv (unixChange D flags args) s c s' ∧ Onward D s s' ts ∧ s'.inner.authtok = s.inner.authtok ∧ c ≠ PAM_INCOMPLETE ∧
      Known ts c oldTok s'.inner.oldauthtok ∧ changeOpts M flags args = some o ∧
      ∀ old new, codeOf (Unix.chauthtok M.world M.etc M.bin M.proc (callOf M false o name info oldTok old new) fails) = c := by
  obtain ⟨o, hopt⟩ := Unix.C72_defined (decide (M.proc.uid = 0)) (unixFlags flags) M.defs (some (-1)) (some 0) (some 0) args
  have hopt : changeOpts M flags args = some o := hopt
  have hpre : Unix.on Unix.UNIX__PRELIM o.ctrl = true := by
    rw [(Unix.C72_call _ _ _ _ _ _ _ _ hopt).2.1]; exact hf
  have lift : ∀ c s', Runs cv (unixChangeNamed D o name) s c s' → Runs cv (unixChange D flags args) s c s' := fun c s' => pass_named hu (by rw [hM]; exact hopt)
  unfold unixChangeNamed at lift
  have hcode : ∀ (info : Int) (oldTok : Int × Str) (fails : Unix.Fails) (old : Option Str) (new : Nat → Int × Str),
      Unix.chauthtok M.world M.etc M.bin M.proc (callOf M false o name info oldTok old new) fails =
      (if name.head? = some '-' ∨ name.head? = some '+' then some ⟨PAM_USER_UNKNOWN, fails, 0, []⟩
      else match M.etc.findPw name with
        | none => some ⟨PAM_USER_UNKNOWN, fails, 0, []⟩
        | some _ => Unix.prelim M.world M.etc M.bin M.proc (callOf M false o name info oldTok old new) (Unix.relaxed o.ctrl) fails) := by
    intro info oldTok fails old new
    unfold Unix.chauthtok
    rw [if_neg (show ¬ (callOf M false o name info oldTok old new).user.1 ≠ PAM_SUCCESS from fun h => h rfl)]
    show (if name.head? = some '-' ∨ name.head? = some '+' then _ else _) = _
    split
    · rfl
    · show (match M.etc.findPw name with | none => _ | some _ => _) = _
      cases M.etc.findPw name with
      | none => rfl
      | some x =>
        show (if Unix.on Unix.UNIX__PRELIM (Unix.relaxed o.ctrl) = true then _ else _) = _
        rw [Unix.on_relaxed (by decide) (by decide) (by decide) (by decide), if_pos hpre]
        rfl
  by_cases hn : name.head? = some '-' ∨ name.head? = some '+'
  · simp only [if_pos hn] at lift hcode
    exact ⟨PAM_USER_UNKNOWN, s, [], 0, (PAM_AUTHTOK_ERR, []), fun _ => 0, o, lift _ _ (runs_ret _ _ _), Onward.refl D s, rfl, by decide,
      Or.inl ⟨by decide, fun h => absurd h (by decide)⟩, hopt, fun old new => by rw [hcode]; rfl⟩
  · simp only [if_neg hn] at lift hcode
    have lift : ∀ (X : Prog W) c s', (match M.etc.findPw name with
        | none => .ret PAM_USER_UNKNOWN
        | some _ => (if Unix.on Unix.UNIX__PRELIM (Unix.relaxed o.ctrl) then unixPrelim D (Unix.relaxed o.ctrl) name
          else if Unix.on Unix.UNIX__UPDATE (Unix.relaxed o.ctrl) then unixRenew D o (Unix.relaxed o.ctrl) name
          else .ret PAM_ABORT) : Prog W) = X → Runs cv X s c s' → Runs cv (unixChange D flags args) s c s' := by
      intro X c s' e hr
      refine lift c s' (runs_look ?_)
      rw [hM]
      subst e
      exact hr
    cases hp : M.etc.findPw name with
    | none =>
      rw [hp] at lift hcode
      exact ⟨PAM_USER_UNKNOWN, s, [], 0, (PAM_AUTHTOK_ERR, []), fun _ => 0, o, lift _ _ _ rfl (runs_ret _ _ _), Onward.refl D s, rfl, by decide,
        Or.inl ⟨by decide, fun h => absurd h (by decide)⟩, hopt, fun old new => by rw [hcode]; rfl⟩
    | some x =>
      rw [hp] at lift hcode
      dsimp only at lift hcode
      rw [Unix.on_relaxed (by decide) (by decide) (by decide) (by decide), if_pos hpre] at lift
      obtain ⟨c, s', ts, info, oldTok, k1, k2, k3, k4, k5, fails, k6⟩ := prelim_runs hq hconv hc ho (Unix.relaxed o.ctrl) o name hM
      exact ⟨c, s', ts, info, oldTok, fails, o, lift _ _ _ rfl k1, k2, k3, k4, k5, hopt, fun old new => by rw [hcode]; exact k6 old new⟩

/-- the second pass -/
theorem second_pass {D : Disk W} (hD : D.Law) {cv : Convs W} (hq : Quiet D cv) {s : S W}
    (hc : s.inner.caller = .module) (hch : s.inner.chauthtok = true) (ht : s.inner.authtok = none) {name : Str} (hu : s.inner.user = some name)
    {flags : Nat} (hf : flags.testBit 14 = false) (hf' : flags.testBit 13 = true)
    (args : List Str) {M : Mach} (hM : D.mach s.world = M) :
    ∃ c s' ts acts fails o, ∃ toks : Nat → Int × Str, Runs cv (unixChange D flags args) s c s' ∧ Ended D s s' ts acts ∧ c ≠ PAM_INCOMPLETE ∧
      (∀ j, (toks j).1 = PAM_SUCCESS → TypedTwice ts (toks j).2) ∧ changeOpts M flags args = some o ∧
      ∀ info oldTok,
        codeOf (Unix.chauthtok M.world M.etc M.bin M.proc (callOf M true o name info oldTok s.inner.oldauthtok toks) fails) = c ∧
        actsOf (Unix.chauthtok M.world M.etc M.bin M.proc (callOf M true o name info oldTok s.inner.oldauthtok toks) fails) = acts := by
  obtain ⟨o, hopt⟩ := Unix.C72_defined (decide (M.proc.uid = 0)) (unixFlags flags) M.defs (some (-1)) (some 0) (some 0) args
  have hopt : changeOpts M flags args = some o := hopt
  have hpre : ¬ Unix.on Unix.UNIX__PRELIM o.ctrl = true := by
    rw [(Unix.C72_call _ _ _ _ _ _ _ _ hopt).2.1]
    show ¬ flags.testBit 14 = true
    rw [hf]; decide
  have hupd : Unix.on Unix.UNIX__UPDATE o.ctrl = true := by
    rw [(Unix.C72_call _ _ _ _ _ _ _ _ hopt).2.2.1]
    show (flags.testBit 13 && !flags.testBit 14) = true
    rw [hf, hf']; rfl
  have lift : ∀ c s', Runs cv (unixChangeNamed D o name) s c s' → Runs cv (unixChange D flags args) s c s' := fun c s' => pass_named hu (by rw [hM]; exact hopt)
  unfold unixChangeNamed at lift
  have hcode : ∀ (info : Int) (oldTok : Int × Str) (fails : Unix.Fails) (old : Option Str) (new : Nat → Int × Str),
      Unix.chauthtok M.world M.etc M.bin M.proc (callOf M true o name info oldTok old new) fails =
      (if name.head? = some '-' ∨ name.head? = some '+' then some ⟨PAM_USER_UNKNOWN, fails, 0, []⟩
      else match M.etc.findPw name with
        | none => some ⟨PAM_USER_UNKNOWN, fails, 0, []⟩
        | some _ => Unix.update M.world M.etc M.bin M.proc (callOf M true o name info oldTok old new) (Unix.relaxed o.ctrl) fails) := by
    intro info oldTok fails old new
    unfold Unix.chauthtok
    rw [if_neg (show ¬ (callOf M true o name info oldTok old new).user.1 ≠ PAM_SUCCESS from fun h => h rfl)]
    show (if name.head? = some '-' ∨ name.head? = some '+' then _ else _) = _
    split
    · rfl
    · show (match M.etc.findPw name with | none => _ | some _ => _) = _
      cases M.etc.findPw name with
      | none => rfl
      | some x =>
        show (if Unix.on Unix.UNIX__PRELIM (Unix.relaxed o.ctrl) = true then _ else if Unix.on Unix.UNIX__UPDATE (Unix.relaxed o.ctrl) = true then _ else _) = _
        rw [Unix.on_relaxed (by decide) (by decide) (by decide) (by decide), if_neg hpre,
          Unix.on_relaxed (by decide) (by decide) (by decide) (by decide), if_pos hupd]
        rfl
  by_cases hn : name.head? = some '-' ∨ name.head? = some '+'
  · simp only [if_pos hn] at lift hcode
    exact ⟨PAM_USER_UNKNOWN, s, [], [], fun _ => 0, o, fun _ => (PAM_AUTHTOK_ERR, []), lift _ _ (runs_ret _ _ _), (Onward.refl D s).ended, by decide,
      fun j h => absurd h (show ¬ (PAM_AUTHTOK_ERR : Int) = PAM_SUCCESS by decide), hopt, fun old new => by rw [hcode]; exact ⟨rfl, rfl⟩⟩
  · simp only [if_neg hn] at lift hcode
    have lift : ∀ (X : Prog W) c s', (match M.etc.findPw name with
        | none => .ret PAM_USER_UNKNOWN
        | some _ => (if Unix.on Unix.UNIX__PRELIM (Unix.relaxed o.ctrl) then unixPrelim D (Unix.relaxed o.ctrl) name
          else if Unix.on Unix.UNIX__UPDATE (Unix.relaxed o.ctrl) then unixRenew D o (Unix.relaxed o.ctrl) name
          else .ret PAM_ABORT) : Prog W) = X → Runs cv X s c s' → Runs cv (unixChange D flags args) s c s' := by
      intro X c s' e hr
      refine lift c s' (runs_look ?_)
      rw [hM]
      subst e
      exact hr
    cases hp : M.etc.findPw name with
    | none =>
      rw [hp] at lift hcode
      exact ⟨PAM_USER_UNKNOWN, s, [], [], fun _ => 0, o, fun _ => (PAM_AUTHTOK_ERR, []), lift _ _ _ rfl (runs_ret _ _ _), (Onward.refl D s).ended, by decide,
        fun j h => absurd h (show ¬ (PAM_AUTHTOK_ERR : Int) = PAM_SUCCESS by decide), hopt, fun old new => by rw [hcode]; exact ⟨rfl, rfl⟩⟩
    | some x =>
      rw [hp] at lift hcode
      dsimp only at lift hcode
      rw [Unix.on_relaxed (by decide) (by decide) (by decide) (by decide), if_neg hpre,
          Unix.on_relaxed (by decide) (by decide) (by decide) (by decide), if_pos hupd] at lift
      obtain ⟨c, s', ts, acts, fails, toks, k1, k2, k3, k4, k5⟩ := renew_runs hD (cv := cv) hq hc hch ht (Unix.relaxed o.ctrl) o name hM
      exact ⟨c, s', ts, acts, fails, o, toks, lift _ _ _ rfl k1, k2, k3, k4, hopt, fun info oldTok => by rw [hcode]; exact k5 info oldTok⟩

/-! ### the call -/

/-- what the two passes of pam_chauthtok do -/
inductive Passes (D : Disk W) (M M' : Mach) (flags : Nat) (args : List Str) (name : Str) : List Talk → Int → Prop
  /-- it ends with the first -/
  | one (ts : List Talk) (code : Int) : code ≠ PAM_SUCCESS → M' = M → Passes D M M' flags args name ts code
  | two (ts1 ts2 : List Talk) (code c2 info : Int) (oldTok : Int × Str) (kept : Option Str) (fails1 fails2 : Unix.Fails) (o1 o2 : Unix.Opts) (toks : Nat → Int × Str)
      (acts : List Unix.Act) :
      changeOpts M (flags ||| 2 ^ 14) args = some o1 →
      codeOf (Unix.chauthtok M.world M.etc M.bin M.proc (callOf M false o1 name info oldTok kept toks) fails1) = PAM_SUCCESS →
      Known ts1 PAM_SUCCESS oldTok kept →
      changeOpts M (flags ||| 2 ^ 13) args = some o2 →
      codeOf (Unix.chauthtok M.world M.etc M.bin M.proc (callOf M true o2 name info oldTok kept toks) fails2) = c2 →
      actsOf (Unix.chauthtok M.world M.etc M.bin M.proc (callOf M true o2 name info oldTok kept toks) fails2) = acts →
      (∀ j, (toks j).1 = PAM_SUCCESS → TypedTwice ts2 (toks j).2) → M' = { M with etc := M.etc.after acts } →
      (code = PAM_SUCCESS ↔ c2 = PAM_SUCCESS) → Passes D M M' flags args name (ts1 ++ ts2) code

theorem bits {flags : Nat} (h14 : flags.testBit 14 = false) (h13 : flags.testBit 13 = false) :
    (flags ||| 2 ^ 14).testBit 14 = true ∧ (flags ||| 2 ^ 13).testBit 14 = false ∧ (flags ||| 2 ^ 13).testBit 13 = true := by
  simp only [Nat.testBit_or, Nat.testBit_two_pow]
  rw [h14, h13]
  decide

/-- pam_chauthtok -/
theorem chauthtok_line {lib : Lib W} {D : Disk W} (hD : D.Law) (hq : Quiet D lib.conv) (hconv : ∀ c st msg w, (lib.conv c st msg w).1.1 ≠ PAM_INCOMPLETE)
    {svc : Str} {h : Handle W} (hr : Ready lib svc h) {name : Str} (hu : h.inner.user = some name)
    (hdir : lib.sys.confdir.isSome ∨ lib.sys.haveDir) (hsvc : ieq svc otherName = false) (path : Str) (args : List Str)
    (hl : fileLinesOf lib.sys svc .pass = some [⟨.required, path, args⟩]) (hm : lib.modules .chauthtok path = some (unixChange D))
    (flags : Nat) :
    ∃ code h', run lib .chauthtok flags h = some (code, h') ∧
      ((flags.testBit 14 = true ∨ flags.testBit 13 = true) ∧ code = PAM_SYSTEM_ERR ∧ h' = h ∨
      flags.testBit 14 = false ∧ flags.testBit 13 = false ∧ h'.inner.authtok = none ∧ h'.inner.oldauthtok = none ∧ h'.inner.caller = .app ∧
        ∃ ts, h'.m.s.talk = h.m.s.talk ++ ts ∧ Passes D (D.mach h.m.s.world) (D.mach h'.m.s.world) flags args name ts code) := by
  by_cases hflag : flags.testBit 14 = true ∨ flags.testBit 13 = true
  · refine ⟨PAM_SYSTEM_ERR, h, ?_, Or.inl ⟨hflag, rfl, rfl⟩⟩
    unfold run refused
    dsimp only
    rw [if_neg (show ¬ h.inner.caller = .module by rw [hr.app]; decide), if_pos hflag]
  have h14 : flags.testBit 14 = false := by
    cases hx : flags.testBit 14 with
    | false => rfl
    | true => exact absurd (Or.inl hx) hflag
  have h13 : flags.testBit 13 = false := by
    cases hx : flags.testBit 13 with
    | false => rfl
    | true => exact absurd (Or.inr hx) hflag
  obtain ⟨b1, b2, b3⟩ := bits h14 h13
  have hbegin : begin true h = { h.onInner (fun i => { i with authtok := none, oldauthtok := none }) with update := false } := by
    unfold begin
    rw [hr.idle]
    dsimp only
    unfold Handle.onInner
    rw [sanitize_eq]
    rfl
  have hrun : run lib .chauthtok flags h = match dispatch lib .chauthtok (flags ||| 2 ^ 14) (begin true h) with
      | none => none
      | some (code, h1) => if code = PAM_SUCCESS then updatePass lib flags h1 else some (chauthtokEnd (code, h1)) := by
    unfold run refused
    dsimp only
    rw [if_neg (show ¬ h.inner.caller = .module by rw [hr.app]; decide), if_neg hflag]
    dsimp only
    unfold chauthtok
    rw [if_neg (show ¬ (begin true h).update = true by rw [hbegin]; simp)]
    rfl
  have hb : Ready lib svc (begin true h) := by
    rw [hbegin]
    exact ⟨hr.loaded, hr.tables, hr.idle, hr.app⟩
  have hend : ∀ (c : Int) (h1 : Handle W), c ≠ PAM_INCOMPLETE → h1.inner.caller = .app → ∃ h', chauthtokEnd (c, h1) = (c, h') ∧ h'.inner.authtok = none ∧ h'.inner.oldauthtok = none ∧
      h'.inner.caller = .app ∧ h'.m.s.talk = h1.m.s.talk ∧ h'.m.s.world = h1.m.s.world := by
    intro c h1 hc ha
    refine ⟨await c { h1.onInner sanitize with update := false }, by unfold chauthtokEnd; rw [if_pos hc], ?_, ?_, ?_, rfl, rfl⟩
    · show (sanitize h1.m.s.inner).authtok = none
      rw [sanitize_eq]
    · show (sanitize h1.m.s.inner).oldauthtok = none
      rw [sanitize_eq]
    · show (sanitize h1.m.s.inner).caller = .app
      rw [sanitize_eq]; exact ha
  obtain ⟨c1, s1, ts1, info, oldTok, fails1, o1, p1, p2, p3, p4, p5, p6, p7⟩ := first_pass (D := D) (cv := lib.conv) hq hconv
    (s := { (entered .chauthtok (begin true h)).s with inner := { (entered .chauthtok (begin true h)).s.inner with modArgs := args } })
    rfl (by show (begin true h).inner.oldauthtok = none; rw [hbegin]; rfl) (name := name) (by show (begin true h).inner.user = _; rw [hbegin]; exact hu) b1 args rfl
  have hw : (entered .chauthtok (begin true h)).s.world = h.m.s.world := by unfold entered; rw [hbegin]; rfl
  have htalk : (entered .chauthtok (begin true h)).s.talk = h.m.s.talk := by unfold entered; rw [hbegin]; rfl
  dsimp only at p2 p3 p6 p7
  rw [hw] at p6 p7
  obtain ⟨h1, d1, d2, d3, d4, d5, d6⟩ := call_line hb hdir hsvc .chauthtok rfl path args hl hm (flags ||| 2 ^ 14) p1 p4
  obtain ⟨r1, r2⟩ := rstep_code p4
  rw [d1] at hrun
  dsimp only at hrun
  have m1 : D.mach h1.m.s.world = D.mach h.m.s.world := by
    have := p2.mach
    dsimp only at this
    rw [d2, this, hw]
  have t1 : h1.m.s.talk = h.m.s.talk ++ ts1 := by
    have := p2.talk
    dsimp only at this
    rw [d3, this, htalk]
  by_cases hok : c1 = PAM_SUCCESS
  · rw [if_pos (r2.mpr hok)] at hrun
    have hready : Ready lib svc { h1 with update := true } := by
      refine ⟨?_, by rw [d6]; exact hb.tables, d5, by show h1.inner.caller = _; rw [d4]⟩
      show h1.inner.loaded = true
      rw [d4]
      obtain ⟨_, _, _, _, _, _, _, _, _, e⟩ := p2.kin
      rw [e]
      exact hb.loaded
    have kept : h1.inner.oldauthtok = s1.inner.oldauthtok := by rw [d4]
    obtain ⟨c2, s2, ts2, acts, fails2, o2, toks, q1, q2, q3, q4, q5, q6⟩ := second_pass (D := D) hD (cv := lib.conv) hq
      (s := { (entered .chauthtok { h1 with update := true }).s with inner := { (entered .chauthtok { h1 with update := true }).s.inner with modArgs := args } })
      rfl (by rfl) (by
        show h1.inner.authtok = none
        rw [d4]
        show s1.inner.authtok = none
        rw [p3]
        show (begin true h).inner.authtok = none
        rw [hbegin]; rfl) (name := name) (by
        show h1.inner.user = _
        rw [d4]
        obtain ⟨_, _, _, _, _, _, _, _, _, e⟩ := p2.kin
        rw [e]
        show (begin true h).inner.user = _
        rw [hbegin]; exact hu) b2 b3 args (M := D.mach h.m.s.world) m1
    obtain ⟨h2, e1, e2, e3, e4, e5, e6⟩ := call_line hready hdir hsvc .chauthtok rfl path args hl hm (flags ||| 2 ^ 13) q1 q3
    obtain ⟨r3, r4⟩ := rstep_code q3
    obtain ⟨h', f1, f2, f3, f4, f5, f6⟩ := hend (rstep .none c2).code h2 r3 (by rw [e4])
    refine ⟨(rstep .none c2).code, h', ?_, Or.inr ⟨h14, h13, f2, f3, f4, ts1 ++ ts2, ?_, ?_⟩⟩
    · rw [hrun]
      unfold updatePass
      rw [e1]
      dsimp only [Option.map_some]
      rw [f1]
    · rw [f5, e3, q2.talk]
      show h1.m.s.talk ++ ts2 = _
      rw [t1, List.append_assoc]
    · rw [hok] at p5 p7
      refine .two ts1 ts2 _ c2 info oldTok s1.inner.oldauthtok fails1 fails2 o1 o2 toks acts p6 (p7 _ _) p5 q5 ?_ ?_ q4 ?_ r4
      · have := (q6 info oldTok).1
        dsimp only at this
        rw [show (entered .chauthtok { h1 with update := true }).s.inner.oldauthtok = s1.inner.oldauthtok from kept] at this
        exact this
      · have := (q6 info oldTok).2
        dsimp only at this
        rw [show (entered .chauthtok { h1 with update := true }).s.inner.oldauthtok = s1.inner.oldauthtok from kept] at this
        exact this
      · rw [f6, e2, q2.mach]
        dsimp only
        rw [show (entered .chauthtok { h1 with update := true }).s.world = h1.m.s.world from rfl, m1]
  · have hne : (rstep .none c1).code ≠ PAM_SUCCESS := fun x => hok (r2.mp x)
    rw [if_neg hne] at hrun
    obtain ⟨h', f1, f2, f3, f4, f5, f6⟩ := hend (rstep .none c1).code h1 r1 (by rw [d4])
    rw [f1] at hrun
    exact ⟨_, h', hrun, Or.inr ⟨h14, h13, f2, f3, f4, ts1, by rw [f5, t1], .one ts1 _ hne (by rw [f6, m1])⟩⟩

end Pam.Whole
