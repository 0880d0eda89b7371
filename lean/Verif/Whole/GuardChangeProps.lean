import Verif.Whole.GuardChange
import Verif.Whole.ChangeDemo
/-
Property theorems C185: pam_chauthtok with pam_unix among other modules.
-/
namespace Pam.Whole
open Pam Pam.Config Pam.Config.Spec Pam.Handle Pam.Dispatch
open Pam.Stack (Line fileLinesOf fileLinesOf_tree rstep)

variable {W : Type}

/-- the state in which pam_chauthtok, in its first pass, calls the module of the line after these lines -/
def firstMoment (lib : Lib W) (flags : Nat) (pre : List Line) (h : Handle W) : M W :=
  afterLines lib .chauthtok (flags ||| 2 ^ 14) pre (entered .chauthtok (begin true h))

theorem givesOld_args {lib : Lib W} {s : S W} {args : List Str} {pw : Str} (h : GivesOld lib { s with inner := { s.inner with modArgs := args } } pw) :
    GivesOld lib s pw := by
  cases h with
  | kept h => exact .kept _ h
  | typed kind w h k => exact .typed _ kind w h k

/-- C185: in any stack of lines with classic control words, one of which is `required` or `requisite` and has no `sufficient` line before
it: whatever the modules are and do, and whatever the application did before, pam_chauthtok returns PAM_SUCCESS only if it was not given one
of the flags of the passes and that line's module, called in the first pass after those before it, answered PAM_SUCCESS or PAM_IGNORE. -/
theorem C185_line (lib : Lib W) (service : Str) (pre post : List Line) (path : Str) (args : List Str) (hc : Guarded lib service .chauthtok pre path args post)
    (user : Option Str) (conv : Nat) (w : W) (h : Handle W) (hs : start lib service user conv w = some h)
    (h0 : Handle W) (hm0 : Meanwhile lib [.chauthtok] h h0) (flags : Nat) (h1 : Handle W) (hrun : run lib .chauthtok flags h0 = some (PAM_SUCCESS, h1)) :
    flags.testBit 14 = false ∧ flags.testBit 13 = false ∧ ∃ f r, lib.modules .chauthtok path = some f ∧
      (callProg lib (f (flags ||| 2 ^ 14) args) args (firstMoment lib flags pre h0)).1 = r ∧ (r = PAM_SUCCESS ∨ r = PAM_IGNORE) := by
  obtain ⟨flag, hflag, hl⟩ := hc.lines
  obtain ⟨hr, -, -, -, -⟩ := start_ready hs
  obtain ⟨p1, p2, p3, -⟩ := meanwhile_keeps (first := .authenticate) (Or.inl rfl) (by simp) hr.loaded hr.idle hm0
  have papp := reach_app (meanwhile_reach (.start lib service user conv w h hs) hm0)
  obtain ⟨rows, r1, r2⟩ := fileLinesOf_tree hl
  have he := lines_entries Fn.chauthtok.mtype rows _ r1
  have ht1 : h.tables.conf.get .chauthtok = (pre ++ ⟨flag, path, args⟩ :: post).map entryOf := by
    rw [((C43_loaded_stacks lib.sys _ h.tables hc.dir hc.own hr.tables .chauthtok).1 rfl).1]
    show Tree.flatten _ _ = _
    rw [r2, he]
  have hflags : ¬ (flags.testBit 14 = true ∨ flags.testBit 13 = true) := by
    intro hx
    unfold run refused at hrun
    dsimp only at hrun
    rw [if_neg (show ¬ h0.inner.caller = .module by rw [papp]; decide), if_pos hx] at hrun
    exact absurd (congrArg Prod.fst (Option.some.inj hrun)) (show ¬ (PAM_SYSTEM_ERR : Int) = PAM_SUCCESS by decide)
  have hbegin : begin true h0 = { h0.onInner sanitize with update := false } := by
    unfold begin
    rw [p2]
    rfl
  have hrun2 : (match dispatch lib .chauthtok (flags ||| 2 ^ 14) (begin true h0) with
      | none => none
      | some (code, h1) => if code = PAM_SUCCESS then updatePass lib flags h1 else some (chauthtokEnd (code, h1))) = some (PAM_SUCCESS, h1) := by
    rw [← hrun]
    unfold run refused
    dsimp only
    rw [if_neg (show ¬ h0.inner.caller = .module by rw [papp]; decide), if_neg hflags]
    dsimp only
    unfold chauthtok
    rw [if_neg (show ¬ (begin true h0).update = true by rw [hbegin]; simp)]
    rfl
  refine ⟨by cases hx : flags.testBit 14 with | false => rfl | true => exact absurd (Or.inl hx) hflags,
    by cases hx : flags.testBit 13 with | false => rfl | true => exact absurd (Or.inr hx) hflags, ?_⟩
  have q3 : (begin true h0).inner.loaded = true := by rw [hbegin]; exact p1
  have q4 : (begin true h0).former = none := by rw [hbegin]; exact p2
  have q5 : (begin true h0).tables = h0.tables := by rw [hbegin]; rfl
  have q6 : (begin true h0).inner.caller = .app := by rw [hbegin]; exact papp
  have hd : ∃ hy, dispatch lib .chauthtok (flags ||| 2 ^ 14) (begin true h0) = some (PAM_SUCCESS, hy) := by
    cases hd : dispatch lib .chauthtok (flags ||| 2 ^ 14) (begin true h0) with
    | none => rw [hd] at hrun2; cases hrun2
    | some x =>
      obtain ⟨c, hy⟩ := x
      rw [hd] at hrun2
      dsimp only at hrun2
      by_cases hcs : c = PAM_SUCCESS
      · exact ⟨hy, by rw [hcs]⟩
      · rw [if_neg hcs] at hrun2
        have := congrArg Prod.fst (Option.some.inj hrun2)
        unfold chauthtokEnd at this
        split at this
        · exact absurd this hcs
        · exact absurd this hcs
  obtain ⟨hy, q2⟩ := hd
  obtain ⟨st, k1, -⟩ := dispatch_walk q6 q3 q4 (by rw [q5, p3, ht1]; cases pre <;> rfl) q2 (by decide)
  rw [show Handle.modeOf .chauthtok = .pleaseFreeze from rfl, q5, p3, ht1, List.map_append, List.map_cons, List.map_append, List.map_cons] at k1
  have hA : ∀ x ∈ (pre.map entryOf).map (link (linker lib .chauthtok (flags ||| 2 ^ 14))), Fair x ∧ Dispatch.Open x := by
    intro x hx
    obtain ⟨e, he, rfl⟩ := List.mem_map.mp hx
    obtain ⟨l, hl, rfl⟩ := List.mem_map.mp he
    exact ⟨fair_link _ l, open_link _ l (hc.open_ l hl)⟩
  have hB : ∀ x ∈ (post.map entryOf).map (link (linker lib .chauthtok (flags ||| 2 ^ 14))), Fair x := by
    intro x hx
    obtain ⟨e, he, rfl⟩ := List.mem_map.mp hx
    obtain ⟨l, hl, rfl⟩ := List.mem_map.mp he
    exact fair_link _ l
  have hw := walk_guard _ hA _ (fair_link _ _) _ hB _ _ _ k1 (Or.inl rfl)
  have hM : (envOf .chauthtok (begin true h0)).world = entered .chauthtok (begin true h0) := rfl
  rw [world_lines, call_link, hM] at hw
  have hk := kind_guard _ _ hflag _ hw
  have hst : ∀ r, callModule (link (linker lib .chauthtok (flags ||| 2 ^ 14)) (entryOf ⟨flag, path, args⟩)) (firstMoment lib flags pre h0) = r →
      answerOf r.1 ≠ PAM_IGNORE → kindOf (link (linker lib .chauthtok (flags ||| 2 ^ 14)) (entryOf ⟨flag, path, args⟩)) r.1 = ACT_OK → answerOf r.1 = PAM_SUCCESS := by
    rintro r rfl hri hko
    refine walk_strict _ hA _ (fair_link _ _) _ hB _ _ k1 _ ?_ hri (Or.inl hko)
    rw [world_lines, hM]
    rfl
  rw [call_link] at hst
  dsimp only at hk hst
  unfold firstMoment at hst ⊢
  generalize afterLines lib .chauthtok (flags ||| 2 ^ 14) pre (entered .chauthtok (begin true h0)) = m at hk hst ⊢
  cases hm : lib.modules .chauthtok path with
  | none =>
    rw [hm] at hk
    dsimp only at hk
    rcases hk with ⟨hk | hk, -⟩ | hk <;> exact absurd hk (by decide)
  | some f =>
    rw [hm] at hk hst
    dsimp only at hk hst
    refine ⟨f, _, rfl, rfl, ?_⟩
    rcases hk with ⟨hk, hk2, hk3⟩ | hk
    · left
      have := hst _ rfl (by rw [hk3]; rcases hk with e | e <;> rw [e] <;> decide) hk2
      rw [hk3] at this
      exact this
    · exact Or.inr hk

/-- C185: with pam_unix on such a line for passwords, and an application whose conversation does not answer PAM_IGNORE to a message:
pam_chauthtok returns PAM_SUCCESS only if the user pam_unix was told is in the user database, and the real user is root (and it was not asked
for expired passwords only), or the account has no password, or pam_unix was given the current password, by the user or by a module before
it, in the first pass. -/
theorem C185_current_partial (lib : Lib W) (D : Disk W) (hq : Quiet D lib.conv) (hinfo : ∀ c msg w, (lib.conv c .info msg w).1.1 ≠ PAM_IGNORE)
    (service : Str) (pre post : List Line) (path : Str) (args : List Str)
    (hc : Guarded lib service .chauthtok pre path args post) (hm : lib.modules .chauthtok path = some (unixChange D))
    (user : Option Str) (conv : Nat) (w : W) (h : Handle W) (hs : start lib service user conv w = some h)
    (h0 : Handle W) (hm0 : Meanwhile lib [.chauthtok] h h0) (flags : Nat) (h1 : Handle W) (hrun : run lib .chauthtok flags h0 = some (PAM_SUCCESS, h1))
    (s : S W) (hmoment : s = (firstMoment lib flags pre h0).s) (M : Mach) (hM : D.mach s.world = M)
    (hbuf : ∀ i, (M.luck false i).buf.length = 513) (hn : (M.etc.sys M.world).pwnam Unix.nobody = none) (hday : Unix.Day M.world.today)
    (hnul : ∀ pw, GivesOld lib s pw → NUL ∉ pw) :
    ∃ name w1, Names lib s name w1 ∧ (M.etc.findPw name).isSome = true ∧ Permits lib M s flags name := by
  obtain ⟨h14, h13, f, r, z1, z2, z3⟩ := C185_line lib service pre post path args hc user conv w h hs h0 hm0 flags h1 hrun
  rw [hm] at z1
  have e := Option.some.inj z1
  subst e
  have hreach0 := meanwhile_reach (.start lib service user conv w h hs) hm0
  unfold firstMoment at z2 hmoment
  obtain ⟨t1, t2⟩ := lines_tame lib .chauthtok (flags ||| 2 ^ 14) pre (entered .chauthtok (begin true h0)) rfl
  have hf0 : FailOk (entered .chauthtok (begin true h0)).s.inner.failUser := failOk_closed.begin true h0 (reach_failOk hreach0)
  generalize hmm : afterLines lib .chauthtok (flags ||| 2 ^ 14) pre (entered .chauthtok (begin true h0)) = m at *
  subst hmoment
  obtain ⟨b14, -, -⟩ := bits h14 h13
  obtain ⟨c, s', o, a1, a2, ho, a3⟩ := first_any hq hinfo (s := { m.s with inner := { m.s.inner with modArgs := args } }) t2 (t1.2 hf0) b14 args hM
  have hcall := (runs_call (lib := lib) (m := m) a1).1
  rw [hcall] at z2
  have hok : c = PAM_SUCCESS := by
    rw [z2]
    rw [z2] at a2
    exact z3.resolve_right a2
  obtain ⟨name, w1, info, oldTok, fails, n1, n2, n3⟩ := a3 hok
  obtain ⟨r1, hr1, hc1⟩ := codeOf_success (n3 none fun _ => (PAM_AUTHTOK_ERR, []))
  obtain ⟨g1, g2, g3, g4, g5⟩ := Unix.C72_call _ _ _ _ _ _ _ _ ho
  have pre1 : Unix.on Unix.UNIX__PRELIM o.ctrl = true := by rw [g2]; exact b14
  have b5 : (flags ||| 2 ^ 14).testBit 5 = flags.testBit 5 := by
    simp only [Nat.testBit_or, Nat.testBit_two_pow]
    simp
  have hroot : Unix.on Unix.UNIX__IAMROOT o.ctrl = true → M.proc.uid = 0 ∧ flags.testBit 5 = false := by
    rw [g4]
    show (decide (M.proc.uid = 0) && !(flags ||| 2 ^ 14).testBit 5) = true → _
    rw [b5]
    cases flags.testBit 5 <;> simp
  refine ⟨name, w1, names_args n1, ?_⟩
  have pr : ∀ tok : Int × Str, NUL ∉ tok.2 → (tok.1 = PAM_SUCCESS → GivesOld lib m.s tok.2) →
      Unix.chauthtok M.world M.etc M.bin M.proc (callOf M false o name info tok none fun _ => (PAM_AUTHTOK_ERR, [])) fails = some r1 →
      (M.etc.findPw name).isSome = true ∧ Permits lib M m.s flags name := by
    intro tok hnt hgive hr1
    obtain ⟨hsome, hcase⟩ := Unix.C81_prelim M.world M.etc M.bin M.proc (callOf M false o name info tok none fun _ => (PAM_AUTHTOK_ERR, [])) fails hbuf hnt hn hday pre1 r1 hr1 hc1
    refine ⟨hsome, ?_⟩
    rcases hcase with ⟨x, x1, x2⟩ | ⟨hr | ⟨htk, x, x1, x2⟩, -⟩
    · exact .blank x x1 x2
    · exact .root (hroot hr).1 (hroot hr).2
    · exact .known tok.2 x (hgive htk) x1 x2
  by_cases hkn : oldTok.1 = PAM_SUCCESS
  · exact pr oldTok (hnul _ (givesOld_args (n2 hkn))) (fun _ => givesOld_args (n2 hkn)) hr1
  · refine pr (oldTok.1, []) (by simp) (fun x => absurd x hkn) ?_
    rw [← hr1]
    have : ∀ ctrl, Unix.prelim M.world M.etc M.bin M.proc (callOf M false o name info (oldTok.1, []) none fun _ => (PAM_AUTHTOK_ERR, [])) ctrl fails =
        Unix.prelim M.world M.etc M.bin M.proc (callOf M false o name info oldTok none fun _ => (PAM_AUTHTOK_ERR, [])) ctrl fails :=
      fun ctrl => prelim_unasked M.world M.etc M.bin M.proc (callOf M false o name info oldTok none fun _ => (PAM_AUTHTOK_ERR, [])) ctrl fails hkn
    unfold Unix.chauthtok
    dsimp only
    rw [this]
    have pre1' : Unix.on Unix.UNIX__PRELIM (Unix.relaxed o.ctrl) = true := by
      rw [Unix.on_relaxed (by decide) (by decide) (by decide) (by decide)]; exact pre1
    show (if _ then _ else if _ then _ else match M.etc.findPw name with | none => _ | some _ => if Unix.on Unix.UNIX__PRELIM (Unix.relaxed o.ctrl) = true then _ else _) =
      (if _ then _ else if _ then _ else match M.etc.findPw name with | none => _ | some _ => if Unix.on Unix.UNIX__PRELIM (Unix.relaxed o.ctrl) = true then _ else _)
    simp only [if_pos pre1']
    rfl

/-! ### a configuration that meets the hypotheses -/

def gcSys : Sys where
  fs := fun p => if p = "/etc/pam.d/passwd".toList then
    some "password optional pam_b.so\npassword required pam_unix.so yescrypt shadow\npassword sufficient pam_c.so\n".toList else none
  confdir := none
  dirs := ["/etc/pam.d/".toList]
  haveDir := true

theorem gc_lines : fileLinesOf gcSys "passwd".toList .pass = some ([⟨.optional, "pam_b.so".toList, []⟩] ++
    ⟨.required, "pam_unix.so".toList, ["yescrypt".toList, "shadow".toList]⟩ :: [⟨.sufficient, "pam_c.so".toList, []⟩]) := by decide +kernel

/-- a module that checks a new password before pam_unix, and one that records the change after it; `info` is the application's answer to a
message -/
def gcLib (old : Str) (info : Int) : Lib (Unix.Etc × Nat) where
  conv := fun c st msg w => if st = .info then ((info, some none), (w.1, w.2 + 1)) else (chLib old).conv c st msg w
  sys := gcSys
  modules := fun fn path => if path = "pam_unix.so".toList then (chLib old).modules fn path else some fun _ _ => .ret PAM_SUCCESS

theorem gc_guarded (old : Str) (info : Int) : Guarded (gcLib old info) "passwd".toList .chauthtok [⟨.optional, "pam_b.so".toList, []⟩] "pam_unix.so".toList
    ["yescrypt".toList, "shadow".toList] [⟨.sufficient, "pam_c.so".toList, []⟩] :=
  ⟨Or.inr rfl, by decide, ⟨.required, Or.inl rfl, gc_lines⟩, by intro l hl; rw [List.mem_singleton.mp hl]; decide⟩

example (old : Str) : (gcLib old PAM_SUCCESS).modules .chauthtok "pam_unix.so".toList = some (unixChange chDisk) := rfl

theorem gc_quiet (old : Str) (info : Int) : Quiet chDisk (gcLib old info).conv := by
  intro c st msg w
  show chDisk.mach (if st = .info then ((info, some none), (w.1, w.2 + 1)) else (chLib old).conv c st msg w).2 = _
  split
  · rfl
  · exact ch_quiet old c st msg w

example (old : Str) : ∀ c msg w, ((gcLib old PAM_SUCCESS).conv c .info msg w).1.1 ≠ PAM_IGNORE := by
  intro c msg w
  exact show (PAM_SUCCESS : Int) ≠ PAM_IGNORE by decide

/-- pam_chauthtok: its code, and the hash afterwards -/
def gcSaid (old : Str) (info : Int) : Option (Int × Option Str) :=
  (start (gcLib old info) "passwd".toList (some "ada".toList) 7 (Unix.opwEtc, 0)).bind fun h => (run (gcLib old info) .chauthtok 0 h).map fun r =>
    (r.1, (r.2.m.s.world.1.findSp "ada".toList).map (·.hash))

example : (gcSaid "secret password".toList PAM_SUCCESS).map (·.1) = some PAM_SUCCESS := by decide +kernel
example : gcSaid "guess".toList PAM_SUCCESS = some (PAM_AUTH_ERR, some "ABsecret.p...assword....".toList) := by decide +kernel

/-- C185: the claim is false for an application whose conversation answers PAM_IGNORE to the message "Changing password for ada.": pam_unix
returns that code and is passed over in the first pass; in the second it finds no PAM_OLDAUTHTOK and takes a new password without the old one. -/
theorem C185_ignored_counterexample : gcSaid "guess".toList PAM_IGNORE = some (PAM_SUCCESS, some "$y$abc".toList) := by decide +kernel

end Pam.Whole
