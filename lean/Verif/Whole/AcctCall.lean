import Verif.Whole.AuthCall
/-
pam_acct_mgmt on a handle whose stack has the one line `required pam_unix.so`.
-/
namespace Pam.Whole
open Pam Pam.Handle
open Pam.Stack (Line Smooth walk walk_required rstep fileLinesOf)
open Pam.Config (otherName Fn)

variable {W : Type}

/-- one call of a function other than pam_authenticate, from what the module does -/
theorem call_line {lib : Lib W} {svc : Str} {h : Handle W} (hr : Ready lib svc h)
    (hdir : lib.sys.confdir.isSome ∨ lib.sys.haveDir) (hsvc : ieq svc otherName = false) (fn : Fn) (hf : fn.first = true)
    (path : Str) (args : List Str) {f : Nat → List Str → Prog W}
    (hl : fileLinesOf lib.sys svc fn.mtype = some [⟨.required, path, args⟩]) (hm : lib.modules fn path = some f)
    (flags : Nat) {c : Int} {s' : S W}
    (hruns : Runs lib.conv (f flags args) { (entered fn h).s with inner := { (entered fn h).s.inner with modArgs := args } } c s')
    (hc : c ≠ PAM_INCOMPLETE) :
    ∃ h', dispatch lib fn flags h = some ((rstep .none c).code, h') ∧ h'.m.s.world = s'.world ∧ h'.m.s.talk = s'.talk ∧
      h'.inner = { s'.inner with modArgs := [], caller := .app } ∧ h'.former = none ∧ h'.tables = h.tables := by
  have hcall := runs_call (lib := lib) (m := entered fn h) (argv := args) hruns
  have hmods : modsOf lib fn flags path args (entered fn h) = callProg lib (f flags args) args (entered fn h) := by
    unfold modsOf; rw [hm]
  obtain ⟨h1, d1, d2, d3, d4, -⟩ := dispatch_lines hr hdir hsvc fn hf flags [⟨.required, path, args⟩] hl (by simp)
    (by intro l hl; rw [List.mem_singleton.mp hl]; rw [hm]; rfl)
    (by unfold Smooth; refine ⟨?_, trivial⟩; dsimp only; rw [hmods, hcall.1]; exact hc)
  rw [walk_required] at d1 d2
  dsimp only at d1 d2
  rw [hmods, hcall.1] at d1
  rw [hmods] at d2
  unfold left at d2
  rw [hcall.2] at d2
  exact ⟨h1, d1, by rw [d2], by rw [d2], by show h1.m.s.inner = _; rw [d2], d3, d4⟩

theorem savedCode_module {i : Inner} (hc : i.caller = .module) :
    savedCode { code := (getData i (some savedName)).1, data := (getData i (some savedName)).2 } = savedOf i := by
  have h := getData_module hc savedName
  unfold savedCode savedOf
  dsimp only
  split
  · rename_i hs
    rw [if_pos hs] at h
    rw [h]
    cases datum i savedName <;> rfl
  · rename_i hs
    rw [if_neg hs] at h
    rw [← h]

/-- what the module makes of the saved result -/
def heeded (ctrl : Unix.Ctrl) (i : Inner) : Option Int := if Unix.on Unix.UNIX_NO_PASS_EXPIRY ctrl then savedOf i else none

/-- the state after a message, if there is one -/
def uttered (cv : Convs W) (msg : Option Unix.Remark) (s : S W) : S W :=
  match msg with
  | none => s
  | some r => (converse cv (if (remarkOf r).1 then .error else .info) (remarkOf r).2 s).2

/-- pam_acct_mgmt, the user being known -/
theorem acct_named {lib : Lib W} {host : W → Host} {svc : Str} {h : Handle W} (hr : Ready lib svc h)
    (hdir : lib.sys.confdir.isSome ∨ lib.sys.haveDir) (hsvc : ieq svc otherName = false) (path : Str) (args : List Str)
    (hl : fileLinesOf lib.sys svc .acct = some [⟨.required, path, args⟩]) (hm : lib.modules .acctMgmt path = some (unixAcct host))
    (flags : Nat) {ctrl : Unix.Ctrl} (hctrl : unixCtrl (host h.m.s.world) flags args = some ctrl) {name : Str} (hu : h.inner.user = some name)
    {c : Int} {msg : Option Unix.Remark}
    (hacct : Unix.acctMgmt (host h.m.s.world).sys (host h.m.s.world).bin ((host h.m.s.world).luck 4) (host h.m.s.world).proc ctrl
      (heeded ctrl h.inner) (some name) = some (c, msg)) (hc : c ≠ PAM_INCOMPLETE) :
    ∃ h', run lib .acctMgmt flags h = some ((rstep .none c).code, h') ∧ Ready lib svc h' ∧
      h'.inner = { h.inner with caller := .app, chauthtok := false, modArgs := [] } ∧
      h'.m.s.world = (uttered lib.conv msg h.m.s).world ∧ h'.m.s.talk = (uttered lib.conv msg h.m.s).talk := by
  let i : Inner := { h.inner with caller := .module, chauthtok := false, modArgs := args }
  let s : S W := { h.m.s with inner := i }
  have hs : { (entered .acctMgmt h).s with inner := { (entered .acctMgmt h).s.inner with modArgs := args } } = s := rfl
  have haged : ∀ saved, Unix.acctMgmt (host h.m.s.world).sys (host h.m.s.world).bin ((host h.m.s.world).luck 4) (host h.m.s.world).proc ctrl
      saved (some name) = some (c, msg) → Runs lib.conv (unixAged host ctrl name saved) s c (uttered lib.conv msg s) := by
    intro saved hh
    unfold unixAged
    refine runs_look ?_
    rw [hh]
    cases msg with
    | none => exact runs_ret _ _ _
    | some r => exact runs_api (s1 := uttered lib.conv (some r) s) rfl (runs_ret _ _ _)
  have hitem : getItem i PAM_USER = (PAM_SUCCESS, .str name) := by
    show readItem i .user = _
    unfold readItem
    simp only [i, hu, Value.ofStr]
  have hruns : Runs lib.conv (unixAcct host flags args) s c (uttered lib.conv msg s) := by
    unfold unixAcct
    refine runs_look ?_
    rw [hctrl]
    refine runs_api (a := { code := PAM_SUCCESS, value := .str name }) (s1 := s) ?_ ?_
    · unfold effect
      dsimp only
      rw [hitem]
    · dsimp only
      rw [if_neg (by simp)]
      unfold heeded at hacct
      by_cases hn : Unix.on Unix.UNIX_NO_PASS_EXPIRY ctrl = true
      · rw [if_pos hn] at hacct ⊢
        refine runs_api (s1 := s) rfl ?_
        have : savedCode { code := (getData i (some savedName)).1, data := (getData i (some savedName)).2 } = savedOf h.inner := savedCode_module rfl
        rw [this]
        exact haged _ hacct
      · rw [if_neg hn] at hacct ⊢
        exact haged _ hacct
  obtain ⟨h', d1, d2, d3, d4, d5, d6⟩ := call_line hr hdir hsvc .acctMgmt rfl path args hl hm flags hruns hc
  have hrun : run lib .acctMgmt flags h = dispatch lib .acctMgmt flags h := by
    unfold run refused
    dsimp only
    rw [if_neg (by rw [hr.app]; decide)]
  have hi : (uttered lib.conv msg s).inner = i := by cases msg <;> rfl
  have hw : (uttered lib.conv msg s).world = (uttered lib.conv msg h.m.s).world := by cases msg <;> rfl
  have ht : (uttered lib.conv msg s).talk = (uttered lib.conv msg h.m.s).talk := by cases msg <;> rfl
  rw [hi] at d4
  refine ⟨h', by rw [hrun]; exact d1, ⟨?_, by rw [d6]; exact hr.tables, d5, by rw [d4]⟩, d4, by rw [d2, hw], by rw [d3, ht]⟩
  rw [d4]; exact hr.loaded

end Pam.Whole
