import Verif.Stack.Walk
import Verif.Handle.Call
/-
The interface functions on a handle whose stack is a list of module lines with classic control words.
-/
namespace Pam.Whole
open Pam Pam.Config Pam.Config.Spec Pam.Handle
open Pam.Stack (Line Smooth walk fileLinesOf fileLinesOf_tree tree_walk_on rowsTree rowsTree_flatten_empty)

variable {W : Type}

/-- the name of a service as libpam uses it: libpam/pam_start.c:81-93, 99-105 -/
def serviceName (service : Str) : Str := (afterLast '/' service).map lower

/-- the module function behind a line -/
def modsOf (lib : Lib W) (fn : Fn) (flags : Nat) : Str → List Str → M W → Int × M W := fun path args m =>
  match lib.modules fn path with
  | some f => callProg lib (f flags args) args m
  | none => (PAM_MODULE_UNKNOWN, m)

/-- a handle between two calls, its configuration loaded -/
structure Ready (lib : Lib W) (svc : Str) (h : Handle W) : Prop where
  loaded : h.inner.loaded = true
  tables : initHandlers lib.sys svc = some h.tables
  idle : h.former = none
  app : h.inner.caller = .app

/-- what the modules find when a function is called -/
def entered (fn : Fn) (h : Handle W) : M W :=
  { h.m with s := { h.m.s with inner := { h.inner with caller := .module, chauthtok := decide (fn = .chauthtok) } } }

/-- back in the application -/
def left (m : M W) : S W := { m.s with inner := { m.s.inner with caller := .app } }

theorem start_ready {lib : Lib W} {service : Str} {user : Option Str} {conv : Nat} {w : W} {h : Handle W}
    (hs : start lib service user conv w = some h) :
    Ready lib (serviceName service) h ∧ h.m.s.world = w ∧ h.m.s.talk = [] ∧
      h.inner = { service := serviceName service, user := user, conv := conv, loaded := true } ∧ h.update = false := by
  unfold start at hs
  unfold load at hs
  simp only [Bool.false_eq_true, if_false] at hs
  cases hi : initHandlers lib.sys ((afterLast '/' service).map lower) with
  | none => rw [hi] at hs; cases hs
  | some T =>
    rw [hi] at hs
    have e := Option.some.inj hs
    subst e
    exact ⟨⟨rfl, hi, rfl, rfl⟩, rfl, rfl, rfl, rfl⟩

/-- A call of an interface function on such a handle is the walk over the lines of the file. -/
theorem dispatch_lines {lib : Lib W} {svc : Str} {h : Handle W} (hr : Ready lib svc h) (hdir : lib.sys.confdir.isSome ∨ lib.sys.haveDir)
    (hsvc : ieq svc otherName = false) (fn : Fn) (hf : fn.first = true) (flags : Nat) (ls : List Line)
    (hl : fileLinesOf lib.sys svc fn.mtype = some ls) (hne : ls ≠ []) (hmod : ∀ l ∈ ls, (lib.modules fn l.path).isSome)
    (h0 : Smooth (modsOf lib fn flags) ls (entered fn h)) :
    ∃ h', dispatch lib fn flags h = some ((walk (modsOf lib fn flags) ls .none (entered fn h)).1.code, h') ∧
      h'.m.s = left (walk (modsOf lib fn flags) ls .none (entered fn h)).2 ∧ h'.former = none ∧ h'.tables = h.tables ∧
      h'.update = h.update := by
  obtain ⟨h1, -⟩ := (C43_loaded_stacks lib.sys svc h.tables hdir hsvc hr.tables fn).1 hf
  obtain ⟨rows, r1, r2⟩ := fileLinesOf_tree hl
  have he := rowsTree_flatten_empty fn.mtype rows ls r1
  rw [r2] at h1
  have hempty : (h.tables.conf.get fn).isEmpty = false := by
    rw [h1]
    cases hq : (rowsTree fn.mtype rows).flatten 0 with
    | nil => exact absurd (he.mp hq) hne
    | cons a b => rfl
  have hmode : modeOf fn = .pleaseFreeze := by cases fn <;> first | rfl | cases hf
  unfold dispatch
  rw [if_neg (by rw [hr.app]; decide)]
  have hload : load lib h = (true, h) := by unfold load; rw [if_pos hr.loaded]
  rw [hload]
  simp only [hr.idle, if_true]
  unfold runStack
  simp only [hempty, hmode, Option.isSome_none, Bool.false_eq_true, if_false]
  obtain ⟨st, k1, k2⟩ := tree_walk_on (linker lib fn flags) (modsOf lib fn flags) fn.mtype rows ls r1
    (fun l hm => by
      obtain ⟨f, hfm⟩ := Option.isSome_iff_exists.mp (hmod l hm)
      unfold linker modsOf
      rw [hfm]; rfl)
    ⟨fun j => h.cells false fn.mtype ((if fn.first = true then id else firstPos ((h.tables.side false).get (firstOf fn))) j),
      fun _ => false, entered fn h, []⟩ h0
  have hside : (h.tables.side false).get fn = (rowsTree fn.mtype rows).flatten 0 := h1
  rw [hside]
  have hk : Dispatch.dispatchAux .pleaseFreeze (((rowsTree fn.mtype rows).flatten 0).map (link (linker lib fn flags))) none
      { cells := fun j => h.cells false fn.mtype ((if fn.first = true then id else firstPos ((h.tables.side false).get (firstOf fn))) j)
        grant := fun _ => false
        world := { s := { inner := { h.inner with caller := .module, chauthtok := decide (fn = .chauthtok) }, world := h.m.s.world, talk := h.m.s.talk },
                   hist := h.m.hist, reentered := h.m.reentered, broken := h.m.broken }
        trace := [] } = .done (walk (modsOf lib fn flags) ls .none (entered fn h)).1.code st := k1
  rw [hk]
  refine ⟨_, rfl, ?_, rfl, rfl, rfl⟩
  show left st.world = _
  rw [k2]

end Pam.Whole
