import Verif.Unix.FilesProps
import Verif.Unix.LoginProps
/-
Property theorems C79 (what a change of a password does to the accounts).
-/
namespace Pam.Unix
open Pam Util

/-- the files after some steps -/
def Etc.after (e : Etc) (acts : List Act) : Etc := acts.foldl Etc.apply e

/-- the shadow database as root reads it -/
def Etc.shadow (w : World) (e : Etc) (n : Str) : Option Sp :=
  match e.findSp n with
  | some x => some ⟨x.hash, x.aging⟩
  | none => w.otherSp n

/-- the files are whole and nobody is replacing them -/
structure Etc.Clean (e : Etc) : Prop where
  pwTorn : e.pw.torn = false
  pwTmp : e.pw.tmp = none
  spTorn : e.sp.torn = false
  spTmp : e.sp.tmp = none
  opTorn : e.op.torn = false
  opTmp : e.op.tmp = none

/-- nothing about the account differs -/
def SameAccount (w : World) (e e' : Etc) (n : Str) : Prop := e'.findPw n = e.findPw n ∧ e'.findSp n = e.findSp n ∧
  (e'.sys w).pwnam n = (e.sys w).pwnam n ∧ e'.shadow w n = e.shadow w n

/-- the hash of the account is exactly this one -/
def HashIs (w : World) (e : Etc) (n h : Str) : Prop := ∀ x, Account (e.sys w) (e.shadow w) n x ↔ x = h

/-- the hash of the account, if there is one, has not changed -/
def SameHash (w : World) (e e' : Etc) (n : Str) : Prop := ∀ x, Account (e'.sys w) (e'.shadow w) n x ↔ Account (e.sys w) (e.shadow w) n x

/-- The entries of a user are the same but for password field, hash and day of the change. -/
def OnlyPassword (e e' : Etc) (n : Str) : Prop :=
  (∀ x', e'.findPw n = some x' → ∃ x, e.findPw n = some x ∧ x'.pw.name = x.pw.name ∧ x'.pw.uid = x.pw.uid ∧ x'.rest = x.rest) ∧
  (∀ x x', e.findSp n = some x → e'.findSp n = some x' → x'.aging.min = x.aging.min ∧ x'.aging.max = x.aging.max ∧ x'.aging.warn = x.aging.warn ∧
    x'.aging.inact = x.aging.inact ∧ x'.aging.expire = x.aging.expire ∧ x'.flag = x.flag)

/-! ### helper lemmas -/

theorem rootReads (w : World) (e : Etc) : (e.sys w).RootReads (e.shadow w) := by
  intro q hq
  funext n
  show (if q.euid = 0 then _ else _) = _
  rw [if_pos hq]
  rfl

theorem Etc.after_append (e : Etc) (a b : List Act) : e.after (a ++ b) = (e.after a).after b := List.foldl_append ..

theorem after_pw (e : Etc) : ∀ ops : List (Op (Option PwEnt)), e.after (ops.map .pw) = { e with pw := e.pw.after ops }
  | [] => rfl
  | o :: os => after_pw (e.apply (.pw o)) os

theorem after_sp (e : Etc) : ∀ ops : List (Op (Option SpEnt)), e.after (ops.map .sp) = { e with sp := e.sp.after ops }
  | [] => rfl
  | o :: os => after_sp (e.apply (.sp o)) os

theorem after_op (e : Etc) : ∀ ops : List (Op Str), e.after (ops.map .op) = { e with op := e.op.after ops }
  | [] => rfl
  | o :: os => after_op (e.apply (.op o)) os

/-- the first record with a key -/
theorem find_map {β : Type} (key : β → Str) (g : β → β) (hg : ∀ x, key (g x) = key x) (n : Str) : ∀ l : List (Option β),
    ((l.filterMap id).map (fun x => some (g x))).findSome? (fun x => x.filter (fun x => decide (key x = n))) =
      (l.findSome? (fun x => x.filter (fun x => decide (key x = n)))).map g
  | [] => rfl
  | none :: l => by
    rw [List.filterMap_cons_none rfl, List.findSome?_cons]
    exact find_map key g hg n l
  | some x :: l => by
    rw [show ((some x :: l).filterMap id) = x :: l.filterMap id from rfl, List.map_cons, List.findSome?_cons, List.findSome?_cons]
    by_cases hx : key x = n
    · simp [Option.filter, hg, hx]
    · simp only [Option.filter, hg, hx, decide_false, Bool.false_eq_true, if_false]
      exact find_map key g hg n l

theorem find_key {β : Type} (key : β → Str) (n : Str) {l : List (Option β)} {x : β}
    (h : l.findSome? (fun x => x.filter (fun x => decide (key x = n))) = some x) : some x ∈ l ∧ key x = n := by
  obtain ⟨y, hy, hf⟩ := List.exists_of_findSome?_eq_some h
  rw [Option.filter_eq_some_iff] at hf
  exact ⟨hf.1 ▸ hy, by simpa using hf.2⟩

theorem findKey_none {β : Type} (key : β → Str) (n : Str) {l : List (Option β)} :
    l.findSome? (fun x => x.filter (fun x => decide (key x = n))) = none ↔ ¬ ∃ x, some x ∈ l ∧ key x = n := by
  rw [List.findSome?_eq_none_iff]
  constructor
  · rintro h ⟨x, hx, hk⟩
    have := h _ hx
    simp [Option.filter, hk] at this
  · intro h y hy
    cases y with
    | none => rfl
    | some x =>
      have : key x ≠ n := fun hk => h ⟨x, hy, hk⟩
      simp [Option.filter, this]

/-- /etc/passwd with a new password field -/
theorem find_withPasswd (u h n : Str) (old : List (Option PwEnt)) :
    (withPasswd u h old).findSome? (fun x => x.filter (fun x => decide (x.pw.name = n))) =
      (old.findSome? (fun x => x.filter (fun x => decide (x.pw.name = n)))).map
        (fun e => if n = u then ⟨⟨e.pw.name, h, e.pw.uid⟩, e.rest⟩ else e) := by
  unfold withPasswd
  rw [find_map (fun e : PwEnt => e.pw.name) (fun e => if e.pw.name = u then ⟨⟨e.pw.name, h, e.pw.uid⟩, e.rest⟩ else e)
    (fun x => by split <;> rfl)]
  cases hf : old.findSome? (fun x => x.filter (fun x => decide (x.pw.name = n))) with
  | none => rfl
  | some x =>
    have hk : x.pw.name = n := (find_key (fun e : PwEnt => e.pw.name) n hf).2
    simp only [Option.map_some, hk]

theorem find_withHash (u h : Str) (day : Int) (n : Str) (old : List (Option SpEnt)) :
    (withHash u h day old).findSome? (fun x => x.filter (fun x => decide (x.name = n))) =
      (old.findSome? (fun x => x.filter (fun x => decide (x.name = n)))).map
        (fun e => if n = u then { e with hash := h, aging := { e.aging with lstchg := day } } else e) := by
  unfold withHash
  rw [find_map (fun e : SpEnt => e.name) (fun e => if e.name = u then { e with hash := h, aging := { e.aging with lstchg := day } } else e)
    (fun x => by split <;> rfl)]
  cases hf : old.findSome? (fun x => x.filter (fun x => decide (x.name = n))) with
  | none => rfl
  | some x =>
    have hk : x.name = n := (find_key (fun e : SpEnt => e.name) n hf).2
    simp only [Option.map_some, hk]

theorem find_newShadow {u h : Str} {day : Int} {old new : List (Option SpEnt)} (hs : newShadow u h day old new) (n : Str) :
    new.findSome? (fun x => x.filter (fun x => decide (x.name = n))) =
      if n = u then some (match old.findSome? (fun x => x.filter (fun x => decide (x.name = n))) with
        | some e => { e with hash := h, aging := { e.aging with lstchg := day } }
        | none => newSp u h day)
      else old.findSome? (fun x => x.filter (fun x => decide (x.name = n))) := by
  rcases hs with ⟨h1, rfl⟩ | ⟨h1, rfl⟩
  · rw [find_withHash]
    by_cases hn : n = u
    · subst hn
      rw [if_pos rfl]
      cases hf : old.findSome? (fun x => x.filter (fun x => decide (x.name = n))) with
      | none => exact absurd h1 ((findKey_none (fun e : SpEnt => e.name) n).mp hf)
      | some x => simp
    · simp [hn]
  · rw [List.findSome?_append, find_withHash]
    by_cases hn : n = u
    · subst hn
      rw [(findKey_none (fun e : SpEnt => e.name) n).mpr h1]
      simp [newSp, Option.filter]
    · have : u ≠ n := fun h => hn h.symm
      simp [newSp, hn, this, Option.filter]

/-- what a change may have made of the two files so far -/
structure Stage (e : Etc) (u : Str) (e' : Etc) : Prop where
  pwn : ∀ n, n ≠ u → e'.findPw n = e.findPw n
  spn : ∀ n, n ≠ u → e'.findSp n = e.findSp n
  only : OnlyPassword e e' u
  torn : e'.pw.torn = false ∧ e'.sp.torn = false ∧ e'.op.torn = false
  attr : e'.pw.attr = e.pw.attr ∧ e'.sp.attr = e.sp.attr ∧ e'.op.attr = e.op.attr

theorem stage_same {w : World} {e e' : Etc} {u : Str} (hs : Stage e u e') (n : Str) (hn : n ≠ u) : SameAccount w e e' n := by
  have h1 := hs.pwn n hn
  have h2 := hs.spn n hn
  refine ⟨h1, h2, ?_, ?_⟩
  · show (match e'.findPw n with | some x => some x.pw | none => w.otherPw n) = (match e.findPw n with | some x => some x.pw | none => w.otherPw n)
    rw [h1]
  · unfold Etc.shadow; rw [h2]

theorem findPw_main {e e' : Etc} (h : e'.pw.main = e.pw.main) (n : Str) : e'.findPw n = e.findPw n := by unfold Etc.findPw; rw [h]

theorem findSp_main {e e' : Etc} (h : e'.sp.main = e.sp.main) (n : Str) : e'.findSp n = e.findSp n := by unfold Etc.findSp; rw [h]

/-- what a stage says about the hash, by what has become of the two files -/
theorem account_same {w : World} {e e' : Etc} {u : Str} (h1 : e'.findPw u = e.findPw u) (h2 : e'.findSp u = e.findSp u) : SameHash w e e' u := by
  intro x
  have hp : (e'.sys w).pwnam u = (e.sys w).pwnam u := by
    show (match e'.findPw u with | some x => some x.pw | none => w.otherPw u) = (match e.findPw u with | some x => some x.pw | none => w.otherPw u)
    rw [h1]
  have hs : e'.shadow w u = e.shadow w u := by unfold Etc.shadow; rw [h2]
  unfold Account
  rw [hp, hs]

theorem account_plain {w : World} {e e' : Etc} {u : Str} {pw : Pw} (hpw : (e.sys w).pwnam u = some pw) (hns : ¬ pw.Shadowed)
    (h1 : e'.findPw u = e.findPw u) : SameHash w e e' u := by
  intro x
  have hp : (e'.sys w).pwnam u = (e.sys w).pwnam u := by
    show (match e'.findPw u with | some x => some x.pw | none => w.otherPw u) = (match e.findPw u with | some x => some x.pw | none => w.otherPw u)
    rw [h1]
  unfold Account
  rw [hp, hpw]
  constructor <;>
  · rintro ⟨pw', hp', h⟩
    cases hp'
    refine ⟨pw, rfl, Or.inl (h.elim id (fun h => absurd h.1 hns))⟩

theorem pwnam_eq (w : World) (e : Etc) (n : Str) :
    (e.sys w).pwnam n = (match e.findPw n with | some x => some x.pw | none => w.otherPw n) := rfl

/-- the three files at some moment -/
theorem phases (e : Etc) (A : List (Op Str)) (B : List (Op (Option SpEnt))) (C : List (Op (Option PwEnt))) (k : Nat) :
    e.after ((A.map Act.op ++ B.map Act.sp ++ C.map Act.pw).take k) =
      { e with op := e.op.after (A.take k), sp := e.sp.after (B.take (k - A.length)), pw := e.pw.after (C.take (k - A.length - B.length)) } := by
  rw [List.take_append, List.take_append, ← List.map_take, ← List.map_take, ← List.map_take, Etc.after_append, Etc.after_append, after_op, after_sp,
    after_pw]
  simp only [List.length_append, List.length_map, Nat.sub_add_eq]

/-- /etc/passwd at some moment of its replacement -/
theorem pw_moment (e e' : Etc) (p : Proc) (l : FLuck) (u h : Str) (hf : e.pw.torn = false) (ht : e.pw.tmp = none) (j : Nat)
    (he : e'.pw = e.pw.after ((updatePasswd e p l u h).2.take j)) :
    e'.pw.torn = false ∧ e'.pw.attr = e.pw.attr ∧
    ((∀ n, e'.findPw n = e.findPw n) ∨
     ((updatePasswd e p l u h).1 = true ∧ (updatePasswd e p l u h).2.length ≤ j ∧ (e.findPw u).isSome = true ∧
       ∀ n, e'.findPw n = (e.findPw n).map (fun x => if n = u then ⟨⟨x.pw.name, h, x.pw.uid⟩, x.rest⟩ else x))) := by
  obtain ⟨h1, h2, -⟩ := C78_passwd e p l u h hf ht
  obtain ⟨a, b, c, -⟩ := h1.1 j
  rw [← he] at a b c
  refine ⟨a, b, ?_⟩
  rcases c with c | ⟨hok, hlen, c⟩
  · exact Or.inl (fun n => findPw_main c n)
  · obtain ⟨old, ho, hu⟩ := h2 hok
    refine Or.inr ⟨hok, hlen, ?_, fun n => ?_⟩
    · cases hf : e.findPw u with
      | some x => rfl
      | none =>
        unfold Etc.findPw at hf
        rw [ho] at hf
        exact absurd hu ((findKey_none (fun x : PwEnt => x.pw.name) u).mp hf)
    · unfold Etc.findPw
      rw [c, ho]
      exact find_withPasswd u h n old

/-- at the end of it -/
theorem pw_end (e e' : Etc) (p : Proc) (l : FLuck) (u h : Str) (hf : e.pw.torn = false) (ht : e.pw.tmp = none)
    (hok : (updatePasswd e p l u h).1 = true) (j : Nat) (hj : (updatePasswd e p l u h).2.length ≤ j)
    (he : e'.pw = e.pw.after ((updatePasswd e p l u h).2.take j)) : (e.findPw u).isSome = true ∧
    ∀ n, e'.findPw n = (e.findPw n).map (fun x => if n = u then ⟨⟨x.pw.name, h, x.pw.uid⟩, x.rest⟩ else x) := by
  obtain ⟨h1, h2, -⟩ := C78_passwd e p l u h hf ht
  rw [List.take_of_length_le hj] at he
  have c := h1.2.1 hok
  rw [← he] at c
  obtain ⟨old, ho, hu⟩ := h2 hok
  refine ⟨?_, fun n => ?_⟩
  · cases hf : e.findPw u with
    | some x => rfl
    | none =>
      unfold Etc.findPw at hf
      rw [ho] at hf
      exact absurd hu ((findKey_none (fun x : PwEnt => x.pw.name) u).mp hf)
  · unfold Etc.findPw
    rw [c, ho]
    exact find_withPasswd u h n old

/-- what becomes of the shadow entries -/
def SpChanged (w : World) (e e' : Etc) (u h : Str) : Prop := ∀ n, e'.findSp n =
  if n = u then some (match e.findSp n with
    | some x => { x with hash := h, aging := { x.aging with lstchg := if w.today = 0 then -1 else w.today } }
    | none => newSp u h (if w.today = 0 then -1 else w.today))
  else e.findSp n

/-- /etc/shadow at some moment of its replacement -/
theorem sp_moment (w : World) (e e' : Etc) (p : Proc) (l : FLuck) (u h : Str) (hf : e.sp.torn = false) (ht : e.sp.tmp = none) (j : Nat)
    (he : e'.sp = e.sp.after ((updateShadow w e p l u h).2.take j)) :
    e'.sp.torn = false ∧ e'.sp.attr = e.sp.attr ∧
    ((∀ n, e'.findSp n = e.findSp n) ∨
     ((updateShadow w e p l u h).1 = true ∧ (updateShadow w e p l u h).2.length ≤ j ∧ SpChanged w e e' u h)) ∧
    ((updateShadow w e p l u h).1 = true → (updateShadow w e p l u h).2.length ≤ j → SpChanged w e e' u h) := by
  obtain ⟨⟨new, h1, h2⟩, -⟩ := C78_shadow w e p l u h hf ht
  obtain ⟨a, b, c, -⟩ := h1.1 j
  rw [← he] at a b c
  have key : (updateShadow w e p l u h).1 = true → e'.sp.main = some new → SpChanged w e e' u h := by
    intro hok c n
    obtain ⟨old, ho, hn⟩ := h2 hok
    unfold Etc.findSp
    rw [c, ho]
    exact find_newShadow hn n
  refine ⟨a, b, ?_, fun hok hlen => ?_⟩
  · rcases c with c | ⟨hok, hlen, c⟩
    · exact Or.inl (fun n => findSp_main c n)
    · exact Or.inr ⟨hok, hlen, key hok c⟩
  · refine key hok ?_
    rw [he, List.take_of_length_le hlen]
    exact h1.2.1 hok

theorem only_refl {e e' : Etc} {n : Str} (h1 : e'.findPw n = e.findPw n ∨ ∃ h, e'.findPw n = (e.findPw n).map (fun x => if n = n then ⟨⟨x.pw.name, h, x.pw.uid⟩, x.rest⟩ else x))
    (h2 : e'.findSp n = e.findSp n ∨ ∃ (w : World) (h : Str), SpChanged w e e' n h) : OnlyPassword e e' n := by
  refine ⟨fun x' hx' => ?_, fun x x' hx hx' => ?_⟩
  · rcases h1 with h1 | ⟨h, h1⟩
    · rw [h1] at hx'; exact ⟨x', hx', rfl, rfl, rfl⟩
    · rw [h1] at hx'
      obtain ⟨x, hx, rfl⟩ := Option.map_eq_some_iff.mp hx'
      rw [if_pos rfl]
      exact ⟨x, hx, rfl, rfl, rfl⟩
  · rcases h2 with h2 | ⟨w, h, h2⟩
    · rw [h2, hx] at hx'; cases hx'; exact ⟨rfl, rfl, rfl, rfl, rfl, rfl⟩
    · have := h2 n
      rw [if_pos rfl, hx, hx'] at this
      cases this
      exact ⟨rfl, rfl, rfl, rfl, rfl, rfl⟩

/-- the old passwords at some moment -/
theorem op_moment (w : World) (e : Etc) (p : Proc) (l : SLuck) (u : Str) (old : Option Str) (n : Int) (hf : e.op.torn = false) (ht : e.op.tmp = none) (j : Nat) :
    (e.op.after ((saveOldPassword w e p l u old n).2.take j)).torn = false ∧ (e.op.after ((saveOldPassword w e p l u old n).2.take j)).attr = e.op.attr := by
  unfold saveOldPassword
  split
  · rw [List.take_nil]; exact ⟨hf, rfl⟩
  split
  · rw [List.take_nil]; exact ⟨hf, rfl⟩
  · obtain ⟨⟨new, h1, -⟩, -⟩ := rewrite_safe l.op (p.euid, p.egid) e.op
      (saveBody l.op.put u (fun i => md5Wrapper w.crypts (l.rnd i) ‹Str›) n (((e.sys w).pwnam u).map Pw.uid)) hf ht
    exact ⟨(h1.1 j).1, (h1.1 j).2.1⟩

/-- the shapes of a change -/
inductive Shape (w : World) (e : Etc) (p : Proc) (l : SLuck) (pw : Pw) (u h : Str) (shadow : Bool) :
    Int → List (Op (Option SpEnt)) → List (Op (Option PwEnt)) → Prop where
  | early (code : Int) (hc : code ≠ PAM_SUCCESS) : Shape w e p l pw u h shadow code [] []
  | failSp (code : Int) (hc : code ≠ PAM_SUCCESS) (hok : (updateShadow w e p l.sp u h).1 = false) :
      Shape w e p l pw u h shadow code (updateShadow w e p l.sp u h).2 []
  | sp (hs : pw.Shadowed) (hok : (updateShadow w e p l.sp u h).1 = true) : Shape w e p l pw u h shadow PAM_SUCCESS (updateShadow w e p l.sp u h).2 []
  | both (hs : ¬ pw.Shadowed) (code : Int) (hok : (updateShadow w e p l.sp u h).1 = true)
      (hc : code = PAM_SUCCESS ↔ (updatePasswd e p l.pw u "x".toList).1 = true) :
      Shape w e p l pw u h shadow code (updateShadow w e p l.sp u h).2 (updatePasswd e p l.pw u "x".toList).2
  | plain (hs : ¬ pw.Shadowed) (hsh : shadow = false) (code : Int) (hc : code = PAM_SUCCESS ↔ (updatePasswd e p l.pw u h).1 = true) :
      Shape w e p l pw u h shadow code [] (updatePasswd e p l.pw u h).2

theorem code_iff (b : Bool) : (if b then PAM_SUCCESS else PAM_AUTHTOK_ERR) = PAM_SUCCESS ↔ b = true := by cases b <;> decide

theorem setFiles_shape (w : World) (e : Etc) (p : Proc) (l : SLuck) (pw : Pw) (u : Str) (old : Option Str) (h : Str) (shadow : Bool) (n : Int) :
    ∃ B C, (setFiles w e p l pw u old h shadow n).2 = (saveOldPassword w e p l u old n).2.map Act.op ++ B.map Act.sp ++ C.map Act.pw ∧
      Shape w e p l pw u h shadow (setFiles w e p l pw u old h shadow n).1 B C := by
  unfold setFiles
  dsimp only
  split
  · exact ⟨[], [], by simp, .early _ (by show PAM_AUTHTOK_ERR ≠ PAM_SUCCESS; decide)⟩
  split
  · split
    · next hf => exact ⟨_, [], by simp,   .failSp _ (by show PAM_AUTHTOK_ERR ≠ PAM_SUCCESS; decide) (by simpa using hf)⟩
    next hok =>
    have hok : (updateShadow w e p l.sp u h).1 = true := by simpa using hok
    split
    · next hs =>
      have hs : ¬ pw.Shadowed := fun h => by rw [shadowed_iff.mpr h] at hs; cases hs
      exact ⟨_, _, rfl, .both hs _ hok (code_iff _)⟩
    · next hs =>
      have hs : pw.Shadowed := shadowed_iff.mp (by simpa using hs)
      exact ⟨_, [], by simp, .sp hs hok⟩
  · next hs =>
    simp only [Bool.or_eq_true, not_or, Bool.not_eq_true] at hs
    have hns : ¬ pw.Shadowed := fun h => by rw [shadowed_iff.mpr h] at hs; cases hs.2
    exact ⟨[], _, by simp, .plain hns hs.1 _ (code_iff _)⟩

theorem hashIs_sp {w : World} {e' : Etc} {u h : Str} {pw : Pw} (hp : (e'.sys w).pwnam u = some pw) (hs : pw.Shadowed) {sp : Sp} (hsp : e'.shadow w u = some sp)
    (hh : sp.hash = h) : HashIs w e' u h := by
  intro x
  unfold Account
  rw [hp, hsp]
  constructor
  · rintro ⟨q, hq, ⟨h1, -⟩ | ⟨-, sp', h2, h3⟩⟩
    · cases hq; exact absurd hs h1
    · cases h2; rw [h3, hh]
  · rintro rfl
    exact ⟨pw, rfl, Or.inr ⟨hs, sp, rfl, hh.symm⟩⟩

theorem spChanged_shadow {w : World} {e e' : Etc} {u h : Str} (hc : SpChanged w e e' u h) : ∃ sp, e'.shadow w u = some sp ∧ sp.hash = h := by
  have := hc u
  rw [if_pos rfl] at this
  unfold Etc.shadow
  rw [this]
  refine ⟨_, rfl, ?_⟩
  split <;> rfl

/-- C79: A change of a password that is stopped anywhere leaves all other accounts as they were, all files whole and with their owners and
modes, and the user with the old hash, or, when everything has been done and success is reported, the new one; of the user's entries nothing
else changes but the day of the change.  A password that goes into /etc/passwd must not read as a reference to /etc/shadow. -/
theorem C79_change (w : World) (e : Etc) (he : e.Clean) (p : Proc) (l : SLuck) (pw : Pw) (u : Str) (hpw : (e.sys w).pwnam u = some pw)
    (old : Option Str) (h : Str) (shadow : Bool) (hh : shadow = true ∨ pw.Shadowed ∨ (h ≠ "x".toList ∧ h ≠ "##".toList ++ u)) (remember : Int) (k : Nat)
    (e' : Etc) (he' : e' = e.after ((setFiles w e p l pw u old h shadow remember).2.take k)) :
    (∀ n, n ≠ u → SameAccount w e e' n) ∧ OnlyPassword e e' u ∧
    (e'.pw.torn = false ∧ e'.sp.torn = false ∧ e'.op.torn = false) ∧
    (e'.pw.attr = e.pw.attr ∧ e'.sp.attr = e.sp.attr ∧ e'.op.attr = e.op.attr) ∧
    (SameHash w e e' u ∨ ((setFiles w e p l pw u old h shadow remember).1 = PAM_SUCCESS ∧
      (setFiles w e p l pw u old h shadow remember).2.length ≤ k ∧ HashIs w e' u h)) ∧
    ((setFiles w e p l pw u old h shadow remember).1 = PAM_SUCCESS → (setFiles w e p l pw u old h shadow remember).2.length ≤ k → HashIs w e' u h) := by
  obtain ⟨B, C, hacts, hshape⟩ := setFiles_shape w e p l pw u old h shadow remember
  have hop := op_moment w e p l u old remember he.opTorn he.opTmp k
  rw [hacts] at he' ⊢
  rw [phases] at he'
  have hop' : e'.op = e.op.after ((saveOldPassword w e p l u old remember).2.take k) := by rw [he']
  rw [← hop'] at hop
  have hsp' : e'.sp = e.sp.after (B.take (k - (saveOldPassword w e p l u old remember).2.length)) := by rw [he']
  have hpw' : e'.pw = e.pw.after (C.take (k - (saveOldPassword w e p l u old remember).2.length - B.length)) := by rw [he']
  generalize hA : (saveOldPassword w e p l u old remember).2.map Act.op = A at *
  have hAl : A.length = (saveOldPassword w e p l u old remember).2.length := by rw [← hA, List.length_map]
  rw [← hAl] at hsp' hpw'
  generalize (setFiles w e p l pw u old h shadow remember).1 = code at *
  simp only [List.length_append, List.length_map]
  clear hacts he' hA
  have stage : Stage e u e' → (∀ n, n ≠ u → SameAccount w e e' n) ∧ OnlyPassword e e' u ∧
    (e'.pw.torn = false ∧ e'.sp.torn = false ∧ e'.op.torn = false) ∧ (e'.pw.attr = e.pw.attr ∧ e'.sp.attr = e.sp.attr ∧ e'.op.attr = e.op.attr) :=
    fun hs => ⟨fun n hn => stage_same hs n hn, hs.only, hs.torn, hs.attr⟩
  suffices hgoal : Stage e u e' ∧ (SameHash w e e' u ∨ (code = PAM_SUCCESS ∧ A.length + B.length + C.length ≤ k ∧ HashIs w e' u h)) ∧
      (code = PAM_SUCCESS → A.length + B.length + C.length ≤ k → HashIs w e' u h) by
    obtain ⟨s1, s2, s3⟩ := hgoal
    obtain ⟨a, b, c, d⟩ := stage s1
    exact ⟨a, b, c, d, s2, s3⟩
  have nosp : B = [] → (∀ n, e'.findSp n = e.findSp n) ∧ e'.sp.torn = false ∧ e'.sp.attr = e.sp.attr := by
    rintro rfl
    rw [List.take_nil] at hsp'
    have : e'.sp = e.sp := hsp'
    exact ⟨fun n => findSp_main (by rw [this]) n, by rw [this]; exact he.spTorn, by rw [this]⟩
  have nopw : C = [] → (∀ n, e'.findPw n = e.findPw n) ∧ e'.pw.torn = false ∧ e'.pw.attr = e.pw.attr := by
    rintro rfl
    rw [List.take_nil] at hpw'
    have : e'.pw = e.pw := hpw'
    exact ⟨fun n => findPw_main (by rw [this]) n, by rw [this]; exact he.pwTorn, by rw [this]⟩
  cases hshape with
  | early code hc =>
    obtain ⟨s1, s2, s3⟩ := nosp rfl
    obtain ⟨p1, p2, p3⟩ := nopw rfl
    exact ⟨⟨fun n _ => p1 n, fun n _ => s1 n, only_refl (Or.inl (p1 u)) (Or.inl (s1 u)), ⟨p2, s2, hop.1⟩, ⟨p3, s3, hop.2⟩⟩,
      Or.inl (account_same (p1 u) (s1 u)), fun h => absurd h hc⟩
  | failSp code hc hok =>
    obtain ⟨p1, p2, p3⟩ := nopw rfl
    obtain ⟨s2, s3, s1, -⟩ := sp_moment w e e' p l.sp u h he.spTorn he.spTmp _ hsp'
    have s1 := s1.resolve_right (fun h => by rw [hok] at h; cases h.1)
    exact ⟨⟨fun n _ => p1 n, fun n _ => s1 n, only_refl (Or.inl (p1 u)) (Or.inl (s1 u)), ⟨p2, s2, hop.1⟩, ⟨p3, s3, hop.2⟩⟩,
      Or.inl (account_same (p1 u) (s1 u)), fun h => absurd h hc⟩
  | sp hs hok =>
    obtain ⟨p1, p2, p3⟩ := nopw rfl
    obtain ⟨s2, s3, s1, s4⟩ := sp_moment w e e' p l.sp u h he.spTorn he.spTmp _ hsp'
    have hnew : SpChanged w e e' u h → HashIs w e' u h := by
      intro hc
      obtain ⟨sp, h1, h2⟩ := spChanged_shadow hc
      exact hashIs_sp (by rw [pwnam_eq, p1, ← pwnam_eq]; exact hpw) hs h1 h2
    refine ⟨⟨fun n _ => p1 n, ?_, only_refl (Or.inl (p1 u)) ?_, ⟨p2, s2, hop.1⟩, ⟨p3, s3, hop.2⟩⟩, ?_, fun _ hk => hnew (s4 hok (by simp at hk; omega))⟩
    · intro n hn
      rcases s1 with s1 | ⟨-, -, s1⟩
      · exact s1 n
      · have := s1 n; rw [if_neg hn] at this; exact this
    · exact s1.imp (fun s1 => s1 u) (fun s1 => ⟨w, h, s1.2.2⟩)
    · rcases s1 with s1 | ⟨-, hl, s1⟩
      · exact Or.inl (account_same (p1 u) (s1 u))
      · by_cases hk : A.length ≤ k
        · exact Or.inr ⟨rfl, by simp; omega, hnew s1⟩
        · -- nothing has been done to /etc/shadow: the list of operations is empty
          have hz : (updateShadow w e p l.sp u h).2 = [] := List.eq_nil_of_length_eq_zero (by omega)
          rw [hz, List.take_nil] at hsp'
          have : e'.sp = e.sp := hsp'
          exact Or.inl (account_same (p1 u) (findSp_main (by rw [this]) u))
  | both hs code hok hc =>
    obtain ⟨s2, s3, s1, s4⟩ := sp_moment w e e' p l.sp u h he.spTorn he.spTmp _ hsp'
    obtain ⟨p2, p3, p1⟩ := pw_moment e e' p l.pw u "x".toList he.pwTorn he.pwTmp _ hpw'
    have hend : (updatePasswd e p l.pw u "x".toList).1 = true → A.length + (updateShadow w e p l.sp u h).2.length + (updatePasswd e p l.pw u "x".toList).2.length ≤ k →
        HashIs w e' u h := by
      intro hok' hk
      obtain ⟨q1, q2⟩ := pw_end e e' p l.pw u "x".toList he.pwTorn he.pwTmp hok' _ (by omega) hpw'
      obtain ⟨sp, h1, h2⟩ := spChanged_shadow (s4 hok (by omega))
      obtain ⟨x, hx⟩ := Option.isSome_iff_exists.mp q1
      refine hashIs_sp (pw := ⟨x.pw.name, "x".toList, x.pw.uid⟩) ?_ (Or.inl rfl) h1 h2
      rw [pwnam_eq, q2, hx]
      simp
    refine ⟨⟨?_, ?_, only_refl ?_ ?_, ⟨p2, s2, hop.1⟩, ⟨p3, s3, hop.2⟩⟩, ?_, fun h hk => hend (hc.mp h) hk⟩
    · intro n hn
      rcases p1 with p1 | ⟨-, -, -, p1⟩
      · exact p1 n
      · rw [p1]; simp [hn]
    · intro n hn
      rcases s1 with s1 | ⟨-, -, s1⟩
      · exact s1 n
      · have := s1 n; rw [if_neg hn] at this; exact this
    · exact p1.imp (fun p1 => p1 u) (fun p1 => ⟨_, by rw [p1.2.2.2 u]⟩)
    · exact s1.imp (fun s1 => s1 u) (fun s1 => ⟨w, h, s1.2.2⟩)
    · by_cases hk : A.length + (updateShadow w e p l.sp u h).2.length + (updatePasswd e p l.pw u "x".toList).2.length ≤ k
      · by_cases hv : (updatePasswd e p l.pw u "x".toList).1 = true
        · exact Or.inr ⟨hc.mpr hv, hk, hend hv hk⟩
        · have p1 := p1.resolve_right (fun h => hv h.1)
          exact Or.inl (account_plain hpw hs (p1 u))
      · refine Or.inl (account_plain hpw hs ?_)
        rcases p1 with p1 | ⟨-, hl, -⟩
        · exact p1 u
        · have hz : (updatePasswd e p l.pw u "x".toList).2 = [] := List.eq_nil_of_length_eq_zero (by omega)
          rw [hz, List.take_nil] at hpw'
          have : e'.pw = e.pw := hpw'
          exact findPw_main (by rw [this]) u
  | plain hs hsh code hc =>
    obtain ⟨s1, s2, s3⟩ := nosp rfl
    obtain ⟨p2, p3, p1⟩ := pw_moment e e' p l.pw u h he.pwTorn he.pwTmp _ hpw'
    have hh : h ≠ "x".toList ∧ h ≠ "##".toList ++ u := by
      rcases hh with hh | hh | hh
      · rw [hsh] at hh; cases hh
      · exact absurd hh hs
      · exact hh
    have hend : (updatePasswd e p l.pw u h).1 = true → A.length + (updatePasswd e p l.pw u h).2.length ≤ k → HashIs w e' u h := by
      intro hok' hk
      obtain ⟨q1, q2⟩ := pw_end e e' p l.pw u h he.pwTorn he.pwTmp hok' _ (by simp; omega) hpw'
      obtain ⟨x, hx⟩ := Option.isSome_iff_exists.mp q1
      have hname : x.pw.name = u := (find_key (fun x : PwEnt => x.pw.name) u hx).2
      have hnew : (e'.sys w).pwnam u = some ⟨u, h, x.pw.uid⟩ := by
        rw [pwnam_eq, q2, hx]
        simp [hname]
      have hns : ¬ (⟨u, h, x.pw.uid⟩ : Pw).Shadowed := fun h => h.elim hh.1 hh.2
      intro y
      unfold Account
      rw [hnew]
      constructor
      · rintro ⟨q, hq, ⟨-, hy⟩ | ⟨hq', -⟩⟩
        · cases hq; exact hy
        · cases hq; exact absurd hq' hns
      · rintro rfl
        exact ⟨_, rfl, Or.inl ⟨hns, rfl⟩⟩
    refine ⟨⟨?_, fun n _ => s1 n, only_refl ?_ (Or.inl (s1 u)), ⟨p2, s2, hop.1⟩, ⟨p3, s3, hop.2⟩⟩, ?_, fun h hk => hend (hc.mp h) (by simpa using hk)⟩
    · intro n hn
      rcases p1 with p1 | ⟨-, -, -, p1⟩
      · exact p1 n
      · rw [p1]; simp [hn]
    · exact p1.imp (fun p1 => p1 u) (fun p1 => ⟨_, by rw [p1.2.2.2 u]⟩)
    · by_cases hk : A.length + (updatePasswd e p l.pw u h).2.length ≤ k
      · by_cases hv : (updatePasswd e p l.pw u h).1 = true
        · exact Or.inr ⟨hc.mpr hv, by simpa using hk, hend hv hk⟩
        · have p1 := p1.resolve_right (fun h => hv h.1)
          exact Or.inl (account_same (p1 u) (s1 u))
      · refine Or.inl (account_same ?_ (s1 u))
        rcases p1 with p1 | ⟨-, hl, -⟩
        · exact p1 u
        · have hz : (updatePasswd e p l.pw u h).2 = [] := List.eq_nil_of_length_eq_zero (by simp at hl; omega)
          rw [hz, List.take_nil] at hpw'
          have : e'.pw = e.pw := hpw'
          exact findPw_main (by rw [this]) u

theorem setFiles_works (w : World) (e : Etc) (p : Proc) (l : SLuck) (hl : l.sp.Fine ∧ l.pw.Fine) (pw : Pw) (u : Str) (old : Option Str) (h : Str) (shadow : Bool)
    (remember : Int) (hsave : (saveOldPassword w e p l u old remember).1 = true) (hp : (e.findPw u).isSome = true) (hs : e.sp.main.isSome = true) :
    (setFiles w e p l pw u old h shadow remember).1 = PAM_SUCCESS := by
  obtain ⟨sps, hs⟩ := Option.isSome_iff_exists.mp hs
  have h1 := C78_shadow_works w e p l.sp hl.1 u h sps hs
  have h2 : ∀ x, (updatePasswd e p l.pw u x).1 = true := by
    intro x
    cases hm : e.pw.main with
    | none => unfold Etc.findPw at hp; rw [hm] at hp; cases hp
    | some es =>
      refine (C78_passwd_works e p l.pw hl.2 u x es hm).mpr ?_
      refine Classical.not_not.mp (fun hn => ?_)
      unfold Etc.findPw at hp
      rw [hm, Option.getD_some, (findKey_none (fun x : PwEnt => x.pw.name) u).mpr hn] at hp
      cases hp
  unfold setFiles
  simp only [hsave, h1, h2, Bool.not_true, Bool.false_eq_true, if_false, if_true]
  split
  · split <;> rfl
  · rfl

/-- C79: If nothing goes wrong, a user of /etc/passwd gets the new password. -/
theorem C79_works (w : World) (e : Etc) (p : Proc) (l : SLuck) (hl : l.sp.Fine ∧ l.pw.Fine) (pw : Pw) (u : Str) (old : Option Str) (h : Str) (shadow : Bool)
    (remember : Int) (hr : remember < 0 ∨ old = none) (hp : (e.findPw u).isSome = true) (hs : e.sp.main.isSome = true) :
    (setFiles w e p l pw u old h shadow remember).1 = PAM_SUCCESS := by
  refine setFiles_works w e p l hl pw u old h shadow remember ?_ hp hs
  unfold saveOldPassword
  rcases hr with hr | rfl
  · rw [if_pos hr]
  · split <;> rfl

/-- C79: After a change that has been reported as done, whoever may check the user's password finds the new one right, and any other one
only if its hash is the same; and everyone else's password is what it was. -/
theorem C79_login (w : World) (hc : Laws w.crypts.crypt) (e : Etc) (he : e.Clean) (p : Proc) (l : SLuck) (pw : Pw) (u : Str)
    (hpw : (e.sys w).pwnam u = some pw) (old : Option Str) (rnd : Nat → Nat) (gensalt : Str → Int → Str) (a : Algo) (rounds : Int) (new h : Str)
    (hnew : createHash w.crypts rnd gensalt a rounds new = some h) (hlen : new.length ≤ 512) (hnul : NUL ∉ new) (hne : new ≠ [])
    (shadow : Bool) (hh : shadow = true ∨ pw.Shadowed ∨ (h ≠ "x".toList ∧ h ≠ "##".toList ++ u)) (remember : Int)
    (hok : (setFiles w e p l pw u old h shadow remember).1 = PAM_SUCCESS)
    (e' : Etc) (he' : e' = e.after (setFiles w e p l pw u old h shadow remember).2)
    (b : Bin) (vl : Luck) (hvl : vl.Fine) (q : Proc) (ctrl : Ctrl) (fails f' : Fails) (code : Int) :
    (∀ _ : Trusted (e'.sys w) b q u, verifyPassword (e'.sys w) b vl q ctrl fails u new = some (code, f') → code = PAM_SUCCESS) ∧
    (∀ (_ : Trusted (e'.sys w) b q u) (x : Str), NUL ∉ x → verifyPassword (e'.sys w) b vl q ctrl fails u x = some (code, f') →
      (code = PAM_SUCCESS ↔ Accepts w.crypts (off UNIX__NONULL ctrl) h (x.take 512))) ∧
    (∀ n x, n ≠ u → NUL ∉ x → Trusted (e'.sys w) b q n → verifyPassword (e'.sys w) b vl q ctrl fails n x = some (code, f') →
      (code = PAM_SUCCESS ↔ ∃ y, Account (e.sys w) (e.shadow w) n y ∧ Accepts w.crypts (off UNIX__NONULL ctrl) y (x.take 512))) := by
  obtain ⟨h1, -, -, -, -, h6⟩ := C79_change w e he p l pw u hpw old h shadow hh remember
    (setFiles w e p l pw u old h shadow remember).2.length e' (by rw [List.take_length]; exact he')
  have hI := h6 hok (Nat.le_refl _)
  have second : ∀ (_ : Trusted (e'.sys w) b q u) (x : Str), NUL ∉ x → verifyPassword (e'.sys w) b vl q ctrl fails u x = some (code, f') →
      (code = PAM_SUCCESS ↔ Accepts w.crypts (off UNIX__NONULL ctrl) h (x.take 512)) := by
    intro ht x hx hv
    rw [C74_accept (e'.sys w) b vl hvl q ctrl fails u x hx (e'.shadow w) (rootReads w e') ht code f' hv]
    constructor
    · rintro ⟨y, hy, hacc⟩
      rw [(hI y).mp hy] at hacc
      exact hacc
    · exact fun hacc => ⟨h, (hI h).mpr rfl, hacc⟩
  refine ⟨fun ht hv => ?_, second, fun n x hn hx ht hv => ?_⟩
  · refine (second ht new hnul hv).mpr ?_
    rw [List.take_of_length_le hlen]
    exact ⟨_, counts_strip.mpr rfl, (C69_accepts w.crypts new h _ _ (counts_strip.mpr rfl)).mp (C70_round_trip w.crypts hc rnd gensalt a rounds new h _ (Or.inl hne) hnew)⟩
  · rw [C74_accept (e'.sys w) b vl hvl q ctrl fails n x hx (e'.shadow w) (rootReads w e') ht code f' hv]
    obtain ⟨-, -, h3, h4⟩ := h1 n hn
    unfold Account
    rw [h3, h4]
    exact Iff.rfl

/-! ### examples -/

def demoWorld : World := ⟨fun _ => none, fun _ => none, fun _ => none, 20010, ⟨toyCrypt, fun p s => p ++ s, fun _ _ => []⟩⟩

/-- ada's password is in /etc/shadow, bob's still in /etc/passwd; the line in between is a comment -/
def demoEtc : Etc where
  pw := { attr := ⟨0, 0, 0o644⟩, main := some [some ⟨⟨"root".toList, "x".toList, 0⟩, "0::/root:".toList⟩, none, some ⟨⟨"ada".toList, "x".toList, 1000⟩, "100::/home/ada:".toList⟩,
      some ⟨⟨"bob".toList, "ABsecret.p...".toList, 1001⟩, "100::/home/bob:".toList⟩] }
  sp := { attr := ⟨0, 42, 0o640⟩, main := some [some ⟨"root".toList, "*".toList, ⟨20000, 0, 99999, 7, -1, -1⟩, -1⟩,
      some ⟨"ada".toList, "ABsecret.p...assword....".toList, ⟨20000, 0, 99999, 7, -1, -1⟩, -1⟩] }
  op := { attr := ⟨0, 0, 0o600⟩, main := some ["bob:1001:1:$1$old\n".toList] }

theorem demoClean : demoEtc.Clean := ⟨rfl, rfl, rfl, rfl, rfl, rfl⟩

theorem fineDefault : ({} : FLuck).Fine := ⟨rfl, rfl, rfl, rfl, rfl, rfl, fun _ => rfl, rfl, rfl, rfl⟩

def demoSLuck : SLuck := { rnd := fun i j => i + j + 12 }

/-- bob gets a shadow entry -/
def demoChange : Int × List Act :=
  setFiles demoWorld demoEtc rootProc demoSLuck ⟨"bob".toList, "ABsecret.p...".toList, 1001⟩ "bob".toList (some "secret p".toList) "$y$new".toList true 3

example : demoChange.1 = PAM_SUCCESS ∧ demoChange.2.length = 22 := by decide +kernel
example : ((demoEtc.after demoChange.2).findPw "bob".toList).map (·.pw.passwd) = some "x".toList ∧
    ((demoEtc.after demoChange.2).findSp "bob".toList).map (·.hash) = some "$y$new".toList ∧
    (demoEtc.after demoChange.2).findPw "ada".toList = demoEtc.findPw "ada".toList := by decide +kernel
example : (demoEtc.sys demoWorld).pwnam "bob".toList = some ⟨"bob".toList, "ABsecret.p...".toList, 1001⟩ := by decide +kernel
/-- between the two replacements the old hash still counts -/
example : ((demoEtc.after (demoChange.2.take 14)).findSp "bob".toList).map (·.hash) = some "$y$new".toList ∧
    ((demoEtc.after (demoChange.2.take 14)).findPw "bob".toList).map (·.pw.passwd) = some "ABsecret.p...".toList := by decide +kernel
example : createHash demoWorld.crypts (fun i => i) (fun a _ => a) .yescrypt 5 "new".toList = some "$y$new".toList := by decide +kernel
example : Laws demoWorld.crypts.crypt := toyLaws
example : Trusted ((demoEtc.after demoChange.2).sys demoWorld) demoBin rootProc "bob".toList := Or.inl rfl
example : ((verifyPassword ((demoEtc.after demoChange.2).sys demoWorld) demoBin demoLuck rootProc demoStrict (fun _ => 0) "bob".toList "new".toList).map (·.1)) =
    some PAM_SUCCESS := by decide +kernel
example : ((verifyPassword ((demoEtc.after demoChange.2).sys demoWorld) demoBin demoLuck rootProc demoStrict (fun _ => 0) "bob".toList "secret p".toList).map (·.1)) =
    some PAM_AUTH_ERR := by decide +kernel
/-- /etc/passwd cannot be replaced -/
example : (setFiles demoWorld demoEtc rootProc { demoSLuck with pw := { rename := false } } ⟨"bob".toList, "ABsecret.p...".toList, 1001⟩ "bob".toList none
    "$y$new".toList true 3).1 = PAM_AUTHTOK_ERR := by decide +kernel

end Pam.Unix
