import Verif.Userdb.Memory
import Verif.Userdb.Props
/-
C197: memory that is not there, and copies of passwords, in pam_userdb.
-/
namespace Pam.Userdb.Memory
open Pam Pam.Userdb

namespace Spec

/-- the database is open or not; the copies there are, and whether each has been wiped -/
structure St where
  isOpen : Bool := false
  held : List (Slot × Bool) := []
  deriving DecidableEq

/-- One step of a program that keeps to the rules: the database is used only while it is open; there is one copy of a kind at a time; a copy is wiped before it is freed; nothing is freed that
    is not there.  `none`: a rule is broken. -/
def step (s : St) : Ev → Option St
  | .opened => if s.isOpen then none else some { s with isOpen := true }
  | .closed => if s.isOpen then some { s with isOpen := false } else none
  | .lib _ => if s.isOpen then some s else none
  | .copy k _ => if s.held.any (·.1 = k) then none else some { s with held := (k, false) :: s.held }
  | .wipe k => if s.held.any (·.1 = k) then some { s with held := s.held.map (fun x => if x.1 = k then (k, true) else x) } else none
  | .free k => if s.held.contains (k, true) then some { s with held := s.held.filter (·.1 ≠ k) } else none

/-- the steps in order -/
def run : List Ev → St → Option St
  | [], s => some s
  | e :: r, s => match step s e with | none => none | some s => run r s

/-- All is given back at the end, and the rules are kept. -/
def Tidy (evs : List Ev) : Prop := run evs {} = some {}

end Spec

open Spec

theorem run_append : ∀ (a b : List Ev) (s : St), run (a ++ b) s = match run a s with | none => none | some s => run b s
  | [], _, _ => rfl
  | e :: r, b, s => by
    rw [List.cons_append, run, run]
    cases step s e with
    | none => rfl
    | some s => exact run_append r b s

/-- the database is open and there are no copies -/
def opn : St := { isOpen := true }

theorem scan_run (m : Mem) (icase : Bool) (user pass : Str) : ∀ (db : List (Str × Str)) (n : Nat) (saw : Bool) (r : Int) (ev : List Ev),
    scan m icase user pass n saw db = some (r, ev) → run ev opn = some {}
  | [], n, saw, r, ev, h => by cases h; rfl
  | (k, d) :: db, n, saw, r, ev, h => by
    rw [scan] at h
    split at h
    · split at h
      · split at h
        · cases h
        · cases h; rfl
        · obtain ⟨x, hx, he⟩ := Option.map_eq_some_iff.mp h
          cases he
          rw [run_append]
          exact scan_run m icase user pass db _ _ x.1 x.2 hx
      · cases h; rfl
    · obtain ⟨x, hx, he⟩ := Option.map_eq_some_iff.mp h
      cases he
      exact scan_run m icase user pass db _ _ x.1 x.2 hx

theorem hashed_run (m : Mem) (crypt : Str → Str → Option Str) (icase : Bool) (data pass : Str) : run (hashed m crypt icase data pass).2 opn = some opn := by
  unfold hashed
  split
  · rfl
  split
  · rfl
  split
  · split
    · split <;> rfl
    · rfl
  · rfl

theorem plain_run {m : Mem} {icase : Bool} {data pass : Str} {x : Int × List Ev} (h : plain m icase data pass = some x) : run x.2 opn = some opn := by
  unfold plain at h
  split at h
  · split at h
    · cases h
    · cases h; rfl
  · cases h; rfl

theorem fetch_run (m : Mem) (db : List (Str × Str)) (ko : Bool) (user pass : Str) : run (fetchKey m db ko user pass).2 opn = some opn := by
  unfold fetchKey
  split
  · simp only
    split <;> rfl
  · rfl

/-- C197.  However a lookup goes, and wherever there is no memory: the database is closed again and not used afterwards, and every copy that the function makes of a key, a hash or a
    password is wiped and freed, once. -/
theorem C197_tidy (m : Mem) (crypt : Str → Str → Option Str) (db : Option (List (Str × Str))) (c : Ctrl) (user pass : Str) (r : Int) (ev : List Ev)
    (h : lookup m crypt db c user pass = some (r, ev)) : Tidy ev := by
  unfold Tidy
  unfold lookup at h
  cases db with
  | none => cases h; rfl
  | some db =>
    simp only at h
    have hf := fetch_run m db c.keyOnly user pass
    generalize fetchKey m db c.keyOnly user pass = f at h hf
    obtain ⟨o, ev0⟩ := f
    simp only at hf
    have key : ∀ rest, run (.opened :: (ev0 ++ rest)) {} = run rest opn := by
      intro rest
      show run (ev0 ++ rest) opn = _
      rw [run_append, hf]
    cases o with
    | some data =>
      simp only at h
      split at h
      · cases h; rw [key]; rfl
      · split at h
        · have hh := hashed_run m crypt c.icase data pass
          cases h
          rw [key, run_append, hh]; rfl
        · obtain ⟨x, hx, he⟩ := Option.map_eq_some_iff.mp h
          cases he
          rw [key, run_append, plain_run hx]; rfl
    | none =>
      simp only at h
      split at h
      · cases h; rw [key]; rfl
      · obtain ⟨x, hx, he⟩ := Option.map_eq_some_iff.mp h
        cases he
        rw [key]
        exact scan_run m c.icase user pass db _ _ x.1 x.2 hx

theorem scan_same (m : Mem) (hm : ∀ n, m.stored n = true) (icase : Bool) (user pass : Str) : ∀ (db : List (Str × Str)) (n : Nat) (saw : Bool),
    (scan m icase user pass n saw db).map (·.1) = Userdb.scan icase user pass saw db
  | [], n, saw => rfl
  | (k, d) :: db, n, saw => by
    rw [scan, Userdb.scan]
    split
    · rw [if_pos (hm n)]
      cases same icase pass (cstr (k.drop (user.length + 1))) with
      | none => rfl
      | some b =>
        cases b with
        | true => rfl
        | false =>
          rw [← scan_same m hm icase user pass db (n + 1) true]
          simp only [Option.map_map, Function.comp_def]
    · rw [← scan_same m hm icase user pass db n saw]
      simp only [Option.map_map, Function.comp_def]

/-- C197.  If there is memory, the answer is the one of C108. -/
theorem C197_answer (m : Mem) (hk : m.key = true) (hh : m.hash = true) (ha : m.area = true) (hs : ∀ n, m.stored n = true)
    (crypt : Str → Str → Option Str) (db : Option (List (Str × Str))) (c : Ctrl) (user pass : Str) :
    (lookup m crypt db c user pass).map (·.1) = Userdb.lookup crypt db c user pass := by
  unfold lookup Userdb.lookup
  cases db with
  | none => rfl
  | some db =>
    simp only [fetchKey, hk, if_true]
    generalize (if c.keyOnly = true then user ++ '-' :: pass else user) = key
    cases fetch db key with
    | none =>
      simp only
      split
      · rfl
      · rw [← scan_same m hs c.icase user pass db 0 false]
        simp only [Option.map_map, Function.comp_def]
    | some data =>
      simp only
      split
      · rfl
      · split
        · simp only [hashed, hh, ha, if_true]
          split
          · rfl
          split
          · rfl
          cases crypt pass (cstr data) with
          | none => rfl
          | some h =>
            simp only [Option.map_some]
            by_cases h1 : h.length = data.length
            · by_cases h2 : h = data
              · subst h2; simp
              · simp [h1, h2]
            · simp [h1]
        · simp only [plain, hs 0, if_true]
          cases same c.icase pass (cstr data) with
          | none => rfl
          | some b => cases b <;> rfl

theorem scan_zero (m : Mem) (icase : Bool) (user pass : Str) : ∀ (db : List (Str × Str)) (n : Nat) (saw saw' : Bool) (ev : List Ev),
    scan m icase user pass n saw db = some (0, ev) → Userdb.scan icase user pass saw' db = some 0
  | [], n, saw, saw', ev, h => by
    rw [scan] at h
    cases saw <;> simp at h
  | (k, d) :: db, n, saw, saw', ev, h => by
    rw [scan] at h
    rw [Userdb.scan]
    split
    · rename_i hc
      rw [if_pos hc] at h
      split at h
      · cases hs : same icase pass (cstr (k.drop (user.length + 1))) with
        | none => rw [hs] at h; cases h
        | some b =>
          rw [hs] at h
          cases b with
          | true => rfl
          | false =>
            obtain ⟨⟨r', e'⟩, hx, he⟩ := Option.map_eq_some_iff.mp h
            cases he
            exact scan_zero m icase user pass db _ _ _ e' hx
      · simp at h
    · rename_i hc
      rw [if_neg hc] at h
      obtain ⟨⟨r', e'⟩, hx, he⟩ := Option.map_eq_some_iff.mp h
      cases he
      exact scan_zero m icase user pass db _ _ _ e' hx

/-- C197.  Lack of memory opens no door: if the lookup accepts the password, the database fits (`Fits`, as in C108). -/
theorem C197_closed (m : Mem) (crypt : Str → Str → Option Str) (db : List (Str × Str)) (c : Ctrl) (user pass : Str) (hnd : (db.map (·.1)).Nodup) (hp : NUL ∉ pass)
    (ev : List Ev) (h : lookup m crypt (some db) c user pass = some (0, ev)) : Fits crypt db c user pass := by
  rw [← (C108_lookup crypt db c user pass hnd hp).1]
  unfold lookup at h
  unfold Userdb.lookup
  simp only at h ⊢
  by_cases hk : m.key = true
  · simp only [fetchKey, hk, if_true] at h
    generalize (if c.keyOnly = true then user ++ '-' :: pass else user) = key at h ⊢
    cases hf : fetch db key with
    | none =>
      rw [hf] at h
      simp only at h ⊢
      split
      · rename_i hc
        rw [if_pos hc] at h
        simp at h
      · rename_i hc
        rw [if_neg hc] at h
        obtain ⟨⟨r', e'⟩, hx, he⟩ := Option.map_eq_some_iff.mp h
        cases he
        exact scan_zero m _ _ _ db _ _ _ e' hx
    | some data =>
      rw [hf] at h
      simp only at h ⊢
      split
      · rfl
      · rename_i hc
        rw [if_neg hc] at h
        split
        · rename_i hcr
          rw [if_pos hcr] at h
          have h := congrArg Prod.fst (Option.some.inj h)
          simp only at h
          have h0 : (hashed m crypt c.icase data pass).1 = 0 := by
            by_cases e : (hashed m crypt c.icase data pass).1 = 0
            · exact e
            · rw [if_neg e] at h; exact absurd h (by decide)
          unfold hashed at h0
          split at h0
          · simp at h0
          rename_i h13
          split at h0
          · simp at h0
          rename_i hic
          rw [if_neg h13, if_neg hic]
          split at h0
          · split at h0
            · cases hcp : crypt pass (cstr data) with
              | none => rw [hcp] at h0; simp at h0
              | some h =>
                rw [hcp] at h0
                simp only at h0 ⊢
                split at h0
                · rename_i hl
                  split at h0
                  · rename_i hd; rw [if_pos ⟨hl, hd⟩]
                  · simp at h0
                · simp at h0
            · simp at h0
          · simp at h0
        · rename_i hcr
          rw [if_neg hcr] at h
          obtain ⟨⟨r', e'⟩, hx, he⟩ := Option.map_eq_some_iff.mp h
          unfold plain at hx
          split at hx
          · cases hs : same c.icase pass (cstr data) with
            | none => rw [hs] at hx; cases hx
            | some b =>
              rw [hs] at hx
              cases hx
              cases b with
              | true => rfl
              | false => simp at he
          · cases hx
            simp at he
  · rw [show fetchKey m db c.keyOnly user pass = (none, []) from if_neg hk] at h
    simp only at h
    by_cases hc : ¬ c.keyOnly = true
    · rw [if_pos hc] at h; simp at h
    · rw [if_neg hc] at h
      obtain ⟨⟨r', e'⟩, hx, he⟩ := Option.map_eq_some_iff.mp h
      cases he
      have hko : c.keyOnly = true := by simpa using hc
      have hz := scan_zero m _ _ _ db _ _ false e' hx
      cases hf : fetch db (if c.keyOnly = true then user ++ '-' :: pass else user) with
      | none => simp only; rw [if_neg hc]; exact hz
      | some data => simp only; rw [if_pos hko]

/-- there is memory -/
def exMem : Mem := ⟨true, true, true, fun _ => true⟩

/-- the database with one user per key -/
def exKeys : List (Str × Str) := [("ann-secret".toList, []), ("bob-pass".toList, [])]

/-- C197, in full, is false: what the library hands out is neither wiped nor freed.  With `key_only` these are the keys with the passwords of all users up to the one that fits; here the
    lookup for bob leaves the password of ann in memory. -/
theorem C197_library_counterexample : ∃ ev, lookup exMem (fun _ _ => none) (some exKeys) { Ctrl.zero with keyOnly := true } "bob".toList "x".toList = some (-1, ev) ∧
    .lib "ann-secret".toList ∈ ev :=
  ⟨_, rfl, by decide +kernel⟩

/-- C197: that lack of memory is reported as such is false.  Without memory for the key the user counts as unknown. -/
theorem C197_unknown_counterexample : (lookup { exMem with key := false } (fun _ _ => none) (some exDb) Ctrl.zero "ann".toList "secret".toList).map (·.1) = some 1 ∧
    (lookup exMem (fun _ _ => none) (some exDb) Ctrl.zero "ann".toList "secret".toList).map (·.1) = some 0 := by
  constructor <;> decide +kernel

/-! The hypotheses are met. -/

example : lookup exMem (fun p _ => some p) (some [("ann".toList, "0123456789abc".toList)]) { Ctrl.zero with crypt := some "crypt".toList } "ann".toList "0123456789abc".toList =
    some (0, [.opened, .copy .key "ann".toList, .lib "0123456789abc".toList, .wipe .key, .free .key, .copy .hash "0123456789abc".toList, .copy .area "0123456789abc".toList,
      .wipe .area, .free .area, .wipe .hash, .free .hash, .closed]) := by decide +kernel

example : (lookup { exMem with stored := fun n => n = 0 } (fun _ _ => none) (some [("b-1".toList, []), ("b-2".toList, [])]) { Ctrl.zero with keyOnly := true } "b".toList "x".toList).map (·.1) =
    some (-2) := by decide +kernel

/-- a program that does not wipe is not tidy -/
example : ¬ Tidy [.opened, .copy .key [], .free .key, .closed] ∧ ¬ Tidy [.opened, .closed, .lib []] ∧ ¬ Tidy [.opened] := by
  refine ⟨?_, ?_, ?_⟩ <;> (unfold Tidy; decide)

end Pam.Userdb.Memory
