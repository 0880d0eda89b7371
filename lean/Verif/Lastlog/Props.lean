import Verif.Lastlog.Model
import Verif.Small.UsertypeProps
/-
C139 to C141: pam_lastlog.
-/
namespace Pam.Lastlog
open Pam Pam.Small

namespace Spec

/-- the file holds, in the place of the user with this id, a record of a login: the time as an unsigned number of 4 bytes, the line and the host -/
def Record (f : Str) (uid t : Nat) (line host : Str) : Prop :=
  ∃ (pre : Str) (b0 b1 b2 b3 : Char) (p q post : Str), f = pre ++ ([b0, b1, b2, b3] ++ ((line ++ p) ++ ((host ++ q) ++ post))) ∧ pre.length = 292 * uid ∧
    (line ++ p).length = 32 ∧ (host ++ q).length = 256 ∧ (∀ c ∈ p, c = NUL) ∧ (∀ c ∈ q, c = NUL) ∧ (∀ c ∈ line, c ≠ NUL) ∧ (∀ c ∈ host, c ≠ NUL) ∧
    t = b0.toNat + 256 * b1.toNat + 65536 * b2.toNat + 16777216 * b3.toNat

/-- the user has no record: the file is too short -/
def NoRecord (f : Str) (uid : Nat) : Prop := f.length < 292 * uid + 292

/-- the terminal, without "/dev/" -/
def Terminal (tty : Option Str) (s : Str) : Prop :=
  (tty = none ∧ s = []) ∨ tty = some ("/dev/".toList ++ s) ∨ (tty = some s ∧ ¬ "/dev/".toList <+: s)

/-- the largest user id there are records for -/
def Largest (v : Option Str) (n : Nat) : Prop :=
  (∃ t, v = some t ∧ Small.IdText t n) ∨ ((∀ t m, v = some t → ¬ Small.IdText t m) ∧ n = 4294967295)

/-- what is told of a login, after some words -/
def line (w : World) (argv : List Str) (head : String) (t : Int) (host line : Str) : List Op :=
  if ("nodate".toList ∈ argv ∨ w.date t = none) ∧ ("nohost".toList ∈ argv ∨ host = []) ∧ ("noterm".toList ∈ argv ∨ line = []) then []
  else [.say (head.toList ++ (if "nodate".toList ∈ argv then [] else (w.date t).getD []) ++
    (if "nohost".toList ∈ argv ∨ host = [] then [] else " from ".toList ++ host) ++ (if "noterm".toList ∈ argv ∨ line = [] then [] else " on ".toList ++ line))]

/-- the days of inactive= -/
def Days (argv : List Str) (n : Int) : Prop :=
  (Without "inactive=" argv ∧ n = 90) ∨ (∃ v, Last "inactive=" argv v ∧ Signed (Digits 10) v n ∧ 0 < n ∧ n < 100000)

/-- a failed login of the user since a time -/
def Since (user : Str) (t : Nat) (e : Failed) : Bool := decide (t ≤ e.sec ∧ (e.name.takeWhile (· ≠ NUL)).take 32 = user.take 32)

/-- how the number of failed logins is told -/
def sentence (n : Nat) : Str :=
  if n = 1 then "There was 1 failed login attempt since the last successful login.".toList
  else "There were ".toList ++ Nat.toDigits 10 n ++ " failed login attempts since the last successful login.".toList

end Spec
open Spec

theorem foldl_flag {σ : Type} (step : σ → Str → σ) (get : σ → Bool) (p : Str → Bool) (h : ∀ s a, get (step s a) = (get s || p a)) :
    ∀ (argv : List Str) (s : σ), get (argv.foldl step s) = (get s || argv.any p)
  | [], s => by simp
  | a :: argv, s => by rw [List.foldl_cons, foldl_flag step get p h argv, h, List.any_cons, Bool.or_assoc]

theorem any_mem (k : Str) (argv : List Str) : argv.any (fun a => decide (a = k)) = decide (k ∈ argv) := by
  rw [Bool.eq_iff_iff, List.any_eq_true]; simp

theorem arg_flags (o : Opts) (a : Str) :
    (!(arg o a).date) = (!o.date || decide (a = "nodate".toList)) ∧ (!(arg o a).host) = (!o.host || decide (a = "nohost".toList)) ∧
    (!(arg o a).line) = (!o.line || decide (a = "noterm".toList)) ∧ (arg o a).never = (o.never || decide (a = "never".toList)) ∧
    (arg o a).quiet = (o.quiet || decide (a = "silent".toList)) ∧
    (!(arg o a).wtmp) = (!o.wtmp || (decide (a = "nowtmp".toList) || decide (a = "noupdate".toList))) ∧
    (arg o a).btmp = (o.btmp || decide (a = "showfailed".toList)) ∧ (!(arg o a).update) = (!o.update || decide (a = "noupdate".toList)) ∧
    (arg o a).unlimited = (o.unlimited || decide (a = "unlimited".toList)) := by
  unfold arg
  by_cases h0 : a = "debug".toList
  · subst h0; rw [if_pos rfl]; simp
  rw [if_neg h0]
  by_cases h1 : a = "nodate".toList
  · subst h1; rw [if_pos rfl]; simp
  rw [if_neg h1]
  by_cases h2 : a = "noterm".toList
  · subst h2; rw [if_pos rfl]; simp
  rw [if_neg h2]
  by_cases h3 : a = "nohost".toList
  · subst h3; rw [if_pos rfl]; simp
  rw [if_neg h3]
  by_cases h4 : a = "silent".toList
  · subst h4; rw [if_pos rfl]; simp
  rw [if_neg h4]
  by_cases h5 : a = "never".toList
  · subst h5; rw [if_pos rfl]; simp
  rw [if_neg h5]
  by_cases h6 : a = "nowtmp".toList
  · subst h6; rw [if_pos rfl]; simp
  rw [if_neg h6]
  by_cases h7 : a = "noupdate".toList
  · subst h7; rw [if_pos rfl]; simp
  rw [if_neg h7]
  by_cases h8 : a = "showfailed".toList
  · subst h8; rw [if_pos rfl]; simp
  rw [if_neg h8]
  by_cases h9 : a = "unlimited".toList
  · subst h9; rw [if_pos rfl]; simp
  rw [if_neg h9, decide_eq_false h1, decide_eq_false h2, decide_eq_false h3, decide_eq_false h4, decide_eq_false h5, decide_eq_false h6, decide_eq_false h7,
    decide_eq_false h8, decide_eq_false h9]
  simp

/-- the options, in terms of the arguments -/
structure Flags (o : Opts) (silent : Bool) (argv : List Str) : Prop where
  date : o.date = !decide ("nodate".toList ∈ argv)
  host : o.host = !decide ("nohost".toList ∈ argv)
  line : o.line = !decide ("noterm".toList ∈ argv)
  never : o.never = decide ("never".toList ∈ argv)
  quiet : o.quiet = (silent || decide ("silent".toList ∈ argv))
  wtmp : o.wtmp = !(decide ("nowtmp".toList ∈ argv) || decide ("noupdate".toList ∈ argv))
  btmp : o.btmp = (!silent && decide ("showfailed".toList ∈ argv))
  update : o.update = !decide ("noupdate".toList ∈ argv)
  unlimited : o.unlimited = decide ("unlimited".toList ∈ argv)

theorem any_or (k l : Str) (argv : List Str) :
    argv.any (fun a => decide (a = k) || decide (a = l)) = (decide (k ∈ argv) || decide (l ∈ argv)) := by
  rw [← any_mem, ← any_mem]
  induction argv with
  | nil => rfl
  | cons a r ih =>
    simp only [List.any_cons, ih]
    cases decide (a = k) <;> cases decide (a = l) <;> simp

theorem fold_flags (argv : List Str) : Flags (argv.foldl arg {}) false argv := by
  have neg : ∀ (a b : Bool), (!a) = b → a = !b := by decide
  refine ⟨neg _ _ ?_, neg _ _ ?_, neg _ _ ?_, ?_, ?_, neg _ _ ?_, ?_, neg _ _ ?_, ?_⟩
  · rw [foldl_flag arg (fun o => !o.date) _ (fun o a => (arg_flags o a).1), any_mem]; rfl
  · rw [foldl_flag arg (fun o => !o.host) _ (fun o a => (arg_flags o a).2.1), any_mem]; rfl
  · rw [foldl_flag arg (fun o => !o.line) _ (fun o a => (arg_flags o a).2.2.1), any_mem]; rfl
  · rw [foldl_flag arg (fun o => o.never) _ (fun o a => (arg_flags o a).2.2.2.1), any_mem]; rfl
  · rw [foldl_flag arg (fun o => o.quiet) _ (fun o a => (arg_flags o a).2.2.2.2.1), any_mem]
  · rw [foldl_flag arg (fun o => !o.wtmp) _ (fun o a => (arg_flags o a).2.2.2.2.2.1), any_or]; rfl
  · rw [foldl_flag arg (fun o => o.btmp) _ (fun o a => (arg_flags o a).2.2.2.2.2.2.1), any_mem]; rfl
  · rw [foldl_flag arg (fun o => !o.update) _ (fun o a => (arg_flags o a).2.2.2.2.2.2.2.1), any_mem]; rfl
  · rw [foldl_flag arg (fun o => o.unlimited) _ (fun o a => (arg_flags o a).2.2.2.2.2.2.2.2), any_mem]; rfl

theorem parse_flags (silent : Bool) (argv : List Str) : Flags (parse silent argv) silent argv := by
  have h := fold_flags argv
  cases silent with
  | false => exact h
  | true => exact ⟨h.date, h.host, h.line, h.never, by simp [parse], h.wtmp, by simp [parse], h.update, h.unlimited⟩

/-! ### the file -/

theorem uidMax_eq {w : World} {m : Nat} (h : Largest w.uidMax m) : uidMax w = m := by
  unfold uidMax
  rcases h with ⟨t, ht, hi⟩ | ⟨hn, rfl⟩
  · rw [ht]; exact (getId_some t _).1 m hi
  · cases hv : w.uidMax with
    | none => rfl
    | some v => exact (getId_some v _).2 (fun n => hn v n hv)

theorem cstr_pad {s p : Str} (hs : ∀ c ∈ s, c ≠ NUL) (hp : ∀ c ∈ p, c = NUL) : cstr (s ++ p) = s := by
  unfold cstr
  rw [List.takeWhile_append_of_pos (by simpa using hs)]
  cases p with
  | nil => simp
  | cons c r => rw [List.takeWhile_cons_of_neg (by simpa using hp c List.mem_cons_self), List.append_nil]

theorem readRec_record {f : Str} {uid t : Nat} {ln hs : Str} (h : Record f uid t ln hs) :
    int4 (readRec f uid) = (if t < 2147483648 then (t : Int) else (t : Int) - 4294967296) ∧
    cstr (((readRec f uid).drop 36).take 256) = hs ∧ cstr (((readRec f uid).drop 4).take 32) = ln := by
  obtain ⟨pre, b0, b1, b2, b3, p, q, post, rfl, hl, h32, h256, hp, hq, hln, hhs, rfl⟩ := h
  have e : readRec (pre ++ ([b0, b1, b2, b3] ++ ((ln ++ p) ++ ((hs ++ q) ++ post)))) uid = [b0, b1, b2, b3] ++ ((ln ++ p) ++ (hs ++ q)) := by
    unfold readRec recSize
    rw [← hl, List.drop_left]
    have e2 : ([b0, b1, b2, b3] ++ ((ln ++ p) ++ ((hs ++ q) ++ post))) = ([b0, b1, b2, b3] ++ ((ln ++ p) ++ (hs ++ q))) ++ post := by
      simp only [List.append_assoc]
    have e3 : ([b0, b1, b2, b3] ++ ((ln ++ p) ++ (hs ++ q))).length = 292 := by
      rw [List.length_append, List.length_append, h32, h256]; rfl
    dsimp only
    rw [e2, ← e3, List.take_left, if_pos rfl]
  rw [e]
  refine ⟨rfl, ?_, ?_⟩
  · have e4 : ([b0, b1, b2, b3] ++ ((ln ++ p) ++ (hs ++ q))).drop 36 = hs ++ q := by
      rw [← List.append_assoc]
      exact List.drop_left' (by rw [List.length_append, h32]; rfl)
    rw [e4, List.take_of_length_le (by omega), cstr_pad hhs hq]
  · have e4 : ([b0, b1, b2, b3] ++ ((ln ++ p) ++ (hs ++ q))).drop 4 = (ln ++ p) ++ (hs ++ q) := List.drop_left' rfl
    rw [e4, List.take_left' h32, cstr_pad hln hp]

theorem readRec_none {f : Str} {uid : Nat} (h : NoRecord f uid) : int4 (readRec f uid) = 0 := by
  unfold NoRecord at h
  unfold readRec recSize
  dsimp only
  rw [if_neg (by simp only [List.length_take, List.length_drop]; omega)]
  rfl

theorem overlay_getD (f : Str) (off : Nat) (b : Str) (i : Nat) :
    (overlay f off b).getD i NUL = if off ≤ i ∧ i < off + b.length then b.getD (i - off) NUL else f.getD i NUL := by
  unfold overlay
  simp only [List.getD_eq_getElem?_getD, List.append_assoc]
  have l1 : (f.take off).length + (off - f.length) = off := by simp only [List.length_take]; omega
  by_cases h1 : i < off
  · rw [if_neg (by omega)]
    by_cases h2 : i < f.length
    · rw [List.getElem?_append_left (by simp only [List.length_take]; omega), List.getElem?_take_of_lt h1]
    · rw [List.getElem?_append_right (by simp only [List.length_take]; omega), List.getElem?_append_left (by simp only [List.length_take, List.length_replicate]; omega),
        List.getElem?_replicate, List.getElem?_eq_none (by omega)]
      split <;> rfl
  · rw [List.getElem?_append_right (by simp only [List.length_take]; omega), List.getElem?_append_right (by simp only [List.length_take, List.length_replicate]; omega),
      List.length_replicate, show i - (f.take off).length - (off - f.length) = i - off by omega]
    by_cases h2 : i < off + b.length
    · rw [if_pos ⟨by omega, h2⟩, List.getElem?_append_left (by omega)]
    · rw [if_neg (by omega), List.getElem?_append_right (by omega), List.getElem?_drop, show off + b.length + (i - off - b.length) = i by omega]

theorem field_length {n : Nat} (h : 0 < n) (s : Str) : (field n s).length = n := by
  unfold field
  rw [List.length_append, List.length_replicate]
  have : (s.take (n - 1)).length ≤ n - 1 := List.length_take_le _ _
  omega

theorem record_length (w : World) : (record w).length = 292 := by
  unfold record
  rw [List.length_append, List.length_append, field_length (by omega), field_length (by omega)]
  rfl

theorem getTty_eq {w : World} {s : Str} (h : Terminal w.tty s) : getTty w = s := by
  unfold getTty
  rcases h with ⟨h, rfl⟩ | h | ⟨h, hp⟩
  · rw [h]; rfl
  · rw [h, Option.getD_some]; dsimp only; rw [skipPrefix_some.mpr rfl]
  · rw [h, Option.getD_some]; dsimp only; rw [skipPrefix_none.mpr hp]

theorem byte_small {n : Nat} (h : n < 256) : (Char.ofNat n).toNat = n := by
  have h2 : n.isValidChar := Or.inl (by omega)
  simp [Char.ofNat, dif_pos h2, Char.toNat, Char.ofNatAux]

theorem overlay_record {w : World} {f : Str} {uid : Nat} {tty : Str} (ht : Terminal w.tty tty) (htn : ∀ c ∈ tty, c ≠ NUL)
    (hrn : ∀ h, w.rhost = some h → ∀ c ∈ h, c ≠ NUL) (n : Nat) (hn : 292 ≤ n) :
    Record (overlay f (292 * uid) ((record w).take n)) uid (w.now % 4294967296).toNat (tty.take 31) ((w.rhost.getD []).take 255) := by
  rw [List.take_of_length_le (by rw [record_length]; exact hn)]
  have hrn' : ∀ c ∈ w.rhost.getD [], c ≠ NUL := by
    cases hr : w.rhost with
    | none => intro c hc; cases hc
    | some h => exact hrn h hr
  refine ⟨f.take (292 * uid) ++ List.replicate (292 * uid - f.length) NUL, Char.ofNat ((w.now % 4294967296).toNat % 256),
    Char.ofNat ((w.now % 4294967296).toNat / 256 % 256), Char.ofNat ((w.now % 4294967296).toNat / 65536 % 256),
    Char.ofNat ((w.now % 4294967296).toNat / 16777216 % 256), List.replicate (32 - (tty.take 31).length) NUL,
    List.replicate (256 - ((w.rhost.getD []).take 255).length) NUL, f.drop (292 * uid + (record w).length), ?_, ?_, ?_, ?_, ?_, ?_, ?_, ?_, ?_⟩
  rotate_right
  · have hlt : (w.now % 4294967296).toNat < 4294967296 := by omega
    generalize (w.now % 4294967296).toNat = m at hlt ⊢
    rw [byte_small (n := m % 256) (by omega), byte_small (n := m / 256 % 256) (by omega), byte_small (n := m / 65536 % 256) (by omega),
      byte_small (n := m / 16777216 % 256) (by omega)]
    omega
  · unfold overlay record bytes4 field
    rw [getTty_eq ht]
    simp only [List.append_assoc]
  · simp only [List.length_append, List.length_take, List.length_replicate]; omega
  · simp only [List.length_append, List.length_take, List.length_replicate]; omega
  · simp only [List.length_append, List.length_take, List.length_replicate]; omega
  · intro c hc; exact (List.mem_replicate.mp hc).2
  · intro c hc; exact (List.mem_replicate.mp hc).2
  · intro c hc; exact htn c (List.mem_of_mem_take hc)
  · intro c hc; exact hrn' c (List.mem_of_mem_take hc)

/-! ### C139 -/

/-- the session can write: it may update, and the file is there or can be made -/
structure Writable (w : World) (argv : List Str) (user : Str) (uid : Nat) (f : Str) : Prop where
  known : w.user = some user
  named : user ≠ []
  hasUid : w.uid user = some uid
  most : ∃ m, Largest w.uidMax m ∧ uid ≤ m
  opens : w.opens = true
  file : w.file = some f ∨ (w.file = none ∧ w.creates = true ∧ f = [])
  update : "noupdate".toList ∉ argv

theorem lockLoop_iff (f : Nat → Bool) : ∀ (n i : Nat), lockLoop f n i = true ↔ ∃ j < n, f (i + j) = true
  | 0, i => by simp [lockLoop]
  | n + 1, i => by
    unfold lockLoop
    by_cases h : f i = true
    · rw [if_pos h]
      exact ⟨fun _ => ⟨0, by omega, h⟩, fun _ => rfl⟩
    · rw [if_neg h, lockLoop_iff f n]
      constructor
      · rintro ⟨j, hj, hf⟩
        exact ⟨j + 1, by omega, by rw [← hf]; congr 1; omega⟩
      · rintro ⟨j, hj, hf⟩
        cases j with
        | zero => exact absurd hf h
        | succ j => exact ⟨j, by omega, by rw [← hf]; congr 1; omega⟩

/-- what can be found of the file after a session -/
theorem loginDate_file (w : World) (o : Opts) (uid : Nat) (user : Str) :
    (loginDate w o uid user).2.2.1 = w.file ∨ (loginDate w o uid user).2.2.1 = some (w.file.getD []) ∨
      (∃ n, (loginDate w o uid user).2.2.1 = some (overlay (w.file.getD []) (292 * uid) ((record w).take n))) := by
  have hw : ∀ f, (writeLogin w o f uid user).2.2 = f ∨ ∃ n, (writeLogin w o f uid user).2.2 = overlay f (292 * uid) ((record w).take n) := by
    intro f
    unfold writeLogin recSize
    split
    · exact Or.inl rfl
    · exact Or.inr ⟨w.written, rfl⟩
  unfold loginDate
  split
  · exact Or.inl rfl
  cases ho : openFile w o.update with
  | none => exact Or.inl rfl
  | some f =>
    have hf : f = w.file.getD [] := by
      unfold openFile at ho
      split at ho
      · cases ho
      · cases hwf : w.file with
        | some g => rw [hwf] at ho; cases ho; rfl
        | none =>
          rw [hwf] at ho
          dsimp only at ho
          split at ho
          · cases ho; rfl
          · cases ho
    subst hf
    dsimp only
    have h3 := hw (w.file.getD [])
    obtain ⟨⟨r, ops, f'⟩, he⟩ : ∃ t, writeLogin w o (w.file.getD []) uid user = t := ⟨_, rfl⟩
    rw [he] at h3
    split
    · split
      · exact Or.inr (Or.inl rfl)
      · split
        · rw [he]
          rcases h3 with h3 | ⟨n, h3⟩
          · exact Or.inr (Or.inl (congrArg some h3))
          · exact Or.inr (Or.inr ⟨n, congrArg some h3⟩)
        · exact Or.inr (Or.inl rfl)
    · split
      · rw [he]
        rcases h3 with h3 | ⟨n, h3⟩
        · exact Or.inr (Or.inl (congrArg some h3))
        · exact Or.inr (Or.inr ⟨n, congrArg some h3⟩)
      · exact Or.inr (Or.inl rfl)

theorem openSession_file (w : World) (silent : Bool) (argv : List Str) :
    (openSession w silent argv).2.2 = w.file ∨ (∃ user uid, w.user = some user ∧ w.uid user = some uid ∧
      (openSession w silent argv).2.2 = (loginDate w (parse silent argv) uid user).2.2.1) := by
  unfold openSession
  dsimp only
  cases hu : w.user with
  | none => exact Or.inl rfl
  | some user =>
    dsimp only
    split
    · exact Or.inl rfl
    cases hi : w.uid user with
    | none => exact Or.inl rfl
    | some uid =>
      refine Or.inr ⟨user, uid, rfl, hi, ?_⟩
      dsimp only
      split
      · rfl
      · rfl

/-- C139, the records of others: whatever happens, a session leaves every byte of the file as it was outside of the record of its user, and leaves all of the file
as it was if the user is not known. -/
theorem C139_others (w : World) (silent : Bool) (argv : List Str) :
    (∀ i, (∀ user uid, w.user = some user → w.uid user = some uid → i < 292 * uid ∨ 292 * uid + 292 ≤ i) →
      ((openSession w silent argv).2.2.getD []).getD i NUL = (w.file.getD []).getD i NUL) ∧
    ((∀ user, w.user = some user → w.uid user = none) → (openSession w silent argv).2.2 = w.file) := by
  constructor
  · intro i hi
    rcases openSession_file w silent argv with h | ⟨user, uid, hu, hid, h⟩
    · rw [h]
    · rw [h]
      rcases loginDate_file w (parse silent argv) uid user with h | h | ⟨n, h⟩
      · rw [h]
      · rw [h]; rfl
      · rw [h, Option.getD_some, overlay_getD, if_neg]
        have := hi user uid hu hid
        have hl : ((record w).take n).length ≤ 292 := by rw [List.length_take, record_length]; omega
        omega
  · intro hn
    rcases openSession_file w silent argv with h | ⟨user, uid, hu, hid, h⟩
    · exact h
    · rw [hn user hu] at hid; cases hid

/-- not a message to the user -/
def Op.silent : Op → Bool
  | .say _ => false
  | _ => true

theorem loginDate_open {w : World} {o : Opts} {uid : Nat} {user f : Str} (hm : uid ≤ uidMax w) (ho : openFile w o.update = some f) :
    loginDate w o uid user =
      (if readMsg w o (readRec f uid) ≠ none ∧ w.info ≠ PAM_SUCCESS then w.info
        else if o.update = true then (writeLogin w o f uid user).1 else PAM_SUCCESS,
      (readMsg w o (readRec f uid)).toList.map Op.say ++
        (if readMsg w o (readRec f uid) ≠ none ∧ w.info ≠ PAM_SUCCESS then []
        else if o.update = true then (writeLogin w o f uid user).2.1 else []),
      some (if readMsg w o (readRec f uid) ≠ none ∧ w.info ≠ PAM_SUCCESS then f
        else if o.update = true then (writeLogin w o f uid user).2.2 else f),
      int4 (readRec f uid)) := by
  unfold loginDate
  rw [if_neg (by omega), ho]
  dsimp only
  obtain ⟨⟨r, ops, f'⟩, he⟩ : ∃ t, writeLogin w o f uid user = t := ⟨_, rfl⟩
  rw [he]
  cases hr : readMsg w o (readRec f uid) with
  | none =>
    dsimp only
    cases hu : o.update <;> simp
  | some s =>
    dsimp only
    by_cases hi : w.info = PAM_SUCCESS
    · cases hu : o.update <;> simp [hi]
    · rw [if_pos hi]; simp [hi]

theorem openSession_eq {w : World} {silent : Bool} {argv : List Str} {user : Str} {uid : Nat} (hu : w.user = some user) (hne : user ≠ [])
    (hid : w.uid user = some uid) : openSession w silent argv =
      (if (parse silent argv).btmp = true ∧ (loginDate w (parse silent argv) uid user).1 = PAM_SUCCESS then
        (loginFailed w (parse silent argv) user (loginDate w (parse silent argv) uid user).2.2.2).1 else (loginDate w (parse silent argv) uid user).1,
      (loginDate w (parse silent argv) uid user).2.1 ++ (if (parse silent argv).btmp = true ∧ (loginDate w (parse silent argv) uid user).1 = PAM_SUCCESS then
        (loginFailed w (parse silent argv) user (loginDate w (parse silent argv) uid user).2.2.2).2 else []),
      (loginDate w (parse silent argv) uid user).2.2.1) := by
  unfold openSession
  dsimp only
  rw [hu]
  dsimp only
  rw [if_neg hne, hid]
  dsimp only
  split
  · rfl
  · rw [List.append_nil]

theorem loginFailed_says (w : World) (o : Opts) (user : Str) (since : Int) : (loginFailed w o user since).2.filter Op.silent = [] := by
  unfold loginFailed
  cases w.btmp with
  | missing => rfl
  | failed => rfl
  | entries l =>
    dsimp only
    split
    · split <;> rfl
    · rfl

theorem writable_open {w : World} {silent : Bool} {argv : List Str} {user : Str} {uid : Nat} {f : Str} (hw : Writable w argv user uid f) :
    uid ≤ uidMax w ∧ openFile w (parse silent argv).update = some f ∧ (parse silent argv).update = true := by
  have hup : (parse silent argv).update = true := by rw [(parse_flags silent argv).update, decide_eq_false hw.update]; rfl
  obtain ⟨m, hm, hle⟩ := hw.most
  refine ⟨by rw [uidMax_eq hm]; exact hle, ?_, hup⟩
  unfold openFile
  rw [if_neg (by rw [hw.opens]; decide), hup]
  rcases hw.file with h | ⟨h, hc, rfl⟩
  · rw [h]
  · rw [h]; dsimp only; rw [if_pos ⟨rfl, hc⟩]

theorem map_say_silent (l : List Str) : (l.map Op.say).filter Op.silent = [] := by
  induction l with
  | nil => rfl
  | cons a r ih => rw [List.map_cons, List.filter_cons_of_neg (by simp [Op.silent]), ih]

theorem writeOps (u n : Prop) [Decidable u] [Decidable n] (lim : Option Bool) (set res : Bool) (x : Op) (r : Int) :
    (if (decide u = true ∧ lim = some false ∧ set = true) ∧ res = false then PAM_SERVICE_ERR else r) =
      (if u ∧ lim = some false ∧ set = true ∧ res = false then PAM_SERVICE_ERR else r) ∧
    (if decide u = true ∧ lim = some false then [Op.raise] else []) ++ [.write] ++
      (if decide u = true ∧ lim = some false ∧ set = true then [.restore] else []) ++ (if (!decide n) = true then [x] else []) =
      (if u ∧ lim = some false then (if set = true then [.raise, .write, .restore] else [.raise, .write]) else [.write]) ++ (if n then [] else [x]) := by
  by_cases h1 : u <;> by_cases h2 : lim = some false <;> cases set <;> cases res <;> by_cases h5 : n <;> simp [h1, h2, h5]

/-- C139, this login: if the user can be told what there is to tell, the record can be locked at one of three tries, and all of it written, then the record of
the user is the time, the terminal without "/dev/" and the host of this login, cut to 31 and 255 bytes.  With `unlimited` a limit of the file size is lifted
before and put back after that, and the session fails if it cannot be put back; wtmp is written unless there is `nowtmp`. -/
theorem C139_recorded (w : World) (silent : Bool) (argv : List Str) (user : Str) (uid : Nat) (f tty : Str) (hw : Writable w argv user uid f)
    (ht : Terminal w.tty tty) (htn : ∀ c ∈ tty, c ≠ NUL) (hrn : ∀ h, w.rhost = some h → ∀ c ∈ h, c ≠ NUL) (hinfo : w.info = PAM_SUCCESS)
    (hlock : ∃ i < 3, w.lock i = true) (hwr : 292 ≤ w.written) :
    (∃ f', (openSession w silent argv).2.2 = some f' ∧ Record f' uid (w.now % 4294967296).toNat (tty.take 31) ((w.rhost.getD []).take 255)) ∧
    (openSession w silent argv).2.1.filter Op.silent =
      (if "unlimited".toList ∈ argv ∧ w.limit = some false then (if w.setLimit = true then [.raise, .write, .restore] else [.raise, .write]) else [.write]) ++
      (if "nowtmp".toList ∈ argv then [] else [.wtmp (tty.take 31) user (w.rhost.getD [])]) ∧
    ("unlimited".toList ∈ argv ∧ w.limit = some false ∧ w.setLimit = true ∧ w.restore = false → (openSession w silent argv).1 = PAM_SERVICE_ERR) ∧
    (¬ ("unlimited".toList ∈ argv ∧ w.limit = some false ∧ w.setLimit = true ∧ w.restore = false) → silent = true ∨ "showfailed".toList ∉ argv →
      (openSession w silent argv).1 = PAM_SUCCESS) := by
  obtain ⟨hle, ho, hup⟩ := writable_open (silent := silent) hw
  have hfl := parse_flags silent argv
  rw [openSession_eq hw.known hw.named hw.hasUid, loginDate_open hle ho]
  have hc : ¬ (readMsg w (parse silent argv) (readRec f uid) ≠ none ∧ w.info ≠ PAM_SUCCESS) := fun h => h.2 hinfo
  dsimp only
  rw [if_neg hc, if_neg hc, if_neg hc, if_pos hup, if_pos hup, if_pos hup]
  have hl : lockLoop w.lock 3 0 = true := (lockLoop_iff _ _ _).mpr (by simpa using hlock)
  have e : writeLogin w (parse silent argv) f uid user =
      (if "unlimited".toList ∈ argv ∧ w.limit = some false ∧ w.setLimit = true ∧ w.restore = false then PAM_SERVICE_ERR else PAM_SUCCESS,
      (if "unlimited".toList ∈ argv ∧ w.limit = some false then (if w.setLimit = true then [.raise, .write, .restore] else [.raise, .write]) else [.write]) ++
        (if "nowtmp".toList ∈ argv then [] else [.wtmp (tty.take 31) user (w.rhost.getD [])]),
      overlay f (292 * uid) ((record w).take w.written)) := by
    obtain ⟨e1, e2⟩ := writeOps ("unlimited".toList ∈ argv) ("nowtmp".toList ∈ argv) w.limit w.setLimit w.restore (.wtmp (tty.take 31) user (w.rhost.getD [])) PAM_SUCCESS
    rw [← e1, ← e2]
    unfold writeLogin
    rw [if_neg (by rw [hl]; decide), hfl.unlimited, hfl.wtmp, decide_eq_false hw.update, getTty_eq ht, Bool.or_false,
      if_neg (show ¬ w.written < recSize by unfold recSize; omega)]
    rfl
  rw [e]
  dsimp only
  refine ⟨⟨_, rfl, overlay_record ht htn hrn _ hwr⟩, ?_, ?_, ?_⟩
  · rw [List.filter_append, List.filter_append, map_say_silent, List.nil_append]
    have e2 : ∀ c : Prop, ∀ [Decidable c], (if c then (loginFailed w (parse silent argv) user (int4 (readRec f uid))).2 else []).filter Op.silent = [] := by
      intro c _
      split
      · exact loginFailed_says _ _ _ _
      · rfl
    rw [e2, List.append_nil, List.filter_append]
    congr 1
    · split
      · split <;> rfl
      · rfl
    · split <;> rfl
  · intro h
    rw [if_pos h, if_neg (fun h => absurd h.2 (by decide))]
  · intro h hb
    rw [if_neg h, if_neg]
    rw [hfl.btmp]
    rcases hb with rfl | hb
    · simp
    · rw [decide_eq_false hb]; simp

/-- C139, the failures: a session that cannot lock the record at three tries, or cannot write all of it, fails; the first leaves the file as it was. -/
theorem C139_failed (w : World) (silent : Bool) (argv : List Str) (user : Str) (uid : Nat) (f : Str) (hw : Writable w argv user uid f)
    (hinfo : w.info = PAM_SUCCESS) :
    ((∀ i < 3, w.lock i = false) → (openSession w silent argv).1 = PAM_SERVICE_ERR ∧ (openSession w silent argv).2.2 = some f) ∧
    (w.written < 292 → (openSession w silent argv).1 = PAM_SERVICE_ERR) := by
  obtain ⟨hle, ho, hup⟩ := writable_open (silent := silent) hw
  rw [openSession_eq hw.known hw.named hw.hasUid, loginDate_open hle ho]
  have hc : ¬ (readMsg w (parse silent argv) (readRec f uid) ≠ none ∧ w.info ≠ PAM_SUCCESS) := fun h => h.2 hinfo
  dsimp only
  rw [if_neg hc, if_neg hc, if_neg hc, if_pos hup, if_pos hup, if_pos hup]
  constructor
  · intro hl
    have hl : lockLoop w.lock 3 0 = false := by
      cases h : lockLoop w.lock 3 0 with
      | false => rfl
      | true =>
        obtain ⟨j, hj, hf⟩ := (lockLoop_iff _ _ _).mp h
        rw [Nat.zero_add, hl j hj] at hf; cases hf
    have e : writeLogin w (parse silent argv) f uid user = (PAM_SERVICE_ERR, [], f) := by unfold writeLogin; rw [if_pos hl]
    rw [e]
    dsimp only
    exact ⟨if_neg (fun h => absurd h.2 (by decide)), rfl⟩
  · intro hlt
    have e : (writeLogin w (parse silent argv) f uid user).1 = PAM_SERVICE_ERR := by
      unfold writeLogin
      split
      · rfl
      · dsimp only
        rw [if_pos (show w.written < recSize from hlt)]
        split <;> rfl
    rw [e]
    exact if_neg (fun h => absurd h.2 (by decide))

theorem lineEq (p q r : Prop) [Decidable p] [Decidable q] [Decidable r] (d : Option Str) (head from' on host ln : Str) :
    (if (if (!decide p) = true then d else none) ≠ none ∨ (if (!decide q) = true ∧ host ≠ [] then some (from' ++ host) else none) ≠ none ∨
        (if (!decide r) = true ∧ ln ≠ [] then some (on ++ ln) else none) ≠ none then
      some (head ++ (if (!decide p) = true then d else none).getD [] ++ (if (!decide q) = true ∧ host ≠ [] then some (from' ++ host) else none).getD [] ++
        (if (!decide r) = true ∧ ln ≠ [] then some (on ++ ln) else none).getD []) else none).toList.map Op.say =
    (if (p ∨ d = none) ∧ (q ∨ host = []) ∧ (r ∨ ln = []) then []
      else [.say (head ++ (if p then [] else d.getD []) ++ (if q ∨ host = [] then [] else from' ++ host) ++ (if r ∨ ln = [] then [] else on ++ ln))]) := by
  by_cases h1 : p <;> by_cases h2 : q <;> by_cases h3 : r <;> by_cases h4 : host = [] <;> by_cases h5 : ln = [] <;> cases d <;> simp [h1, h2, h3, h4, h5]

/-- what is told from the record -/
theorem lastLine_eq {w : World} {silent : Bool} {argv : List Str} (head : String) (t : Int) (host ln : Str) :
    (lastLine w (parse silent argv) head t host ln).toList.map Op.say = Spec.line w argv head t host ln := by
  have hfl := parse_flags silent argv
  unfold lastLine part Spec.line
  rw [hfl.date, hfl.host, hfl.line]
  exact lineEq _ _ _ _ _ _ _ _ _

/-- C139, the last login is told: the first thing a session tells is the login in the record, in full but for the parts that `nodate`, `nohost` and `noterm`
leave out, and unless it is silent; without a record it is nothing, or a welcome with `never`.  After that only failed logins are told. -/
theorem C139_tells (w : World) (silent : Bool) (argv : List Str) (user : Str) (uid : Nat) (f : Str) (hu : w.user = some user) (hne : user ≠ [])
    (hid : w.uid user = some uid) (m : Nat) (hm : Largest w.uidMax m) (hle : uid ≤ m) (hf : w.file = some f) (hop : w.opens = true) :
    ∃ first rest : List Op, (openSession w silent argv).2.1 = first ++ rest ∧
      (silent = true ∨ "silent".toList ∈ argv → first = []) ∧
      (silent = false → "silent".toList ∉ argv →
        (∀ t ln hs, Record f uid t ln hs → 0 < t → t < 2147483648 → first = Spec.line w argv "Last login:" t hs ln) ∧
        ((NoRecord f uid ∨ ∃ ln hs, Record f uid 0 ln hs) →
          first = if "never".toList ∈ argv then [.say "Welcome to your new account!".toList] else [])) ∧
      (silent = true ∨ "showfailed".toList ∉ argv → ∀ s, .say s ∉ rest) := by
  have hfl := parse_flags silent argv
  have ho : openFile w (parse silent argv).update = some f := by
    unfold openFile; rw [if_neg (by rw [hop]; decide), hf]
  rw [openSession_eq hu hne hid, loginDate_open (by rw [uidMax_eq hm]; exact hle) ho]
  dsimp only
  refine ⟨_, _, List.append_assoc _ _ _, ?_, ?_, ?_⟩
  · intro h
    have hq : (parse silent argv).quiet = true := by
      rw [hfl.quiet]
      rcases h with rfl | h
      · rfl
      · rw [decide_eq_true h, Bool.or_true]
    unfold readMsg
    rw [if_pos hq]; rfl
  · intro h1 h2
    have hq : ¬ (parse silent argv).quiet = true := by rw [hfl.quiet, h1, decide_eq_false h2]; decide
    unfold readMsg
    rw [if_neg hq]
    constructor
    · intro t ln hs hr h0 hlt
      obtain ⟨e1, e2, e3⟩ := readRec_record hr
      rw [if_pos hlt] at e1
      rw [e1, e2, e3, if_pos (by omega), lastLine_eq]
    · intro hn
      have e0 : int4 (readRec f uid) = 0 := by
        rcases hn with hn | ⟨ln, hs, hr⟩
        · exact readRec_none hn
        · exact (readRec_record hr).1
      rw [e0, if_neg (fun h => h rfl), hfl.never]
      by_cases hv : "never".toList ∈ argv
      · rw [decide_eq_true hv, if_pos rfl, if_pos hv]; rfl
      · rw [decide_eq_false hv, if_neg (by decide), if_neg hv]; rfl
  · intro h s hs
    have hb : ¬ (parse silent argv).btmp = true := by
      rw [hfl.btmp]
      rcases h with rfl | h
      · simp
      · rw [decide_eq_false h, Bool.and_false]; decide
    rcases List.mem_append.mp hs with hs | hs
    rotate_left
    · rw [if_neg (fun h2 : (parse silent argv).btmp = true ∧ _ => hb h2.1)] at hs
      cases hs
    have hwl : ∀ s, Op.say s ∉ (writeLogin w (parse silent argv) f uid user).2.1 := by
      intro s
      unfold writeLogin
      split
      · simp
      · dsimp only
        simp only [List.mem_append, not_or]
        refine ⟨⟨⟨?_, by simp⟩, ?_⟩, ?_⟩ <;> split <;> simp
    split at hs
    · cases hs
    · split at hs
      · exact hwl s hs
      · cases hs

/-- C139, the rest: an unknown user is refused; for one with an id beyond LASTLOG_UID_MAX nothing is told, written or refused; one who cannot be recorded because
there is no file to open is refused; and the end of a session is written to wtmp unless there is `nowtmp` or `noupdate`. -/
theorem C139_rest (w : World) (silent : Bool) (argv : List Str) :
    ((∀ user, w.user = some user → user = [] ∨ w.uid user = none) → openSession w silent argv = (PAM_USER_UNKNOWN, [], w.file)) ∧
    (∀ user uid m, w.user = some user → user ≠ [] → w.uid user = some uid → Largest w.uidMax m → silent = true ∨ "showfailed".toList ∉ argv →
      (m < uid → openSession w silent argv = (PAM_SUCCESS, [], w.file)) ∧
      (uid ≤ m → w.opens = false ∨ (w.file = none ∧ ("noupdate".toList ∈ argv ∨ w.creates = false)) →
        openSession w silent argv = (PAM_SERVICE_ERR, [], w.file))) ∧
    (∀ tty, Terminal w.tty tty → closeSession w silent argv =
      (PAM_SUCCESS, if "nowtmp".toList ∈ argv ∨ "noupdate".toList ∈ argv then [] else [.wtmp tty [] []])) := by
  have hfl := parse_flags silent argv
  refine ⟨?_, ?_, ?_⟩
  · intro h
    unfold openSession
    cases hu : w.user with
    | none => rfl
    | some user =>
      dsimp only
      rcases h user hu with h | h
      · rw [if_pos h]
      · split
        · rfl
        · rw [h]
  · intro user uid m hu hne hid hm hs
    have hb : ¬ (parse silent argv).btmp = true := by
      rw [hfl.btmp]
      rcases hs with rfl | h
      · simp
      · rw [decide_eq_false h, Bool.and_false]; decide
    rw [openSession_eq hu hne hid, if_neg (fun h => hb h.1), if_neg (fun h => hb h.1), List.append_nil]
    unfold loginDate
    rw [uidMax_eq hm]
    constructor
    · intro h; rw [if_pos h]
    · intro h ho
      rw [if_neg (by omega)]
      have e : openFile w (parse silent argv).update = none := by
        unfold openFile
        rcases ho with ho | ⟨ho, hc⟩
        · rw [if_pos ho]
        · by_cases hop : w.opens = false
          · rw [if_pos hop]
          rw [if_neg hop, ho]
          dsimp only
          rw [hfl.update]
          rcases hc with hc | hc
          · rw [decide_eq_true hc, if_neg (fun h => by cases h.1)]
          · rw [hc, if_neg (fun h => by cases h.2)]
      rw [e]
  · intro tty ht
    unfold closeSession
    rw [hfl.wtmp, getTty_eq ht]
    by_cases h1 : "nowtmp".toList ∈ argv
    · rw [decide_eq_true h1, if_pos (by rw [Bool.true_or]; rfl), if_pos (Or.inl h1)]
    · by_cases h2 : "noupdate".toList ∈ argv
      · rw [decide_eq_true h2, if_pos (by rw [Bool.or_true]; rfl), if_pos (Or.inr h2)]
      · rw [decide_eq_false h1, decide_eq_false h2, if_neg (by decide), if_neg (by intro h; exact h.elim h1 h2)]

/-! ### C140 -/

theorem inactive_days {argv : List Str} {n : Int} (h : Days argv n) : inactive argv = n := by
  unfold inactive
  obtain ⟨h1, h2⟩ := foldl_last inactiveArg id "inactive=" (by
    intro s a ha
    unfold inactiveArg
    rw [skipPrefix_none.mpr ha]
    split
    · rfl
    · split <;> rfl) argv 90
  rcases h with ⟨hw, rfl⟩ | ⟨v, hl, hs, hp, hlt⟩
  · exact h1 hw
  · obtain ⟨pre, _, he⟩ := h2 v hl
    have he : argv.foldl inactiveArg 90 = inactiveArg (pre.foldl inactiveArg 90) ("inactive=".toList ++ v) := he
    rw [he]
    obtain ⟨e1, e2⟩ := (strtoInt_base 10 (by decide) (by decide) (by decide) v n).mpr hs
    unfold inactiveArg
    rw [if_neg (by simp), if_neg (by simp), skipPrefix_some.mpr rfl]
    dsimp only
    rw [e1]
    exact if_pos ⟨fun h => e2 h.symm, hp, hlt⟩

/-- C140: as authentication the module lets in root, users with ids beyond LASTLOG_UID_MAX, and users that never logged in; it has no opinion if there is no file
to read; and it denies a user whose last login, before 2038, was more than the given number of whole days ago, and no one else. -/
theorem C140_lockout_partial (w : World) (argv : List Str) :
    ((∀ user, w.user = some user → w.uid user = none) → auth w argv = PAM_USER_UNKNOWN) ∧
    (∀ user uid m, w.user = some user → w.uid user = some uid → Largest w.uidMax m →
      (uid = 0 ∨ m < uid → auth w argv = PAM_SUCCESS) ∧
      (uid ≠ 0 → uid ≤ m →
        (w.opens = false ∨ w.file = none → auth w argv = PAM_IGNORE) ∧
        (∀ f, w.opens = true → w.file = some f →
          (NoRecord f uid ∨ (∃ ln hs, Record f uid 0 ln hs) → auth w argv = PAM_SUCCESS) ∧
          (∀ t ln hs n, Record f uid t ln hs → 0 < t → t < 2147483648 → Days argv n →
            auth w argv = if t + 86400 * (n + 1) ≤ w.now then PAM_AUTH_ERR else PAM_SUCCESS)))) := by
  constructor
  · intro h
    unfold auth
    cases hu : w.user with
    | none => rfl
    | some user => dsimp only; rw [h user hu]
  · intro user uid m hu hid hm
    unfold auth
    rw [hu]
    dsimp only
    rw [hid, uidMax_eq hm]
    dsimp only
    constructor
    · intro h; rw [if_pos h]
    · intro h0 hle
      rw [if_neg (by omega)]
      constructor
      · intro h
        have e : openFile w false = none := by
          unfold openFile
          rcases h with h | h
          · rw [if_pos h]
          · rw [h]; simp
        rw [e]
      · intro f hop hf
        have e : openFile w false = some f := by unfold openFile; rw [if_neg (by rw [hop]; decide), hf]
        rw [e]
        dsimp only
        constructor
        · intro hn
          have e0 : int4 (readRec f uid) = 0 := by
            rcases hn with hn | ⟨ln, hs, hr⟩
            · exact readRec_none hn
            · exact (readRec_record hr).1
          rw [if_pos e0]
        · intro t ln hs n hr ht hlt hd
          obtain ⟨e1, _, _⟩ := readRec_record hr
          have hn : 0 < n := by
            rcases hd with ⟨_, rfl⟩ | ⟨_, _, _, h, _⟩
            · decide
            · exact h
          rw [if_pos hlt] at e1
          rw [e1, if_neg (by omega), inactive_days hd]
          have : ((w.now - (t : Int)).tdiv 86400 > n) ↔ (t : Int) + 86400 * (n + 1) ≤ w.now := by
            by_cases hneg : 0 ≤ w.now - (t : Int)
            · rw [Int.tdiv_eq_ediv_of_nonneg hneg]; omega
            · have : (w.now - (t : Int)).tdiv 86400 ≤ 0 := by
                have := Int.tdiv_nonneg (a := -(w.now - (t : Int))) (b := 86400) (by omega) (by omega)
                rw [Int.neg_tdiv] at this
                omega
              omega
          by_cases hc : (t : Int) + 86400 * (n + 1) ≤ w.now
          · rw [if_pos (this.mpr hc), if_pos hc]
          · rw [if_neg (fun h => hc (this.mp h)), if_neg hc]

/-! ### C141 -/

theorem failedLoop_eq (user : Str) (since : Int) : ∀ (l : List Failed) (n : Nat) (last : Option Failed),
    failedLoop user since n last l = (n + (l.filter (counts user since)).length, ((l.filter (counts user since)).getLast?).or last)
  | [], n, last => by simp [failedLoop]
  | e :: r, n, last => by
    unfold failedLoop
    by_cases h : counts user since e = true
    · rw [if_pos h, failedLoop_eq user since r, List.filter_cons_of_pos h, List.length_cons]
      refine Prod.ext (by dsimp only; omega) ?_
      dsimp only
      rw [List.getLast?_cons]
      cases (r.filter (counts user since)).getLast? <;> rfl
    · rw [if_neg h, failedLoop_eq user since r, List.filter_cons_of_neg h]

theorem counts_eq (user : Str) (t : Nat) (h : t < 2147483648) : counts user (t : Int) = Since user t := by
  funext e
  unfold counts Since cstr
  have : ((t : Int) % 18446744073709551616 ≤ (e.sec : Int)) ↔ t ≤ e.sec := by omega
  simp only [this]

theorem fold_filter (argv : List Str) : (argv.filter (· ≠ "showfailed".toList)).foldl arg {} = { argv.foldl arg {} with btmp := false } := by
  have step : ∀ (a : Str) (o : Opts), a ≠ "showfailed".toList → arg { o with btmp := false } a = { arg o a with btmp := false } := by
    intro a o h
    have hite : ∀ (c : Prop) [Decidable c] (x y : Opts),
        ({ (if c then x else y) with btmp := false } : Opts) = if c then { x with btmp := false } else { y with btmp := false } := by
      intro c _ x y; split <;> rfl
    unfold arg
    simp only [hite]
    rw [if_neg h, if_neg h]
  have step2 : ∀ (o : Opts), ({ arg o "showfailed".toList with btmp := false } : Opts) = { o with btmp := false } := by intro o; rfl
  generalize "showfailed".toList = k at step step2
  have gen : ∀ (argv : List Str) (o : Opts),
      (argv.filter (· ≠ k)).foldl arg { o with btmp := false } = { argv.foldl arg o with btmp := false } := by
    intro argv
    induction argv with
    | nil => intro o; rfl
    | cons a r ih =>
      intro o
      by_cases h : a = k
      · rw [List.filter_cons_of_neg (by simp [h]), List.foldl_cons, ← ih, h, step2]
      · rw [List.filter_cons_of_pos (by simp [h]), List.foldl_cons, List.foldl_cons, step a o h, ih]
  exact gen argv {}

/-- what the number of failed logins does not change -/
theorem loginDate_btmp (w : World) (o : Opts) (uid : Nat) (user : Str) (b : Bool) : loginDate w { o with btmp := b } uid user = loginDate w o uid user := rfl

/-- C141: with `showfailed`, a session whose other part succeeded goes on to tell of the entries of btmp, from the time of the last login on and with the name
of the user in its first 32 bytes: the last of them, and how many there are; and nothing if there is none. -/
theorem C141_failed_partial (w : World) (argv : List Str) (user : Str) (uid m : Nat) (f : Str) (l : List Failed) (hu : w.user = some user) (hne : user ≠ [])
    (hid : w.uid user = some uid) (hm : Largest w.uidMax m) (hle : uid ≤ m) (hf : w.file = some f) (hop : w.opens = true) (hs : "showfailed".toList ∈ argv)
    (t : Nat) (ht : t < 2147483648) (hr : (∃ ln hs, Record f uid t ln hs) ∨ (NoRecord f uid ∧ t = 0)) (hb : w.btmp = .entries l)
    (first : List Op) (f' : Option Str) (hfirst : openSession w false (argv.filter (· ≠ "showfailed".toList)) = (PAM_SUCCESS, first, f')) :
    (l.filter (Since user t) = [] → openSession w false argv = (PAM_SUCCESS, first, f')) ∧
    (∀ e, (l.filter (Since user t)).getLast? = some e → e.sec < 2147483648 →
      openSession w false argv = (w.info, first ++ Spec.line w argv "Last failed login:" e.sec ((e.host.take 256).takeWhile (· ≠ NUL))
        ((e.line.take 32).takeWhile (· ≠ NUL)) ++ [.say (sentence (l.filter (Since user t)).length)], f')) := by
  have hp : parse false (argv.filter (· ≠ "showfailed".toList)) = { parse false argv with btmp := false } := fold_filter argv
  have hbt : (parse false argv).btmp = true := by rw [(parse_flags false argv).btmp, decide_eq_true hs]; rfl
  rw [openSession_eq hu hne hid, hp, loginDate_btmp] at hfirst
  dsimp only at hfirst
  rw [if_neg (by simp), if_neg (by simp), List.append_nil] at hfirst
  have e1 : (loginDate w (parse false argv) uid user).1 = PAM_SUCCESS := congrArg Prod.fst hfirst
  have e2 : (loginDate w (parse false argv) uid user).2.1 = first := congrArg (fun x => x.2.1) hfirst
  have e3 : (loginDate w (parse false argv) uid user).2.2.1 = f' := congrArg (fun x => x.2.2) hfirst
  have ho : openFile w (parse false argv).update = some f := by unfold openFile; rw [if_neg (by rw [hop]; decide), hf]
  have e4 : (loginDate w (parse false argv) uid user).2.2.2 = (t : Int) := by
    rw [loginDate_open (by rw [uidMax_eq hm]; exact hle) ho]
    dsimp only
    rcases hr with ⟨ln, hs, hr⟩ | ⟨hn, rfl⟩
    · rw [(readRec_record hr).1, if_pos ht]
    · exact readRec_none hn
  rw [openSession_eq hu hne hid, if_pos ⟨hbt, e1⟩, if_pos ⟨hbt, e1⟩, e2, e3, e4]
  unfold loginFailed
  rw [hb]
  dsimp only
  rw [failedLoop_eq, counts_eq _ _ ht, Nat.zero_add]
  constructor
  · intro h
    rw [h]
    show (PAM_SUCCESS, first ++ [], f') = _
    rw [List.append_nil]
  · intro e he hlt
    rw [he, Option.some_or]
    dsimp only
    rw [show signed4 e.sec = (e.sec : Int) from if_pos hlt]
    have hl := @lastLine_eq w false argv "Last failed login:" (e.sec : Int) (cstr (e.host.take 256)) (cstr (e.line.take 32))
    unfold cstr at hl ⊢
    rw [← hl]
    refine Prod.ext rfl (Prod.ext ?_ rfl)
    dsimp only
    rw [List.append_assoc first]
    congr 1
    congr 1
    · cases lastLine w (parse false argv) "Last failed login:" (e.sec : Int) ((e.host.take 256).takeWhile (· ≠ NUL)) ((e.line.take 32).takeWhile (· ≠ NUL)) <;> rfl
    · unfold sentence
      by_cases h1 : (l.filter (Since user t)).length = 1
      · rw [if_pos h1, if_pos h1, h1]; rfl
      · rw [if_neg h1, if_neg h1]

/-! ### examples, and where more does not hold -/

/-- a system for the examples -/
def w0 : World where
  user := some "ann".toList
  uid := fun s => if s = "ann".toList then some 2 else if s = "aaaaaaaaaabbbbbbbbbbccccccccccddx".toList then some 2 else none
  uidMax := none
  file := none
  opens := true
  creates := true
  lock := fun i => decide (i = 2)
  now := 1000000
  tty := some "/dev/pts/1".toList
  rhost := some "box".toList
  limit := some false
  setLimit := true
  restore := true
  written := 292
  date := fun n => some (' ' :: Nat.toDigits 10 n.toNat)
  info := PAM_SUCCESS
  btmp := .entries [⟨5, "ann".toList, [], []⟩, ⟨1000000, "ann".toList ++ List.replicate 29 NUL, "tty1".toList ++ List.replicate 28 NUL, "bad".toList⟩,
    ⟨1000001, "bob".toList, [], []⟩]

/-- the same some time later -/
def later (w : World) (argv : List Str) (secs : Int) : World := { w with file := (openSession w false argv).2.2, now := w.now + secs }

theorem largest_none : Largest none 4294967295 := Or.inr ⟨(by intro t m h; cases h), rfl⟩

example : Writable w0 ["unlimited".toList] "ann".toList 2 [] :=
  ⟨rfl, by decide, rfl, ⟨_, largest_none, by decide⟩, rfl, Or.inr ⟨rfl, rfl, rfl⟩, by decide⟩

example : Terminal w0.tty "pts/1".toList := Or.inr (Or.inl rfl)

/-- a login, and the next one -/
example : (openSession w0 false ["unlimited".toList]).1 = PAM_SUCCESS ∧
    (openSession w0 false ["unlimited".toList]).2.1 = [.raise, .write, .restore, .wtmp "pts/1".toList "ann".toList "box".toList] := by decide +kernel

example : ∃ f, (later w0 [] 60).file = some f ∧ Record f 2 1000000 "pts/1".toList "box".toList := by
  obtain ⟨⟨f, h1, h2⟩, _⟩ := C139_recorded w0 false [] "ann".toList 2 [] "pts/1".toList
    ⟨rfl, by decide, rfl, ⟨_, largest_none, by decide⟩, rfl, Or.inr ⟨rfl, rfl, rfl⟩, by decide⟩ (Or.inr (Or.inl rfl)) (by decide)
    (by intro h hh; cases hh; decide) rfl ⟨2, by decide, rfl⟩ (by decide)
  exact ⟨f, h1, h2⟩

example : (openSession (later w0 [] 60) false ["showfailed".toList, "noupdate".toList]).2.1 =
    [.say "Last login: 1000000 from box on pts/1".toList, .say "Last failed login: 1000000 from bad on tty1".toList,
     .say "There was 1 failed login attempt since the last successful login.".toList] := by decide +kernel

example : auth (later w0 [] (86400 * 91)) [] = PAM_AUTH_ERR ∧ auth (later w0 [] (86400 * 91 - 1)) [] = PAM_SUCCESS ∧
    auth (later w0 [] (86400 * 8)) ["inactive=7".toList] = PAM_AUTH_ERR := by decide +kernel

example : Days ["inactive=7".toList] 7 :=
  Or.inr ⟨"7".toList, ⟨[], [], rfl, (by intro x h; cases h)⟩, ⟨[], "7".toList, 7, (by intro c h; cases h), ⟨by decide, by decide, by decide⟩, Or.inl ⟨rfl, rfl⟩⟩,
    by decide, by decide⟩

/-- C140: after January 2038 everyone is locked out: one second after a login the user counts as inactive for more than 49 thousand days. -/
theorem C140_2038_counterexample : ∃ w : World, w.now = 2147483653 ∧ (openSession w false []).1 = PAM_SUCCESS ∧
    auth (later w [] 1) ["inactive=49000".toList] = PAM_AUTH_ERR :=
  ⟨{ w0 with now := 2147483653 }, by decide +kernel⟩

/-- C140: a value that only begins with a number is not refused. -/
theorem C140_text_counterexample : ∃ w : World, auth w ["inactive=1 year".toList] = PAM_AUTH_ERR ∧ auth w [] = PAM_SUCCESS :=
  ⟨later w0 [] (86400 * 3), by decide +kernel⟩

/-- C139: a login is not recorded if the user cannot be told of the last one. -/
theorem C139_unsaid_counterexample : ∃ w : World, w.info = PAM_CONV_ERR ∧ (openSession { w with info := PAM_SUCCESS } false []).1 = PAM_SUCCESS ∧
    (openSession w false []).1 = PAM_CONV_ERR ∧ (openSession w false []).2.2 = w.file :=
  ⟨{ later w0 [] 60 with info := PAM_CONV_ERR }, by decide +kernel⟩

/-- C141: for a user id beyond LASTLOG_UID_MAX all failures there ever were are told, as if they came since the last login. -/
theorem C141_uid_counterexample : ∃ w : World, w.uidMax = some "1".toList ∧ w.uid "ann".toList = some 2 ∧ w.user = some "ann".toList ∧
    w.btmp = .entries [⟨5, "ann".toList, [], []⟩] ∧ (∃ f, w.file = some f ∧ Record f 2 1000000 "pts/1".toList "box".toList) ∧
    .say "There was 1 failed login attempt since the last successful login.".toList ∈ (openSession w false ["showfailed".toList]).2.1 := by
  refine ⟨{ later w0 [] 60 with uidMax := some "1".toList, btmp := .entries [⟨5, "ann".toList, [], []⟩] }, rfl, rfl, rfl, rfl, ?_, by decide +kernel⟩
  obtain ⟨⟨f, h1, h2⟩, _⟩ := C139_recorded w0 false [] "ann".toList 2 [] "pts/1".toList
    ⟨rfl, by decide, rfl, ⟨_, largest_none, by decide⟩, rfl, Or.inr ⟨rfl, rfl, rfl⟩, by decide⟩ (Or.inr (Or.inl rfl)) (by decide)
    (by intro h hh; cases hh; decide) rfl ⟨2, by decide, rfl⟩ (by decide)
  exact ⟨f, h1, h2⟩

/-- C141: a user with a name of more than 32 bytes is told of the failures of another one. -/
theorem C141_long_counterexample : ∃ w : World, w.user = some "aaaaaaaaaabbbbbbbbbbccccccccccddx".toList ∧
    w.btmp = .entries [⟨5, "aaaaaaaaaabbbbbbbbbbccccccccccdd".toList, [], []⟩] ∧
    .say "There was 1 failed login attempt since the last successful login.".toList ∈ (openSession w false ["showfailed".toList]).2.1 :=
  ⟨{ w0 with user := some "aaaaaaaaaabbbbbbbbbbccccccccccddx".toList, btmp := .entries [⟨5, "aaaaaaaaaabbbbbbbbbbccccccccccdd".toList, [], []⟩] }, by decide +kernel⟩

/-- C141: the argument `silent` does not silence this. -/
theorem C141_silent_counterexample : ∃ w : World, .say "There was 1 failed login attempt since the last successful login.".toList ∈
    (openSession w false ["silent".toList, "showfailed".toList]).2.1 := ⟨later w0 [] 60, by decide +kernel⟩

end Pam.Lastlog
