import Verif.Unix.Sess
import Verif.Unix.CtrlProps
/-
C166: what pam_unix does when a session begins and ends.
-/
namespace Pam.Unix.Sess
open Pam Unix

/-! ### specification -/

/-- an item that is there and not empty -/
def Named (s : Option Str) (x : Str) : Prop := s = some x ∧ x ≠ []

/-- the arguments ask for silence: `quiet`, with no name of a hash method after it -/
def Silent (argv : List Str) : Prop := ∃ pre arg post, argv = pre ++ arg :: post ∧ "quiet".toList <+: arg ∧ ∀ b ∈ post, ∀ a, ¬ NamesHash b a

/-! ### theorems -/

theorem missing_false {s : Option Str} {x : Str} (h : Named s x) : missing s = false := by
  rw [h.1]
  show x.isEmpty = false
  cases hx : x with
  | nil => exact absurd hx h.2
  | cons _ _ => rfl

theorem missing_true {s : Option Str} (h : ∀ x, ¬ Named s x) : missing s = true := by
  cases s with
  | none => rfl
  | some x =>
    cases x with
    | nil => rfl
    | cons c cs => exact absurd ⟨rfl, nofun⟩ (h (c :: cs))

theorem named_or (s : Option Str) : (∃ x, Named s x) ∨ ∀ x, ¬ Named s x := by
  cases s with
  | none => exact Or.inr (fun x h => nomatch h.1)
  | some x =>
    by_cases hx : x = []
    · exact Or.inr (fun y h => h.2 (by rw [← Option.some.inj h.1]; exact hx))
    · exact Or.inl ⟨x, rfl, hx⟩

/-- **C166** Opening and closing a session succeed exactly if the application has named the user and the service, whatever the arguments, the flags and /etc/login.defs; otherwise they say PAM_SESSION_ERR. -/
theorem C166_result (v : Env) (fl : Flags) (defs : Option Str) (argv : List Str) :
    ∃ oc lo cc lc, openSession v fl defs argv = some (oc, lo) ∧ closeSession v fl defs argv = some (cc, lc) ∧ oc = cc ∧
      (oc = PAM_SUCCESS ∨ oc = PAM_SESSION_ERR) ∧ (oc = PAM_SUCCESS ↔ (∃ u, Named v.user u) ∧ ∃ s, Named v.service s) := by
  obtain ⟨o, ho⟩ := C72_defined (decide (v.uid = 0)) fl defs none none none argv
  unfold openSession closeSession
  rw [ho]
  simp only [Option.map_some]
  refine ⟨(openWith v o.ctrl).1, (openWith v o.ctrl).2, (closeWith v o.ctrl).1, (closeWith v o.ctrl).2, rfl, rfl, ?_⟩
  have ne : PAM_SESSION_ERR ≠ PAM_SUCCESS := by decide
  unfold openWith closeWith
  generalize "open_session - error recovering username".toList = A
  generalize "open_session - error recovering service".toList = B
  generalize "close_session - error recovering username".toList = C
  generalize "close_session - error recovering service".toList = D
  generalize openLine v (v.user.getD []) = E
  generalize closeLine (v.user.getD []) = F
  generalize off UNIX_QUIET o.ctrl = q
  rcases named_or v.user with ⟨u, hu⟩ | hu
  · rw [missing_false hu]
    rcases named_or v.service with ⟨s, hs⟩ | hs
    · rw [missing_false hs]
      simp only [Bool.false_eq_true, if_false]
      cases q
      · exact ⟨rfl, Or.inl rfl, fun _ => ⟨⟨u, hu⟩, s, hs⟩, fun _ => rfl⟩
      · exact ⟨rfl, Or.inl rfl, fun _ => ⟨⟨u, hu⟩, s, hs⟩, fun _ => rfl⟩
    · rw [missing_true hs]
      exact ⟨rfl, Or.inr rfl, fun h => absurd h ne, fun h => by obtain ⟨s, h⟩ := h.2; exact absurd h (hs s)⟩
  · rw [missing_true hu]
    exact ⟨rfl, Or.inr rfl, fun h => absurd h ne, fun h => by obtain ⟨u, h⟩ := h.1; exact absurd h (hu u)⟩

/-- **C166** A session that opens leaves one line in the log, with the user, their id, who they are on the terminal and the id of the caller, and one when it closes, unless the arguments ask for silence: then there is none. -/
theorem C166_log (v : Env) (fl : Flags) (defs : Option Str) (argv : List Str) (u s : Str) (hu : Named v.user u) (hs : Named v.service s) :
    (Silent argv → openSession v fl defs argv = some (PAM_SUCCESS, []) ∧ closeSession v fl defs argv = some (PAM_SUCCESS, [])) ∧
    (¬ Silent argv →
      (∀ n, v.pwnam u = some n → openSession v fl defs argv = some (PAM_SUCCESS, [(.info,
        "session opened for user ".toList ++ u ++ "(uid=".toList ++ Nat.toDigits 10 n ++ ") by ".toList ++ v.login.getD [] ++ "(uid=".toList ++ Nat.toDigits 10 v.uid ++ ")".toList)])) ∧
      (v.pwnam u = none → openSession v fl defs argv = some (PAM_SUCCESS, [(.info,
        "session opened for user ".toList ++ u ++ "(uid=".toList ++ "getpwnam error".toList ++ ") by ".toList ++ v.login.getD [] ++ "(uid=".toList ++ Nat.toDigits 10 v.uid ++ ")".toList)])) ∧
      closeSession v fl defs argv = some (PAM_SUCCESS, [(.info, "session closed for user ".toList ++ u)])) := by
  obtain ⟨o, ho⟩ := C72_defined (decide (v.uid = 0)) fl defs none none none argv
  have hq := C72_quiet_partial _ _ _ _ _ _ _ _ ho
  unfold openSession closeSession
  rw [ho]
  simp only [Option.map_some]
  unfold openWith closeWith off
  rw [missing_false hu, missing_false hs]
  simp only [Bool.false_eq_true, if_false]
  constructor
  · intro h
    rw [hq.mpr h]
    exact ⟨rfl, rfl⟩
  · intro h
    have hoff : on UNIX_QUIET o.ctrl = false := by
      cases hx : on UNIX_QUIET o.ctrl with
      | false => rfl
      | true => exact absurd (hq.mp hx) h
    rw [hoff]
    have hget : v.user.getD [] = u := by rw [hu.1]; rfl
    simp only [Bool.not_false, if_true, hget]
    refine ⟨?_, ?_, rfl⟩
    · intro n hn
      unfold openLine
      rw [hn]
    · intro hn
      unfold openLine
      rw [hn]

theorem split_first {c : Char} {a b x y : Str} (ha : c ∉ a) (hx : c ∉ x) (h : a ++ c :: b = x ++ c :: y) : a = x ∧ b = y := by
  induction a generalizing x with
  | nil =>
    cases x with
    | nil => exact ⟨rfl, (List.cons.inj h).2⟩
    | cons d x => exact absurd (by rw [(List.cons.inj h).1]; exact List.mem_cons_self) hx
  | cons d a ih =>
    rw [List.mem_cons, not_or] at ha
    cases x with
    | nil => exact absurd (List.cons.inj h).1.symm ha.1
    | cons d' x =>
      rw [List.mem_cons, not_or] at hx
      obtain ⟨h1, h2⟩ := List.cons.inj h
      obtain ⟨e1, e2⟩ := ih ha.2 hx.2 h2
      exact ⟨by rw [h1, e1], e2⟩

theorem split_last {c : Char} {a b x y : Str} (hb : c ∉ b) (hy : c ∉ y) (h : a ++ c :: b = x ++ c :: y) : a = x ∧ b = y := by
  have h' := congrArg List.reverse h
  simp only [List.reverse_append, List.reverse_cons, List.append_assoc, List.singleton_append] at h'
  obtain ⟨e1, e2⟩ := split_first (by simpa using hb) (by simpa using hy) h'
  exact ⟨List.reverse_inj.mp e2, List.reverse_inj.mp e1⟩

theorem digits_no {n : Nat} {c : Char} (hc : ¬ isDigitOf 10 c) : c ∉ Nat.toDigits 10 n := fun h => hc ((toDigits_spec n).2.1 c h)

/-- **C166** The line says who: for users without a `(` in their name, two openings that leave the same line were of the same user, with the same id, on behalf of the same login name and by the same caller. -/
theorem C166_who (u1 u2 l1 l2 : Str) (n1 n2 m1 m2 : Nat) (h1 : '(' ∉ u1) (h2 : '(' ∉ u2)
    (h : "session opened for user ".toList ++ u1 ++ "(uid=".toList ++ Nat.toDigits 10 n1 ++ ") by ".toList ++ l1 ++ "(uid=".toList ++ Nat.toDigits 10 m1 ++ ")".toList =
         "session opened for user ".toList ++ u2 ++ "(uid=".toList ++ Nat.toDigits 10 n2 ++ ") by ".toList ++ l2 ++ "(uid=".toList ++ Nat.toDigits 10 m2 ++ ")".toList) :
    u1 = u2 ∧ n1 = n2 ∧ l1 = l2 ∧ m1 = m2 := by
  have inj : ∀ {a b : Nat}, Nat.toDigits 10 a = Nat.toDigits 10 b → a = b := by
    intro a b h
    rw [← (toDigits_spec a).2.2.1, ← (toDigits_spec b).2.2.1, h]
  have e1 : "(uid=".toList = '(' :: "uid=".toList := rfl
  have e2 : ") by ".toList = ')' :: " by ".toList := rfl
  rw [e1, e2] at h
  generalize "session opened for user ".toList = A at h
  have nu : '(' ∉ "uid=".toList := by decide
  have n0 : '(' ∉ ")".toList := by decide
  generalize "uid=".toList = B at h nu
  generalize " by ".toList = C at h
  generalize ")".toList = D at h n0
  simp only [List.append_assoc, List.cons_append] at h
  have h := List.append_cancel_left h
  obtain ⟨eu, h⟩ := split_first h1 h2 h
  have h := List.append_cancel_left h
  have hd : ∀ n, ')' ∉ Nat.toDigits 10 n := fun n => digits_no (by decide)
  have hd' : ∀ n, '(' ∉ B ++ (Nat.toDigits 10 n ++ D) := by
    intro n hm
    rcases List.mem_append.mp hm with hm | hm
    · exact nu hm
    · rcases List.mem_append.mp hm with hm | hm
      · exact digits_no (by decide) hm
      · exact n0 hm
  obtain ⟨en, h⟩ := split_first (hd n1) (hd n2) h
  have h := List.append_cancel_left h
  obtain ⟨el, h⟩ := split_last (hd' m1) (hd' m2) h
  have h := List.append_cancel_right (List.append_cancel_left h)
  exact ⟨eu, inj en, el, inj h⟩

/-! ### examples -/

def demoEnv : Env := ⟨some "ada".toList, some "login".toList, some "root".toList, 0, fun u => if u = "ada".toList then some 1000 else none⟩

example : openSession demoEnv {} none [] = some (PAM_SUCCESS, [(.info, "session opened for user ada(uid=1000) by root(uid=0)".toList)]) := by decide +kernel
example : closeSession demoEnv {} none ["quiet".toList] = some (PAM_SUCCESS, []) := by decide +kernel
example : openSession { demoEnv with user := some [] } {} none [] = some (PAM_SESSION_ERR, [(.err, "open_session - error recovering username".toList)]) := by decide +kernel
example : Named demoEnv.user "ada".toList ∧ Named demoEnv.service "login".toList := ⟨⟨rfl, nofun⟩, rfl, nofun⟩
example : Silent ["debug".toList, "quiet".toList] := ⟨["debug".toList], _, [], rfl, List.prefix_refl _, nofun⟩
example : ¬ Silent [] := fun ⟨pre, _, _, h, _⟩ => by cases pre <;> cases h
example : '(' ∉ "ada".toList := by decide

end Pam.Unix.Sess
