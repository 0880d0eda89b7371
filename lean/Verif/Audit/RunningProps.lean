import Verif.Audit.Running
import Verif.Audit.SepermitProps
import Verif.Pwhistory.HelperProps
/-
C186: pam_sepermit finds, and kills, the processes of the user and no others.
-/
namespace Pam.Audit.Sepermit
open Pam Pam.Small Pam.Audit

namespace Spec

/-- a process: its id, and its real user id (`none`: it has ended before its file could be opened) -/
structure Process where
  pid : Nat
  uid : Option Nat
deriving DecidableEq, Repr

/-- what /proc/PID/status says about a process with a real user id: lines about other things (the first is the name of the program, which is
at the will of the user, but has no newline), then `Uid:`, the number, and other things -/
def Shows (text : Str) (uid : Nat) : Prop :=
  ∃ (before : List Str) (rest : Str), text = (before.map (· ++ ['\n'])).flatten ++ "Uid:\t".toList ++ Nat.toDigits 10 uid ++ '\t' :: rest ∧
    ∀ l ∈ before, '\n' ∉ l ∧ NUL ∉ l ∧ ¬ "Uid:".toList <+: l

/-- the directory /proc: the processes, in the order of the directory, and among them other names, which do not begin like a number -/
inductive Listed : List Str → List Process → Prop
  | nil : Listed [] []
  | other (c : Char) (r : Str) {ns ps} : isDigit c = false → c ≠ '-' → c ≠ '+' → isSpace c = false → Listed ns ps → Listed ((c :: r) :: ns) ps
  | process (p : Process) {ns ps} : Listed ns ps → Listed (Nat.toDigits 10 p.pid :: ns) (p :: ps)

/-- /proc shows these processes -/
structure Tells (fs : ProcFs) (ps : List Process) : Prop where
  listed : ∃ ns, fs.names = some ns ∧ Listed ns ps
  ids : ∀ p ∈ ps, 0 < p.pid ∧ p.pid < 2 ^ 31
  gone : ∀ p ∈ ps, p.uid = none → fs.status p.pid = none
  runs : ∀ p ∈ ps, ∀ u, p.uid = some u → u < 2 ^ 32 ∧ ∃ t, fs.status p.pid = some t ∧ Shows t u

end Spec
open Spec

/-! ### helper lemmas -/

theorem magnitude_stop (c : Char) (r : Str) (hc : isDigitOf 10 c = false) : ∀ (ds : Str) (acc : Nat), (∀ x ∈ ds, isDigitOf 10 x) →
    magnitude 10 acc (ds ++ c :: r) = (ds.foldl (fun a c => a * 10 + digitVal c) acc, c :: r)
  | [], acc, _ => by
    show (if isDigitOf 10 c then _ else _) = _
    rw [hc]
    rfl
  | d :: ds, acc, h => by
    rw [List.cons_append, magnitude, if_pos (h d (by simp)), magnitude_stop c r hc ds _ (fun x hx => h x (by simp [hx]))]
    rfl

theorem digits_head (n : Nat) : ∃ d ds, Nat.toDigits 10 n = d :: ds ∧ isDigitOf 10 d = true := by
  obtain ⟨h1, h2, -, -⟩ := toDigits_spec n
  cases h : Nat.toDigits 10 n with
  | nil => exact absurd h h1
  | cons d ds => exact ⟨d, ds, rfl, h2 d (by rw [h]; simp)⟩

theorem strtoInt_stop (n : Nat) (c : Char) (r : Str) (hc : isDigitOf 10 c = false) : strtoInt 10 (Nat.toDigits 10 n ++ c :: r) = ((n : Int), c :: r) := by
  obtain ⟨d, ds, h1, h2⟩ := digits_head n
  obtain ⟨-, g2, g3, -⟩ := toDigits_spec n
  have hs := digit_not_space (b := 10) (by decide) h2
  have hm : magnitude 10 0 (Nat.toDigits 10 n ++ c :: r) = (n, c :: r) := by
    rw [magnitude_stop c r hc _ _ g2]
    exact Prod.ext g3 rfl
  unfold strtoInt
  have hdrop : (Nat.toDigits 10 n ++ c :: r).dropWhile isSpace = Nat.toDigits 10 n ++ c :: r := by
    rw [h1, List.cons_append, List.dropWhile_cons, if_neg (by rw [hs.1]; decide)]
  have hsign : takeSign (Nat.toDigits 10 n ++ c :: r) = (false, Nat.toDigits 10 n ++ c :: r) := by
    rw [h1, List.cons_append]
    show (if d = '-' then _ else if d = '+' then _ else _) = _
    rw [if_neg hs.2.1, if_neg hs.2.2]
  rw [hdrop, hsign]
  dsimp only
  have hb : takeBase 10 (Nat.toDigits 10 n ++ c :: r) = (10, Nat.toDigits 10 n ++ c :: r) := by
    unfold takeBase
    rw [if_neg (by decide)]
  rw [hb]
  dsimp only
  rw [if_pos (by rw [h1]; exact h2), hm]
  rfl

theorem getlines_line (l t : Str) (h : '\n' ∉ l) : getlines (l ++ '\n' :: t) = (l ++ ['\n']) :: getlines t := by
  induction l with
  | nil => show (if '\n' = '\n' then _ else _) = _; rw [if_pos rfl]; rfl
  | cons c r ih =>
    have hc : c ≠ '\n' := fun e => h (by rw [e]; simp)
    show (if c = '\n' then _ else match getlines (r ++ '\n' :: t) with | [] => [[c]] | l :: ls => (c :: l) :: ls) = _
    rw [if_neg hc, ih (fun e => h (by simp [e]))]
    rfl

theorem getlines_first (t : Str) (c : Char) (hc : c ≠ '\n') : ∃ r ls, getlines (c :: t) = (c :: r) :: ls ∧ ∃ u, c :: t = c :: r ++ u := by
  show ∃ r ls, (if c = '\n' then _ else match getlines t with | [] => [[c]] | l :: ls => (c :: l) :: ls) = (c :: r) :: ls ∧ ∃ u, c :: t = c :: r ++ u
  rw [if_neg hc]
  have : ∀ t, ∀ l ls, getlines t = l :: ls → ∃ u, t = l ++ u := by
    intro t
    induction t with
    | nil => intro l ls h; cases h
    | cons x t ih =>
      intro l ls h
      replace h : (if x = '\n' then ['\n'] :: getlines t else match getlines t with | [] => [[x]] | l :: ls => (x :: l) :: ls) = l :: ls := h
      split at h
      · rename_i hx
        injection h with e1 e2
        exact ⟨t, by rw [← e1, hx]; rfl⟩
      · cases hg : getlines t with
        | nil =>
          rw [hg] at h
          injection h with e1 e2
          exact ⟨t, by rw [← e1]; rfl⟩
        | cons a b =>
          rw [hg] at h
          obtain ⟨u, hu⟩ := ih a b hg
          injection h with e1 e2
          exact ⟨u, by rw [← e1]; rw [hu]; rfl⟩
  cases hg : getlines t with
  | nil => exact ⟨[], [], rfl, t, rfl⟩
  | cons a b =>
    obtain ⟨u, hu⟩ := this t a b hg
    exact ⟨a, b, rfl, u, by rw [hu]; rfl⟩

/-- the first line of a text that begins without a newline -/
theorem getlines_prefix (a : Str) (ha : '\n' ∉ a) (c : Char) (hc : c ≠ '\n') (t : Str) : ∃ r ls, getlines (a ++ c :: t) = (a ++ c :: r) :: ls := by
  induction a with
  | nil => obtain ⟨r, ls, h, -⟩ := getlines_first t c hc; exact ⟨r, ls, h⟩
  | cons x a ih =>
    obtain ⟨r, ls, h⟩ := ih (fun e => ha (by simp [e]))
    refine ⟨r, ls, ?_⟩
    show (if x = '\n' then _ else match getlines (a ++ c :: t) with | [] => [[x]] | l :: ls => (x :: l) :: ls) = _
    rw [if_neg (fun e => ha (by rw [e]; simp)), h]
    rfl

theorem literal_no (ps l : Str) (h : ¬ ps <+: l) (hn : '\n' ∉ ps) : literal ps (l ++ ['\n']) = .inl .no := by
  induction ps generalizing l with
  | nil => exact absurd (List.nil_prefix) h
  | cons p ps ih =>
    cases l with
    | nil =>
      show (if '\n' = p then _ else _) = _
      rw [if_neg (fun e => hn (by rw [e]; simp))]
    | cons c r =>
      show (if c = p then literal ps (r ++ ['\n']) else _) = _
      split
      · rename_i e
        refine ih r (fun k => h ?_) (fun k => hn (by simp [k]))
        rw [e]
        exact List.cons_prefix_cons.mpr ⟨rfl, k⟩
      · rfl

theorem literal_yes (ps r : Str) : literal ps (ps ++ r) = .inr r := by
  induction ps with
  | nil => rfl
  | cons p ps ih =>
    show (if p = p then literal ps (ps ++ r) else _) = _
    rw [if_pos rfl, ih]

theorem takeWhile_all (l : Str) (h : NUL ∉ l) : l.takeWhile (· ≠ NUL) = l := by
  induction l with
  | nil => rfl
  | cons c r ih =>
    rw [List.takeWhile_cons, if_pos (by simpa using fun e => h (by rw [e]; simp)), ih (fun e => h (by simp [e]))]

theorem scan_other (l : Str) (h1 : NUL ∉ l) (h2 : ¬ "Uid:".toList <+: l) : scanUid (l ++ ['\n']) = .no := by
  unfold scanUid
  rw [takeWhile_all _ (by intro e; rcases List.mem_append.mp e with e | e
                          · exact h1 e
                          · exact absurd (List.mem_singleton.mp e) (by decide)), literal_no _ _ h2 (by decide)]

theorem takeWhile_keep (a : Str) (ha : NUL ∉ a) (r : Str) : (a ++ r).takeWhile (· ≠ NUL) = a ++ r.takeWhile (· ≠ NUL) := by
  induction a with
  | nil => rfl
  | cons c t ih =>
    rw [List.cons_append, List.takeWhile_cons, if_pos (by simpa using fun e => ha (by rw [e]; simp)), ih (fun e => ha (by simp [e]))]
    rfl

theorem digit_plain {c : Char} (h : isDigitOf 10 c = true) : c ≠ NUL ∧ c ≠ '\n' ∧ c ≠ '\t' := by
  refine ⟨?_, ?_, ?_⟩ <;> (rintro rfl; exact absurd h (by decide))

theorem scan_uid (uid : Nat) (hu : uid < 2 ^ 32) (r : Str) : ∃ v, scanUid ("Uid:\t".toList ++ Nat.toDigits 10 uid ++ '\t' :: r) = .num v ∧ v % 2 ^ 32 = uid := by
  obtain ⟨d, ds, h1, h2⟩ := digits_head uid
  obtain ⟨-, g2, -, -⟩ := toDigits_spec uid
  have hn : NUL ∉ "Uid:\t".toList ++ Nat.toDigits 10 uid ++ ['\t'] := by
    intro e
    rcases List.mem_append.mp e with e | e
    · rcases List.mem_append.mp e with e | e
      · exact absurd e (by decide)
      · exact (digit_plain (g2 _ e)).1 rfl
    · exact absurd (List.mem_singleton.mp e) (by decide)
  have htake : ("Uid:\t".toList ++ Nat.toDigits 10 uid ++ '\t' :: r).takeWhile (· ≠ NUL) =
      "Uid:".toList ++ '\t' :: (Nat.toDigits 10 uid ++ '\t' :: r.takeWhile (· ≠ NUL)) := by
    have := takeWhile_keep _ hn r
    simp only [List.append_assoc, List.singleton_append] at this ⊢
    rw [this]
    rfl
  have hdrop : ('\t' :: (Nat.toDigits 10 uid ++ '\t' :: r.takeWhile (· ≠ NUL))).dropWhile isSpace = Nat.toDigits 10 uid ++ '\t' :: r.takeWhile (· ≠ NUL) := by
    rw [List.dropWhile_cons, if_pos (by decide), h1, List.cons_append, List.dropWhile_cons,
      if_neg (by rw [(digit_not_space (b := 10) (by decide) h2).1]; decide)]
  refine ⟨Pwh.toInt (Pwh.strtol (Nat.toDigits 10 uid ++ '\t' :: r.takeWhile (· ≠ NUL))), ?_, ?_⟩
  · unfold scanUid
    rw [htake, literal_yes]
    dsimp only
    rw [hdrop, if_neg (by rw [h1]; simp), strtoInt_stop uid _ _ (by decide), if_neg ?_]
    intro e
    have := congrArg List.length e
    rw [h1] at this
    simp at this
    omega
  · unfold Pwh.toInt Pwh.strtol
    rw [strtoInt_stop uid _ _ (by decide)]
    dsimp only
    omega

/-- a file `status` is understood -/
theorem match_shows {t : Str} {u : Nat} (hu : u < 2 ^ 32) (h : Shows t u) (uid : Nat) : matchLines uid (getlines t) = some (decide (uid = u)) := by
  obtain ⟨before, rest, rfl, hb⟩ := h
  induction before with
  | nil =>
    obtain ⟨-, g2, -, -⟩ := toDigits_spec u
    obtain ⟨r, ls, e⟩ := getlines_prefix ("Uid:\t".toList ++ Nat.toDigits 10 u) (by
      intro e
      rcases List.mem_append.mp e with e | e
      · exact absurd e (by decide)
      · exact (digit_plain (g2 _ e)).2.1 rfl) '\t' (by decide) rest
    show matchLines uid (getlines ("Uid:\t".toList ++ Nat.toDigits 10 u ++ '\t' :: rest)) = _
    rw [e]
    obtain ⟨v, k1, k2⟩ := scan_uid u hu r
    show (match scanUid ("Uid:\t".toList ++ Nat.toDigits 10 u ++ '\t' :: r) with | .no => _ | .eof => _ | .num v => _) = _
    rw [k1]
    show some (decide ((uid : Int) = v % 2 ^ 32)) = _
    rw [k2]
    congr 1
    rw [decide_eq_decide]
    omega
  | cons l ls ih =>
    obtain ⟨b1, b2, b3⟩ := hb l (by simp)
    have : ((l :: ls).map (· ++ ['\n'])).flatten ++ "Uid:\t".toList ++ Nat.toDigits 10 u ++ '\t' :: rest =
        l ++ '\n' :: ((ls.map (· ++ ['\n'])).flatten ++ "Uid:\t".toList ++ Nat.toDigits 10 u ++ '\t' :: rest) := by simp
    rw [this, getlines_line _ _ b1]
    show (match scanUid (l ++ ['\n']) with | .no => _ | .eof => _ | .num v => _) = _
    rw [scan_other l b2 b3]
    exact ih (fun x hx => hb x (by simp [hx]))

theorem atoi_digits (n : Nat) (h : n < 2 ^ 31) : Pwh.atoi (Nat.toDigits 10 n) = n := by
  obtain ⟨d1, d2, d3, _⟩ := toDigits_spec n
  have := (strtoInt_base 10 (by decide) (by decide) (by decide) (Nat.toDigits 10 n) (n : Int)).mpr
    ⟨[], Nat.toDigits 10 n, n, by simp, ⟨d1, d2, d3.symm⟩, Or.inl ⟨rfl, rfl⟩⟩
  unfold Pwh.atoi Pwh.strtol Pwh.toInt
  rw [this.1]
  simp only
  omega

theorem atoi_other (c : Char) (r : Str) (h1 : isDigit c = false) (h2 : c ≠ '-') (h3 : c ≠ '+') (h4 : isSpace c = false) : Pwh.atoi (c :: r) = 0 := by
  have hd : isDigitOf 10 c = false := by
    unfold isDigitOf digitVal
    rw [h1]
    simp only [Bool.false_eq_true, if_false, decide_eq_false_iff_not]
    repeat' split
    all_goals omega
  have : strtoInt 10 (c :: r) = (0, c :: r) := by
    unfold strtoInt
    rw [List.dropWhile_cons, if_neg (show ¬ isSpace c = true by rw [h4]; decide)]
    have hs : takeSign (c :: r) = (false, c :: r) := by
      show (if c = '-' then _ else if c = '+' then _ else _) = _
      rw [if_neg h2, if_neg h3]
    rw [hs]
    have hb : takeBase 10 (c :: r) = (10, c :: r) := by
      unfold takeBase
      rw [if_neg (by decide)]
    dsimp only
    rw [hb]
    dsimp only
    rw [if_neg (by show ¬ isDigitOf 10 c = true; rw [hd]; decide)]
  unfold Pwh.atoi Pwh.strtol Pwh.toInt
  rw [this]
  dsimp only
  omega

theorem pidTable_of {ns : List Str} {ps : List Process} (h : Listed ns ps) (self : Nat) (hp : ∀ p ∈ ps, 0 < p.pid ∧ p.pid < 2 ^ 31) :
    pidTable self ns = (ps.filter (fun p => p.pid ≠ self)).map (fun p => (p.pid : Int)) := by
  induction h with
  | nil => rfl
  | other c r a b d e _ ih =>
    show (if _ then _ else _) = _
    rw [if_pos (Or.inl (atoi_other c r a b d e))]
    exact ih hp
  | process p _ ih =>
    obtain ⟨q1, q2⟩ := hp p (by simp)
    have := ih (fun x hx => hp x (by simp [hx]))
    show (if Pwh.atoi (Nat.toDigits 10 p.pid) = 0 ∨ Pwh.atoi (Nat.toDigits 10 p.pid) = self then _ else Pwh.atoi (Nat.toDigits 10 p.pid) :: _) = _
    rw [atoi_digits _ q2, this, List.filter_cons]
    by_cases hs : p.pid = self
    · rw [if_pos (Or.inr (by omega)), if_neg (by simp [hs])]
    · rw [if_neg (by omega), if_pos (by simp [hs])]
      rfl

theorem checkTable_of {fs : ProcFs} {uid : Nat} (killall : Bool) : ∀ ps : List Process, (∀ p ∈ ps, p.uid = none → fs.status p.pid = none) →
    (∀ p ∈ ps, ∀ u, p.uid = some u → u < 2 ^ 32 ∧ ∃ t, fs.status p.pid = some t ∧ Shows t u) →
    checkTable fs uid killall (ps.map fun p => (p.pid : Int)) = some ((ps.filter (fun p => p.uid = some uid)).length,
      if killall then (ps.filter (fun p => p.uid = some uid)).map (fun p => (p.pid : Int)) else []) := by
  intro ps
  induction ps with
  | nil => intro _ _; cases killall <;> rfl
  | cons p ps ih =>
    intro h1 h2
    have ih := ih (fun x hx => h1 x (by simp [hx])) (fun x hx => h2 x (by simp [hx]))
    have hm : matchUid fs p.pid uid = some (decide (p.uid = some uid)) := by
      unfold matchUid
      cases hu : p.uid with
      | none => rw [h1 p (by simp) hu]; rfl
      | some u =>
        obtain ⟨k1, t, k2, k3⟩ := h2 p (by simp) u hu
        rw [k2]
        show matchLines uid (getlines t) = _
        rw [match_shows k1 k3]
        congr 1
        rw [decide_eq_decide]
        simp [eq_comm]
    show (match matchUid fs p.pid uid with | none => _ | some false => _ | some true => _) = _
    rw [hm, List.filter_cons]
    by_cases hu : p.uid = some uid
    · rw [show decide (p.uid = some uid) = true by simpa using hu]
      dsimp only
      rw [ih]
      cases killall <;> rfl
    · rw [show decide (p.uid = some uid) = false by simpa using hu]
      dsimp only
      rw [ih]
      rfl

/-! ### the theorems -/

/-- C186: one look at /proc: the processes counted are those with the real user id of the user, without the one that looks, whatever their
programs are called; with `killall` SIGKILL is sent to these, to each once and to no others. -/
theorem C186_look (fs : ProcFs) (ps : List Process) (h : Tells fs ps) (self uid : Nat) (killall : Bool) :
    ∃ found, found = ps.filter (fun p => decide (p.uid = some uid ∧ p.pid ≠ self)) ∧
      checkRunning fs self uid killall = some (some found.length, if killall then found.map (fun p => (p.pid : Int)) else []) := by
  obtain ⟨ns, h1, h2⟩ := h.listed
  refine ⟨_, rfl, ?_⟩
  unfold checkRunning
  rw [h1]
  dsimp only
  rw [pidTable_of h2 self h.ids, checkTable_of killall _ (fun p hp => h.gone p (List.mem_filter.mp hp).1) (fun p hp => h.runs p (List.mem_filter.mp hp).1),
    List.filter_filter]
  simp only [Option.map_some, Bool.decide_and]

/-- C186: an exclusive login is granted only if no process of the user runs but the one that asks, or /proc cannot be read. -/
theorem C186_exclusive (fs : ProcFs) (s : Locks) (self uid : Nat) (opens : Bool) (n : Option Nat) (k : List Int)
    (hlook : checkRunning fs self uid false = some (n, k)) (hgrant : (ask s self uid n opens).1 = true) :
    k = [] ∧ (fs.names = none ∨ ∀ ps, Tells fs ps → ∀ p ∈ ps, p.uid = some uid → p.pid = self) := by
  have hk : ∀ l, ∀ r, checkTable fs uid false l = some r → r.2 = [] := by
    intro l
    induction l with
    | nil => intro r h; rw [← Option.some.inj h]
    | cons p l ih =>
      intro r h
      unfold checkTable at h
      split at h
      · cases h
      · exact ih r h
      · obtain ⟨q, hq, e⟩ := Option.map_eq_some_iff.mp h
        rw [← e]
        exact ih q hq
  constructor
  · unfold checkRunning at hlook
    cases hn : fs.names with
    | none => rw [hn] at hlook; injection hlook with e; injection e with e1 e2; exact e2.symm
    | some ns =>
      rw [hn] at hlook
      obtain ⟨q, hq, e⟩ := Option.map_eq_some_iff.mp hlook
      injection e with e1 e2
      rw [← e2]
      exact hk _ q hq
  · right
    intro ps hps p hp hu
    obtain ⟨found, e1, e2⟩ := C186_look fs ps hps self uid false
    rw [e2] at hlook
    injection hlook with e
    injection e with e3 e4
    subst e3
    have hz : found.length = 0 := by
      cases hl : found.length with
      | zero => rfl
      | succ m => rw [hl] at hgrant; exact absurd hgrant (by unfold ask; simp)
    by_cases hs : p.pid = self
    · exact hs
    · have : p ∈ found := by rw [e1]; exact List.mem_filter.mpr ⟨hp, by simpa using ⟨hu, hs⟩⟩
      rw [List.length_eq_zero_iff.mp hz] at this
      cases this

/-- C186: the end of an exclusive login of a user other than root, /proc being readable: whatever processes come and go between the looks,
when the lock is given up the last look has found no process of the user but the one that ends; every earlier look found some, and all it
found were sent SIGKILL.  Never is a signal sent to a process of another user, to the process itself or, by a process id below 1, to a group. -/
theorem C186_end (fs : Nat → ProcFs) (ps : Nat → List Process) (h : ∀ i, Tells (fs i) (ps i)) (self uid : Nat) (huid : uid ≠ 0) (found : Nat → Option Nat)
    (kills : Nat → List Int) (hlook : ∀ i, checkRunning (fs i) self uid true = some (found i, kills i)) :
    (∀ i, ∀ k, k ∈ kills i ↔ ∃ p ∈ ps i, k = p.pid ∧ p.uid = some uid ∧ p.pid ≠ self) ∧ (∀ i, ∀ k ∈ kills i, 0 < k) ∧
    ∀ n looks, killAll found uid n = some looks →
      ∃ last, looks = last + 1 ∧ (∀ p ∈ ps last, p.uid = some uid → p.pid = self) ∧ ∀ i < last, ∃ p ∈ ps i, p.uid = some uid ∧ p.pid ≠ self := by
  have hk : ∀ i, ∀ k, k ∈ kills i ↔ ∃ p ∈ ps i, k = p.pid ∧ p.uid = some uid ∧ p.pid ≠ self := by
    intro i k
    obtain ⟨fd, e1, e2⟩ := C186_look (fs i) (ps i) (h i) self uid true
    rw [hlook] at e2
    injection e2 with e
    injection e with e3 e4
    rw [e4, e1]
    simp only [if_true, List.mem_map, List.mem_filter, decide_eq_true_eq]
    constructor
    · rintro ⟨p, ⟨a, b, c⟩, rfl⟩; exact ⟨p, a, rfl, b, c⟩
    · rintro ⟨p, a, rfl, b, c⟩; exact ⟨p, ⟨a, b, c⟩, rfl⟩
  refine ⟨hk, fun i k hik => ?_, ?_⟩
  · obtain ⟨p, hp, e, -⟩ := (hk i k).mp hik
    have := ((h i).ids p hp).1
    omega
  · have hzero : ∀ i, found i = some 0 → ∀ p ∈ ps i, p.uid = some uid → p.pid = self := by
      intro i hi p hp hu
      obtain ⟨fd, e1, e2⟩ := C186_look (fs i) (ps i) (h i) self uid true
      rw [hlook, hi] at e2
      injection e2 with e
      injection e with e3 e4
      injection e3 with e3
      by_cases hs : p.pid = self
      · exact hs
      · have : p ∈ fd := by rw [e1]; exact List.mem_filter.mpr ⟨hp, by simpa using ⟨hu, hs⟩⟩
        rw [List.length_eq_zero_iff.mp e3.symm] at this
        cases this
    have hsome : ∀ i, ∃ m, found i = some m ∧ (m ≠ 0 → ∃ p ∈ ps i, p.uid = some uid ∧ p.pid ≠ self) := by
      intro i
      obtain ⟨fd, e1, e2⟩ := C186_look (fs i) (ps i) (h i) self uid true
      rw [hlook] at e2
      injection e2 with e
      injection e with e3 e4
      refine ⟨fd.length, e3, fun hm => ?_⟩
      cases hf : fd with
      | nil => rw [hf] at hm; exact absurd rfl hm
      | cons p r =>
        have : p ∈ fd := by rw [hf]; simp
        rw [e1] at this
        obtain ⟨a, b⟩ := List.mem_filter.mp this
        exact ⟨p, a, by simpa using b⟩
    have loop : ∀ n i looks, killLoop found n i = some looks → ∃ last, looks = last + 1 ∧ i ≤ last ∧ found last = some 0 ∧
        ∀ j, i ≤ j → j < last → ∃ p ∈ ps j, p.uid = some uid ∧ p.pid ≠ self := by
      intro n
      induction n with
      | zero => intro i looks hl; cases hl
      | succ n ih =>
        intro i looks hl
        obtain ⟨m, hm, hm2⟩ := hsome i
        replace hl : (match found i with | some (_ + 1) => killLoop found n (i + 1) | _ => some (i + 1)) = some looks := hl
        rw [hm] at hl
        cases m with
        | zero =>
          refine ⟨i, (Option.some.inj hl).symm, Nat.le_refl _, hm, fun j a b => by omega⟩
        | succ m =>
          obtain ⟨last, l1, l2, l3, l4⟩ := ih (i + 1) looks hl
          refine ⟨last, l1, by omega, l3, fun j a b => ?_⟩
          by_cases hj : j = i
          · rw [hj]; exact hm2 (by omega)
          · exact l4 j (by omega) b
    intro n looks hl
    unfold killAll at hl
    rw [if_neg huid] at hl
    obtain ⟨last, l1, -, l3, l4⟩ := loop n 0 looks hl
    exact ⟨last, l1, hzero last l3, fun i hi => l4 i (Nat.zero_le _) hi⟩

/-- C186: a process of the user that stays, say one that has ended and is not waited for by its parent, keeps the end of the login from
coming: there is no number of looks after which the lock is given up. -/
theorem C186_zombie_counterexample : ∃ fs ps, Tells fs ps ∧ ∀ n k, checkRunning fs 7 1000 true = some (n, k) → ∀ m, killAll (fun _ => n) 1000 m = none := by
  refine ⟨⟨some ["42".toList], fun p => if p = 42 then some "Name:\tsleep\nState:\tZ (zombie)\nUid:\t1000\t1000\t1000\t1000\n".toList else none⟩, [⟨42, some 1000⟩],
    ⟨⟨_, rfl, by
      rw [show "42".toList = Nat.toDigits 10 42 by decide +kernel]
      exact .process ⟨42, some 1000⟩ .nil⟩, by simp, (by intro p hp hu; rw [List.mem_singleton.mp hp] at hu; cases hu), ?_⟩, ?_⟩
  · intro p hp u hu
    rw [List.mem_singleton.mp hp] at hu ⊢
    injection hu with hu
    rw [← hu]
    exact ⟨by decide, _, rfl, ["Name:\tsleep".toList, "State:\tZ (zombie)".toList], "1000\t1000\t1000\n".toList, by decide +kernel, by decide +kernel⟩
  · intro n k h m
    have : n = some 1 := by
      have e : checkRunning ⟨some ["42".toList], fun p => if p = 42 then some "Name:\tsleep\nState:\tZ (zombie)\nUid:\t1000\t1000\t1000\t1000\n".toList else none⟩ 7 1000 true =
        some (some 1, [42]) := by decide +kernel
      replace h := e.symm.trans h
      injection h with h
      injection h with h
      exact h.symm
    subst this
    unfold killAll
    rw [if_neg (by decide)]
    generalize 0 = i
    induction m generalizing i with
    | zero => rfl
    | succ m ih => exact ih (i + 1)

/-! ### an example -/

/-- a program with the name `Uid:	1000` does not mislead the module -/
example : Tells ⟨some [".".toList, "self".toList, "1".toList, "42".toList, "43".toList], fun p =>
    if p = 1 then some "Name:\tUid:\t1000\nUid:\t0\t0\t0\t0\n".toList else if p = 42 then some "Name:\tsh\nUid:\t1000\t1000\t1000\t1000\n".toList else none⟩
    [⟨1, some 0⟩, ⟨42, some 1000⟩, ⟨43, none⟩] := by
  refine ⟨⟨_, rfl, .other '.' _ rfl (by decide) (by decide) rfl (.other 's' _ rfl (by decide) (by decide) rfl
    (by
      rw [show "1".toList = Nat.toDigits 10 1 by decide +kernel, show "42".toList = Nat.toDigits 10 42 by decide +kernel,
        show "43".toList = Nat.toDigits 10 43 by decide +kernel]
      exact .process ⟨1, some 0⟩ (.process ⟨42, some 1000⟩ (.process ⟨43, none⟩ .nil))))⟩, by simp, (by
      intro p hp hu
      rcases List.mem_cons.mp hp with rfl | hp
      · cases hu
      rcases List.mem_cons.mp hp with rfl | hp
      · cases hu
      rw [List.mem_singleton.mp hp]
      rfl), ?_⟩
  intro p hp u hu
  rcases List.mem_cons.mp hp with rfl | hp
  · injection hu with hu
    rw [← hu]
    exact ⟨by decide, _, rfl, ["Name:\tUid:\t1000".toList], "0\t0\t0\n".toList, by decide +kernel, by decide +kernel⟩
  rcases List.mem_cons.mp hp with rfl | hp
  · injection hu with hu
    rw [← hu]
    exact ⟨by decide, _, rfl, ["Name:\tsh".toList], "1000\t1000\t1000\n".toList, by decide +kernel, by decide +kernel⟩
  rw [List.mem_singleton.mp hp] at hu
  cases hu

end Pam.Audit.Sepermit
