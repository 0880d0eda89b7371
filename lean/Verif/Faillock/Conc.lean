import Verif.Faillock.Inv
/-
Concurrent calls of pam_faillock for one user.  Any number of processes, each one call; the steps of a process are the
system calls on the tally file, in the order of pam_sm_authenticate.
-/
namespace Pam.Faillock
open Pam

/-- where a process is -/
inductive Pc where
  /-- modules/pam_faillock/pam_faillock.c:199 comes next -/
  | start
  /-- the clock was read; modules/pam_faillock/faillock.c:80 comes next, without O_CREAT -/
  | looked (now : Nat)
  /-- the file is open; modules/pam_faillock/faillock.c:87 comes next -/
  | opened (now : Nat)
  /-- the lock is held; modules/pam_faillock/pam_faillock.c:213 comes next -/
  | locked (now : Nat)
  /-- the records were read and judged -/
  | judged (now : Nat) (c : Checked)
  /-- there was no file; modules/pam_faillock/faillock.c:80 comes next, with O_CREAT (pam_faillock.c:281 or 303) -/
  | missing (now : Nat)
  /-- the file was opened or created; the lock comes next -/
  | created (now : Nat)
  /-- the lock is held, and nothing was read -/
  | lockedNew (now : Nat)
  /-- modules/pam_faillock/pam_faillock.c:446 comes next: closing the file gives the lock back -/
  | written (code : Int)
  | done (code : Int)
deriving DecidableEq

/-- The system.  `log` is no part of the program: it notes who did their update, with their reading of the clock. -/
structure Sys where
  clock : Nat
  file : File
  holder : Option Nat
  pc : Nat → Pc
  log : List (Nat × Nat)

/-- what a process is to do -/
structure Job where
  action : Action
  src : Kind × Str

def Sys.set (s : Sys) (i : Nat) (p : Pc) : Sys := { s with pc := fun j => if j = i then p else s.pc j }

/-- what is done with the records judged: modules/pam_faillock/pam_faillock.c:490-510.  The three system calls of
update_tally are one step: nobody else holds the lock. -/
def effect (o : Opts) (j : Job) (now : Nat) (c : Checked) (file : File) : Int × File :=
  match j.action with
  | .preauth => (c.code, file)
  | .authsucc => if c.code = PAM_SUCCESS then (c.code, resetTally .fine c.opened file) else (c.code, file)
  | .authfail => if c.code = PAM_SUCCESS then (PAM_IGNORE, writeTally o .fine now j.src c file) else (c.code, file)

/-- the check without a file: modules/pam_faillock/pam_faillock.c:205-208 -/
def unseen : Checked := ⟨PAM_SUCCESS, [], false, false⟩

/-- One step of process `i`; a process that waits for the lock stays where it is. -/
def move (o : Opts) (job : Nat → Job) (i : Nat) (s : Sys) : Sys :=
  match s.pc i with
  | .start => s.set i (.looked s.clock)
  | .looked now =>
    match s.file with
    | some _ => s.set i (.opened now)
    | none => if (job i).action = .preauth then s.set i (.done PAM_SUCCESS) else s.set i (.missing now)
  | .opened now => if s.holder = none then { s with holder := some i }.set i (.locked now) else s
  | .locked now => s.set i (.judged now (judge o now (readTally (s.file.getD []))))
  | .judged now c =>
    let r := effect o (job i) now c s.file
    { s with file := r.2, log := s.log ++ [(i, now)] }.set i (.written r.1)
  | .missing now => { s with file := some (s.file.getD []) }.set i (.created now)
  | .created now => if s.holder = none then { s with holder := some i }.set i (.lockedNew now) else s
  | .lockedNew now =>
    let r := effect o (job i) now unseen s.file
    { s with file := r.2, log := s.log ++ [(i, now)] }.set i (.written r.1)
  | .written code => { s with holder := none }.set i (.done code)
  | .done _ => s

/-- a step of a schedule: time passes or a process moves -/
inductive Turn where
  | tick (seconds : Nat)
  | go (i : Nat)

def turn (o : Opts) (job : Nat → Job) (s : Sys) : Turn → Sys
  | .tick n => { s with clock := s.clock + n }
  | .go i => move o job i s

/-- the system after a schedule, with all processes at the start -/
def runFrom (o : Opts) (job : Nat → Job) (clock : Nat) (file : File) (sched : List Turn) : Sys :=
  sched.foldl (turn o job) ⟨clock, file, none, fun _ => .start, []⟩

/-! ## invariant when the file is there -/

/-- a process in one of these places holds the lock -/
def Pc.holds : Pc → Bool
  | .locked _ => true
  | .judged _ _ => true
  | .lockedNew _ => true
  | .written _ => true
  | _ => false

/-- the process has done its update -/
def Pc.past : Pc → Bool
  | .written _ => true
  | .done _ => true
  | _ => false

/-- its code, then -/
def Pc.code : Pc → Option Int
  | .written k => some k
  | .done k => some k
  | _ => none

/-- the clock reading of a process under way -/
def Pc.reading : Pc → Option Nat
  | .looked t => some t
  | .opened t => some t
  | .locked t => some t
  | .judged t _ => some t
  | .missing t => some t
  | .created t => some t
  | .lockedNew t => some t
  | _ => none

/-- one call on its own -/
def alone (o : Opts) (job : Nat → Job) (f : File) (p : Nat × Nat) : File :=
  (act o .fine (job p.1).action p.2 (job p.1).src f).2

structure SInv (o : Opts) (job : Nat → Job) (file0 : File) (clock0 : Nat) (s : Sys) : Prop where
  there : s.file.isSome
  serial : s.file = s.log.foldl (alone o job) file0
  codes : ∀ pre p post, s.log = pre ++ p :: post →
    (s.pc p.1).code = some (act o .fine (job p.1).action p.2 (job p.1).src (pre.foldl (alone o job) file0)).1
  holder : ∀ i, (s.pc i).holds = true ↔ s.holder = some i
  judged : ∀ i now c, s.pc i = .judged now c → c = checkTally o .fine now s.file
  known : ∀ i now, s.pc i ≠ .missing now ∧ s.pc i ≠ .created now ∧ s.pc i ≠ .lockedNew now
  once : (s.log.map (·.1)).Nodup
  members : ∀ i, i ∈ s.log.map (·.1) ↔ (s.pc i).past = true
  readings : ∀ i t, (s.pc i).reading = some t → clock0 ≤ t ∧ t ≤ s.clock
  logged : ∀ p ∈ s.log, clock0 ≤ p.2 ∧ p.2 ≤ s.clock
  forward : clock0 ≤ s.clock

theorem set_pc (s : Sys) (i : Nat) (p : Pc) (j : Nat) : (s.set i p).pc j = if j = i then p else s.pc j := rfl
theorem set_same (s : Sys) (i : Nat) (p : Pc) : (s.set i p).pc i = p := if_pos rfl
theorem set_other (s : Sys) {i j : Nat} (p : Pc) (h : j ≠ i) : (s.set i p).pc j = s.pc j := if_neg h

theorem effect_act (o : Opts) (j : Job) (now : Nat) (file : File) :
    effect o j now (checkTally o .fine now file) file = act o .fine j.action now j.src file := by
  unfold effect act
  cases j.action <;> rfl

theorem act_isSome (o : Opts) (a : Action) (now : Nat) (src : Kind × Str) (recs : List Rec) :
    (act o .fine a now src (some recs)).2.isSome = true := by
  cases a
  · rfl
  · simp only [act]
    split
    · unfold resetTally
      split
      · split <;> rfl
      · rfl
    · rfl
  · simp only [act]
    split
    · unfold writeTally
      split <;> rfl
    · rfl

theorem SInv.init (o : Opts) (job : Nat → Job) (clock : Nat) (recs : List Rec) :
    SInv o job (some recs) clock ⟨clock, some recs, none, fun _ => .start, []⟩ := by
  refine ⟨rfl, rfl, ?_, ?_, ?_, ?_, by simp, ?_, ?_, by simp, Nat.le_refl _⟩
  · intro pre p post h; simp at h
  · intro i; simp [Pc.holds]
  · intro i now c h; cases h
  · intro i now; simp
  · intro i; simp [Pc.past]
  · intro i t h; cases h

/-- a step that leaves file and log alone, and the lock unless said otherwise -/
theorem SInv.simple {o : Opts} {job : Nat → Job} {file0 : File} {clock0 : Nat} {s : Sys} (I : SInv o job file0 clock0 s)
    (i : Nat) (p : Pc) (h' : Option Nat)
    (hh : ∀ j, ((if j = i then p else s.pc j).holds = true ↔ h' = some j))
    (hj : ∀ now c, p = .judged now c → c = checkTally o .fine now s.file)
    (hk : ∀ now, p ≠ .missing now ∧ p ≠ .created now ∧ p ≠ .lockedNew now)
    (hp : p.past = (s.pc i).past) (hc : p.code = (s.pc i).code)
    (hr : ∀ t, p.reading = some t → clock0 ≤ t ∧ t ≤ s.clock) :
    SInv o job file0 clock0 ({ s with holder := h' }.set i p) where
  there := I.there
  serial := I.serial
  codes := by
    intro pre q post h
    rw [← I.codes pre q post h, set_pc]
    split
    · rename_i e; rw [e, hc]
    · rfl
  holder := hh
  judged := by
    intro j now c h
    rw [set_pc] at h
    split at h
    · exact hj now c h
    · exact I.judged j now c h
  known := by
    intro j now
    rw [set_pc]
    split
    · exact hk now
    · exact I.known j now
  once := I.once
  members := by
    intro j
    rw [set_pc]
    split
    · rename_i e; rw [hp, ← e]; exact I.members j
    · exact I.members j
  readings := by
    intro j t h
    rw [set_pc] at h
    split at h
    · exact hr t h
    · exact I.readings j t h
  logged := I.logged
  forward := I.forward

theorem SInv.move {o : Opts} {job : Nat → Job} {file0 : File} {clock0 : Nat} {s : Sys} (I : SInv o job file0 clock0 s)
    (i : Nat) : SInv o job file0 clock0 (Faillock.move o job i s) := by
  obtain ⟨recs, hrecs⟩ := Option.isSome_iff_exists.mp I.there
  have keep : ∀ p : Pc, p.holds = (s.pc i).holds → ∀ j, ((if j = i then p else s.pc j).holds = true ↔ s.holder = some j) := by
    intro p hp j
    split
    · rename_i e; rw [hp, ← e]; exact I.holder j
    · exact I.holder j
  unfold Faillock.move
  split
  · rename_i h
    refine I.simple i _ s.holder (keep _ (by rw [h]; rfl)) (by simp) (by simp) (by rw [h]; rfl) (by rw [h]; rfl) ?_
    intro t ht; cases ht
    exact ⟨I.forward, Nat.le_refl _⟩
  · rename_i now h
    rw [hrecs]
    simp only
    have := I.simple i (.opened now) s.holder (keep _ (by rw [h]; rfl)) (by simp) (by simp) (by rw [h]; rfl) (by rw [h]; rfl)
      (fun t ht => I.readings i t (by rw [h]; exact ht))
    exact this
  · rename_i now h
    split
    · rename_i hn
      refine I.simple i _ (some i) ?_ (by simp) (by simp) (by rw [h]; rfl) (by rw [h]; rfl)
        (fun t ht => I.readings i t (by rw [h]; exact ht))
      intro j
      split
      · rename_i e; rw [e]; simp [Pc.holds]
      · rename_i e
        rw [I.holder j, hn]
        simp [Ne.symm e]
    · exact I
  · rename_i now h
    refine I.simple i _ s.holder (keep _ (by rw [h]; rfl)) ?_ (by simp) (by rw [h]; rfl) (by rw [h]; rfl)
      (fun t ht => I.readings i t (by rw [h]; exact ht))
    intro now' c hc
    cases hc
    rw [hrecs]; rfl
  · rename_i now c h
    have hc := I.judged i now c h
    have he : effect o (job i) now c s.file = act o .fine (job i).action now (job i).src s.file := by
      rw [hc]; exact effect_act ..
    rw [he]
    have hnew : i ∉ s.log.map (·.1) := by
      rw [I.members i, h]; simp [Pc.past]
    have hnew' : ∀ p ∈ s.log, p.1 ≠ i := fun p hp e => hnew (List.mem_map.mpr ⟨p, hp, e⟩)
    constructor
    · show (act o .fine (job i).action now (job i).src s.file).2.isSome
      rw [hrecs]; exact act_isSome ..
    · show (act o .fine (job i).action now (job i).src s.file).2 = (s.log ++ [(i, now)]).foldl (alone o job) file0
      rw [List.foldl_append, ← I.serial]; rfl
    · intro pre p post hl
      change s.log ++ [(i, now)] = pre ++ p :: post at hl
      rw [set_pc]
      by_cases hpost : post = []
      · subst hpost
        obtain ⟨e1, e2⟩ := List.append_inj' hl rfl
        cases e2
        rw [if_pos rfl, ← e1, ← I.serial]
        rfl
      · obtain ⟨post', q, rfl⟩ := List.exists_cons_of_ne_nil hpost |>.elim fun a ha => ha.elim fun b hb =>
          (⟨post.dropLast, post.getLast hpost, (List.dropLast_concat_getLast hpost).symm⟩ : ∃ x y, post = x ++ [y])
        have hl' : s.log ++ [(i, now)] = (pre ++ p :: post') ++ [q] := by rw [hl]; simp
        obtain ⟨e1, e2⟩ := List.append_inj' hl' rfl
        have hpi : p.1 ≠ i := hnew' p (by rw [e1]; simp)
        rw [if_neg hpi]
        exact I.codes pre p post' e1
    · exact keep _ (by rw [h]; rfl)
    · intro j now' c' hj
      rw [set_pc] at hj
      split at hj
      · cases hj
      · rename_i hne
        have h1 : s.holder = some j := (I.holder j).mp (by rw [show s.pc j = _ from hj]; rfl)
        have h2 : s.holder = some i := (I.holder i).mp (by rw [h]; rfl)
        rw [h1] at h2
        cases h2
        exact absurd rfl hne
    · intro j now'
      rw [set_pc]
      split
      · simp
      · exact I.known j now'
    · show ((s.log ++ [(i, now)]).map (·.1)).Nodup
      rw [List.map_append, List.nodup_append]
      refine ⟨I.once, by simp, ?_⟩
      intro a ha b hb e
      simp at hb
      subst hb
      subst e
      exact hnew ha
    · intro j
      show j ∈ (s.log ++ [(i, now)]).map (·.1) ↔ _
      rw [List.map_append, List.mem_append, set_pc]
      split
      · rename_i e; subst e; simp [Pc.past]
      · rename_i e
        rw [I.members j]
        show _ ∨ j ∈ [i] ↔ (s.pc j).past = true
        simp [e]
    · intro j t ht
      rw [set_pc] at ht
      split at ht
      · cases ht
      · exact I.readings j t ht
    · intro p hp
      rcases List.mem_append.mp (show p ∈ s.log ++ [(i, now)] from hp) with hp | hp
      · exact I.logged p hp
      · rw [List.mem_singleton] at hp
        subst hp
        exact I.readings i now (by rw [h]; rfl)
    · exact I.forward
  · rename_i now h; exact absurd h (I.known i now).1
  · rename_i now h; exact absurd h (I.known i now).2.1
  · rename_i now h; exact absurd h (I.known i now).2.2
  · rename_i code h
    refine I.simple i _ none ?_ (by simp) (by simp) (by rw [h]; rfl) (by rw [h]; rfl) (by intro t ht; cases ht)
    intro j
    split
    · simp [Pc.holds]
    · rename_i e
      rw [I.holder j]
      have h2 : s.holder = some i := (I.holder i).mp (by rw [h]; rfl)
      rw [h2]
      simp [Ne.symm e]
  · exact I

theorem SInv.tick {o : Opts} {job : Nat → Job} {file0 : File} {clock0 : Nat} {s : Sys} (I : SInv o job file0 clock0 s)
    (n : Nat) : SInv o job file0 clock0 { s with clock := s.clock + n } where
  there := I.there
  serial := I.serial
  codes := I.codes
  holder := I.holder
  judged := I.judged
  known := I.known
  once := I.once
  members := I.members
  readings := fun i t h => ⟨(I.readings i t h).1, Nat.le_trans (I.readings i t h).2 (Nat.le_add_right ..)⟩
  logged := fun p h => ⟨(I.logged p h).1, Nat.le_trans (I.logged p h).2 (Nat.le_add_right ..)⟩
  forward := Nat.le_trans I.forward (Nat.le_add_right ..)

theorem SInv.run {o : Opts} {job : Nat → Job} {file0 : File} {clock0 : Nat} (sched : List Turn) : ∀ {s : Sys},
    SInv o job file0 clock0 s → SInv o job file0 clock0 (sched.foldl (turn o job) s) := by
  induction sched with
  | nil => intro s I; exact I
  | cons t ts ih =>
    intro s I
    rw [List.foldl_cons]
    apply ih
    cases t with
    | tick n => exact I.tick n
    | go i => exact I.move i

end Pam.Faillock
