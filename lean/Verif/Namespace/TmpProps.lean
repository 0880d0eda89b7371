import Verif.Namespace.SetupProps
/-
C171: temporary instances are removed.
-/
namespace Pam.Namespace.Spec
open Pam

/-- the temporary instance of an entry is in this place, and can be found there -/
def Left (w : RmSys) (p : Place) (par name : Str) : Prop := p = ⟨true, some (par, name)⟩ ∧ w.open_ par = true ∧ w.there par name = true

end Pam.Namespace.Spec

namespace Pam.Namespace
open Pam

theorem cleanupLoop_only (w : RmSys) (n : Nat) (ps : List Place) (par name : Str) (h : (par, name) ∈ (cleanupLoop w n ps).2) :
    ∃ p ∈ ps, Spec.Left w p par name := by
  induction ps generalizing n with
  | nil => cases h
  | cons p ps ih =>
    have up : (∃ p ∈ ps, Spec.Left w p par name) → ∃ q ∈ p :: ps, Spec.Left w q par name := fun ⟨q, hq, hl⟩ => ⟨q, List.mem_cons_of_mem _ hq, hl⟩
    obtain ⟨t, l⟩ := p
    cases t with
    | false => exact up (ih n h)
    | true =>
      cases l with
      | none => exact up (ih n h)
      | some l =>
        obtain ⟨par', name'⟩ := l
        rw [cleanupLoop] at h
        dsimp only at h
        by_cases ho : w.open_ par' = true
        · rw [if_neg (by simpa using ho)] at h
          by_cases ht : w.there par' name' = true
          · rw [if_neg (by simpa using ht)] at h
            have this : ∀ {l}, (par, name) ∈ (if w.runs n = true then [(par', name')] else l) → l = [] →
                ∃ q ∈ (⟨true, some (par', name')⟩ : Place) :: ps, Spec.Left w q par name := by
              intro l hm hl
              subst hl
              split at hm
              · have := List.mem_singleton.1 hm
                injection this with e1 e2
                subst e1 e2
                exact ⟨_, List.mem_cons_self .., rfl, ho, ht⟩
              · cases hm
            by_cases hf : w.fork n = true
            · rw [if_neg (by simpa using hf)] at h
              cases hw : w.wait n with
              | none => rw [hw] at h; exact this h rfl
              | some e =>
                rw [hw] at h
                rcases List.mem_append.1 h with h | h
                · exact this h rfl
                · exact up (ih (n + 1) h)
            · rw [if_pos hf] at h; cases h
          · rw [if_pos ht] at h
            exact up (ih n h)
        · rw [if_pos ho] at h
          exact up (ih n h)

theorem cleanupLoop_all (w : RmSys) (n : Nat) (ps : List Place) (hf : ∀ k, w.fork k = true) (hr : ∀ k, w.runs k = true) (hw : ∀ k, (w.wait k).isSome = true) :
    (cleanupLoop w n ps).1 = PAM_SUCCESS ∧ ∀ p ∈ ps, ∀ par name, Spec.Left w p par name → (par, name) ∈ (cleanupLoop w n ps).2 := by
  induction ps generalizing n with
  | nil => exact ⟨rfl, nofun⟩
  | cons p ps ih =>
    obtain ⟨t, l⟩ := p
    cases t with
    | false =>
      refine ⟨(ih n).1, fun q hq par name hl => ?_⟩
      rcases List.mem_cons.1 hq with rfl | hq
      · cases hl.1
      · exact (ih n).2 q hq par name hl
    | true =>
      cases l with
      | none =>
        refine ⟨(ih n).1, fun q hq par name hl => ?_⟩
        rcases List.mem_cons.1 hq with rfl | hq
        · cases hl.1
        · exact (ih n).2 q hq par name hl
      | some l =>
        obtain ⟨par', name'⟩ := l
        rw [cleanupLoop]
        dsimp only
        by_cases ho : w.open_ par' = true
        · rw [if_neg (by simpa using ho)]
          by_cases ht : w.there par' name' = true
          · rw [if_neg (by simpa using ht), if_neg (by simpa using hf n)]
            obtain ⟨e, he⟩ := Option.isSome_iff_exists.1 (hw n)
            rw [he, if_pos (hr n)]
            refine ⟨(ih (n + 1)).1, fun q hq par name hl => ?_⟩
            rcases List.mem_cons.1 hq with rfl | hq
            · have := hl.1
              injection this with _ e2
              injection e2 with e2
              rw [e2]
              exact List.mem_append.2 (.inl (List.mem_cons_self ..))
            · exact List.mem_append.2 (.inr ((ih (n + 1)).2 q hq par name hl))
          · rw [if_pos ht]
            refine ⟨(ih n).1, fun q hq par name hl => ?_⟩
            rcases List.mem_cons.1 hq with rfl | hq
            · have := hl.1
              injection this with _ e2
              injection e2 with e2
              injection e2 with e3 e4
              subst e3 e4
              exact absurd hl.2.2 ht
            · exact (ih n).2 q hq par name hl
        · rw [if_pos ho]
          refine ⟨(ih n).1, fun q hq par name hl => ?_⟩
          rcases List.mem_cons.1 hq with rfl | hq
          · have := hl.1
            injection this with _ e2
            injection e2 with e2
            injection e2 with e3 e4
            subst e3 e4
            exact absurd hl.2.1 ho
          · exact (ih n).2 q hq par name hl

/-- C171: only what the entries with the method tmpdir name is removed, and only if it is there. -/
theorem C171_only (w : RmSys) (sigaction : Bool) (h : Nat) (ps : List Place) (par name : Str) (hm : (par, name) ∈ (cleanupTmp w sigaction h ps).2.1) :
    ∃ p ∈ ps, Spec.Left w p par name := by
  unfold cleanupTmp at hm
  split at hm
  · cases hm
  · exact cleanupLoop_only w 0 ps par name hm

/-- C171: if processes can be started and waited for, every temporary instance that can be found is removed, whatever the other entries are.  Missing: the rest of them when one
of these calls fails; whether the program that removes them succeeded is not looked at. -/
theorem C171_all_partial (w : RmSys) (h : Nat) (ps : List Place) (hf : ∀ k, w.fork k = true) (hr : ∀ k, w.runs k = true) (hw : ∀ k, (w.wait k).isSome = true) :
    (cleanupTmp w true h ps).1 = PAM_SUCCESS ∧ ∀ p ∈ ps, ∀ par name, Spec.Left w p par name → (par, name) ∈ (cleanupTmp w true h ps).2.1 := by
  unfold cleanupTmp
  rw [if_neg (by decide)]
  exact cleanupLoop_all w 0 ps hf hr hw

/-- C171: SIGCHLD is handled as before. -/
theorem C171_signals (w : RmSys) (sigaction : Bool) (h : Nat) (ps : List Place) : (cleanupTmp w sigaction h ps).2.2 = h := by
  unfold cleanupTmp
  split <;> rfl

/-- C171: after a successful set-up the entry names the instance that was made, if its method is tmpdir; an entry with another method never names a temporary instance. -/
theorem C171_recorded (y : SetupSys) (e : Sess) (p : Poly) (h : Nat) (con : Option Str) :
    ((nsSetup y e p h con).1.code = PAM_SUCCESS → p.method = .tmpdir → ∃ par name, (nsSetup y e p h con).1.place = ⟨true, some (par, name)⟩ ∧ y.mkdtemp = some name ∧
      (nsSetup y e p h con).1.acts.head? = some (.bind par name)) ∧
    (p.method ≠ .tmpdir → (nsSetup y e p h con).1.place.tmp = false) := by
  constructor
  · intro hs ht
    rcases nsSetup_cases y e p h con with ⟨e1, _⟩ | ⟨a, e1, _, _⟩
    · rw [e1] at hs
      have hs' : PAM_SESSION_ERR = PAM_SUCCESS := hs
      exact absurd hs' (by decide)
    · rw [e1] at hs ⊢
      have hs' : (setupOpen y e p h a).code = PAM_SUCCESS := hs
      rcases (setupOpen_cases y e p h a).2 with ⟨hc, _⟩ | ⟨hc, _⟩ | ⟨ht', _⟩ | ⟨_, _, par, name0, name, newdir, _, _, hi, hin⟩
      · exact absurd (hs'.symm.trans hc) (by decide)
      · exact absurd (hs'.symm.trans hc) (by decide)
      · rw [ht] at ht'; cases ht'
      · refine ⟨par, name, ?_, (hi.tmp ht).1, ?_⟩
        · show (setupOpen y e p h a).place = _
          rw [hi.place]; simp [ht]
        · show (setupOpen y e p h a).acts.head? = _
          cases hn : p.flags.noinit with
          | true => rw [(hin.without hn).1]; rfl
          | false => rw [(hin.script hn).2]; rfl
  · intro ht
    rcases nsSetup_cases y e p h con with ⟨e1, _⟩ | ⟨a, e1, _, _⟩
    · rw [e1]; simp [ht]
    · rw [e1]
      show (setupOpen y e p h a).place.tmp = false
      have hd : decide (p.method = .tmpdir) = false := by simp [ht]
      unfold setupOpen
      generalize "tmpfs".toList = T
      dsimp only
      rw [hd]
      split
      · split
        · rfl
        · rw [(initStep_keeps y e p T true h _ rfl).2.1]
      · split
        · rfl
        · cases polyName e.md5 e.gen e.ctx e.user p with
          | error c => dsimp only; split <;> rfl
          | ok pn =>
            dsimp only
            have hm : (makeInstance y p a pn.1 pn.2).2.1.tmp = false := by
              unfold makeInstance
              rw [if_neg ht]
            split
            · rfl
            split
            · rfl
            split
            · exact hm
            split
            · exact hm
            split
            · exact hm
            rw [(initStep_keeps y e p _ _ h _ rfl).2.1]
            exact hm

/-- C171: if the directory with the instances is accepted and no temporary instance can be made, the entry does not name one. -/
theorem C171_not_made (y : SetupSys) (e : Sess) (p : Poly) (h : Nat) (con : Option Str) (ho : y.openParent = true) (hc : Spec.ClosedParent e.ignore y.parent)
    (hm : y.mkdtemp = none) (par name : Str) : (nsSetup y e p h con).1.place ≠ ⟨true, some (par, name)⟩ := by
  intro hp
  have hc := (checkParent_iff _ _).mpr hc
  by_cases ht : p.method = .tmpdir
  · rcases nsSetup_cases y e p h con with ⟨e1, _⟩ | ⟨a, e1, _, _⟩
    · rw [e1] at hp
      have := congrArg Place.at_ hp
      cases this
    · rw [e1] at hp
      have hp' : (setupOpen y e p h a).place = ⟨true, some (par, name)⟩ := hp
      unfold setupOpen at hp'
      generalize "tmpfs".toList = T at hp'
      dsimp only at hp'
      rw [if_neg (by rw [ht]; decide)] at hp'
      by_cases hfs : ¬ y.fstat = true
      · rw [if_pos hfs] at hp'
        have := congrArg Place.at_ hp'; cases this
      · rw [if_neg hfs] at hp'
        cases hn : polyName e.md5 e.gen e.ctx e.user p with
        | error c =>
          rw [hn] at hp'
          dsimp only at hp'
          split at hp' <;> (have := congrArg Place.at_ hp'; cases this)
        | ok pn =>
          rw [hn] at hp'
          dsimp only at hp'
          have hmk : makeInstance y p a pn.1 pn.2 = (PAM_SESSION_ERR, ⟨false, some (pn.1, pn.2)⟩, pn.2, none) := by
            unfold makeInstance; rw [if_pos ht, hm]
          rw [ho, hc, hmk] at hp'
          have k1 : ¬ (¬ (true = true)) := by decide
          have k2 : ¬ ((0 : Int) ≠ 0) := by decide
          have k3 : PAM_SESSION_ERR ≠ PAM_IGNORE ∧ PAM_SESSION_ERR ≠ PAM_SUCCESS := by decide
          rw [if_neg k1, if_neg k2] at hp'
          dsimp only at hp'
          rw [if_pos k3] at hp'
          have := congrArg Place.tmp hp'
          cases this
  · have := (C171_recorded y e p h con).2 ht
    rw [hp] at this
    cases this

/-- everything can be opened and is there -/
def demoRm (fork : Nat → Bool) (wait : Nat → Option End) : RmSys := ⟨fun _ => true, fun _ _ => true, fork, fun _ => true, wait⟩

/-- an entry for /tmp with temporary instances -/
def demoTmpdir : Poly := { demoTmp with method := .tmpdir }

example : (nsSetup (demoSys none (some (.exited 0))) demoSess demoTmpdir 7 none).1.place = ⟨true, some ("/tmp-inst/".toList, "Q3kz9A".toList)⟩ ∧
    cleanupTmp (demoRm (fun _ => true) (fun _ => some (.exited 0))) true 7 [⟨true, some ("/tmp-inst/".toList, "Q3kz9A".toList)⟩, ⟨false, some ("/i/".toList, "ann".toList)⟩] =
    (PAM_SUCCESS, [("/tmp-inst/".toList, "Q3kz9A".toList)], 7) := by
  constructor <;> decide +kernel
example : Spec.Left (demoRm (fun _ => true) (fun _ => some (.exited 0))) ⟨true, some ("/tmp-inst/".toList, "Q3kz9A".toList)⟩ "/tmp-inst/".toList "Q3kz9A".toList :=
  ⟨rfl, rfl, rfl⟩

/-- One process that cannot be started leaves all later instances behind. -/
theorem C171_fork_counterexample : cleanupTmp (demoRm (fun k => k ≠ 0) (fun _ => some (.exited 0))) true 7
    [⟨true, some ("/i/".toList, "a".toList)⟩, ⟨true, some ("/j/".toList, "b".toList)⟩] = (PAM_SESSION_ERR, [], 7) := by decide +kernel

/-- Whether anything was removed is not looked at. -/
theorem C171_status_counterexample : (cleanupTmp (demoRm (fun _ => true) (fun _ => some (.exited 1))) true 7 [⟨true, some ("/i/".toList, "a".toList)⟩]).1 = PAM_SUCCESS := by
  decide +kernel

/-- The full claim (only instances that the module made are removed) is false: if the directory with the instances is refused, the entry still has the template as its name, and
whatever is called "XXXXXX" there is removed. -/
theorem C171_template_counterexample :
    let o := (nsSetup { demoSys none none with parent := some ⟨1000, 100, 0o755⟩ } demoSess demoTmpdir 7 none).1
    o.code = PAM_SESSION_ERR ∧ o.inst = none ∧
    (cleanupTmp (demoRm (fun _ => true) (fun _ => some (.exited 0))) true 7 [o.place]).2.1 = [("/tmp-inst/".toList, "XXXXXX".toList)] := by
  refine ⟨?_, ?_, ?_⟩ <;> decide +kernel

end Pam.Namespace
