import Verif.Filter.ProcProps
/-
C162 and C163: what it means that pam_filter succeeds.
-/
namespace Pam.Filter
open Pam Pam.Small Spec

/-- **C163** On a terminal, success means that the application has a terminal of its own: it leads a session, and the other end was opened and set up. -/
theorem C163_slave (y : Sys) (name : Option Str) (env : List Str) (s s' : St) (ht : y.tty = true) (h : setFilter y name env s = .returned PAM_SUCCESS s') :
    y.setsid = true ∧ y.grant = true ∧ y.unlock = true ∧ y.ptsname = true ∧ y.slave = true ∧ y.setslave = true := by
  obtain ⟨hf, -⟩ := C163_success y name env s s' h
  have ab : PAM_ABORT ≠ PAM_SUCCESS := by decide
  have ae : PAM_AUTH_ERR ≠ PAM_SUCCESS := by decide
  cases name with
  | none => exact absurd (Out.returned.inj h).1 ab
  | some n =>
    simp only [setFilter] at h
    split at h
    · exact absurd (Out.returned.inj h).1 ab
    split at h
    · exact absurd (Out.returned.inj h).1 ae
    split at h
    · exact absurd (Out.returned.inj h).1 ab
    split at h
    · exact absurd (Out.returned.inj h).1 ab
    split at h
    · exact absurd (Out.returned.inj h).1 ab
    rw [hf] at h
    simp only [childSide, ht, if_true] at h
    generalize ({ s with raw := true, fds := s.fds + 1 } : St) = s2 at h
    cases hc : childTty y s2 with
    | some s3 => rw [hc] at h; exact absurd (Out.returned.inj h).1 ab
    | none =>
      unfold childTty at hc
      cases h1 : y.setsid <;> cases h2 : y.grant <;> cases h3 : y.unlock <;> cases h4 : y.ptsname <;> cases h5 : y.slave <;> cases h6 : y.setslave <;>
        simp [h1, h2, h3, h4, h5, h6] at hc ⊢

theorem terminal_set {t t' : Tty} (h : setTheTerminal t = (PAM_SUCCESS, t')) : t'.item ≠ none := by
  have ab : PAM_ABORT ≠ PAM_SUCCESS := by decide
  unfold setTheTerminal at h
  cases hi : t.item with
  | some x => rw [hi] at h; simp only at h; have e : t = t' := congrArg Prod.snd h; rw [← e, hi]; nofun
  | none =>
    rw [hi] at h
    simp only at h
    cases hn : t.name with
    | none => rw [hn] at h; exact absurd (congrArg Prod.fst h) ab
    | some n =>
      rw [hn] at h
      simp only at h
      split at h
      · exact absurd (congrArg Prod.fst h) ab
      · have e : (⟨some n, some n, t.setOk⟩ : Tty) = t' := congrArg Prod.snd h
        rw [← e]; nofun

theorem need_success {w : World} {y : Sys} {t : Tty} {pts : Option Str} {s : St} {args : List Str} {type : Str} {which : Ctrl → Bool} {s' : St} {t' : Tty}
    (h : needAFilter w y t pts s args type which = some ⟨.returned PAM_SUCCESS s', t'⟩) :
    (which (scan {} args).1 = true → ∃ name env, setFilter y name env s = .returned PAM_SUCCESS s') ∧ ((scan {} args).1.nonTerm = false → t'.item ≠ none) := by
  have go : ∀ (c : Ctrl) (name : Option Str) (env0 : List Str) (r : Int × Tty), r = (if c.nonTerm = false ∧ c.newTerm = false then setTheTerminal t else (PAM_SUCCESS, t)) →
      (if r.1 ≠ PAM_SUCCESS then (⟨.returned r.1 s, r.2⟩ : Done)
       else
        match (if which c then setFilter y name env0 s else .returned PAM_SUCCESS s) with
        | .returned code s2 =>
          if code = PAM_SUCCESS ∧ c.nonTerm = false ∧ c.newTerm = true then
            ⟨.returned (setTheTerminal (if which c then { r.2 with name := pts } else r.2)).1 s2, (setTheTerminal (if which c then { r.2 with name := pts } else r.2)).2⟩
          else ⟨.returned code s2, r.2⟩
        | o => ⟨o, r.2⟩) = (⟨.returned PAM_SUCCESS s', t'⟩ : Done) →
      (which c = true → ∃ name env, setFilter y name env s = .returned PAM_SUCCESS s') ∧ (c.nonTerm = false → t'.item ≠ none) := by
    intro c name env0 r hr h
    split at h
    · rename_i hne
      exact absurd (Out.returned.inj (Done.mk.inj h).1).1 hne
    · rename_i hok
      have hok : r.1 = PAM_SUCCESS := Decidable.not_not.mp hok
      have h1 : ∀ code s2, (if which c then setFilter y name env0 s else .returned PAM_SUCCESS s) = .returned code s2 →
          code = PAM_SUCCESS → s2 = s' → which c = true → ∃ name env, setFilter y name env s = .returned PAM_SUCCESS s' := by
        intro code s2 e e1 e2 hw
        rw [if_pos hw] at e
        exact ⟨name, env0, by rw [e, e1, e2]⟩
      generalize (if which c then setFilter y name env0 s else .returned PAM_SUCCESS s) = o at h h1
      cases o with
      | returned code s2 =>
        simp only at h
        split at h
        · rename_i hc
          obtain ⟨e1, e2⟩ := Done.mk.inj h
          obtain ⟨e3, e4⟩ := Out.returned.inj e1
          refine ⟨h1 code s2 rfl hc.1 e4, fun _ => ?_⟩
          exact terminal_set (t := (if which c then { r.2 with name := pts } else r.2)) (Prod.ext e3 e2)
        · rename_i hc
          obtain ⟨e1, e2⟩ := Done.mk.inj h
          obtain ⟨e3, e4⟩ := Out.returned.inj e1
          refine ⟨h1 code s2 rfl e3 e4, fun hnt => ?_⟩
          have hnew : c.newTerm = false := by
            cases hx : c.newTerm with
            | false => rfl
            | true => exact absurd ⟨e3, hnt, hx⟩ hc
          rw [if_pos ⟨hnt, hnew⟩] at hr
          exact terminal_set (t := t) (by rw [← hr]; exact Prod.ext hok e2)
      | _ => cases (Done.mk.inj h).1
  unfold needAFilter at h
  cases hs : scan {} args with
  | mk c o =>
    cases o with
    | none =>
      have : processArgs w args type = .noFilter c := by unfold processArgs; rw [hs]
      rw [this] at h
      exact go _ _ _ _ rfl (Option.some.inj h)
    | some ws =>
      obtain ⟨_, _, _, _, _, hne⟩ := scan_some_ne _ _ _ _ hs
      cases ws with
      | nil => exact absurd rfl hne
      | cons f rest =>
        rcases process_some w args type c f rest hs with e | ⟨sv, hv, e⟩
        · rw [e] at h
          exact absurd (Out.returned.inj (Done.mk.inj (Option.some.inj h)).1).1 (by decide)
        · rw [e] at h
          exact go _ _ _ _ rfl (Option.some.inj h)

/-- **C162** Where the arguments ask for a filter in this operation, success is only told to an application that is behind it. -/
theorem C162_success (w : World) (y : Sys) (t : Tty) (pts : Option Str) (s : St) (args : List Str) (op : Op) (run path : Str) (rest : List Str) (s' : St) (t' : Tty)
    (ha : Asks args run path rest) (ho : startsAt run op) (h : operation w y t pts s args op = some ⟨.returned PAM_SUCCESS s', t'⟩) :
    y.fork1 = .child ∧ s'.filtered = true := by
  obtain ⟨c, g1, g2, g3⟩ := scan_asks ha
  have key : ∀ type which, needAFilter w y t pts s args type which = some ⟨.returned PAM_SUCCESS s', t'⟩ → which c = true → y.fork1 = .child ∧ s'.filtered = true := by
    intro type which hn hw
    obtain ⟨name, env, e⟩ := (need_success hn).1 (by rw [g1]; exact hw)
    obtain ⟨e1, e2, -⟩ := C163_success y name env s s' e
    exact ⟨e1, e2⟩
  cases op with
  | authenticate => exact key _ _ h (g2.mpr ho)
  | setcred => exact key _ _ h (g3.mpr ho)
  | acctMgmt =>
    obtain ⟨pre, -, hr, -⟩ := ha
    refine key _ _ h ?_
    simp only [Bool.or_eq_true]
    exact hr.imp g2.mpr g3.mpr
  | openSession => exact key _ _ h (g2.mpr ho)
  | closeSession => exact key _ _ h (g3.mpr ho)
  | chauthtok p u =>
    rcases ho with ⟨rfl, ho⟩ | ⟨rfl, rfl, ho⟩
    · exact key _ _ h (g2.mpr ho)
    · exact key _ _ h (g3.mpr ho)

/-- **C162** A call to change a password that is for neither of the two phases is to be tried again; nothing happens. -/
theorem C162_neither (w : World) (y : Sys) (t : Tty) (pts : Option Str) (s : St) (args : List Str) :
    operation w y t pts s args (.chauthtok false false) = some ⟨.returned PAM_TRY_AGAIN s, t⟩ := rfl

theorem scan_nonterm : ∀ (args : List Str) (c : Ctrl), (scan c args).1.nonTerm = true → c.nonTerm = true ∨ "non_term".toList ∈ args
  | [], c, h => Or.inl h
  | a :: rest, c, h => by
    have ih := fun c => scan_nonterm rest c
    rw [scan] at h
    generalize "debug".toList = A at *
    generalize "new_term".toList = B at *
    generalize "non_term".toList = C at *
    generalize "run1".toList = D at *
    generalize "run2".toList = E at *
    split at h
    · exact (ih _ h).imp id (List.mem_cons_of_mem _)
    split at h
    · exact (ih _ h).imp id (List.mem_cons_of_mem _)
    split at h
    · rename_i e; right; rw [e]; exact List.mem_cons_self
    split at h
    · split at h
      · exact (ih _ h).imp id (List.mem_cons_of_mem _)
      · exact Or.inl h
    split at h
    · split at h
      · exact (ih _ h).imp id (List.mem_cons_of_mem _)
      · exact Or.inl h
    · exact (ih _ h).imp id (List.mem_cons_of_mem _)

/-- **C162** Without the argument "non_term", success means that PAM_TTY is set. -/
theorem C162_terminal (w : World) (y : Sys) (t : Tty) (pts : Option Str) (s : St) (args : List Str) (op : Op) (s' : St) (t' : Tty)
    (ha : "non_term".toList ∉ args) (h : operation w y t pts s args op = some ⟨.returned PAM_SUCCESS s', t'⟩) : t'.item ≠ none := by
  have key : ∀ type which, needAFilter w y t pts s args type which = some ⟨.returned PAM_SUCCESS s', t'⟩ → t'.item ≠ none := by
    intro type which hn
    refine (need_success hn).2 ?_
    cases hx : (scan {} args).1.nonTerm with
    | false => rfl
    | true => rcases scan_nonterm args {} hx with h | h
              · cases h
              · exact absurd h ha
  cases op with
  | authenticate => exact key _ _ h
  | setcred => exact key _ _ h
  | acctMgmt => exact key _ _ h
  | openSession => exact key _ _ h
  | closeSession => exact key _ _ h
  | chauthtok p u =>
    cases p with
    | true => exact key _ _ h
    | false =>
      cases u with
      | true => exact key _ _ h
      | false => exact absurd (Out.returned.inj (Done.mk.inj (Option.some.inj h)).1).1 (by decide)

/-- on a terminal, for the process that becomes the application -/
example : ((operation exWorld { exSys with tty := true, fork1 := .child } ⟨none, some "/dev/tty2".toList, true⟩ none {} ["run1".toList, "/f".toList] .authenticate).map
    fun d => (d.out, d.tty.item)) = some (.returned PAM_SUCCESS { raw := true, filtered := true }, some "/dev/tty2".toList) := by decide +kernel

end Pam.Filter
