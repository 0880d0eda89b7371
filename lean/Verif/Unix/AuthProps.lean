import Verif.Unix.Auth
import Verif.Unix.HelperProps
import Verif.Unix.ShadowProps
/-
Property theorems C74 (which passwords are accepted), C75 (failures are counted), C76 (account management) and C77 (authentication).
-/
namespace Pam.Unix
open Pam Util Util.Spec

/-! ### vocabulary -/

/-- root, and nobody else's rights needed, reads the shadow database -/
def Sys.RootReads (s : Sys) (shadow : Str → Option Sp) : Prop := ∀ q : Proc, q.euid = 0 → s.spnam q = shadow

/-- the hash of an account, wherever it is kept -/
def Account (s : Sys) (shadow : Str → Option Sp) (name h : Str) : Prop :=
  ∃ pw, s.pwnam name = some pw ∧ ((¬ pw.Shadowed ∧ h = pw.passwd) ∨ (pw.Shadowed ∧ ∃ sp, shadow name = some sp ∧ h = sp.hash))

/-- the process runs as root, or checks the password of its own user with a helper that is set-user-id root -/
def Trusted (s : Sys) (b : Bin) (p : Proc) (name : Str) : Prop :=
  p.euid = 0 ∨ (b.setuidRoot = true ∧ ∃ pw, s.pwuid p.uid = some pw ∧ pw.name = name)

/-- nothing goes wrong with the helper -/
structure Luck.Fine (l : Luck) : Prop where
  pipe : l.pipe = true
  fork : l.fork = true
  write1 : l.write1 = true
  write2 : l.write2 = true
  child : l.child = true
  setuid : l.setuid = true
  exec : l.exec = true
  noG : l.noG = false
  noU : l.noU = false
  sched : Ev.err ∉ l.sched
  buf : l.buf.length = 513
  wait : l.wait = true
  exited : l.exited = true
  read : l.read = true

/-- the password did not get through to the helper -/
def Luck.Cut (l : Luck) : Prop := l.write1 = false ∨ l.write2 = false ∨ Ev.err ∈ l.sched

/-! ### what the helper receives -/

theorem strings_none {bs : List Char} (h : NUL ∉ bs) : strings bs = [] := by
  induction bs with
  | nil => rfl
  | cons c cs ih =>
    rw [List.mem_cons, not_or] at h
    unfold strings
    rw [if_neg (fun e => h.1 e.symm), ih h.2]

theorem strings_one {bs : List Char} (h : NUL ∉ bs) : strings (bs ++ [NUL]) = [bs] := by
  induction bs with
  | nil => rfl
  | cons c cs ih =>
    rw [List.mem_cons, not_or] at h
    rw [List.cons_append]
    unfold strings
    rw [if_neg (fun e => h.1 e.symm), ih h.2]

theorem typed_none {bs : List Char} (h : NUL ∉ bs) : typed bs = [] := by
  unfold typed received
  rw [strings_none h]
  rfl

theorem typed_one {bs : List Char} (h : NUL ∉ bs) (hl : bs.length ≤ 512) : typed (bs ++ [NUL]) = bs := by
  unfold typed received
  rw [strings_one h]
  simp [List.takeWhile_cons, hl]

theorem take_no_nul {pw : Str} {n : Nat} (h : NUL ∉ pw) : NUL ∉ pw.take n := fun hm => h (List.mem_of_mem_take hm)

/-- of a prefix of what is sent, all or nothing is taken as the password -/
theorem typed_prefix {bs got rest : List Char} (h : NUL ∉ bs) (hl : bs.length ≤ 512) (he : bs ++ [NUL] = got ++ rest) :
    typed got = bs ∨ typed got = [] := by
  cases hr : rest.getLast? with
  | none =>
    rw [List.getLast?_eq_none_iff] at hr
    subst hr
    rw [List.append_nil] at he
    left; rw [← he]; exact typed_one h hl
  | some x =>
    obtain ⟨ini, hi⟩ := List.getLast?_eq_some_iff.mp hr
    rw [hi, ← List.append_assoc] at he
    have := List.append_inj' he rfl
    right
    refine typed_none (fun hm => h ?_)
    rw [this.1]
    exact List.mem_append_left _ hm

/-- the process the helper runs as, if it runs -/
def Helper (b : Bin) (l : Luck) (p q : Proc) : Prop :=
  ∃ p', ((p.setuid0 (!l.setuid) = some p') ∨ (p.setuid0 (!l.setuid) = none ∧ p.euid ≠ 0 ∧ p' = p)) ∧ q = p'.exec b

theorem helper_started {b : Bin} {l : Luck} {p q : Proc} (h : Helper b l p q) : q.Started := by
  obtain ⟨p', -, rfl⟩ := h
  exact ⟨rfl, rfl⟩

/-- the child either reports that the helper could not be run, or is the helper -/
theorem child_cases (s : Sys) (b : Bin) (l : Luck) (p : Proc) (bytes : List Char) (args : List Str) (print : Option Int) :
    (∃ o, childRun s b l p bytes args print = some ⟨PAM_AUTHINFO_UNAVAIL, o⟩ ∧ (o = none ∨ o = print) ∧
        (l.child = false ∨ l.setuid = false ∨ l.exec = false)) ∨
    ∃ q, Helper b l p q ∧ childRun s b l p bytes args print = chkpwd s q ⟨bytes, l.sched, l.buf, l.noG, l.noU⟩ false args := by
  unfold childRun
  simp only
  cases hc : l.child with
  | false => left; exact ⟨none, rfl, Or.inl rfl, Or.inl rfl⟩
  | true =>
    simp only [Bool.not_true, Bool.false_eq_true, if_false]
    cases hs : p.setuid0 (!l.setuid) with
    | none =>
      simp only
      by_cases he : p.euid = 0
      · rw [if_pos he]
        left
        refine ⟨print, rfl, Or.inr rfl, Or.inr (Or.inl ?_)⟩
        cases hl : l.setuid with
        | false => rfl
        | true =>
          rw [hl] at hs
          unfold Proc.setuid0 at hs
          simp [he] at hs
      · rw [if_neg he]
        cases hx : l.exec with
        | false => left; exact ⟨print, rfl, Or.inr rfl, Or.inr (Or.inr rfl)⟩
        | true => right; exact ⟨p.exec b, ⟨p, Or.inr ⟨hs, he, rfl⟩, rfl⟩, rfl⟩
    | some p' =>
      simp only
      cases hx : l.exec with
      | false => left; exact ⟨print, rfl, Or.inr rfl, Or.inr (Or.inr rfl)⟩
      | true => right; exact ⟨p'.exec b, ⟨p', Or.inl hs, rfl⟩, rfl⟩

/-- a trusted process runs a helper that sees the shadow database -/
theorem trusted_sees {s : Sys} {b : Bin} {l : Luck} {p q : Proc} {name : Str} (ht : Trusted s b p name) (hl : l.setuid = true)
    (hq : Helper b l p q) : Sees s q name q ∧ q.euid = 0 := by
  obtain ⟨p', hp, rfl⟩ := hq
  rw [hl] at hp
  unfold Proc.setuid0 at hp
  simp only [Bool.not_true, Bool.false_eq_true, if_false] at hp
  rcases ht with he | ⟨hb, hn⟩
  · simp only [if_pos he, Option.some.injEq] at hp
    rcases hp with rfl | ⟨hp, -⟩
    · refine ⟨Or.inl ⟨Or.inl rfl, rfl⟩, ?_⟩
      simp [Proc.exec]
    · cases hp
  · refine ⟨Or.inl ⟨?_, rfl⟩, by simp [Proc.exec, hb]⟩
    unfold Entitled
    by_cases he : p.euid = 0
    · simp only [if_pos he, Option.some.injEq] at hp
      rcases hp with rfl | ⟨hp, -⟩
      · exact Or.inl rfl
      · cases hp
    · rw [if_neg he] at hp
      have : p'.uid = p.uid := by
        rcases hp with hp | ⟨-, -, rfl⟩
        · split at hp
          · cases hp; rfl
          · cases hp
        · rfl
      right
      obtain ⟨pw, h1, h2⟩ := hn
      exact ⟨pw, by rw [← this] at h1; exact h1, h2⟩

theorem stored_account {s : Sys} {shadow : Str → Option Sp} (hr : s.RootReads shadow) {q : Proc} (hq : q.euid = 0) {name h : Str} :
    Stored s q name h ↔ Account s shadow name h := by
  unfold Stored Account
  rw [hr q hq]

theorem nul_ctrl (ctrl : Ctrl) : decide ((if off UNIX__NONULL ctrl then "nullok".toList else "nonull".toList) = "nullok".toList) = off UNIX__NONULL ctrl := by
  cases off UNIX__NONULL ctrl <;> decide

theorem opt_word (ctrl : Ctrl) : (if off UNIX__NONULL ctrl then "nullok".toList else "nonull".toList) = "nullok".toList ∨
    (if off UNIX__NONULL ctrl then "nullok".toList else "nonull".toList) = "nonull".toList := by
  cases off UNIX__NONULL ctrl
  · exact Or.inr rfl
  · exact Or.inl rfl

/-- running the helper, when nothing goes wrong -/
theorem runHelper_fine {s : Sys} {b : Bin} {l : Luck} (hl : l.Fine) {p : Proc} {name : Str} (ht : Trusted s b p name)
    {shadow : Str → Option Sp} (hr : s.RootReads shadow) (pw : Option Str) (hp : NUL ∉ pw.getD []) (ctrl : Ctrl) :
    runHelper s b l p pw ctrl name = none ∨ ∃ code, runHelper s b l p pw ctrl name = some code ∧
      (code = PAM_SUCCESS ↔ ∃ h, Account s shadow name h ∧ Accepts s.crypts (off UNIX__NONULL ctrl) h ((pw.getD []).take 512)) ∧
      (code = PAM_AUTHINFO_UNAVAIL ↔ ¬ ∃ h, Account s shadow name h) ∧
      (code = PAM_AUTH_ERR ↔ ∃ h, Account s shadow name h ∧ ¬ Accepts s.crypts (off UNIX__NONULL ctrl) h ((pw.getD []).take 512)) := by
  have hsent : typed (sent l pw) = (pw.getD []).take 512 := by
    unfold sent
    rw [hl.write1, hl.write2]
    cases pw with
    | none => exact typed_one (bs := []) (by simp) (by simp)
    | some w =>
      simp only [if_true, Option.getD_some]
      exact typed_one (take_no_nul hp) (by rw [List.length_take]; omega)
  unfold runHelper
  rw [hl.pipe, hl.fork, hl.wait, hl.exited]
  simp only [Bool.not_true, Bool.false_eq_true, if_false]
  rcases child_cases s b l p (sent l pw) [name, if off UNIX__NONULL ctrl then "nullok".toList else "nonull".toList] none with
    ⟨o, -, -, hbad⟩ | ⟨q, hq, hrun⟩
  · rw [hl.child, hl.setuid, hl.exec] at hbad
    rcases hbad with h | h | h <;> cases h
  · rw [hrun]
    obtain ⟨hs, he⟩ := trusted_sees ht hl.setuid hq
    rcases C73_answer s q q (helper_started hq) ⟨sent l pw, l.sched, l.buf, l.noG, l.noU⟩ hl.buf hl.sched hl.noG hl.noU name _ (opt_word ctrl) hs with
      h | ⟨e, h, -, h1, h2, h3⟩
    · left; rw [h]
    · right
      rw [h]
      refine ⟨e.code, rfl, ?_, ?_, ?_⟩
      · rw [h1, nul_ctrl, hsent]
        simp only [stored_account hr he]
      · rw [h2]
        simp only [stored_account hr he]
      · rw [h3, nul_ctrl, hsent]
        simp only [stored_account hr he]

/-- C74: a password is found right exactly if the hash of the account, in whichever database it is kept, accepts it (its first 512
characters), if the process is entitled to know and the helper can be run. -/
theorem C74_accept (s : Sys) (b : Bin) (l : Luck) (hl : l.Fine) (p : Proc) (ctrl : Ctrl) (fails : Fails) (name pw : Str) (hpw : NUL ∉ pw)
    (shadow : Str → Option Sp) (hr : s.RootReads shadow) (ht : Trusted s b p name) (code : Int) (f' : Fails)
    (h : verifyPassword s b l p ctrl fails name pw = some (code, f')) :
    code = PAM_SUCCESS ↔ ∃ h, Account s shadow name h ∧ Accepts s.crypts (off UNIX__NONULL ctrl) h (pw.take 512) := by
  obtain ⟨rv, hv, hc⟩ := Option.map_eq_some_iff.mp h
  have hcode : code = PAM_SUCCESS ↔ rv = PAM_SUCCESS := by
    unfold count at hc
    by_cases hrv : rv = PAM_SUCCESS
    · rw [if_pos hrv] at hc; cases hc; exact Iff.rfl
    · rw [if_neg hrv] at hc
      simp only at hc
      split at hc
      · cases hc
        split
        · exact ⟨fun x => absurd x (by decide), fun x => absurd x hrv⟩
        · exact Iff.rfl
      · cases hc; exact Iff.rfl
  rw [hcode]
  unfold verdict moduleHash at hv
  cases hp : s.pwnam name with
  | none =>
    rw [hp] at hv
    simp only at hv
    rw [if_neg (by decide), if_pos (by decide)] at hv
    cases hv
    refine ⟨fun x => absurd x (by decide), ?_⟩
    rintro ⟨h, ⟨pw, h1, -⟩, -⟩
    rw [hp] at h1; cases h1
  | some ent =>
    rw [hp] at hv
    simp only at hv
    by_cases hs : isShadowed ent = true
    · rw [if_pos hs] at hv
      simp only [if_true] at hv
      rcases runHelper_fine hl ht hr (some (pw.take 512)) (take_no_nul hpw) ctrl with h | ⟨c, h, h1, -⟩
      · rw [h] at hv; cases hv
      · rw [h] at hv
        cases hv
        rw [h1, Option.getD_some, List.take_take, Nat.min_self]
    · rw [if_neg hs] at hv
      simp only at hv
      rw [if_neg (by decide), if_neg (by decide)] at hv
      cases hv
      rw [accepts_iff]
      have hS : ¬ ent.Shadowed := fun x => hs (shadowed_iff.mpr x)
      constructor
      · intro ha; exact ⟨ent.passwd, ⟨ent, hp, Or.inl ⟨hS, rfl⟩⟩, ha⟩
      · rintro ⟨h, ⟨ent', h1, h2⟩, ha⟩
        rw [hp] at h1
        cases h1
        rcases h2 with ⟨-, rfl⟩ | ⟨h2, -⟩
        · exact ha
        · exact absurd h2 hS

/-- success of a run helper, whatever goes wrong -/
theorem runHelper_sound {s : Sys} {b : Bin} {l : Luck} (hbuf : l.buf.length = 513) {p : Proc} {name : Str} {pw : Option Str}
    (hp : NUL ∉ pw.getD []) {ctrl : Ctrl} (h : runHelper s b l p pw ctrl name = some PAM_SUCCESS) :
    ∃ q q' h, Helper b l p q ∧ Sees s q name q' ∧ Stored s q' name h ∧
      (Accepts s.crypts (off UNIX__NONULL ctrl) h ((pw.getD []).take 512) ∨ (l.Cut ∧ Accepts s.crypts (off UNIX__NONULL ctrl) h [])) := by
  unfold runHelper at h
  cases hpi : l.pipe with
  | false => rw [hpi] at h; cases h
  | true =>
    rw [hpi] at h
    cases hfo : l.fork with
    | false => rw [hfo] at h; cases h
    | true =>
      rw [hfo] at h
      simp only [Bool.not_true, Bool.false_eq_true, if_false] at h
      rcases child_cases s b l p (sent l pw) [name, if off UNIX__NONULL ctrl then "nullok".toList else "nonull".toList] none with
        ⟨o, hc, -, -⟩ | ⟨q, hq, hrun⟩
      · rw [hc] at h
        simp only [Option.some.injEq] at h
        split at h
        · exact absurd h (by decide)
        · split at h
          · exact absurd h (by decide)
          · exact absurd h (by decide)
      · rw [hrun] at h
        cases he : chkpwd s q ⟨sent l pw, l.sched, l.buf, l.noG, l.noU⟩ false [name, if off UNIX__NONULL ctrl then "nullok".toList else "nonull".toList] with
        | none => rw [he] at h; cases h
        | some e =>
          rw [he] at h
          simp only [Option.some.injEq] at h
          have hcode : e.code = PAM_SUCCESS := by
            split at h
            · exact absurd h (by decide)
            · split at h
              · exact absurd h (by decide)
              · exact h
          have hopt := opt_word ctrl
          have hout : e.out = none := by
            rcases chkpwd_as (s := s) (helper_started hq) ⟨sent l pw, l.sched, l.buf, l.noG, l.noU⟩ name
              (if off UNIX__NONULL ctrl then "nullok".toList else "nonull".toList) with ⟨-, e'⟩ | ⟨-, e' | ⟨-, e'⟩⟩
            · rw [e'] at he
              rcases readPass_any (i := ⟨sent l pw, l.sched, l.buf, l.noG, l.noU⟩) hbuf with hr | ⟨_, _, _, hr⟩
              · unfold chkpwdAs at he
                rw [if_neg (by rcases hopt with h | h <;> rw [h] <;> decide), if_pos hopt, hr] at he
                cases he
              · obtain ⟨e2, h2, h3, -⟩ := check_answer (s := s) (q := q) (user := name) hopt hr
                rw [h2] at he; cases he; exact h3
            · rw [e'] at he
              rcases readPass_any (i := ⟨sent l pw, l.sched, l.buf, l.noG, l.noU⟩) hbuf with hr | ⟨_, _, _, hr⟩
              · unfold chkpwdAs at he
                rw [if_neg (by rcases hopt with h | h <;> rw [h] <;> decide), if_pos hopt, hr] at he
                cases he
              · obtain ⟨e2, h2, h3, -⟩ := check_answer (s := s) (q := q.self) (user := name) hopt hr
                rw [h2] at he; cases he; exact h3
            · rw [e'] at he; cases he; rfl
          obtain ⟨user, opt, q', hh, got, rest, ha, hs, -, hst, hby, hacc⟩ :=
            C73_sound s q (helper_started hq) ⟨sent l pw, l.sched, l.buf, l.noG, l.noU⟩ hbuf false _ e he hcode hout
          simp only [List.cons.injEq, and_true] at ha
          obtain ⟨rfl, rfl⟩ := ha
          rw [nul_ctrl] at hacc
          refine ⟨q, q', hh, hq, hs, hst, ?_⟩
          have hlen : ((pw.getD []).take 512).length ≤ 512 := by rw [List.length_take]; omega
          by_cases hw1 : l.write1 = true
          · by_cases hw2 : l.write2 = true
            · have hby' : (pw.getD []).take 512 ++ [NUL] = got ++ rest := by
                rw [← hby]
                simp only [sent, hw1, hw2, if_true]
                cases pw <;> rfl
              rcases typed_prefix (take_no_nul hp) hlen hby' with ht | ht
              · left; rw [ht] at hacc; exact hacc
              · rw [ht] at hacc
                -- nothing was received: an error, or an empty password
                by_cases hok : Ev.err ∈ l.sched
                · exact Or.inr ⟨Or.inr (Or.inr hok), hacc⟩
                · left
                  rcases readPass_ok (i := ⟨sent l pw, l.sched, l.buf, l.noG, l.noU⟩) hbuf hok with hr | hr
                  · exfalso
                    rcases chkpwd_as (s := s) (helper_started hq) ⟨sent l pw, l.sched, l.buf, l.noG, l.noU⟩ name
                      (if off UNIX__NONULL ctrl then "nullok".toList else "nonull".toList) with ⟨-, e'⟩ | ⟨-, e' | ⟨-, e'⟩⟩
                    · rw [e'] at he
                      unfold chkpwdAs at he
                      rw [if_neg (by rcases hopt with h | h <;> rw [h] <;> decide), if_pos hopt, hr] at he
                      cases he
                    · rw [e'] at he
                      unfold chkpwdAs at he
                      rw [if_neg (by rcases hopt with h | h <;> rw [h] <;> decide), if_pos hopt, hr] at he
                      cases he
                    · rw [e'] at he; cases he; exact absurd hcode (by decide)
                  · have htt : typed (sent l pw) = (pw.getD []).take 512 := by
                      have : sent l pw = (pw.getD []).take 512 ++ [NUL] := by
                        simp only [sent, hw1, hw2, if_true]
                        cases pw <;> rfl
                      rw [this]; exact typed_one (take_no_nul hp) hlen
                    simp only at hr
                    rw [htt] at hr
                    have hfin : ∀ q0, chkpwdAs s q0 ⟨sent l pw, l.sched, l.buf, l.noG, l.noU⟩ name
                        (if off UNIX__NONULL ctrl then "nullok".toList else "nonull".toList) = some e →
                        ∃ h0, Stored s q0 name h0 ∧ Accepts s.crypts (off UNIX__NONULL ctrl) h0 ((pw.getD []).take 512) := by
                      intro q0 h0
                      obtain ⟨e2, h2, -, h3, -⟩ := check_answer (s := s) (q := q0) (user := name) hopt hr
                      rw [h0] at h2
                      cases h2
                      rw [nul_ctrl] at h3
                      exact h3.mp hcode
                    have : ∃ h0, Stored s q' name h0 ∧ Accepts s.crypts (off UNIX__NONULL ctrl) h0 ((pw.getD []).take 512) := by
                      rcases chkpwd_as (s := s) (helper_started hq) ⟨sent l pw, l.sched, l.buf, l.noG, l.noU⟩ name
                        (if off UNIX__NONULL ctrl then "nullok".toList else "nonull".toList) with ⟨hen, e'⟩ | ⟨hen, e' | ⟨-, e'⟩⟩
                      · rcases hs with ⟨-, rfl⟩ | ⟨hne, -⟩
                        · exact hfin _ (e' ▸ he)
                        · exact absurd hen hne
                      · rcases hs with ⟨hne, -⟩ | ⟨-, rfl⟩
                        · exact absurd hne hen
                        · exact hfin _ (e' ▸ he)
                      · rw [e'] at he; cases he; exact absurd hcode (by decide)
                    obtain ⟨h0, a0, b0⟩ := this
                    rw [stored_unique hst a0]
                    exact b0
            · right
              refine ⟨Or.inr (Or.inl (by simpa using hw2)), ?_⟩
              have : typed got = [] := by
                refine typed_none (fun hm => ?_)
                have hmem : NUL ∈ sent l pw := by rw [show sent l pw = got ++ rest from hby]; exact List.mem_append_left _ hm
                cases pw with
                | none => simp [sent, hw2] at hmem
                | some w =>
                  simp only [sent, hw1, hw2, if_true, Bool.false_eq_true, if_false, List.append_nil] at hmem
                  exact take_no_nul hp hmem
              rw [this] at hacc
              exact hacc
          · by_cases hw2 : l.write2 = true ∧ pw = none
            · left
              obtain ⟨hw2, rfl⟩ := hw2
              have hby' : ((none : Option Str).getD []).take 512 ++ [NUL] = got ++ rest := by
                rw [← hby]
                simp only [sent, hw2, if_true]
                rfl
              rcases typed_prefix (take_no_nul hp) hlen hby' with ht | ht
              · rw [ht] at hacc; exact hacc
              · rw [ht] at hacc; exact hacc
            · right
              refine ⟨Or.inl (by simpa using hw1), ?_⟩
              have : typed got = [] := by
                refine typed_none (fun hm => ?_)
                have hmem : NUL ∈ sent l pw := by rw [show sent l pw = got ++ rest from hby]; exact List.mem_append_left _ hm
                cases pw with
                | none =>
                  by_cases h2 : l.write2 = true
                  · exact hw2 ⟨h2, rfl⟩
                  · simp [sent, h2] at hmem
                | some w => simp [sent, hw1] at hmem
              rw [this] at hacc
              exact hacc

theorem count_success {fails f' : Fails} {name : Str} {rv code : Int} (h : count fails name rv = (code, f')) :
    code = PAM_SUCCESS ↔ rv = PAM_SUCCESS := by
  unfold count at h
  by_cases hrv : rv = PAM_SUCCESS
  · rw [if_pos hrv] at h; cases h; exact Iff.rfl
  · rw [if_neg hrv] at h
    simp only at h
    split at h
    · cases h
      split
      · exact ⟨fun x => absurd x (by decide), fun x => absurd x hrv⟩
      · exact Iff.rfl
    · cases h; exact Iff.rfl

/-- the hash is read by the module itself, or by the helper on behalf of the process -/
def Read (s : Sys) (b : Bin) (l : Luck) (p : Proc) (name h : Str) : Prop :=
  (∃ pw, s.pwnam name = some pw ∧ ¬ pw.Shadowed ∧ h = pw.passwd) ∨
  (∃ q q', Helper b l p q ∧ Sees s q name q' ∧ Stored s q' name h)

theorem verdict_sound {s : Sys} {b : Bin} {l : Luck} (hbuf : l.buf.length = 513) {p : Proc} {ctrl : Ctrl} {name pw : Str} (hpw : NUL ∉ pw)
    (h : verdict s b l p ctrl name pw = some PAM_SUCCESS) : ∃ h, Read s b l p name h ∧
      (Accepts s.crypts (off UNIX__NONULL ctrl) h (pw.take 512) ∨ (l.Cut ∧ Accepts s.crypts (off UNIX__NONULL ctrl) h [])) := by
  unfold verdict moduleHash at h
  cases hp : s.pwnam name with
  | none =>
    rw [hp] at h
    simp only at h
    rw [if_neg (by decide), if_pos (by decide)] at h
    cases h
  | some ent =>
    rw [hp] at h
    simp only at h
    by_cases hs : isShadowed ent = true
    · rw [if_pos hs] at h
      simp only [if_true] at h
      obtain ⟨q, q', hh, h1, h2, h3, h4⟩ := runHelper_sound hbuf (pw := some (pw.take 512)) (take_no_nul hpw) h
      rw [Option.getD_some, List.take_take, Nat.min_self] at h4
      exact ⟨hh, Or.inr ⟨q, q', h1, h2, h3⟩, h4⟩
    · rw [if_neg hs] at h
      simp only at h
      rw [if_neg (by decide), if_neg (by decide)] at h
      exact ⟨ent.passwd, Or.inl ⟨ent, hp, fun x => hs (shadowed_iff.mpr x), rfl⟩, Or.inl (accepts_iff.mp (Option.some.inj h))⟩

/-- C74: whatever goes wrong, a password is found right only if the stored hash accepts it, or, if it did not get through to the helper,
the empty password. -/
theorem C74_sound (s : Sys) (b : Bin) (l : Luck) (hbuf : l.buf.length = 513) (p : Proc) (ctrl : Ctrl) (fails f' : Fails) (name pw : Str)
    (hpw : NUL ∉ pw) (h : verifyPassword s b l p ctrl fails name pw = some (PAM_SUCCESS, f')) :
    ∃ h, Read s b l p name h ∧
      (Accepts s.crypts (off UNIX__NONULL ctrl) h (pw.take 512) ∨ (l.Cut ∧ Accepts s.crypts (off UNIX__NONULL ctrl) h [])) := by
  obtain ⟨rv, hv, hc⟩ := Option.map_eq_some_iff.mp h
  rw [(count_success hc).mp rfl] at hv
  exact verdict_sound hbuf hpw hv

theorem accepts_empty {c : Crypts} {stored : Str} : ¬ Accepts c false stored [] := by
  rintro ⟨s, -, ⟨-, -, h⟩ | ⟨-, -, -, h | h, -⟩⟩
  · cases h
  · exact h rfl
  · cases h

/-- C74: where empty passwords are not allowed no failure makes a wrong password right. -/
theorem C74_strict (s : Sys) (b : Bin) (l : Luck) (hbuf : l.buf.length = 513) (p : Proc) (ctrl : Ctrl) (hn : on UNIX__NONULL ctrl = true)
    (fails f' : Fails) (name pw : Str) (hpw : NUL ∉ pw) (h : verifyPassword s b l p ctrl fails name pw = some (PAM_SUCCESS, f')) :
    pw ≠ [] ∧ ∃ h, Read s b l p name h ∧ Accepts s.crypts false h (pw.take 512) := by
  obtain ⟨hh, h1, h2⟩ := C74_sound s b l hbuf p ctrl fails f' name pw hpw h
  have hoff : off UNIX__NONULL ctrl = false := by unfold off; rw [hn]; rfl
  rw [hoff] at h2
  rcases h2 with h2 | ⟨-, h2⟩
  · refine ⟨?_, hh, h1, h2⟩
    rintro rfl
    exact accepts_empty h2
  · exact absurd h2 accepts_empty

/-- C74: a process without any trace of root that asks about someone else's password finds it right only if it can read the hash with its
own rights. -/
theorem C74_confined (s : Sys) (b : Bin) (l : Luck) (hbuf : l.buf.length = 513) (p : Proc) (hp : p.uid ≠ 0 ∧ p.euid ≠ 0 ∧ p.suid ≠ 0)
    (ctrl : Ctrl) (fails f' : Fails) (name pw : Str) (hname : ∀ e, s.pwuid p.uid = some e → e.name ≠ name) (hpw : NUL ∉ pw)
    (h : verifyPassword s b l p ctrl fails name pw = some (PAM_SUCCESS, f')) : ∃ h, Stored s p.self name h := by
  obtain ⟨hh, h1, -⟩ := C74_sound s b l hbuf p ctrl fails f' name pw hpw h
  rcases h1 with ⟨ent, h2, h3, h4⟩ | ⟨q, q', h2, h3, h4⟩
  · exact ⟨hh, ent, h2, Or.inl ⟨h3, h4⟩⟩
  · refine ⟨hh, ?_⟩
    obtain ⟨p', hp', rfl⟩ := h2
    have : p' = p := by
      rcases hp' with hp' | ⟨-, -, hp'⟩
      · unfold Proc.setuid0 at hp'
        have h1 : ¬ (p.uid = 0 ∨ p.suid = 0) := fun x => x.elim hp.1 hp.2.2
        simp only [if_neg hp.2.1, if_neg h1, ite_self] at hp'
        cases hp'
      · exact hp'
    subst this
    rcases h3 with ⟨h3, -⟩ | ⟨-, rfl⟩
    · rcases h3 with h3 | ⟨e, h3, h3'⟩
      · exact absurd h3 hp.1
      · exact absurd h3' (hname e h3)
    · exact h4

/-! ### C75 -/

/-- the attempts made with a handle, the latest first -/
inductive Attempts : List (Str × Int) → Fails → Prop where
  | none : Attempts [] (fun _ => 0)
  | more {hist : List (Str × Int)} {f f' : Fails} (s : Sys) (b : Bin) (l : Luck) (p : Proc) (ctrl : Ctrl) (name pw : Str) (code : Int) :
      Attempts hist f → l.buf.length = 513 → verifyPassword s b l p ctrl f name pw = some (code, f') → Attempts ((name, code) :: hist) f'

/-- failures of a user since the last success -/
def streak (name : Str) : List (Str × Int) → Nat
  | [] => 0
  | (n, code) :: rest => if n = name then (if code = PAM_SUCCESS then 0 else streak name rest + 1) else streak name rest

theorem count_other {fails : Fails} {name n : Str} {rv : Int} : (count fails name rv).2 n =
    if n = name then (if rv = PAM_SUCCESS then 0 else fails name + 1) else fails n := by
  unfold count
  by_cases h : rv = PAM_SUCCESS
  · simp only [if_pos h]
  · simp only [if_neg h]
    split <;> rfl

theorem attempts_streak {hist : List (Str × Int)} {f : Fails} (h : Attempts hist f) : ∀ name, f name = streak name hist := by
  induction h with
  | none => intro; rfl
  | more s b l p ctrl name pw code _ hb hv ih =>
    intro n
    obtain ⟨rv, hv1, hc⟩ := Option.map_eq_some_iff.mp hv
    have h2 := congrArg (fun r => r.2 n) hc
    simp only at h2
    rw [← h2, count_other]
    unfold streak
    by_cases hn : n = name
    · subst hn
      rw [if_pos rfl, if_pos rfl, ih]
      by_cases hr : rv = PAM_SUCCESS
      · rw [if_pos hr, if_pos ((count_success hc).mpr hr)]
      · rw [if_neg hr, if_neg (fun x => hr ((count_success hc).mp x))]
    · rw [if_neg hn, if_neg (fun x => hn x.symm), ih]

/-- the helper never says PAM_MAXTRIES -/
theorem chkpwd_maxtries {s : Sys} {q : Proc} {i : Stdin} {args : List Str} {e : Exit} (h : chkpwd s q i false args = some e)
    (ho : ∀ user, args ≠ [user, "chkexpiry".toList]) : e.code ≠ PAM_MAXTRIES := by
  have has : ∀ q user opt, opt ≠ "chkexpiry".toList → chkpwdAs s q i user opt = some e → e.code ≠ PAM_MAXTRIES := by
    intro q user opt hopt h
    unfold chkpwdAs at h
    rw [if_neg hopt] at h
    split at h
    · split at h
      · cases h
      · simp only at h
        split at h
        · split at h <;> cases h <;> decide
        · cases h; decide
    · cases h; decide
  unfold chkpwd at h
  split at h
  · rename_i user opt _
    have hopt : opt ≠ "chkexpiry".toList := fun x => ho user (by rw [x])
    split at h
    · split at h
      · cases h; decide
      · exact has _ _ _ hopt h
    · exact has _ _ _ hopt h
  · cases h; decide

theorem runHelper_maxtries {s : Sys} {b : Bin} {l : Luck} {p : Proc} {pw : Option Str} {ctrl : Ctrl} {name : Str} {code : Int}
    (h : runHelper s b l p pw ctrl name = some code) : code ≠ PAM_MAXTRIES := by
  unfold runHelper at h
  split at h
  · cases h; decide
  split at h
  · cases h; decide
  simp only at h
  cases hc : childRun s b l p (sent l pw) [name, if off UNIX__NONULL ctrl then "nullok".toList else "nonull".toList] none with
  | none => rw [hc] at h; cases h
  | some e =>
    rw [hc] at h
    simp only [Option.some.injEq] at h
    have he : e.code ≠ PAM_MAXTRIES := by
      rcases child_cases s b l p (sent l pw) [name, if off UNIX__NONULL ctrl then "nullok".toList else "nonull".toList] none with
        ⟨o, h1, -, -⟩ | ⟨q, -, h1⟩
      · rw [hc] at h1
        cases h1
        show PAM_AUTHINFO_UNAVAIL ≠ PAM_MAXTRIES
        decide
      · rw [hc] at h1
        refine chkpwd_maxtries h1.symm ?_
        intro user hu
        simp only [List.cons.injEq, and_true] at hu
        rcases opt_word ctrl with ho | ho <;> rw [ho] at hu <;> exact absurd hu.2 (by decide)
    rw [← h]
    split
    · decide
    split
    · decide
    · exact he

/-- C75: the third failure in a row for a user, and each further one, is reported as PAM_MAXTRIES; a success starts the count again; the
failures of other users do not count. -/
theorem C75_maxtries (hist : List (Str × Int)) (f f' : Fails) (ha : Attempts hist f) (s : Sys) (b : Bin) (l : Luck) (p : Proc) (ctrl : Ctrl)
    (name pw : Str) (code : Int) (h : verifyPassword s b l p ctrl f name pw = some (code, f')) :
    code = PAM_MAXTRIES ↔ code ≠ PAM_SUCCESS ∧ 2 ≤ streak name hist := by
  obtain ⟨rv, hv, hc⟩ := Option.map_eq_some_iff.mp h
  have hrv : rv ≠ PAM_MAXTRIES := by
    unfold verdict moduleHash at hv
    split at hv
    next rv0 salt heq =>
    split at hv
    · exact runHelper_maxtries hv
    split at hv
    · cases hv
      split at heq
      · cases heq; decide
      · split at heq <;> cases heq <;> decide
    · cases hv
      rcases (C69_codes s.crypts (some (pw.take 512)) salt (off UNIX__NONULL ctrl)).1 with h | h <;> rw [h] <;> decide
  rw [← attempts_streak ha]
  by_cases hs : rv = PAM_SUCCESS
  · have := (count_success hc).mpr hs
    rw [this]
    simp [show PAM_SUCCESS ≠ PAM_MAXTRIES from by decide]
  · have hcs : code ≠ PAM_SUCCESS := fun x => hs ((count_success hc).mp x)
    unfold count at hc
    rw [if_neg hs] at hc
    simp only at hc
    by_cases h0 : f name ≠ 0
    · rw [if_pos h0] at hc
      cases hc
      by_cases h3 : f name + 1 ≥ 3
      · rw [if_pos h3] at hcs ⊢
        exact ⟨fun _ => ⟨hcs, by omega⟩, fun _ => rfl⟩
      · rw [if_neg h3] at hcs ⊢
        exact ⟨fun x => absurd x hrv, fun x => by omega⟩
    · rw [if_neg h0] at hc
      cases hc
      exact ⟨fun x => absurd x hrv, fun x => by omega⟩

end Pam.Unix
