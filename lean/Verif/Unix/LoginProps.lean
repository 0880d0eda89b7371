import Verif.Unix.AcctProps
/-
Property theorem C77 (authentication), and examples for C74 to C77.
-/
namespace Pam.Unix
open Pam Util Util.Spec

/-- an account without a password: nothing is stored, or what is stored in the shadow database accepts the empty password -/
def NoPassword (s : Sys) (shadow : Str → Option Sp) (name : Str) : Prop :=
  ∃ pw, s.pwnam name = some pw ∧
    ((¬ pw.Shadowed ∧ pw.passwd = []) ∨ (pw.Shadowed ∧ ∃ sp, shadow name = some sp ∧ Accepts s.crypts true sp.hash []))

/-- accounts without a password are let in: `nullok`, or `nullresetok` and the password has to be changed -/
def BlankAllowed (s : Sys) (shadow : Str → Option Sp) (ctrl : Ctrl) (name : Str) : Prop :=
  off UNIX__NONULL ctrl = true ∨ (on UNIX_NULLRESETOK ctrl = true ∧ ∃ pw sp, s.pwnam name = some pw ∧ pw.Shadowed ∧ shadow name = some sp ∧
    MustChange sp.aging s.today)

/-- the user no entry exists for -/
abbrev nobody : Str := "pam_unix_non_existent:".toList

/-! ### helper lemmas -/

theorem set_nullok (c : Ctrl) : on UNIX__NONULL (set UNIX__NULLOK c) = false := by
  rw [on_bit (by decide) (by decide) (by decide), set_bit]
  have h1 : (maskOf UNIX__NULLOK).getLsbD (pos UNIX__NONULL) = false := by decide
  have h2 : (flagOf UNIX__NULLOK).getLsbD (pos UNIX__NONULL) = false := by decide
  rw [h1, h2]; simp

theorem blankStep_shadowed {s : Sys} {b : Bin} {l : Luck} {p : Proc} {ctrl : Ctrl} {st : Blank} {pw : Pw} (h1 : s.pwnam st.name = some pw)
    (h2 : pw.Shadowed) : blankStep s b l p ctrl st = (runHelper s b l p none ctrl st.name).map (fun r =>
      { st with blank := if r = PAM_SUCCESS then st.check else st.blank, name := nobody, runs := st.runs ++ [st.name] }) := by
  unfold blankStep moduleHash
  rw [h1]
  simp only [if_pos (shadowed_iff.mpr h2), if_true]
  cases runHelper s b l p none ctrl st.name <;> rfl

theorem blankStep_plain {s : Sys} {b : Bin} {l : Luck} {p : Proc} {ctrl : Ctrl} {st : Blank} {pw : Pw} (h1 : s.pwnam st.name = some pw)
    (h2 : ¬ pw.Shadowed) : blankStep s b l p ctrl st = some { st with blank := if pw.passwd.length = 0 then st.check else st.blank, name := nobody } := by
  unfold blankStep moduleHash
  rw [h1]
  have : ¬ isShadowed pw = true := fun x => h2 (shadowed_iff.mp x)
  simp only [if_neg this]
  rw [if_neg (by decide), if_neg (by decide)]

theorem blankStep_unknown {s : Sys} {b : Bin} {l : Luck} {p : Proc} {ctrl : Ctrl} {st : Blank} (h1 : s.pwnam st.name = none) :
    blankStep s b l p ctrl st = some { st with name := "root".toList, check := false } := by
  unfold blankStep moduleHash
  rw [h1]
  simp only
  rw [if_neg (by decide), if_pos trivial]

/-- the second round changes nothing -/
theorem blank_second {s : Sys} {b : Bin} {l : Luck} {p : Proc} {ctrl : Ctrl} {st st' : Blank} (hn : s.pwnam nobody = none)
    (h : st.name = nobody ∨ (st.check = false ∧ st.blank = false)) (hs : blankStep s b l p ctrl st = some st') : st'.blank = st.blank := by
  rcases h with h | ⟨hc, hb⟩
  · rw [blankStep_unknown (by rw [h]; exact hn)] at hs
    cases hs; rfl
  · cases hp : s.pwnam st.name with
    | none => rw [blankStep_unknown hp] at hs; cases hs; rfl
    | some pw =>
      by_cases h : pw.Shadowed
      · rw [blankStep_shadowed hp h] at hs
        obtain ⟨r, -, rfl⟩ := Option.map_eq_some_iff.mp hs
        simp only [hc, hb, ite_self]
      · rw [blankStep_plain hp h] at hs
        cases hs
        simp only [hc, hb, ite_self]

/-- the loop, when nothing goes wrong -/
theorem loop_fine {s : Sys} {b : Bin} {l l' : Luck} (hl : l.Fine) {p : Proc} {name : Str} (ht : Trusted s b p name)
    {shadow : Str → Option Sp} (hr : s.RootReads shadow) (hn : s.pwnam nobody = none) {ctrl : Ctrl} (hnn : off UNIX__NONULL ctrl = true)
    {st st' : Blank} (h1 : blankStep s b l p ctrl ⟨name, true, false, []⟩ = some st) (h2 : blankStep s b l' p ctrl st = some st') :
    st'.blank = true ↔ NoPassword s shadow name := by
  unfold NoPassword
  cases hp : s.pwnam name with
  | none =>
    rw [blankStep_unknown hp] at h1
    cases h1
    rw [blank_second hn (Or.inr ⟨rfl, rfl⟩) h2]
    simp
  | some pw =>
    simp only [Option.some.injEq, exists_eq_left']
    by_cases hs : pw.Shadowed
    · rw [blankStep_shadowed hp hs] at h1
      obtain ⟨r, hr1, rfl⟩ := Option.map_eq_some_iff.mp h1
      rw [blank_second hn (Or.inl rfl) h2]
      rcases runHelper_fine hl ht hr none (by simp) ctrl with h | ⟨c, h, hc, -⟩
      · rw [h] at hr1; cases hr1
      · rw [h] at hr1
        cases hr1
        have : (if r = PAM_SUCCESS then true else false) = true ↔ r = PAM_SUCCESS := by split <;> simp_all
        simp only
        rw [this, hc, hnn]
        simp only [hs, not_true_eq_false, false_and, true_and, false_or, Option.getD_none, List.take_nil]
        constructor
        · rintro ⟨h, ⟨pw', h1, h2⟩, h3⟩
          rw [hp] at h1
          cases h1
          rcases h2 with ⟨h2, -⟩ | ⟨-, sp, h2, rfl⟩
          · exact absurd hs h2
          · exact ⟨sp, h2, h3⟩
        · rintro ⟨sp, h1, h2⟩
          exact ⟨sp.hash, ⟨pw, hp, Or.inr ⟨hs, sp, h1, rfl⟩⟩, h2⟩
    · rw [blankStep_plain hp hs] at h1
      cases h1
      rw [blank_second hn (Or.inl rfl) h2]
      simp only [hs, not_false_eq_true, true_and, false_and, or_false]
      have : (if pw.passwd.length = 0 then true else false) = true ↔ pw.passwd = [] := by
        rw [← List.length_eq_zero_iff]
        split <;> simp_all
      exact this

theorem some_bind {α β : Type} {o : Option α} {f : α → Option β} {y : β} (h : (do let x ← o; f x) = some y) : ∃ x, o = some x ∧ f x = some y := by
  cases o with
  | none => cases h
  | some x => exact ⟨x, rfl, h⟩

/-- what the check for an empty password comes to -/
theorem blank_fine {s : Sys} {b : Bin} {l : Nat → Luck} (hl : ∀ i, (l i).Fine) {p : Proc} {name : Str} (ht : Trusted s b p name)
    {shadow : Str → Option Sp} (hr : s.RootReads shadow) (hn : s.pwnam nobody = none) (hd : Day s.today) (hok : ∀ sp, shadow name = some sp → sp.aging.Ok)
    {ctrl : Ctrl} {v : Bool} {runs : List Str} (h : blankPasswd s b l p ctrl name = some (v, runs)) :
    v = true ↔ BlankAllowed s shadow ctrl name ∧ NoPassword s shadow name := by
  unfold blankPasswd at h
  obtain ⟨c, hc, h⟩ := some_bind h
  unfold resetCtrl at hc
  have hcc : off UNIX__NONULL c = true ↔ BlankAllowed s shadow ctrl name := by
    unfold BlankAllowed
    by_cases hon : on UNIX_NULLRESETOK ctrl = true
    · rw [if_pos hon] at hc
      obtain ⟨v1, v2⟩ := verifyUser_fine (hl 0) ht hr ctrl
      have key : ∀ rv d, verifyUser s b (l 0) p ctrl name = some (rv, d) →
          (rv = PAM_NEW_AUTHTOK_REQD ↔ ∃ pw sp, s.pwnam name = some pw ∧ pw.Shadowed ∧ shadow name = some sp ∧ MustChange sp.aging s.today) := by
        intro rv d hv
        cases hp : s.pwnam name with
        | none =>
          rw [v1 hp] at hv
          cases hv
          simp [show PAM_USER_UNKNOWN ≠ PAM_NEW_AUTHTOK_REQD from by decide]
        | some pw =>
          obtain ⟨a1, a2, a3⟩ := v2 pw hp
          by_cases hs : pw.Shadowed
          · cases hsp : shadow name with
            | none =>
              rw [a2 hs hsp] at hv
              cases hv
              refine ⟨fun x => ?_, fun x => ?_⟩
              · split at x <;> exact absurd x (by decide)
              · obtain ⟨_, _, _, _, x, _⟩ := x; cases x
            | some sp =>
              obtain ⟨code, left, hce, h1, h2, h3, h4, h5, -⟩ := C71_answer sp.aging s.today (hok sp hsp) hd
              have : code ≠ PAM_AUTHINFO_UNAVAIL := by
                intro hx
                have e1 := (not_congr h1).mp (by rw [hx]; decide)
                have e2 := (not_congr h2).mp (by rw [hx]; decide)
                have e3 := (not_congr h3).mp (by rw [hx]; decide)
                have e4 := (not_congr h4).mp (by rw [hx]; decide)
                have e5 := (not_congr h5).mp (by rw [hx]; decide)
                clear h1 h2 h3 h4 h5 hce a1 a2 a3 v1 v2
                refine e5 ⟨e1, fun z => e3 ⟨e1, Or.inl z⟩, fun c => ⟨fun o => ?_, fun y => ?_⟩⟩
                · exact e3 ⟨e1, Or.inr ⟨c, o, fun dd => e2 ⟨e1, c, dd⟩⟩⟩
                · by_cases o : Old sp.aging s.today
                  · exact e3 ⟨e1, Or.inr ⟨c, o, fun dd => e2 ⟨e1, c, dd⟩⟩⟩
                  · exact e4 ⟨e1, c, o, y⟩
              rw [a3 hs sp code left hsp hce this] at hv
              cases hv
              rw [h3]
              constructor
              · intro x; exact ⟨pw, sp, rfl, hs, rfl, x⟩
              · rintro ⟨_, _, -, -, e, x⟩; cases e; exact x
          · rw [a1 hs] at hv
            cases hv
            refine ⟨fun x => absurd x (by decide), ?_⟩
            rintro ⟨_, _, e, x, -⟩
            cases e; exact absurd x hs
      cases hv : verifyUser s b (l 0) p ctrl name with
      | none => rw [hv] at hc; cases hc
      | some r =>
        obtain ⟨rv, d⟩ := r
        rw [hv] at hc
        simp only [Option.some.injEq] at hc
        have k := key rv d hv
        by_cases hrv : rv = PAM_NEW_AUTHTOK_REQD
        · rw [if_pos hrv] at hc
          rw [← hc]
          unfold off
          rw [set_nullok]
          exact ⟨fun _ => Or.inr ⟨hon, k.mp hrv⟩, fun _ => rfl⟩
        · rw [if_neg hrv] at hc
          rw [← hc]
          exact ⟨Or.inl, fun x => x.elim id (fun y => absurd (k.mpr y.2) hrv)⟩
    · rw [if_neg hon] at hc
      cases hc
      exact ⟨Or.inl, fun x => x.elim id (fun y => absurd y.1 hon)⟩
  by_cases hnn : on UNIX__NONULL c = true
  · rw [if_pos hnn] at h
    cases h
    refine ⟨fun x => absurd x (by decide), fun ⟨x, _⟩ => ?_⟩
    rw [← hcc] at x
    unfold off at x
    rw [hnn] at x; cases x
  · rw [if_neg hnn] at h
    obtain ⟨st, h1, h⟩ := some_bind h
    obtain ⟨st', h2, h⟩ := some_bind h
    have hoff : off UNIX__NONULL c = true := by unfold off; simpa using hnn
    cases h
    rw [loop_fine (hl 1) ht hr hn hoff h1 h2]
    exact ⟨fun x => ⟨hcc.mp hoff, x⟩, fun x => x.2⟩

/-- C77: authentication succeeds exactly for an account without a password where those are let in, and else for a password the account's
hash accepts; a password is asked for unless the account has none. -/
theorem C77_answer (s : Sys) (b : Bin) (l : Nat → Luck) (hl : ∀ i, (l i).Fine) (p : Proc) (ctrl : Ctrl) (fails : Fails) (name : Str)
    (tok : Int × Str) (hnul : NUL ∉ tok.2) (shadow : Str → Option Sp) (hr : s.RootReads shadow) (ht : Trusted s b p name) (hn : s.pwnam nobody = none)
    (hd : Day s.today) (hok : ∀ sp, shadow name = some sp → sp.aging.Ok) (hname : name.head? ≠ some '-' ∧ name.head? ≠ some '+')
    (r : AuthRes) (h : authenticate s b l p ctrl fails (PAM_SUCCESS, name) tok = some r) :
    (r.asked = false ↔ BlankAllowed s shadow ctrl name ∧ NoPassword s shadow name) ∧
    (r.code = PAM_SUCCESS ↔ (BlankAllowed s shadow ctrl name ∧ NoPassword s shadow name) ∨
      (tok.1 = PAM_SUCCESS ∧ ∃ h, Account s shadow name h ∧ Accepts s.crypts (off UNIX__NONULL ctrl) h (tok.2.take 512))) := by
  unfold authenticate at h
  simp only [if_true] at h
  rw [if_neg (by rintro (x | x); exact hname.1 x; exact hname.2 x)] at h
  cases hb : blankPasswd s b l p ctrl name with
  | none => rw [hb] at h; cases h
  | some br =>
    obtain ⟨v, runs⟩ := br
    rw [hb] at h
    have hv := blank_fine hl ht hr hn hd hok hb
    cases v with
    | true =>
      cases h
      have := hv.mp rfl
      exact ⟨⟨fun _ => this, fun _ => rfl⟩, ⟨fun _ => Or.inl this, fun _ => rfl⟩⟩
    | false =>
      have hno : ¬ (BlankAllowed s shadow ctrl name ∧ NoPassword s shadow name) := fun x => absurd (hv.mpr x) (by decide)
      simp only at h
      by_cases htok : tok.1 = PAM_SUCCESS
      · rw [if_neg (by simpa using htok)] at h
        obtain ⟨r', h1, rfl⟩ := Option.map_eq_some_iff.mp h
        refine ⟨⟨fun x => absurd x (by simp), fun x => absurd x hno⟩, ?_⟩
        have := C74_accept s b (l 3) (hl 3) p ctrl fails name tok.2 hnul shadow hr ht r'.1 r'.2 h1
        simp only
        rw [this]
        exact ⟨fun x => Or.inr ⟨htok, x⟩, fun x => x.elim (fun y => absurd y hno) (fun y => y.2)⟩
      · rw [if_pos htok] at h
        cases h
        refine ⟨⟨fun x => absurd x (by simp), fun x => absurd x hno⟩, ?_⟩
        simp only
        refine ⟨fun x => ?_, fun x => x.elim (fun y => absurd y hno) (fun y => absurd y.1 htok)⟩
        split at x
        · exact absurd x htok
        · exact absurd x (by decide)

/-- C77: where something goes wrong before there is a password the caller hears of it, and PAM_CONV_AGAIN becomes PAM_INCOMPLETE; a name
that begins with a sign is not a user. -/
theorem C77_errors (s : Sys) (b : Bin) (l : Nat → Luck) (p : Proc) (ctrl : Ctrl) (fails : Fails) (user tok : Int × Str)
    (r : AuthRes) (h : authenticate s b l p ctrl fails user tok = some r) :
    (user.1 ≠ PAM_SUCCESS → r.code = (if user.1 = PAM_CONV_AGAIN then PAM_INCOMPLETE else user.1) ∧ r.asked = false ∧ r.fails = fails) ∧
    (user.1 = PAM_SUCCESS → user.2.head? = some '-' ∨ user.2.head? = some '+' → r.code = PAM_USER_UNKNOWN ∧ r.asked = false ∧ r.fails = fails) ∧
    (r.asked = true → tok.1 ≠ PAM_SUCCESS → r.code = (if tok.1 = PAM_CONV_AGAIN then PAM_INCOMPLETE else tok.1) ∧ r.fails = fails) := by
  unfold authenticate at h
  by_cases hu : user.1 = PAM_SUCCESS
  · rw [if_pos hu] at h
    refine ⟨fun x => absurd hu x, fun _ hh => ?_, fun ha ht => ?_⟩
    · rw [if_pos hh] at h; cases h; exact ⟨rfl, rfl, rfl⟩
    · split at h
      · cases h; cases ha
      · split at h
        · cases h
        · cases h; cases ha
        · (try rw [if_pos ht] at h)
          cases h
          refine ⟨?_, rfl⟩
          simp only
          by_cases hc : tok.1 = PAM_CONV_AGAIN
          · rw [if_neg (not_not_intro hc), if_pos hc]
          · rw [if_pos hc, if_neg hc]
  · rw [if_neg hu] at h
    cases h
    exact ⟨fun _ => ⟨rfl, rfl, rfl⟩, fun x => absurd x hu, fun x => by cases x⟩

theorem blank_sound {s : Sys} {b : Bin} {l : Nat → Luck} (hbuf : ∀ i, (l i).buf.length = 513) {p : Proc} {name : Str} (hn : s.pwnam nobody = none)
    {ctrl : Ctrl} {runs : List Str} (h : blankPasswd s b l p ctrl name = some (true, runs)) :
    (off UNIX__NONULL ctrl = true ∨ on UNIX_NULLRESETOK ctrl = true) ∧ ∃ h, Read s b (l 1) p name h ∧ Accepts s.crypts true h [] := by
  unfold blankPasswd at h
  obtain ⟨c, hc, h⟩ := some_bind h
  unfold resetCtrl at hc
  by_cases hnn : on UNIX__NONULL c = true
  · rw [if_pos hnn] at h; cases h
  · rw [if_neg hnn] at h
    have hoff : off UNIX__NONULL c = true := by unfold off; simpa using hnn
    refine ⟨?_, ?_⟩
    · by_cases hon : on UNIX_NULLRESETOK ctrl = true
      · exact Or.inr hon
      · rw [if_neg hon] at hc; cases hc; exact Or.inl hoff
    · obtain ⟨st, h1, h⟩ := some_bind h
      obtain ⟨st', h2, hfin⟩ := some_bind h
      simp only [Option.some.injEq, Prod.mk.injEq] at hfin
      cases hp : s.pwnam name with
      | none =>
        rw [blankStep_unknown hp] at h1
        cases h1
        rw [blank_second hn (Or.inr ⟨rfl, rfl⟩) h2] at hfin
        cases hfin.1
      | some pw =>
        by_cases hs : pw.Shadowed
        · rw [blankStep_shadowed hp hs] at h1
          obtain ⟨r, hr1, rfl⟩ := Option.map_eq_some_iff.mp h1
          rw [blank_second hn (Or.inl rfl) h2] at hfin
          simp only at hfin
          have hrs : r = PAM_SUCCESS := by
            by_cases x : r = PAM_SUCCESS
            · exact x
            · rw [if_neg x] at hfin; cases hfin.1
          subst hrs
          obtain ⟨q, q', hh, a1, a2, a3, a4⟩ := runHelper_sound (hbuf 1) (by simp) hr1
          rw [hoff] at a4
          refine ⟨hh, Or.inr ⟨q, q', a1, a2, a3⟩, ?_⟩
          rcases a4 with a4 | ⟨-, a4⟩
          · simpa using a4
          · exact a4
        · rw [blankStep_plain hp hs] at h1
          cases h1
          rw [blank_second hn (Or.inl rfl) h2] at hfin
          simp only at hfin
          have h0 : pw.passwd = [] := by
            by_cases x : pw.passwd.length = 0
            · exact List.length_eq_zero_iff.mp x
            · rw [if_neg x] at hfin; cases hfin.1
          refine ⟨[], Or.inl ⟨pw, hp, hs, h0.symm⟩, [], ?_, Or.inl ⟨rfl, rfl, rfl⟩⟩
          exact Counts.whole [] (Or.inr (Or.inl (by decide)))

/-- C77: whatever goes wrong, authentication succeeds only if a hash stored for this user accepts the password given, or accepts the empty
password and those are let in. -/
theorem C77_sound (s : Sys) (b : Bin) (l : Nat → Luck) (hbuf : ∀ i, (l i).buf.length = 513) (p : Proc) (ctrl : Ctrl) (fails : Fails)
    (user tok : Int × Str) (hnul : NUL ∉ tok.2) (hn : s.pwnam nobody = none) (r : AuthRes)
    (h : authenticate s b l p ctrl fails user tok = some r) (hs : r.code = PAM_SUCCESS) :
    user.1 = PAM_SUCCESS ∧ ∃ i h, Read s b (l i) p user.2 h ∧
      ((tok.1 = PAM_SUCCESS ∧ Accepts s.crypts (off UNIX__NONULL ctrl) h (tok.2.take 512)) ∨
       ((off UNIX__NONULL ctrl = true ∨ on UNIX_NULLRESETOK ctrl = true) ∧ Accepts s.crypts true h [])) := by
  unfold authenticate at h
  by_cases hu : user.1 = PAM_SUCCESS
  · rw [if_pos hu] at h
    refine ⟨hu, ?_⟩
    split at h
    · cases h; exact absurd (show PAM_USER_UNKNOWN = PAM_SUCCESS from hs) (by decide)
    · cases hb : blankPasswd s b l p ctrl user.2 with
      | none => rw [hb] at h; cases h
      | some br =>
        obtain ⟨v, runs⟩ := br
        rw [hb] at h
        cases v with
        | true =>
          obtain ⟨h1, hh, h2, h3⟩ := blank_sound hbuf hn hb
          exact ⟨1, hh, h2, Or.inr ⟨h1, h3⟩⟩
        | false =>
          simp only at h
          by_cases htok : tok.1 = PAM_SUCCESS
          · rw [if_neg (by simpa using htok)] at h
            obtain ⟨r', h1, rfl⟩ := Option.map_eq_some_iff.mp h
            obtain ⟨c, f⟩ := r'
            simp only at hs
            subst hs
            obtain ⟨hh, a1, a2⟩ := C74_sound s b (l 3) (hbuf 3) p ctrl fails f user.2 tok.2 hnul h1
            refine ⟨3, hh, a1, ?_⟩
            rcases a2 with a2 | ⟨-, a2⟩
            · exact Or.inl ⟨htok, a2⟩
            · cases ho : off UNIX__NONULL ctrl with
              | true => rw [ho] at a2; exact Or.inr ⟨Or.inl rfl, a2⟩
              | false => rw [ho] at a2; exact absurd a2 accepts_empty
          · rw [if_pos htok] at h
            cases h
            simp only at hs
            split at hs
            · exact absurd hs htok
            · exact absurd hs (by decide)
  · rw [if_neg hu] at h
    cases h
    simp only at hs
    split at hs
    · exact absurd hs (by decide)
    · exact absurd hs hu

/-- C77: without `nullok` and `nullresetok` nobody gets in without a password that is not empty and that the stored hash accepts. -/
theorem C77_strict (s : Sys) (b : Bin) (l : Nat → Luck) (hbuf : ∀ i, (l i).buf.length = 513) (p : Proc) (ctrl : Ctrl)
    (h1 : on UNIX__NONULL ctrl = true) (h2 : on UNIX_NULLRESETOK ctrl = false) (fails : Fails)
    (user tok : Int × Str) (hnul : NUL ∉ tok.2) (hn : s.pwnam nobody = none) (r : AuthRes)
    (h : authenticate s b l p ctrl fails user tok = some r) (hs : r.code = PAM_SUCCESS) :
    tok.2 ≠ [] ∧ ∃ i h, Read s b (l i) p user.2 h ∧ Accepts s.crypts false h (tok.2.take 512) := by
  obtain ⟨-, i, hh, a1, a2⟩ := C77_sound s b l hbuf p ctrl fails user tok hnul hn r h hs
  have ho : off UNIX__NONULL ctrl = false := by unfold off; rw [h1]; rfl
  rw [ho] at a2
  rcases a2 with ⟨-, a2⟩ | ⟨x | x, -⟩
  · refine ⟨?_, i, hh, a1, a2⟩
    rintro e
    rw [e] at a2
    exact accepts_empty a2
  · cases x
  · rw [h2] at x; cases x

/-- C77: the check for an empty password runs the helper once, whether the user exists or not. -/
theorem C77_same_work (s : Sys) (b : Bin) (l : Nat → Luck) (p : Proc) (ctrl : Ctrl) (name : Str) (hoff : off UNIX__NONULL ctrl = true)
    (hreset : on UNIX_NULLRESETOK ctrl = false) (hn : s.pwnam nobody = none) (root : Pw) (hroot : s.pwnam "root".toList = some root)
    (hrs : root.Shadowed) (hname : ∀ pw, s.pwnam name = some pw → pw.Shadowed) (v : Bool) (runs : List Str)
    (h : blankPasswd s b l p ctrl name = some (v, runs)) : runs.length = 1 := by
  unfold blankPasswd at h
  obtain ⟨c, hc, h⟩ := some_bind h
  unfold resetCtrl at hc
  rw [if_neg (by rw [hreset]; decide)] at hc
  cases hc
  rw [if_neg (by intro x; unfold off at hoff; rw [x] at hoff; cases hoff)] at h
  obtain ⟨st, h1, h⟩ := some_bind h
  obtain ⟨st', h2, h⟩ := some_bind h
  cases h
  cases hp : s.pwnam name with
  | none =>
    rw [blankStep_unknown hp] at h1
    cases h1
    rw [blankStep_shadowed (st := ⟨"root".toList, false, false, []⟩) hroot hrs] at h2
    obtain ⟨r, -, rfl⟩ := Option.map_eq_some_iff.mp h2
    rfl
  | some pw =>
    rw [blankStep_shadowed (st := ⟨name, true, false, []⟩) hp (hname pw hp)] at h1
    obtain ⟨r, -, rfl⟩ := Option.map_eq_some_iff.mp h1
    rw [blankStep_unknown hn] at h2
    cases h2
    rfl

/-- C77: with `likeauth` the first `pam_setcred` after an authentication repeats its answer, else it succeeds. -/
theorem C77_setcred (ctrl : Ctrl) (code : Int) : (on UNIX_LIKE_AUTH ctrl = true → setcred ctrl (some code) = (code, none)) ∧
    (on UNIX_LIKE_AUTH ctrl = false → setcred ctrl (some code) = (PAM_SUCCESS, some code)) ∧ setcred ctrl none = (PAM_SUCCESS, none) := by
  unfold setcred
  exact ⟨fun h => by simp only [h, if_true], fun h => by simp only [h]; rfl, rfl⟩

/-! ### examples -/

/-- eve has no password and has to set one; zed's account is closed; the rest is as in `demoSys` -/
def demoSys2 : Sys := { demoSys with
  pwnam := fun n => if n = "eve".toList then some ⟨"eve".toList, "x".toList, 1002⟩ else if n = "zed".toList then some ⟨"zed".toList, "x".toList, 1003⟩
    else if n = "old".toList then some ⟨"old".toList, [], 1004⟩ else demoSys.pwnam n
  spnam := fun p n => if p.euid = 0 ∧ n = "eve".toList then some ⟨[], ⟨0, 0, 99999, 7, -1, -1⟩⟩
    else if p.euid = 0 ∧ n = "zed".toList then some ⟨"ABsecret.p...assword....".toList, ⟨20000, 0, 99999, 7, -1, 20005⟩⟩ else demoSys.spnam p n }

def rootProc : Proc := ⟨0, 0, 0, 0, 0, 0⟩
def demoBin : Bin := ⟨true, none⟩
def demoLuck : Luck := { sched := [.upto 3, .intr, .upto 0, .upto 511], buf := List.replicate 513 'x' }
def demoShadow : Str → Option Sp := demoSys2.spnam rootProc

theorem demoLuck_fine : demoLuck.Fine := ⟨rfl, rfl, rfl, rfl, rfl, rfl, rfl, rfl, rfl, by decide, by decide +kernel, rfl, rfl, rfl⟩

theorem demo_reads : demoSys2.RootReads demoShadow := by
  intro q hq
  funext n
  simp only [demoShadow, demoSys2, demoSys, hq, rootProc]

/-- `pam_unix` without arguments, and with `nullok` -/
def demoStrict : Ctrl := ((setCtrl false {} none none none none []).map (·.ctrl)).getD 0
def demoNull : Ctrl := ((setCtrl false {} none none none none ["nullok".toList]).map (·.ctrl)).getD 0
/-- the application forbids empty passwords, but `nullresetok` is given -/
def demoReset : Ctrl := ((setCtrl false { disallowNull := true } none none none none ["nullresetok".toList]).map (·.ctrl)).getD 0

example : on UNIX__NONULL demoStrict = true ∧ off UNIX__NONULL demoNull = true ∧ on UNIX__NONULL demoReset = true := by decide +kernel
example : Trusted demoSys2 demoBin rootProc "ada".toList ∧ Trusted demoSys2 demoBin ⟨1000, 1000, 1000, 1000, 1000, 1000⟩ "ada".toList :=
  ⟨Or.inl rfl, Or.inr ⟨rfl, _, rfl, rfl⟩⟩
example : ((verifyPassword demoSys2 demoBin demoLuck rootProc demoStrict (fun _ => 0) "ada".toList "secret password".toList).map (·.1)) = some PAM_SUCCESS := by
  decide +kernel
example : ((verifyPassword demoSys2 demoBin demoLuck ⟨1000, 1000, 1000, 1000, 1000, 1000⟩ demoStrict (fun _ => 2) "ada".toList "wrong".toList).map (·.1)) =
    some PAM_MAXTRIES := by decide +kernel
example : ((authenticate demoSys2 demoBin (fun _ => demoLuck) rootProc demoStrict (fun _ => 0) (PAM_SUCCESS, "ada".toList) (PAM_SUCCESS, "secret password".toList)).map
    (fun r => (r.code, r.asked))) = some (PAM_SUCCESS, true) := by decide +kernel
example : ((authenticate demoSys2 demoBin (fun _ => demoLuck) rootProc demoNull (fun _ => 0) (PAM_SUCCESS, "old".toList) (PAM_CONV_AGAIN, [])).map
    (fun r => (r.code, r.asked))) = some (PAM_SUCCESS, false) := by decide +kernel
example : ((authenticate demoSys2 demoBin (fun _ => demoLuck) rootProc demoStrict (fun _ => 0) (PAM_SUCCESS, "old".toList) (PAM_CONV_AGAIN, [])).map
    (fun r => (r.code, r.asked))) = some (PAM_INCOMPLETE, true) := by decide +kernel
example : blankPasswd demoSys2 demoBin (fun _ => demoLuck) rootProc demoNull "who".toList = some (false, ["root".toList]) := by decide +kernel
example : blankPasswd demoSys2 demoBin (fun _ => demoLuck) rootProc demoNull "ada".toList = some (false, ["ada".toList]) := by decide +kernel
example : acctMgmt demoSys2 demoBin demoLuck rootProc demoStrict none (some "eve".toList) = some (PAM_NEW_AUTHTOK_REQD, some .enforced) := by decide +kernel
example : acctMgmt demoSys2 demoBin demoLuck rootProc demoStrict none (some "zed".toList) = some (PAM_ACCT_EXPIRED, some .accountExpired) := by decide +kernel
example : Day demoSys2.today ∧ ∀ sp, demoShadow "eve".toList = some sp → sp.aging.Ok := by
  refine ⟨by unfold Day LMAX; decide, ?_⟩
  intro sp h
  cases h
  intro v hv
  simp only [List.mem_cons, List.not_mem_nil, or_false] at hv
  unfold LMAX
  omega

theorem authenticate_blank {s : Sys} {b : Bin} {l : Nat → Luck} {p : Proc} {ctrl : Ctrl} {fails : Fails} {name : Str} {tok : Int × Str} {runs : List Str}
    (h : blankPasswd s b l p ctrl name = some (true, runs)) (hh : ¬ (name.head? = some '-' ∨ name.head? = some '+')) :
    authenticate s b l p ctrl fails (PAM_SUCCESS, name) tok = some ⟨PAM_SUCCESS, fails, false⟩ := by
  unfold authenticate
  simp only [if_true]
  rw [if_neg hh, h]

/-- C77 (finding): an application that forbids empty passwords with PAM_DISALLOW_NULL_AUTHTOK still gets a user in without any password,
if `nullresetok` is given and the password has to be changed. -/
theorem C77_disallow_counterexample : ∃ (s : Sys) (b : Bin) (l : Nat → Luck) (p : Proc) (name : Str) (o : Opts) (r : AuthRes),
    setCtrl false { disallowNull := true } none none none none ["nullresetok".toList] = some o ∧ (∀ i, (l i).Fine) ∧
    authenticate s b l p o.ctrl (fun _ => 0) (PAM_SUCCESS, name) (PAM_CONV_ERR, []) = some r ∧ r.code = PAM_SUCCESS ∧ r.asked = false := by
  refine ⟨demoSys2, demoBin, fun _ => demoLuck, rootProc, "eve".toList, _, ⟨PAM_SUCCESS, fun _ => 0, false⟩, rfl, fun _ => demoLuck_fine, ?_, rfl, rfl⟩
  have hb : blankPasswd demoSys2 demoBin (fun _ => demoLuck) rootProc demoReset "eve".toList = some (true, ["eve".toList]) := by decide +kernel
  exact authenticate_blank hb (by decide)

end Pam.Unix
