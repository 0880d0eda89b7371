import Verif.SucceedIf.WalkLemmas
/-
Property theorems C37: pam_succeed_if.
-/
namespace Pam.SucceedIf
open Pam Spec

/-- the answer, once the subject is known, in terms of the walk over the words -/
theorem succeedIf_walk {sys : Sys} {argv : List Str} {who : Person} (hs : Subject sys argv who) :
    ∃ check qf qs pwd, Good sys who pwd ∧
      succeedIf sys argv =
        (let r := walk sys who.name check qf qs 0 0 none none pwd (wordsOf argv)
         if r.2.2 then PAM_SERVICE_ERR else if r.2.1 = 0 then PAM_SUCCESS else r.1) := by
  unfold Subject at hs
  unfold succeedIf
  by_cases h : lit "use_uid" ∈ argv
  · rw [if_pos h] at hs
    obtain ⟨p, h1, rfl⟩ := hs
    refine ⟨!(decide (lit "audit" ∈ argv) || decide (lit "use_uid" ∈ argv)),
      decide (lit "quiet" ∈ argv) || decide (lit "quiet_fail" ∈ argv),
      decide (lit "quiet" ∈ argv) || decide (lit "quiet_success" ∈ argv), some p, Or.inl ⟨rfl, by simp⟩, ?_⟩
    simp only [h, decide_true, if_true, h1]
    rw [← walk_words]
  · rw [if_neg h] at hs
    obtain ⟨u, h1, rfl⟩ := hs
    refine ⟨!(decide (lit "audit" ∈ argv) || decide (lit "use_uid" ∈ argv)),
      decide (lit "quiet" ∈ argv) || decide (lit "quiet_fail" ∈ argv),
      decide (lit "quiet" ∈ argv) || decide (lit "quiet_success" ∈ argv), none, Or.inr ⟨rfl, rfl⟩, ?_⟩
    simp only [h, decide_false, Bool.false_eq_true, if_false, h1]
    rw [← walk_words]

/-- The words are not options. -/
theorem wordsOf_option (argv : List Str) : ∀ w ∈ wordsOf argv, isOption w = false := by
  intro w hw
  unfold wordsOf at hw
  have := (List.mem_filter.mp hw).2
  rw [decide_eq_true_eq, ← isOption_iff] at this
  simpa using this

/-- C37, all outcomes: let the words that are not options be the conditions `cs` and fewer than three words
`rest` left over.  Then the first condition that is not met decides, with its own code; if all are met the call
succeeds, unless words are left over.  (Partial: lists are searched for texts without a colon, `Plain`; see
`C37_list_counterexample`.) -/
theorem C37_outcome_partial (sys : Sys) (argv : List Str) (who : Person) (hs : Subject sys argv who)
    (cs : List Cond) (rest : List Str) (hw : wordsOf argv = (cs.map Cond.words).flatten ++ rest) (hr : rest.length < 3)
    (hp : ∀ c ∈ cs, Plain sys who c) :
    ((∀ c ∈ cs, Met sys who c) ∧ rest = [] ∧ succeedIf sys argv = PAM_SUCCESS) ∨
    ((∀ c ∈ cs, Met sys who c) ∧ rest ≠ [] ∧ succeedIf sys argv = PAM_SERVICE_ERR) ∨
    (∃ pre c post k, cs = pre ++ c :: post ∧ (∀ c ∈ pre, Met sys who c) ∧ Judged sys who c k ∧ k ≠ PAM_SUCCESS ∧
      succeedIf sys argv = k) := by
  obtain ⟨check, qf, qs, pwd, hg, e⟩ := succeedIf_walk hs
  rw [e, hw]
  have hopt : ∀ w ∈ (cs.map Cond.words).flatten ++ rest, isOption w = false := by
    rw [← hw]; exact wordsOf_option argv
  rcases walk_spec sys who check qf qs cs rest 0 0 pwd hr hopt hg hp with ⟨h1, h2⟩ | ⟨pre, c, post, k, h1, h2, h3, h4, h5⟩
  · rw [h2]
    by_cases hne : rest = []
    · left
      refine ⟨h1, hne, ?_⟩
      cases cs with
      | nil => simp [hne]
      | cons c cs => simp [hne]
    · right; left
      exact ⟨h1, hne, by simp [hne]⟩
  · right; right
    refine ⟨pre, c, post, k, h1, h2, h3, h4, ?_⟩
    rw [h5]; simp

/-- C37: pam_succeed_if succeeds exactly if its words are complete conditions which are all met.  (Partial for
the same reason.) -/
theorem C37_conjunction_partial (sys : Sys) (argv : List Str) (who : Person) (hs : Subject sys argv who)
    (hp : ∀ (cs : List Cond) (rest : List Str), wordsOf argv = (cs.map Cond.words).flatten ++ rest → ∀ c ∈ cs, Plain sys who c) :
    succeedIf sys argv = PAM_SUCCESS ↔
      ∃ cs : List Cond, wordsOf argv = (cs.map Cond.words).flatten ∧ ∀ c ∈ cs, Met sys who c := by
  have hgood : ∃ pwd, Good sys who pwd := by
    obtain ⟨_, _, _, pwd, h, _⟩ := succeedIf_walk hs; exact ⟨pwd, h⟩
  obtain ⟨pwd, hg⟩ := hgood
  constructor
  · intro h
    obtain ⟨cs, rest, hw, hr⟩ := chunks (wordsOf argv)
    rcases C37_outcome_partial sys argv who hs cs rest hw hr (hp cs rest hw) with
      ⟨h1, h2, -⟩ | ⟨-, -, h3⟩ | ⟨pre, c, post, k, -, -, -, h4, h5⟩
    · exact ⟨cs, by rw [hw, h2]; simp, h1⟩
    · rw [h] at h3; exact absurd h3 (by decide)
    · rw [h] at h5; exact absurd h5.symm h4
  · rintro ⟨cs, hw, hmet⟩
    have hw' : wordsOf argv = (cs.map Cond.words).flatten ++ [] := by rw [hw]; simp
    rcases C37_outcome_partial sys argv who hs cs [] hw' (by simp) (hp cs [] hw') with
      ⟨-, -, h⟩ | ⟨-, h, -⟩ | ⟨pre, c, post, k, h1, -, h3, h4, -⟩
    · exact h
    · exact absurd rfl h
    · have hc : c ∈ cs := by rw [h1]; simp
      obtain ⟨-, hj⟩ := evaluate_spec hg (hp cs [] hw' c hc)
      exact absurd ((hj k).mp h3 ▸ ((hj _).mp (hmet c hc)).symm) h4

/-- C37: without a subject the call fails, with the code of pam_get_user or, with use_uid, PAM_USER_UNKNOWN. -/
theorem C37_no_subject (sys : Sys) (argv : List Str) :
    (lit "use_uid" ∈ argv → sys.caller = none → succeedIf sys argv = PAM_USER_UNKNOWN) ∧
    (∀ k, lit "use_uid" ∉ argv → sys.user = .error k → succeedIf sys argv = k) := by
  refine ⟨fun h1 h2 => ?_, fun k h1 h2 => ?_⟩
  · unfold succeedIf; simp only [h1, decide_true, if_true, h2]
  · unfold succeedIf; simp only [h1, decide_false, Bool.false_eq_true, if_false, h2]

/-- C37: a condition on the user or group id compares the number itself with the operand (any uid_t fits). -/
theorem C37_ids (sys : Sys) (who : Person) (p : Pw) (hw : who.pw = some p) (a q r : Str) (t : Test)
    (cmp : Int → Int → Prop) (y : Int) (hq : named testNames q = some t) (hc : t.compares = some cmp) (hr : IsNumber r y) :
    (named attrNames a = some .uid → p.uid < 2 ^ 32 → (Met sys who (a, q, r) ↔ cmp p.uid y)) ∧
    (named attrNames a = some .gid → p.gid < 2 ^ 32 → (Met sys who (a, q, r) ↔ cmp p.gid y)) := by
  have hnum : ∀ n : Nat, n < 2 ^ 32 → IsNumber (Nat.toDigits 10 n) n := by
    intro n hn
    exact ⟨numeral_toDigits n, by omega, by omega⟩
  have key : ∀ (at' : Attr) (n : Nat), n < 2 ^ 32 → named attrNames a = some at' → HasText sys who at' (Nat.toDigits 10 n) →
      (∀ v, HasText sys who at' v → v = Nat.toDigits 10 n) → (Met sys who (a, q, r) ↔ cmp n y) := by
    intro at' n hn ha ht hu
    constructor
    · intro h
      unfold Met at h
      generalize hk : PAM_SUCCESS = k at h
      cases h with
      | badAttr h => exact absurd hk (by decide)
      | unknown => exact absurd hk (by decide)
      | badTest => exact absurd hk (by decide)
      | notNumber => exact absurd hk (by decide)
      | numberNot => exact absurd hk (by decide)
      | holdsNot => exact absurd hk (by decide)
      | number h1 h2 h3 h4 h5 h6 h7 =>
        rw [ha] at h1; cases h1
        rw [hq] at h3; cases h3
        rw [hc] at h4; cases h4
        rw [hu _ h2] at h5
        rw [isNumber_unique h5 (hnum n hn), isNumber_unique h6 hr] at h7
        exact h7
      | holds h1 h2 h3 h4 => rw [hq] at h3; cases h3; rw [hc] at h4; cases h4
    · intro h; exact .number ha ht hq hc (hnum n hn) hr h
  refine ⟨fun ha hn => key .uid p.uid hn ha (.uid hw) ?_, fun ha hn => key .gid p.gid hn ha (.gid hw) ?_⟩
  · intro v hv; cases hv with | uid h => rw [hw] at h; cases h; rfl
  · intro v hv; cases hv with | gid h => rw [hw] at h; cases h; rfl

/-- C37: a list is searched for whole elements, if the text looked for has no colon. -/
theorem C37_list_partial (v r : Str) (hv : ':' ∉ v) : inList v r = true ↔ v ∈ elements r := inList_iff hv

/-- C37: whatever the text, it is found only as a run of whole elements. -/
theorem C37_list_run (v r : Str) (h : inList v r = true) : ∃ pre post, elements r = pre ++ elements v ++ post :=
  inList_run h

/-- C37 is false of texts with a colon, such as the IPv6 address of a remote host: the text may be found across
elements though no element is equal to it, and a run of elements may be missed. -/
theorem C37_list_counterexample :
    (inList (lit "::1") (lit "a:::1") = true ∧ lit "::1" ∉ elements (lit "a:::1")) ∧
    (inList (lit "ab:a") (lit "ab:ab:a") = false ∧
      elements (lit "ab:ab:a") = [lit "ab"] ++ elements (lit "ab:a") ++ []) := by
  decide +kernel

/-- C37: without conditions the call succeeds. -/
theorem C37_no_condition (sys : Sys) (argv : List Str) (who : Person) (hs : Subject sys argv who)
    (h : ∀ w ∈ argv, w ∈ options.map String.toList) : succeedIf sys argv = PAM_SUCCESS := by
  have hw : wordsOf argv = [] := by
    unfold wordsOf; rw [List.filter_eq_nil_iff]; intro w hw; simp only [decide_eq_true_eq]
    exact fun h2 => h2 (h w hw)
  refine (C37_conjunction_partial sys argv who hs ?_).mpr ⟨[], by rw [hw]; rfl, by simp⟩
  intro cs rest e c hc
  rw [hw] at e
  have h1 : (cs.map Cond.words).flatten = [] := (List.append_eq_nil_iff.mp e.symm).1
  cases cs with
  | nil => cases hc
  | cons c cs => simp [Cond.words] at h1

/-! ### the hypotheses are met -/

/-- a system with one user -/
def demo : Sys where
  getpwnam u := if u = lit "ann" then some ⟨lit "ann", 1000, 100, lit "/home/ann", lit "/bin/sh"⟩ else none
  caller := none
  user := .ok (lit "ann")
  inGroup u g := u == lit "ann" && g == lit "wheel"
  innetgr _ _ _ := false
  fnmatch _ _ := false
  service := some (lit "sshd")
  ruser := none
  rhost := some (lit "::1")
  tty := none

def demoWho : Person := ⟨lit "ann", some ⟨lit "ann", 1000, 100, lit "/home/ann", lit "/bin/sh"⟩⟩

example : Subject demo [lit "quiet", lit "uid", lit ">=", lit "500", lit "user", lit "ingroup", lit "adm:wheel"] demoWho := by
  unfold Subject
  rw [if_neg (by decide)]
  exact ⟨lit "ann", rfl, rfl⟩

example : succeedIf demo [lit "quiet", lit "uid", lit ">=", lit "500", lit "user", lit "ingroup", lit "adm:wheel"] = PAM_SUCCESS ∧
    succeedIf demo [lit "uid", lit "<", lit "0x1F4"] = PAM_AUTH_ERR ∧
    succeedIf demo [lit "uid", lit ">", lit "10", lit "user"] = PAM_SERVICE_ERR ∧
    succeedIf demo [lit "service", lit "in", lit "login:sshd:su"] = PAM_SUCCESS ∧
    succeedIf demo [lit "service", lit "in", lit "login:ssh:su"] = PAM_AUTH_ERR ∧
    succeedIf demo [lit "user", lit "=", lit "debug"] = PAM_SERVICE_ERR := by
  decide +kernel

/-- the third condition of the first list, read off the specification -/
example : Met demo demoWho (lit "UID", lit ">=", lit "500") :=
  (C37_ids demo demoWho _ rfl (lit "UID") (lit ">=") (lit "500") .ge _ 500 (by decide) rfl
    ⟨(strtoInt_zero _ _).mp (by decide), by decide, by decide⟩).1 (by decide) (by decide) |>.mpr (by decide)

example : Plain demo demoWho (lit "service", lit "in", lit "login:sshd:su") := by
  intro a t v ha ht _ hv
  have : a = .service := by
    have h : named attrNames (lit "service") = some .service := by decide
    rw [h] at ha; exact (Option.some.inj ha).symm
  subst this
  cases hv
  decide

end Pam.SucceedIf
