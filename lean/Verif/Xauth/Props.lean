import Verif.Xauth.Model
/-
C120 to C122: pam_xauth hands keys over only if both users agree, reads its numbers, and removes what it made.
-/
namespace Pam.Xauth
open Pam
open Pam.Small (TextLine skipPrefix skipPrefix_some skipPrefix_none physLines_iff)

namespace Spec

/-- the part of a line that counts: what precedes a carriage return (or NUL) -/
def Upto (l p : Str) : Prop := p <+: l ∧ '\r' ∉ p ∧ NUL ∉ p ∧ (p = l ∨ (p ++ ['\r']) <+: l ∨ (p ++ [NUL]) <+: l)

/-- a file of patterns, one per line, has one for the name; without a file, `d` decides -/
def Lists (fnmatch : Str → Str → Bool) (f : AclFile) (name : Str) (d : Prop) : Prop :=
  (f = .noent ∧ d) ∨ ∃ s l p, f = .text s ∧ TextLine s l ∧ Upto l p ∧ fnmatch p name = true

/-- both users agree that `t`, under the name given, gets the keys of `r`, as pam_xauth(8) has it: nobody need be asked if they are the same; otherwise the export file of `r`
must list the name, or not exist (but root hands nothing to others without a file), and the import file of the user must list `r`, or not exist -/
def Agree (w : World) (r t : Pwd) (user : Str) : Prop :=
  r.name = t.name ∨ (w.pwnam r.name ≠ none ∧ Lists w.fnmatch (w.acl r.name "export") user (w.uid ≠ 0 ∨ t.uid = 0) ∧ Lists w.fnmatch (w.acl user "import") r.name True)

/-- accounts keys can be handed to: root, the target user of the options, and those that are no system accounts -/
def Eligible (o : Opts) (uid : Nat) : Prop := uid = 0 ∨ uid = o.target ∨ o.system < uid

/-- the text is a decimal number, with blanks and a sign before it -/
def Number (s : Str) (v : Int) : Prop := Signed (Digits 10) s v

/-- a step that looks at keys or makes, keeps or changes something; `unsetenv` is none -/
def Touches : Op → Prop
  | .unsetenv => False
  | _ => True

end Spec
open Spec

/-! ### lemmas -/

theorem aclLine_takeWhile (x : Str) : aclLine (x.takeWhile (· ≠ '\n')) = aclLine x := by
  unfold aclLine
  induction x with
  | nil => rfl
  | cons c r ih =>
    by_cases hc : c = '\n'
    · simp [hc]
    · rw [List.takeWhile_cons_of_pos (by simpa using hc)]
      by_cases h : c ≠ '\r' ∧ c ≠ '\n' ∧ c ≠ NUL
      · rw [List.takeWhile_cons_of_pos (by simpa using h), List.takeWhile_cons_of_pos (by simpa using h), ih]
      · rw [List.takeWhile_cons_of_neg (by simpa using h), List.takeWhile_cons_of_neg (by simpa using h)]

theorem aclLine_upto : ∀ (l p : Str), '\n' ∉ l → (aclLine l = p ↔ Upto l p)
  | [], p, _ => by
    unfold aclLine Upto
    constructor
    · rintro rfl; simp
    · rintro ⟨h, -⟩; rw [List.prefix_nil] at h; rw [h]; rfl
  | c :: l, p, hn => by
    have hcn : c ≠ '\n' := fun e => hn (by simp [e])
    have ih := fun p => aclLine_upto l p (fun h => hn (List.mem_cons_of_mem _ h))
    by_cases hc : c = '\r' ∨ c = NUL
    · have e : aclLine (c :: l) = [] := by
        unfold aclLine
        rw [List.takeWhile_cons_of_neg]
        rcases hc with rfl | rfl <;> simp
      rw [e]
      constructor
      · rintro rfl
        refine ⟨List.nil_prefix, by simp, by simp, Or.inr ?_⟩
        rcases hc with rfl | rfl
        · exact Or.inl (by simp)
        · exact Or.inr (by simp)
      · rintro ⟨h1, h2, h3, h4⟩
        cases p with
        | nil => rfl
        | cons d q =>
          rw [List.cons_prefix_cons] at h1
          rcases hc with rfl | rfl
          · exact absurd (by rw [h1.1]; simp) h2
          · exact absurd (by rw [h1.1]; simp) h3
    · simp only [not_or] at hc
      have e : aclLine (c :: l) = c :: aclLine l := by
        unfold aclLine
        rw [List.takeWhile_cons_of_pos]
        simp [hc, hcn]
      rw [e]
      constructor
      · rintro rfl
        obtain ⟨h1, h2, h3, h4⟩ := (ih (aclLine l)).mp rfl
        refine ⟨by rw [List.cons_prefix_cons]; exact ⟨rfl, h1⟩, ?_, ?_, ?_⟩
        · simp [h2, Ne.symm hc.1]
        · simp [h3, Ne.symm hc.2]
        · rcases h4 with h4 | h4 | h4
          · exact Or.inl (congrArg _ h4)
          · exact Or.inr (Or.inl (by rw [List.cons_append, List.cons_prefix_cons]; exact ⟨rfl, h4⟩))
          · exact Or.inr (Or.inr (by rw [List.cons_append, List.cons_prefix_cons]; exact ⟨rfl, h4⟩))
      · rintro ⟨h1, h2, h3, h4⟩
        cases p with
        | nil =>
          rcases h4 with h4 | h4 | h4
          · cases h4
          · rw [List.nil_append, List.cons_prefix_cons] at h4; exact absurd h4.1.symm hc.1
          · rw [List.nil_append, List.cons_prefix_cons] at h4; exact absurd h4.1.symm hc.2
        | cons d q =>
          rw [List.cons_prefix_cons] at h1
          obtain ⟨rfl, h1⟩ := h1
          rw [(ih q).mpr ⟨h1, fun h => h2 (List.mem_cons_of_mem _ h), fun h => h3 (List.mem_cons_of_mem _ h), ?_⟩]
          rcases h4 with h4 | h4 | h4
          · exact Or.inl (by injection h4)
          · rw [List.cons_append, List.cons_prefix_cons] at h4; exact Or.inr (Or.inl h4.2)
          · rw [List.cons_append, List.cons_prefix_cons] at h4; exact Or.inr (Or.inr h4.2)

theorem checkAcl_iff (fn : Str → Str → Bool) (f : AclFile) (name : Str) (c : Int) :
    checkAcl fn f name c = PAM_SUCCESS ↔ Lists fn f name (c = PAM_SUCCESS) := by
  unfold checkAcl Lists
  cases f with
  | priv => simp [PAM_SESSION_ERR, PAM_SUCCESS]
  | noent => simp
  | toolong => simp [PAM_SESSION_ERR, PAM_SUCCESS]
  | other => simp [PAM_PERM_DENIED, PAM_SUCCESS]
  | text s =>
    simp only [AclFile.text.injEq, reduceCtorEq, false_and, false_or]
    constructor
    · intro h
      split at h
      · next ha =>
        obtain ⟨x, hx, hm⟩ := List.any_eq_true.mp ha
        have ht := (physLines_iff s (x.takeWhile (· ≠ '\n'))).mp ⟨x, hx, rfl⟩
        refine ⟨s, _, aclLine x, rfl, ht, (aclLine_upto _ _ ?_).mp (aclLine_takeWhile x), hm⟩
        obtain ⟨a, b, -, hn, -⟩ := ht
        exact hn
      · exact absurd h (by decide)
    · rintro ⟨_, l, p, rfl, ht, hu, hm⟩
      obtain ⟨x, hx, rfl⟩ := (physLines_iff _ l).mpr ht
      have hn : '\n' ∉ x.takeWhile (· ≠ '\n') := by obtain ⟨a, b, -, hn, -⟩ := ht; exact hn
      have := (aclLine_upto _ _ hn).mpr hu
      rw [aclLine_takeWhile] at this
      rw [if_pos (List.any_eq_true.mpr ⟨x, hx, by rw [this]; exact hm⟩)]

theorem allowed_iff (w : World) (r t : Pwd) (user : Str) : allowed w r t user = true ↔ Agree w r t user := by
  unfold allowed Agree
  by_cases hn : r.name = t.name
  · simp [hn]
  · rw [if_pos hn]
    simp only [hn, false_or]
    cases hp : w.pwnam r.name with
    | none => simp
    | some q =>
      have e1 := checkAcl_iff w.fnmatch (w.acl r.name "export") user (if w.uid ≠ 0 ∨ t.uid = 0 then PAM_SUCCESS else PAM_PERM_DENIED)
      have e2 := checkAcl_iff w.fnmatch (w.acl user "import") r.name PAM_SUCCESS
      have e3 : ((if w.uid ≠ 0 ∨ t.uid = 0 then PAM_SUCCESS else PAM_PERM_DENIED) = PAM_SUCCESS) = (w.uid ≠ 0 ∨ t.uid = 0) := by
        by_cases h : w.uid ≠ 0 ∨ t.uid = 0
        · simp [h]
        · rw [if_neg h]; simp [h, PAM_PERM_DENIED, PAM_SUCCESS]
      rw [e3] at e1
      simp only [ne_eq, reduceCtorEq, not_false_eq_true, true_and]
      simp only [eq_self] at e2
      rw [← e1, ← e2]
      by_cases h : checkAcl w.fnmatch (w.acl r.name "export") user (if w.uid ≠ 0 ∨ t.uid = 0 then PAM_SUCCESS else PAM_PERM_DENIED) = PAM_SUCCESS
      · simp_all
      · simp_all

theorem session_of {w : World} {o : Opts} {d user : Str} {r t : Pwd} (hu : w.user = some user) (hr : w.pwuid w.uid = some r) (ht : w.pwnam user = some t)
    (he : Eligible o t.uid) (ha : Agree w r t user) :
    session w o d = forward w t d (findCookie w (w.xauthority.getD (r.dir ++ "/.Xauthority".toList)) d) := by
  unfold session
  have h1 : ¬ (t.uid ≠ 0 ∧ t.uid ≠ o.target ∧ t.uid ≤ o.system) := by unfold Eligible at he; omega
  simp only [hu, hr, ht]
  rw [if_neg h1, if_neg (not_not_intro ((allowed_iff w r t user).mpr ha))]

theorem session_not {w : World} {o : Opts} {d : Str}
    (h : ¬ ∃ user r t, w.user = some user ∧ w.pwuid w.uid = some r ∧ w.pwnam user = some t ∧ Eligible o t.uid ∧ Agree w r t user) :
    session w o d = (PAM_SESSION_ERR, []) := by
  unfold session
  cases hu : w.user with
  | none => rfl
  | some user =>
    cases hr : w.pwuid w.uid with
    | none => rfl
    | some r =>
      simp only
      cases ht : w.pwnam user with
      | none => rfl
      | some t =>
        simp only
        by_cases h1 : t.uid ≠ 0 ∧ t.uid ≠ o.target ∧ t.uid ≤ o.system
        · rw [if_pos h1]
        · rw [if_neg h1, if_pos]
          intro ha
          exact h ⟨user, r, t, hu, hr, ht, by unfold Eligible; omega, (allowed_iff w r t user).mp ha⟩

/-! ### the properties -/

/-- **C120**: without an xauth, or without a display, nothing is done. -/
theorem C120_nothing (w : World) (argv : List Str) (h : ((parse argv).xauth = none ∧ w.found = none) ∨ w.display = none) : openSession w argv = (PAM_SUCCESS, []) := by
  unfold openSession
  rcases h with ⟨h1, h2⟩ | h
  · rw [h1, h2]; rfl
  · rw [h]; split <;> first | rfl | (simp_all)

/-- **C120**: keys are looked at, and files made, only if the users agree and the target is no system account.  Otherwise the session fails and the process loses its variable
XAUTHORITY. -/
theorem C120_refused (w : World) (argv : List Str) (d : Str) (hx : (parse argv).xauth ≠ none ∨ w.found ≠ none) (hd : w.display = some d)
    (h : ¬ ∃ user r t, w.user = some user ∧ w.pwuid w.uid = some r ∧ w.pwnam user = some t ∧ Eligible (parse argv) t.uid ∧ Agree w r t user) :
    openSession w argv = (PAM_SESSION_ERR, if w.xauthority = none then [] else [.unsetenv]) := by
  unfold openSession
  rw [hd]
  cases e : ((parse argv).xauth <|> w.found) with
  | none => cases h1 : (parse argv).xauth <;> simp_all
  | some x =>
    simp only [session_not h, finish]
    cases w.xauthority <;> simp [PAM_SESSION_ERR, PAM_SUCCESS]

/-- **C120**: the same, said of each step. -/
theorem C120_agreed (w : World) (argv : List Str) (op : Op) (ho : op ∈ (openSession w argv).2) (ht : Touches op) :
    ∃ user r t, w.user = some user ∧ w.pwuid w.uid = some r ∧ w.pwnam user = some t ∧ Eligible (parse argv) t.uid ∧ Agree w r t user := by
  refine Classical.byContradiction fun h => ?_
  cases hd : w.display with
  | none => rw [C120_nothing w argv (Or.inr hd)] at ho; cases ho
  | some d =>
    by_cases hx : (parse argv).xauth ≠ none ∨ w.found ≠ none
    · rw [C120_refused w argv d hx hd h] at ho
      dsimp only at ho
      split at ho
      · cases ho
      · rw [List.mem_singleton] at ho; rw [ho] at ht; exact ht
    · simp only [not_or, ne_eq, Classical.not_not] at hx
      rw [C120_nothing w argv (Or.inl hx)] at ho; cases ho

theorem findCookie_hosts {w : World} {file d : Str} {tr : List Op} {c : Str} (h : findCookie w file d = some (tr, c)) (hc : c ≠ []) :
    (w.nlist file d = some c ∧ tr = [.list w.uid w.gid file d]) ∨
    (w.nlist file d = some [] ∧ ∃ n scr host, (d = "localhost:".toList ++ scr ∨ d = "localhost/unix:".toList ++ scr) ∧ w.hostname = some host ∧
      n = host ++ "/unix:".toList ++ scr ∧ w.nlist file n = some c ∧ tr = [.list w.uid w.gid file d, .list w.uid w.gid file n]) := by
  unfold findCookie at h
  cases hn : w.nlist file d with
  | none => rw [hn] at h; cases h
  | some c0 =>
    rw [hn] at h
    dsimp only at h
    by_cases h0 : c0 = []
    · rw [if_neg (not_not_intro h0)] at h
      subst h0
      cases hl : localDisplay w d with
      | none => rw [hl] at h; cases h; exact absurd rfl hc
      | some n =>
        rw [hl] at h
        cases h
        right
        refine ⟨rfl, n, ?_⟩
        have hn2 : ∀ x : Option Str, x.getD [] ≠ [] → x = some (x.getD []) := by
          intro x hx; cases x with
          | none => exact absurd rfl hx
          | some y => rfl
        unfold localDisplay at hl
        split at hl
        · next hp =>
          cases hh : w.hostname with
          | none => rw [hh] at hl; cases hl
          | some host =>
            rw [hh] at hl
            cases hl
            rcases hp with hp | hp
            · obtain ⟨scr, hs⟩ := Option.isSome_iff_exists.mp hp
              have hs := skipPrefix_some.mp hs
              have e : d.dropWhile (· ≠ ':') = ':' :: scr := by rw [hs]; simp
              refine ⟨scr, host, Or.inl hs, rfl, ?_, hn2 _ hc, rfl⟩
              rw [e]; simp
            · obtain ⟨scr, hs⟩ := Option.isSome_iff_exists.mp hp
              have hs := skipPrefix_some.mp hs
              have e : d.dropWhile (· ≠ ':') = ':' :: scr := by rw [hs]; simp
              refine ⟨scr, host, Or.inr hs, rfl, ?_, hn2 _ hc, rfl⟩
              rw [e]; simp
        · cases hl
    · rw [if_pos h0] at h
      cases h
      exact Or.inl ⟨rfl, rfl⟩

/-- **C120**: what is handed over, and how.  A key is written only as the target user and their group, into a file just made in their home directory with their privileges, whose
name is kept and put into XAUTHORITY of the session; and the key is what xauth, run as the calling user, finds for the display in $XAUTHORITY or the caller's own file (for a
local display also under the name of the host). -/
theorem C120_handed (w : World) (argv : List Str) (uid gid : Nat) (file cookie : Str) (h : .merge uid gid file cookie ∈ (openSession w argv).2) :
    ∃ user r t d f src key tr, w.user = some user ∧ w.pwuid w.uid = some r ∧ w.pwnam user = some t ∧ w.display = some d ∧ w.mkstemp = some f ∧
      src = w.xauthority.getD (r.dir ++ "/.Xauthority".toList) ∧
      (key = d ∨ ∃ scr host, (d = "localhost:".toList ++ scr ∨ d = "localhost/unix:".toList ++ scr) ∧ w.hostname = some host ∧ key = host ++ "/unix:".toList ++ scr) ∧
      w.nlist src key = some cookie ∧ cookie ≠ [] ∧ uid = t.uid ∧ gid = t.gid ∧ file = t.dir ++ '/' :: f ∧
      (∀ x ∈ tr, ∃ k, x = .list w.uid w.gid src k) ∧
      openSession w argv = (PAM_SUCCESS, tr ++ ([.mkstemp uid t.dir (some file), .keep file, .pamEnv ("XAUTHORITY=".toList ++ file), .putenv ("XAUTHORITY=".toList ++ file),
        .pamEnv ("DISPLAY=".toList ++ d)] ++ (w.localname.toList.map fun n => .pamEnv ("XAUTHLOCALHOSTNAME=".toList ++ n)) ++ [.merge uid gid file cookie])) := by
  obtain ⟨user, r, t, hu, hr, ht, he, ha⟩ := C120_agreed w argv _ h trivial
  unfold openSession at h ⊢
  cases hd : w.display with
  | none => rw [hd] at h; revert h; split <;> simp_all
  | some d =>
    rw [hd] at h
    cases e : ((parse argv).xauth <|> w.found) with
    | none => rw [e] at h; cases h
    | some x =>
      rw [e] at h
      dsimp only at h ⊢
      rw [session_of hu hr ht he ha] at h ⊢
      obtain ⟨src, hsrc⟩ : ∃ src, src = w.xauthority.getD (r.dir ++ "/.Xauthority".toList) := ⟨_, rfl⟩
      rw [← hsrc] at h ⊢
      cases hf : findCookie w src d with
      | none => rw [hf] at h; simp [PAM_SUCCESS, forward, finish] at h
      | some p =>
        obtain ⟨tr, c⟩ := p
        rw [hf] at h
        unfold forward at h ⊢
        dsimp only at h ⊢
        by_cases hc : c = []
        · exfalso
          subst hc
          have : ∀ x ∈ tr, ∃ k, x = .list w.uid w.gid src k := by
            unfold findCookie at hf
            cases hn : w.nlist src d with
            | none => rw [hn] at hf; cases hf
            | some c0 =>
              rw [hn] at hf; dsimp only at hf
              split at hf
              · cases hf; simp
              · cases hl : localDisplay w d with
                | none => rw [hl] at hf; cases hf; simp
                | some n => rw [hl] at hf; simp only [Option.some.injEq, Prod.mk.injEq] at hf; rw [← hf.1]; simp
          simp only [if_true, finish] at h
          split at h
          · rw [List.mem_append] at h
            rcases h with h | h
            · obtain ⟨k, hk⟩ := this _ h; cases hk
            · simp at h
          · obtain ⟨k, hk⟩ := this _ h; cases hk
        · rw [if_neg hc] at h ⊢
          unfold finish at h
          have hs := findCookie_hosts hf hc
          have htr : ∀ x ∈ tr, ∃ k, x = .list w.uid w.gid src k := by
            rcases hs with ⟨-, rfl⟩ | ⟨-, n, -, -, -, -, -, -, rfl⟩
            · simp
            · simp
          have hmem : .merge uid gid file cookie ∈ (handOver w t d c).2 := by
            split at h
            · simp only [List.mem_append, List.mem_singleton, reduceCtorEq, or_false] at h
              rcases h with h | h
              · obtain ⟨k, hk⟩ := htr _ h; cases hk
              · exact h
            · simp only [List.mem_append] at h
              rcases h with h | h
              · obtain ⟨k, hk⟩ := htr _ h; cases hk
              · exact h
          unfold handOver at hmem ⊢
          cases hm : w.mkstemp with
          | none => rw [hm] at hmem; simp at hmem
          | some f =>
            rw [hm] at hmem
            dsimp only at hmem ⊢
            by_cases hreg : w.regain = true
            · rw [if_neg (not_not_intro hreg)] at hmem ⊢
              by_cases hsd : w.setData = true
              · rw [if_neg (not_not_intro hsd)] at hmem ⊢
                simp only [List.mem_append, List.mem_cons, List.mem_map, reduceCtorEq, and_false, exists_false, List.not_mem_nil, or_false, false_or, Op.merge.injEq] at hmem
                obtain ⟨rfl, rfl, rfl, rfl⟩ := hmem
                rcases hs with ⟨h1, -⟩ | ⟨-, n, scr, host, h1, h2, h3, h4, -⟩
                · exact ⟨user, r, t, d, f, src, d, tr, hu, hr, ht, rfl, rfl, hsrc, Or.inl rfl, h1, hc, rfl, rfl, rfl, htr, by simp [finish]⟩
                · exact ⟨user, r, t, d, f, src, n, tr, hu, hr, ht, rfl, rfl, hsrc, Or.inr ⟨scr, host, h1, h2, h3⟩, h4, hc, rfl, rfl, rfl, htr, by simp [finish]⟩
              · rw [if_pos hsd] at hmem; simp at hmem
            · rw [if_pos hreg] at hmem; simp at hmem

/-- the steps by which a key is handed over -/
def Spec.handing (w : World) (t : Pwd) (d f cookie : Str) : List Op :=
  [.mkstemp t.uid t.dir (some (t.dir ++ '/' :: f)), .keep (t.dir ++ '/' :: f), .pamEnv ("XAUTHORITY=".toList ++ (t.dir ++ '/' :: f)),
    .putenv ("XAUTHORITY=".toList ++ (t.dir ++ '/' :: f)), .pamEnv ("DISPLAY=".toList ++ d)] ++
  (w.localname.toList.map fun n => .pamEnv ("XAUTHLOCALHOSTNAME=".toList ++ n)) ++ [.merge t.uid t.gid (t.dir ++ '/' :: f) cookie]

/-- everything needed is there: an xauth, a display, both accounts, and both users agree -/
structure Spec.Ready (w : World) (o : Opts) (d user : Str) (r t : Pwd) : Prop where
  program : o.xauth ≠ none ∨ w.found ≠ none
  display : w.display = some d
  named : w.user = some user
  from_ : w.pwuid w.uid = some r
  to : w.pwnam user = some t
  eligible : Eligible o t.uid
  agree : Agree w r t user

theorem openSession_ready {w : World} {argv : List Str} {d user : Str} {r t : Pwd} (h : Ready w (parse argv) d user r t) :
    openSession w argv = finish w.xauthority (forward w t d (findCookie w (w.xauthority.getD (r.dir ++ "/.Xauthority".toList)) d)) := by
  unfold openSession
  rw [h.display]
  cases e : ((parse argv).xauth <|> w.found) with
  | none => exfalso; have := h.program; cases h1 : (parse argv).xauth <;> simp_all
  | some x => dsimp only; rw [session_of h.named h.from_ h.to h.eligible h.agree]

/-- **C120**: if both agree and there is a key for the display, it is handed over. -/
theorem C120_forwarded (w : World) (argv : List Str) (d user f cookie : Str) (r t : Pwd) (h : Ready w (parse argv) d user r t)
    (hk : w.nlist (w.xauthority.getD (r.dir ++ "/.Xauthority".toList)) d = some cookie) (hc : cookie ≠ []) (hm : w.mkstemp = some f) (hr : w.regain = true) (hs : w.setData = true) :
    openSession w argv = (PAM_SUCCESS, .list w.uid w.gid (w.xauthority.getD (r.dir ++ "/.Xauthority".toList)) d :: handing w t d f cookie) := by
  rw [openSession_ready h]
  have e : findCookie w (w.xauthority.getD (r.dir ++ "/.Xauthority".toList)) d = some ([.list w.uid w.gid (w.xauthority.getD (r.dir ++ "/.Xauthority".toList)) d], cookie) := by
    unfold findCookie
    rw [hk]
    exact if_pos hc
  rw [e]
  simp only [forward, if_neg hc, handOver, hm, hr, hs, not_true_eq_false, if_false, finish, ne_eq, false_and]
  rfl

/-- **C120**: a local display without a key is looked up under the name of the host. -/
theorem C120_local (w : World) (argv : List Str) (d scr host user f cookie : Str) (r t : Pwd) (h : Ready w (parse argv) d user r t)
    (hd : d = "localhost:".toList ++ scr ∨ d = "localhost/unix:".toList ++ scr) (hh : w.hostname = some host)
    (h0 : w.nlist (w.xauthority.getD (r.dir ++ "/.Xauthority".toList)) d = some [])
    (hk : w.nlist (w.xauthority.getD (r.dir ++ "/.Xauthority".toList)) (host ++ "/unix:".toList ++ scr) = some cookie) (hc : cookie ≠ [])
    (hm : w.mkstemp = some f) (hr : w.regain = true) (hs : w.setData = true) :
    openSession w argv = (PAM_SUCCESS, .list w.uid w.gid (w.xauthority.getD (r.dir ++ "/.Xauthority".toList)) d ::
      .list w.uid w.gid (w.xauthority.getD (r.dir ++ "/.Xauthority".toList)) (host ++ "/unix:".toList ++ scr) :: handing w t d f cookie) := by
  rw [openSession_ready h]
  have hl : localDisplay w d = some (host ++ "/unix:".toList ++ scr) := by
    unfold localDisplay
    rcases hd with hd | hd
    · rw [if_pos (Or.inl (by rw [skipPrefix_some.mpr hd]; rfl)), hh, hd]
      simp
    · rw [if_pos (Or.inr (by rw [skipPrefix_some.mpr hd]; rfl)), hh, hd]
      simp
  simp only [findCookie, h0, hl, hk]
  simp [hc, forward, handOver, hm, hr, hs, finish, handing]

/-- **C120**: without a key the session fails and nothing is made. -/
theorem C120_no_key (w : World) (argv : List Str) (d user : Str) (r t : Pwd) (h : Ready w (parse argv) d user r t)
    (hk : w.nlist (w.xauthority.getD (r.dir ++ "/.Xauthority".toList)) d = some [])
    (hl : (∀ scr, d ≠ "localhost:".toList ++ scr ∧ d ≠ "localhost/unix:".toList ++ scr) ∨ w.hostname = none) :
    openSession w argv = (PAM_SESSION_ERR, .list w.uid w.gid (w.xauthority.getD (r.dir ++ "/.Xauthority".toList)) d :: (if w.xauthority = none then [] else [.unsetenv])) := by
  rw [openSession_ready h]
  have hl : localDisplay w d = none := by
    unfold localDisplay
    split
    · next hp =>
      rcases hl with hl | hl
      · rcases hp with hp | hp
        · obtain ⟨scr, hs⟩ := Option.isSome_iff_exists.mp hp
          exact absurd (skipPrefix_some.mp hs) (hl scr).1
        · obtain ⟨scr, hs⟩ := Option.isSome_iff_exists.mp hp
          exact absurd (skipPrefix_some.mp hs) (hl scr).2
      · rw [hl]; rfl
    · rfl
  simp only [findCookie, hk, hl]
  cases w.xauthority <;> simp [forward, finish, PAM_SESSION_ERR, PAM_SUCCESS]

/-! ### the numbers -/

theorem uidOf_number {s : Str} {n : Nat} (h : Number s n) (hn : n < 2 ^ 32) : uidOf s = some n := by
  obtain ⟨h1, h2⟩ := (strtoInt_base 10 (by decide) (by decide) (by decide) s n).mpr h
  unfold uidOf
  rw [if_neg h2, h1]
  dsimp only
  congr 1
  omega

theorem uidOf_none {s : Str} (h : ∀ v, ¬ Number s v) : uidOf s = none := by
  unfold uidOf
  split
  · rfl
  · next hs =>
    split
    · next v he => exact absurd ((strtoInt_base 10 (by decide) (by decide) (by decide) s v).mp ⟨he, hs⟩) (h v)
    · rfl

/-- **C121**: without options, system accounts are those up to 499, and only root is an exception. -/
theorem C121_default : parse [] = ⟨none, 499, 0⟩ := rfl

/-- **C121** (numbers below 2³²; false beyond them): each option sets what it names; one that is not a number changes nothing. -/
theorem C121_numbers_partial (argv : List Str) (v : Str) :
    (∀ n : Nat, Number v n → n < 2 ^ 32 → parse (argv ++ ["systemuser=".toList ++ v]) = { parse argv with system := n } ∧
      parse (argv ++ ["targetuser=".toList ++ v]) = { parse argv with target := n }) ∧
    ((∀ n, ¬ Number v n) → parse (argv ++ ["systemuser=".toList ++ v]) = parse argv ∧ parse (argv ++ ["targetuser=".toList ++ v]) = parse argv) := by
  have e : ∀ a, parse (argv ++ [a]) = parseArg (parse argv) a := by intro a; unfold parse; rw [List.foldl_append]; rfl
  have np : ∀ (p q s : Str), q.head? ≠ p.head? → p ≠ [] → q ≠ [] → skipPrefix (q ++ s) p = none := by
    intro p q s h hp hq
    rw [skipPrefix_none]
    rintro ⟨u, hu⟩
    cases p with
    | nil => exact hp rfl
    | cons a p => cases q with
      | nil => exact hq rfl
      | cons b q => simp only [List.cons_append, List.cons.injEq] at hu; exact h (by simp [hu.1])
  have s1 : ∀ o, parseArg o ("systemuser=".toList ++ v) = { o with system := (uidOf v).getD o.system } := by
    intro o; unfold parseArg
    rw [np "xauthpath=".toList "systemuser=".toList v (by decide) (by decide) (by decide)]; dsimp only
    rw [np "targetuser=".toList "systemuser=".toList v (by decide) (by decide) (by decide)]; dsimp only
    rw [skipPrefix_some.mpr rfl]
  have s2 : ∀ o, parseArg o ("targetuser=".toList ++ v) = { o with target := (uidOf v).getD o.target } := by
    intro o; unfold parseArg
    rw [np "xauthpath=".toList "targetuser=".toList v (by decide) (by decide) (by decide)]; dsimp only
    rw [skipPrefix_some.mpr rfl]
  refine ⟨fun n hn hlt => ?_, fun hn => ?_⟩
  · rw [e, e, s1, s2, uidOf_number hn hlt]; exact ⟨rfl, rfl⟩
  · rw [e, e, s1, s2, uidOf_none hn]; exact ⟨rfl, rfl⟩

/-- **C121**: other arguments change neither number; xauthpath= names the program. -/
theorem C121_other (argv : List Str) (a : Str) (h : ¬ "systemuser=".toList <+: a ∧ ¬ "targetuser=".toList <+: a) :
    (parse (argv ++ [a])).system = (parse argv).system ∧ (parse (argv ++ [a])).target = (parse argv).target ∧
    (∀ v, a = "xauthpath=".toList ++ v → (parse (argv ++ [a])).xauth = some v) ∧
    (¬ "xauthpath=".toList <+: a → (parse (argv ++ [a])).xauth = (parse argv).xauth) := by
  have e : parse (argv ++ [a]) = parseArg (parse argv) a := by unfold parse; rw [List.foldl_append]; rfl
  rw [e]
  unfold parseArg
  rw [skipPrefix_none.mpr h.1, skipPrefix_none.mpr h.2]
  cases hx : skipPrefix a "xauthpath=".toList with
  | none =>
    refine ⟨rfl, rfl, fun v hv => ?_, fun _ => rfl⟩
    rw [skipPrefix_some.mpr hv] at hx; cases hx
  | some v =>
    refine ⟨rfl, rfl, fun u hu => ?_, fun hn => ?_⟩
    · rw [skipPrefix_some.mpr hu] at hx; cases hx; rfl
    · exact absurd ⟨v, (skipPrefix_some.mp hx).symm⟩ hn

/-- **C121** is false of larger numbers: `systemuser=4294967296` is read as 0, so that all accounts are handed keys; -1 is read as 4294967295. -/
theorem C121_counterexample : Number "4294967296".toList 4294967296 ∧ parse ["systemuser=4294967296".toList] = ⟨none, 0, 0⟩ ∧
    parse ["systemuser=-1".toList] = ⟨none, 4294967295, 0⟩ := by
  refine ⟨⟨[], "4294967296".toList, 4294967296, by simp, ⟨by decide, by decide, by decide⟩, Or.inl ⟨rfl, rfl⟩⟩, by decide +kernel, by decide +kernel⟩

/-! ### the end of the session -/

/-- the name kept in the handle by some steps -/
def Spec.kept : List Op → Option Str → Option Str
  | [], d => d
  | .keep f :: r, _ => kept r (some f)
  | _ :: r, d => kept r d

theorem kept_append (a b : List Op) (d : Option Str) : kept (a ++ b) d = kept b (kept a d) := by
  induction a generalizing d with
  | nil => rfl
  | cons x a ih => cases x <;> exact ih _

theorem kept_list {tr : List Op} {u g : Nat} {s : Str} (h : ∀ x ∈ tr, ∃ k, x = .list u g s k) (d : Option Str) : kept tr d = d := by
  induction tr generalizing d with
  | nil => rfl
  | cons x tr ih =>
    obtain ⟨k, rfl⟩ := h x (by simp)
    exact ih (fun y hy => h y (by simp [hy])) d

theorem findCookie_lists {w : World} {file d : Str} {tr : List Op} {c : Str} (h : findCookie w file d = some (tr, c)) : ∀ x ∈ tr, ∃ k, x = .list w.uid w.gid file k := by
  unfold findCookie at h
  cases hn : w.nlist file d with
  | none => rw [hn] at h; cases h
  | some c0 =>
    rw [hn] at h; dsimp only at h
    split at h
    · cases h; simp
    · cases hl : localDisplay w d with
      | none => rw [hl] at h; cases h; simp
      | some n => rw [hl] at h; simp only [Option.some.injEq, Prod.mk.injEq] at h; rw [← h.1]; simp

/-- **C122** (if the module's own privileges can be regained, and the session is opened once): a file made for a session is gone when the session could not be opened, and
removed, as the user it was made for, when the session is closed. -/
theorem C122_removed_partial (w : World) (argv : List Str) (data : Option Str) (uid : Nat) (dir file : Str) (hreg : w.regain = true)
    (h : .mkstemp uid dir (some file) ∈ (openSession w argv).2) :
    ((openSession w argv).1 ≠ PAM_SUCCESS ∧ .unlink w.euid file ∈ (openSession w argv).2) ∨
    ((openSession w argv).1 = PAM_SUCCESS ∧ kept (openSession w argv).2 data = some file ∧
      ∀ w' : World, w'.user = w.user → (∀ n, w'.pwnam n = w.pwnam n) → closeSession w' true (kept (openSession w argv).2 data) = (PAM_SUCCESS, [.unlink uid file])) := by
  obtain ⟨user, r, t, hu, hr, ht, he, ha⟩ := C120_agreed w argv _ h trivial
  cases hd : w.display with
  | none => rw [C120_nothing w argv (Or.inr hd)] at h; cases h
  | some d =>
    by_cases hx : (parse argv).xauth ≠ none ∨ w.found ≠ none
    · rw [openSession_ready ⟨hx, hd, hu, hr, ht, he, ha⟩] at h ⊢
      cases hf : findCookie w (w.xauthority.getD (r.dir ++ "/.Xauthority".toList)) d with
      | none => rw [hf] at h; simp [forward, finish] at h
      | some p =>
        obtain ⟨tr, c⟩ := p
        rw [hf] at h
        have hl := findCookie_lists hf
        have hnl : .mkstemp uid dir (some file) ∉ tr := fun hm => by obtain ⟨k, hk⟩ := hl _ hm; cases hk
        by_cases hc : c = []
        · exfalso
          unfold finish forward at h
          dsimp only at h
          simp only [if_pos hc] at h
          split at h
          · simp only [List.mem_append, List.mem_singleton, reduceCtorEq, or_false] at h; exact hnl h
          · exact hnl h
        · unfold forward at h ⊢
          simp only [if_neg hc] at h ⊢
          unfold handOver at h ⊢
          cases hm : w.mkstemp with
          | none =>
            exfalso
            rw [hm] at h
            unfold finish at h
            dsimp only at h
            split at h <;> simp [hnl] at h
          | some f =>
            rw [hm] at h
            simp only [hreg, not_true_eq_false, if_false] at h ⊢
            by_cases hs : w.setData = true
            · right
              simp only [hs, not_true_eq_false, if_false, finish] at h ⊢
              simp only [ne_eq, not_true_eq_false, false_and, if_false] at h ⊢
              simp only [List.mem_append, hnl, List.mem_cons, List.mem_map, reduceCtorEq, and_false, exists_false, List.not_mem_nil, or_false, false_or, Op.mkstemp.injEq,
                Option.some.injEq] at h
              obtain ⟨rfl, rfl, rfl⟩ := h
              have hk : ∀ l : List Op, kept (tr ++ (Op.mkstemp t.uid t.dir (some (t.dir ++ '/' :: f)) :: .keep (t.dir ++ '/' :: f) :: l)) data = kept l (some (t.dir ++ '/' :: f)) := by
                intro l; rw [kept_append, kept_list hl]; rfl
              have hk2 : kept (tr ++ ([.mkstemp t.uid t.dir (some (t.dir ++ '/' :: f)), .keep (t.dir ++ '/' :: f), .pamEnv ("XAUTHORITY=".toList ++ (t.dir ++ '/' :: f)),
                    .putenv ("XAUTHORITY=".toList ++ (t.dir ++ '/' :: f)), .pamEnv ("DISPLAY=".toList ++ d)] ++
                    (w.localname.toList.map fun n => .pamEnv ("XAUTHLOCALHOSTNAME=".toList ++ n)) ++ [.merge t.uid t.gid (t.dir ++ '/' :: f) c])) data = some (t.dir ++ '/' :: f) := by
                simp only [List.cons_append, hk]
                cases w.localname <;> rfl
              refine ⟨trivial, hk2, fun w' e1 e2 => ?_⟩
              rw [hk2]
              unfold closeSession
              simp only [e1, hu, e2, ht, if_true]
            · left
              have hs : w.setData = false := by simpa using hs
              have hne : PAM_SESSION_ERR ≠ PAM_SUCCESS := by decide
              simp only [hs, Bool.false_eq_true, not_false_eq_true, if_true, finish] at h ⊢
              cases hxa : w.xauthority with
              | none =>
                simp only [hxa, Option.isSome_none, Bool.false_eq_true, and_false, if_false, List.mem_append, hnl, List.mem_cons, reduceCtorEq, List.not_mem_nil, or_false, false_or,
                  Op.mkstemp.injEq, Option.some.injEq] at h ⊢
                exact ⟨hne, Or.inr (by rw [h.2.2])⟩
              | some x =>
                simp only [hxa, Option.isSome_some, hne, ne_eq, not_false_eq_true, and_self, if_true, List.mem_append, hnl, List.mem_cons, reduceCtorEq, List.not_mem_nil, or_false,
                  false_or, Op.mkstemp.injEq, Option.some.injEq] at h ⊢
                exact ⟨trivial, Or.inr (by rw [h.2.2])⟩
    · simp only [not_or, ne_eq, Classical.not_not] at hx
      rw [C120_nothing w argv (Or.inl hx)] at h; cases h

/-- **C122**: closing removes nothing but the file whose name was kept, with the privileges of the user; without one, nothing. -/
theorem C122_close (w : World) (priv : Bool) (data : Option Str) :
    (data = none → closeSession w priv data = (PAM_SUCCESS, [])) ∧
    (∀ op ∈ (closeSession w priv data).2, ∃ user t f, w.user = some user ∧ w.pwnam user = some t ∧ data = some f ∧ op = .unlink t.uid f) := by
  refine ⟨fun h => by rw [h]; rfl, fun op ho => ?_⟩
  unfold closeSession at ho
  cases data with
  | none => cases ho
  | some f =>
    cases hu : w.user with
    | none => simp [hu] at ho
    | some user =>
      cases ht : w.pwnam user with
      | none => simp [hu, ht] at ho
      | some t =>
        simp only [hu, ht] at ho
        split at ho
        · rw [List.mem_singleton] at ho
          exact ⟨user, t, f, rfl, ht, rfl, ho⟩
        · cases ho

/-! ### cases -/

/-- an example: root's caller `ann` (1000) becomes `bob` (1001), who has no import file; ann exports to names beginning with b -/
def Spec.annToBob : World where
  fnmatch p n := p = n || (p = "b*".toList && n.head? = some 'b')
  found := some "/usr/bin/xauth".toList
  uid := 1000
  gid := 100
  display := some ":0".toList
  xauthority := none
  localname := none
  user := some "bob".toList
  pwuid u := if u = 1000 then some ⟨"ann".toList, 1000, 100, "/home/ann".toList⟩ else none
  pwnam n := if n = "ann".toList then some ⟨"ann".toList, 1000, 100, "/home/ann".toList⟩ else if n = "bob".toList then some ⟨"bob".toList, 1001, 100, "/home/bob".toList⟩ else none
  acl u s := if u = "ann".toList ∧ s = "export" then .text "carol\r\nb*\r\n".toList else .noent
  nlist f d := if f = "/home/ann/.Xauthority".toList ∧ d = ":0".toList then some "key".toList else some []
  hostname := some "h".toList
  euid := 0
  mkstemp := some ".xauthX".toList
  regain := true
  setData := true

example : (openSession annToBob []).1 = PAM_SUCCESS ∧ .merge 1001 100 "/home/bob/.xauthX".toList "key".toList ∈ (openSession annToBob []).2 := by decide +kernel
example : openSession { annToBob with acl := fun u s => if u = "ann".toList ∧ s = "export" then .text "carol\n".toList else .noent } [] = (PAM_SESSION_ERR, []) := by decide +kernel
example : openSession annToBob ["systemuser=1001".toList] = (PAM_SESSION_ERR, []) := by decide +kernel
example : (openSession annToBob ["systemuser=1001".toList, "targetuser=1001".toList]).1 = PAM_SUCCESS := by decide +kernel
example : Number " +1001".toList 1001 := ⟨[' '], "1001".toList, 1001, by decide, ⟨by decide, by decide, by decide⟩, Or.inr (Or.inl ⟨rfl, rfl⟩)⟩

/-- **C122** is false if privileges cannot be regained: the file stays, and no session knows of it. -/
theorem C122_regain_counterexample : openSession { annToBob with regain := false } [] =
    (PAM_SESSION_ERR, [.list 1000 100 "/home/ann/.Xauthority".toList ":0".toList, .mkstemp 1001 "/home/bob".toList (some "/home/bob/.xauthX".toList)]) := by decide +kernel

/-- **C122** is false if a session is opened twice with a handle: the name of the first file is forgotten, and it stays. -/
theorem C122_twice_counterexample :
    let a := (openSession annToBob []).2
    let b := (openSession { annToBob with mkstemp := some ".xauthY".toList } []).2
    .mkstemp 1001 "/home/bob".toList (some "/home/bob/.xauthX".toList) ∈ a ∧ .unlink 1001 "/home/bob/.xauthX".toList ∉ a ++ b ∧
      closeSession annToBob true (kept (a ++ b) none) = (PAM_SUCCESS, [.unlink 1001 "/home/bob/.xauthY".toList]) := by decide +kernel

/-- **C123** (if xauth can be run): a session that is opened successfully has been handed the key. -/
theorem C123_success_partial (w : World) (argv : List Str) (d user : Str) (r t : Pwd) (h : Ready w (parse argv) d user r t)
    (hrun : w.nlist (w.xauthority.getD (r.dir ++ "/.Xauthority".toList)) d ≠ none) (hs : (openSession w argv).1 = PAM_SUCCESS) :
    ∃ file cookie, cookie ≠ [] ∧ .merge t.uid t.gid file cookie ∈ (openSession w argv).2 ∧ .pamEnv ("XAUTHORITY=".toList ++ file) ∈ (openSession w argv).2 := by
  rw [openSession_ready h] at hs ⊢
  cases hf : findCookie w (w.xauthority.getD (r.dir ++ "/.Xauthority".toList)) d with
  | none =>
    unfold findCookie at hf
    cases hn : w.nlist (w.xauthority.getD (r.dir ++ "/.Xauthority".toList)) d with
    | none => exact absurd hn hrun
    | some c =>
      rw [hn] at hf
      dsimp only at hf
      split at hf
      · cases hf
      · cases hl : localDisplay w d <;> rw [hl] at hf <;> cases hf
  | some p =>
    obtain ⟨tr, c⟩ := p
    rw [hf] at hs
    unfold forward at hs ⊢
    have hfin : ∀ x : Int × List Op, (finish w.xauthority x).1 = x.1 := by intro x; unfold finish; split <;> rfl
    rw [hfin] at hs
    by_cases hc : c = []
    · simp only [if_pos hc] at hs; exact absurd hs (by decide)
    · simp only [if_neg hc] at hs ⊢
      unfold handOver at hs ⊢
      cases hm : w.mkstemp with
      | none => rw [hm] at hs; exact absurd hs (by decide : PAM_SESSION_ERR ≠ PAM_SUCCESS)
      | some f =>
        rw [hm] at hs
        dsimp only at hs ⊢
        by_cases hreg : w.regain = true
        · by_cases hsd : w.setData = true
          · simp only [hreg, hsd, not_true_eq_false, if_false]
            refine ⟨t.dir ++ '/' :: f, c, hc, ?_, ?_⟩
            · simp [finish]
            · simp [finish]
          · rw [if_neg (not_not_intro hreg), if_pos hsd] at hs; exact absurd hs (by decide : PAM_SESSION_ERR ≠ PAM_SUCCESS)
        · rw [if_pos hreg] at hs; exact absurd hs (by decide : PAM_SESSION_ERR ≠ PAM_SUCCESS)

/-- **C123** is false if xauth cannot be run: nothing is handed over, and the session succeeds.  (Nor is it looked at whether xauth could write the key.) -/
theorem C123_counterexample : openSession { annToBob with nlist := fun _ _ => none } [] = (PAM_SUCCESS, []) := by decide +kernel

end Pam.Xauth
