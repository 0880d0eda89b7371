import Verif.Audit.Sepermit
import Verif.Audit.TtyProps
/-
C144 and C145: pam_sepermit.
-/
namespace Pam.Audit.Sepermit
open Pam Pam.Small Pam.Audit
open Pam.Simple.Spec (WordOf)

namespace Spec

/-- the text of a line: up to a NUL, without blanks at both ends, and not a comment -/
def Text (l t : Str) : Prop :=
  ∃ b1 b2 rest, (l = b1 ++ t ++ b2 ∨ l = b1 ++ t ++ b2 ++ NUL :: rest) ∧ NUL ∉ b1 ++ t ++ b2 ∧ (b1 ++ t ++ b2).head? ≠ some '#' ∧
    (∀ c ∈ b1, isSpace c = true) ∧ (∀ c ∈ b2, isSpace c = true) ∧
    (∀ c, t.head? = some c → isSpace c = false) ∧ (∀ c, t.getLast? = some c → isSpace c = false)

/-- a line for a user, with what comes after -/
def Entry (l who opts : Str) : Prop :=
  ∃ colons, Text l (colons ++ who ++ opts) ∧ (∀ c ∈ colons, c = ':') ∧ who ≠ [] ∧ ':' ∉ who ∧ (opts = [] ∨ ∃ r, opts = ':' :: r)

/-- a line with nothing in it -/
def Nothing (l : Str) : Prop := Text l [] ∨ l.head? = some '#'

/-- the user is meant: by a group after @, by the SELinux user after %, or by name -/
def Meant (w : World) (user who : Str) : Prop :=
  (∃ g, who = '@' :: g ∧ w.inGroup user g = true) ∨ (∃ s, who = '%' :: s ∧ w.seuser user = some s) ∨
  (who = user ∧ who.head? ≠ some '@' ∧ who.head? ≠ some '%')

/-- a line that is passed over -/
def Passes (w : World) (user l : Str) : Prop := Nothing l ∨ ∃ who opts, Entry l who opts ∧ ¬ Meant w user who

/-- the file of the configuration -/
def Config (w : World) (argv : List Str) (f : Str) : Prop :=
  Last "conf=" argv f ∨ (Without "conf=" argv ∧ f = (if w.admin then "/etc/security/sepermit.conf" else "/usr/etc/security/sepermit.conf").toList)

/-- the lock for an exclusive login is needed -/
def Needed (w : World) (opts : Str) : Prop :=
  WordOf ':' opts "exclusive".toList ∧ w.euid = 0 ∧ (w.loginuid = none ∨ ∃ n, w.loginuid = some n ∧ n % 4294967296 = 4294967295)

/-- every handle asks only once -/
def Single (evs : List Ev) : Prop :=
  ∀ pre p u r o post, evs = pre ++ .ask p u r o :: post → ∀ a u' r' o' b, pre = a ++ .ask p u' r' o' :: b → .finish p ∈ b

/-- after these events the login has been granted exclusively, and has not ended -/
def Granted (evs : List Ev) (p u : Nat) : Prop :=
  ∃ pre r o post, evs = pre ++ .ask p u r o :: post ∧ (step (run start pre) (.ask p u r o)).1 = true ∧ .finish p ∉ post

end Spec
open Spec

theorem cstr_text {s rest : Str} (h : NUL ∉ s) : cstr s = s ∧ cstr (s ++ NUL :: rest) = s := by
  have hp : ∀ c ∈ s, (decide (c ≠ NUL)) = true := by intro c hc; simp; rintro rfl; exact h hc
  unfold cstr
  constructor
  · have := List.takeWhile_append_of_pos (l₂ := []) hp
    simpa using this
  · rw [List.takeWhile_append_of_pos hp, List.takeWhile_cons_of_neg (by simp), List.append_nil]

theorem strip_text {b1 t b2 : Str} (h1 : ∀ c ∈ b1, isSpace c = true) (h2 : ∀ c ∈ b2, isSpace c = true)
    (hh : ∀ c, t.head? = some c → isSpace c = false) (hl : ∀ c, t.getLast? = some c → isSpace c = false) : strip (b1 ++ t ++ b2) = t := by
  unfold strip
  rw [List.append_assoc, List.dropWhile_append_of_pos h1]
  cases t with
  | nil =>
    have : b2.dropWhile isSpace = [] := by
      have := List.dropWhile_append_of_pos (l₂ := []) h2
      simpa using this
    rw [List.nil_append, this]; rfl
  | cons c r =>
    rw [List.cons_append, List.dropWhile_cons_of_neg (by rw [hh c rfl]; decide), ← List.cons_append, List.reverse_append,
      List.dropWhile_append_of_pos (by intro x hx; exact h2 x (List.mem_reverse.mp hx))]
    cases hr : (c :: r).reverse with
    | nil => rw [List.reverse_eq_nil_iff] at hr; cases hr
    | cons d q =>
      have hd : (c :: r).getLast? = some d := by rw [← List.head?_reverse, hr]; rfl
      rw [List.dropWhile_cons_of_neg (by rw [hl d hd]; decide), ← hr, List.reverse_reverse]

theorem text_line {l t : Str} (h : Text l t) : (cstr l).head? ≠ some '#' ∧ strip (cstr l) = t := by
  obtain ⟨b1, b2, rest, hl, hn, hc, h1, h2, h3, h4⟩ := h
  have : cstr l = b1 ++ t ++ b2 := by
    rcases hl with rfl | rfl
    · exact (cstr_text (rest := []) hn).1
    · exact (cstr_text hn).2
  rw [this]
  exact ⟨hc, strip_text h1 h2 h3 h4⟩

theorem head_cstr {l : Str} {c : Char} (hc : c ≠ NUL) : (cstr l).head? = some c ↔ l.head? = some c := by
  cases l with
  | nil => rfl
  | cons d r =>
    unfold cstr
    by_cases h : d = NUL
    · rw [List.takeWhile_cons_of_neg (by simpa using h)]
      simp only [List.head?_nil, List.head?_cons, Option.some.injEq]
      constructor
      · intro h; cases h
      · rintro rfl; exact absurd h hc
    · rw [List.takeWhile_cons_of_pos (by simpa using h)]; rfl

theorem meant_iff (w : World) (user who : Str) (h : who ≠ []) : meant w user who = true ↔ Meant w user who := by
  cases who with
  | nil => exact absurd rfl h
  | cons c r =>
    unfold meant Meant
    dsimp only
    by_cases h1 : c = '@'
    · subst h1
      rw [if_pos rfl]
      simp
    · rw [if_neg h1]
      by_cases h2 : c = '%'
      · subst h2
        rw [if_pos rfl]
        simp
      · rw [if_neg h2]
        rw [decide_eq_true_eq]
        constructor
        · intro e
          exact Or.inr (Or.inr ⟨e.symm, fun h => h1 (Option.some.inj h), fun h => h2 (Option.some.inj h)⟩)
        · rintro (⟨g, e, _⟩ | ⟨g, e, _⟩ | ⟨e, _⟩)
          · exact absurd (List.cons.inj e).1 h1
          · exact absurd (List.cons.inj e).1 h2
          · exact e.symm

theorem tokens_entry {colons who opts : Str} (hc : ∀ c ∈ colons, c = ':') (hw : who ≠ []) (hn : ':' ∉ who) (ho : opts = [] ∨ ∃ r, opts = ':' :: r) :
    ∃ rest, tokens ':' (colons ++ who ++ opts) = who :: rest ∧ ∀ t, t ∈ rest ↔ WordOf ':' opts t := by
  have hlen : 0 < (colons ++ who ++ opts).length := by
    have := List.length_pos_iff.mpr hw
    simp only [List.length_append]; omega
  unfold tokens
  obtain ⟨n, hn2⟩ : ∃ n, (colons ++ who ++ opts).length = n + 1 := ⟨_, (Nat.succ_pred_eq_of_pos hlen).symm⟩
  rw [hn2]
  unfold toks
  have hfirst : ∀ s, Simple.strtok ':' (colons ++ who ++ opts) = s → s = some (who, opts.drop 1) := by
    rintro s rfl
    rcases Simple.strtok_cases ':' (colons ++ who ++ opts) with ⟨_, h⟩ | ⟨a, t, b, e, hs, ha, ht, htn, hb, _⟩
    · obtain ⟨c, hcm⟩ := List.exists_mem_of_ne_nil who hw
      exact absurd (h c (by simp [hcm]) ▸ hcm) hn
    · have e1 : who = t := Simple.first_unique ⟨colons, opts, rfl, hw, hn, hc, ho⟩ ⟨a, b, hs, ht, htn, ha, hb⟩
      subst e1
      have e2 : colons = a := by
        have k1 : (colons ++ who ++ opts).takeWhile (· = ':') = colons := by
          rw [List.append_assoc, List.takeWhile_append_of_pos (by intro c h; simpa using hc c h)]
          cases who with
          | nil => exact absurd rfl hw
          | cons d r => rw [List.cons_append, List.takeWhile_cons_of_neg (by simp; rintro rfl; exact hn (by simp)), List.append_nil]
        have k2 : (a ++ who ++ b).takeWhile (· = ':') = a := by
          rw [List.append_assoc, List.takeWhile_append_of_pos (by intro c h; simpa using ha c h)]
          cases who with
          | nil => exact absurd rfl hw
          | cons d r => rw [List.cons_append, List.takeWhile_cons_of_neg (by simp; rintro rfl; exact hn (by simp)), List.append_nil]
        rw [hs, k2] at k1
        exact k1.symm
      subst e2
      have e3 : opts = b := List.append_cancel_left hs
      subst e3
      exact e
  rw [hfirst _ rfl]
  refine ⟨_, rfl, fun t => ?_⟩
  rw [mem_toks]
  · rcases ho with rfl | ⟨r, rfl⟩
    · exact Iff.rfl
    · have := Simple.word_split (sep := ':') (a := []) (t := ['x']) (b := ':' :: r) (x := t) (by simp) (by simp) (by decide) (Or.inr ⟨r, rfl⟩)
      show WordOf ':' r t ↔ WordOf ':' (':' :: r) t
      constructor
      · rintro ⟨a, b, h, hne, hns, ha, hb⟩
        refine ⟨':' :: a, b, by rw [h]; rfl, hne, hns, ?_, hb⟩
        rcases ha with rfl | ⟨a', rfl⟩
        · exact Or.inr ⟨[], rfl⟩
        · exact Or.inr ⟨':' :: a', rfl⟩
      · rintro ⟨a, b, h, hne, hns, ha, hb⟩
        cases a with
        | nil =>
          cases t with
          | nil => exact absurd rfl hne
          | cons d q => rw [List.nil_append, List.cons_append] at h; cases h; exact absurd (by simp) hns
        | cons d a =>
          rw [List.cons_append, List.cons_append] at h
          cases h
          refine ⟨a, b, rfl, hne, hns, ?_, hb⟩
          rcases ha with ha | ⟨a', ha⟩
          · cases ha
          · cases a' with
            | nil => left; cases ha; rfl
            | cons x a' => right; rw [List.cons_append] at ha; cases ha; exact ⟨a', rfl⟩
  · have := List.length_pos_iff.mpr hw
    simp only [List.length_append, List.length_drop] at hn2 ⊢
    omega

theorem mem_or (k o : Str) (l : List Str) (b : Bool) : (b || decide (k ∈ o :: l)) = ((b || decide (o = k)) || decide (k ∈ l)) := by
  rw [Bool.or_assoc]
  congr 1
  by_cases h : o = k
  · subst h; simp
  · have e : (k ∈ o :: l) ↔ k ∈ l := ⟨fun h' => (List.mem_cons.mp h').elim (fun e => absurd e.symm h) id, List.mem_cons_of_mem _⟩
    rw [decide_eq_decide.mpr e, decide_eq_false h, Bool.false_or]

theorem optStep_eq (s : Bool × Bool) (o : Str) : optStep s o = (s.1 || decide (o = "exclusive".toList), s.2 || decide (o = "ignore".toList)) := by
  have hd : "exclusive".toList ≠ "ignore".toList := by decide
  unfold optStep
  revert hd
  generalize "exclusive".toList = k1
  generalize "ignore".toList = k2
  intro hd
  by_cases h1 : o = k1
  · subst h1
    rw [if_pos rfl, decide_eq_true rfl, decide_eq_false hd, Bool.or_true, Bool.or_false]
  · rw [if_neg h1, decide_eq_false h1, Bool.or_false]
    by_cases h2 : o = k2
    · rw [if_pos h2, decide_eq_true h2, Bool.or_true]
    · rw [if_neg h2, decide_eq_false h2, Bool.or_false]

theorem opts_fold : ∀ (l : List Str) (s : Bool × Bool),
    l.foldl optStep s = (s.1 || decide ("exclusive".toList ∈ l), s.2 || decide ("ignore".toList ∈ l))
  | [], s => by
    rw [decide_eq_false List.not_mem_nil, decide_eq_false List.not_mem_nil, Bool.or_false, Bool.or_false]; rfl
  | o :: l, s => by
    rw [List.foldl_cons, opts_fold l, optStep_eq, mem_or, mem_or]

open Classical in
theorem line_entry {w : World} {user l who opts : Str} (h : Entry l who opts) : line w user l =
    if Meant w user who then .hit (decide (WordOf ':' opts "exclusive".toList)) (decide (WordOf ':' opts "ignore".toList)) else .pass := by
  obtain ⟨colons, ht, hc, hw, hn, ho⟩ := h
  obtain ⟨h1, h2⟩ := text_line ht
  obtain ⟨rest, e1, e2⟩ := tokens_entry hc hw hn ho
  unfold line
  dsimp only
  rw [if_neg h1, h2, if_neg (by simp [hw]), e1]
  dsimp only
  rw [opts_fold, Bool.false_or, Bool.false_or]
  by_cases hm : Meant w user who
  · rw [if_pos ((meant_iff w user who hw).mpr hm), if_pos hm]
    congr 1
    · rw [decide_eq_decide]; exact e2 _
    · rw [decide_eq_decide]; exact e2 _
  · rw [if_neg (fun h => hm ((meant_iff w user who hw).mp h)), if_neg hm]

theorem line_nothing {w : World} {user l : Str} (h : Nothing l) : line w user l = .pass := by
  unfold line
  dsimp only
  by_cases hc : (cstr l).head? = some '#'
  · rw [if_pos hc]
  · rw [if_neg hc]
    rcases h with h | h
    · rw [(text_line h).2, if_pos rfl]
    · exact absurd ((head_cstr (by decide)).mpr h) hc

theorem line_passes {w : World} {user l : Str} (h : Passes w user l) : line w user l = .pass := by
  rcases h with h | ⟨who, opts, he, hm⟩
  · exact line_nothing h
  · rw [line_entry he, if_neg hm]

theorem scan_pass {w : World} {user : Str} : ∀ {pre : List Str} (rest : List Str), (∀ x ∈ pre, Passes w user x) → scan w user (pre ++ rest) = scan w user rest
  | [], _, _ => rfl
  | x :: pre, rest, h => by
    rw [List.cons_append]
    conv => lhs; unfold scan
    rw [line_passes (h x List.mem_cons_self)]
    exact scan_pass rest (fun y hy => h y (List.mem_cons_of_mem _ hy))

theorem config_eq {w : World} {argv : List Str} {f : Str} (h : Config w argv f) :
    confOf w argv = f := by
  unfold confOf
  obtain ⟨h1, h2⟩ := foldl_last confArg id "conf=" (by
    intro s a ha
    unfold confArg
    rw [skipPrefix_none.mpr ha]
    split <;> rfl) argv none
  rcases h with hl | ⟨hw, rfl⟩
  · obtain ⟨pre, _, he⟩ := h2 f hl
    have he : argv.foldl confArg none = confArg (pre.foldl confArg none) ("conf=".toList ++ f) := he
    rw [he]
    unfold confArg
    rw [if_neg (by simp), skipPrefix_some.mpr rfl]
  · have hw' : argv.foldl confArg none = none := h1 hw
    rw [hw']
    cases w.admin <;> rfl

open Classical in
/-- C144: the first line of the configuration that means the user decides.  Such a user is denied unless SELinux enforces; if it does, the user passes, or is left to
the other modules with `ignore`; and is denied if an exclusive login is needed and cannot be had.  A user who is not meant is left to the other modules.  Missing:
lines of colons only. -/
theorem C144_decision_partial (w : World) (argv : List Str) :
    ((w.user = none ∨ w.user = some []) → sepermit w argv = some (PAM_USER_UNKNOWN, false)) ∧
    (∀ user f, w.user = some user → user ≠ [] → Config w argv f →
      (w.file f = none → sepermit w argv = some (PAM_SERVICE_ERR, false)) ∧
      (∀ lines, w.file f = some lines →
        ((∀ x ∈ lines, Passes w user x) → sepermit w argv = some (PAM_IGNORE, false)) ∧
        (∀ pre l post who opts, lines = pre ++ l :: post → (∀ x ∈ pre, Passes w user x) → Entry l who opts → Meant w user who →
          sepermit w argv = some (
            if w.enforcing = false then (PAM_AUTH_ERR, false)
            else if Needed w opts ∧ w.lock = false then (PAM_AUTH_ERR, true)
            else (if WordOf ':' opts "ignore".toList then PAM_IGNORE else PAM_SUCCESS, decide (Needed w opts)))))) := by
  constructor
  · intro h
    unfold sepermit
    dsimp only
    rcases h with h | h
    · rw [h]
    · rw [h]; rfl
  · intro user f hu hne hcfg
    unfold sepermit
    dsimp only
    rw [config_eq hcfg, hu]
    dsimp only
    rw [if_neg hne]
    constructor
    · intro h; rw [h]
    · intro lines hl
      rw [hl]
      dsimp only
      constructor
      · intro h
        have := scan_pass [] h
        rw [List.append_nil] at this
        rw [this]; rfl
      · rintro pre l post who opts rfl hp he hm
        rw [scan_pass _ hp]
        have e : scan w user (l :: post) = .hit (decide (WordOf ':' opts "exclusive".toList)) (decide (WordOf ':' opts "ignore".toList)) := by
          unfold scan
          rw [line_entry he, if_pos hm]
        rw [e]
        dsimp only
        congr 1
        unfold matched
        by_cases hE : w.enforcing = false
        · rw [if_pos hE, if_pos hE]
        · rw [if_neg hE, if_neg hE]
          dsimp only
          have hlog : loginuid w = 4294967295 ↔ (w.loginuid = none ∨ ∃ n, w.loginuid = some n ∧ n % 4294967296 = 4294967295) := by
            unfold loginuid
            cases w.loginuid with
            | none => simp
            | some n => simp
          have hN : (w.euid = 0 ∧ decide (WordOf ':' opts "exclusive".toList) = true ∧ loginuid w = 4294967295) ↔ Needed w opts := by
            unfold Needed
            rw [hlog, decide_eq_true_eq]
            exact ⟨fun h => ⟨h.2.1, h.1, h.2.2⟩, fun h => ⟨h.2.1, h.1, h.2.2⟩⟩
          have hI : (if decide (WordOf ':' opts "ignore".toList) = true then PAM_IGNORE else PAM_SUCCESS) =
              if WordOf ':' opts "ignore".toList then PAM_IGNORE else PAM_SUCCESS := by
            by_cases h : WordOf ':' opts "ignore".toList
            · rw [if_pos (decide_eq_true h), if_pos h]
            · rw [if_neg (by rw [decide_eq_false h]; decide), if_neg h]
          rw [hI]
          by_cases h : Needed w opts
          · rw [if_pos (hN.mpr h), decide_eq_true h]
            cases hk : w.lock with
            | false => rw [if_neg (by decide), if_pos ⟨h, rfl⟩]
            | true => rw [if_pos rfl, if_neg (fun h' : Needed w opts ∧ true = false => Bool.noConfusion h'.2)]
          · rw [if_neg (fun h' => h (hN.mp h')), if_neg (fun h' : Needed w opts ∧ w.lock = false => h h'.1), decide_eq_false h]

/-! ### exclusive logins -/

/-- what holds when every handle asks only once -/
def Inv (s : Locks) : Prop := ∀ p u, s.data p = some u → s.owner u = some p

theorem inv_ask {s : Locks} (h : Inv s) {p u : Nat} (hp : s.data p = none) (r : Option Nat) (o : Bool) :
    Inv (ask s p u r o).2 ∧ ((ask s p u r o).1 = true → (ask s p u r o).2.data p = some u) ∧
    (∀ q, q ≠ p → (ask s p u r o).2.data q = s.data q) ∧ ((ask s p u r o).1 = false → (ask s p u r o).2 = s) := by
  have key : ask s p u r o = (false, s) ∨ ((s.owner u = some p ∨ s.owner u = none) ∧
      ask s p u r o = (true, ⟨fun x => if x = u then some p else s.owner x, fun x => if x = p then some u else s.data x⟩)) := by
    unfold ask
    split
    · exact Or.inl rfl
    · split
      · exact Or.inl rfl
      · rw [hp]
        dsimp only
        cases ho : s.owner u with
        | some q =>
          dsimp only
          by_cases hq : q = p
          · subst hq
            rw [if_neg (fun h => h rfl)]
            refine Or.inr ⟨Or.inl rfl, ?_⟩
            congr 2
            funext x
            by_cases hx : x = u
            · rw [if_pos hx, hx, ho]
            · rw [if_neg hx]
          · rw [if_pos hq]; exact Or.inl rfl
        | none => exact Or.inr ⟨Or.inr rfl, rfl⟩
  rcases key with e | ⟨ho, e⟩
  · rw [e]; exact ⟨h, (by intro h; cases h), fun _ _ => rfl, fun _ => rfl⟩
  · rw [e]
    refine ⟨?_, fun _ => if_pos rfl, fun q hq => if_neg hq, (by intro h; cases h)⟩
    intro q v hq
    dsimp only at hq ⊢
    by_cases hqp : q = p
    · rw [if_pos hqp] at hq
      cases hq
      rw [if_pos rfl, hqp]
    · rw [if_neg hqp] at hq
      have := h q v hq
      by_cases hv : v = u
      · subst hv
        rcases ho with ho | ho
        · rw [ho] at this; cases this; exact absurd rfl hqp
        · rw [ho] at this; cases this
      · rw [if_neg hv]; exact this

theorem inv_finish {s : Locks} (h : Inv s) (p : Nat) :
    Inv (step s (.finish p)).2 ∧ (step s (.finish p)).2.data p = none ∧ ∀ q, q ≠ p → (step s (.finish p)).2.data q = s.data q := by
  cases hd : s.data p with
  | none =>
    have e : step s (.finish p) = (true, s) := by unfold step; dsimp only; rw [hd]
    rw [e]; exact ⟨h, hd, fun _ _ => rfl⟩
  | some u =>
    have e : step s (.finish p) = (true, { unlock s p u with data := fun x => if x = p then none else s.data x }) := by unfold step; dsimp only; rw [hd]
    rw [e]
    refine ⟨?_, if_pos rfl, fun q hq => if_neg hq⟩
    intro q v hq
    dsimp only at hq
    by_cases hqp : q = p
    · rw [if_pos hqp] at hq; cases hq
    · rw [if_neg hqp] at hq
      have h1 := h q v hq
      show (if v = u ∧ s.owner u = some p then none else s.owner v) = some q
      rw [if_neg]
      · exact h1
      · rintro ⟨rfl, h2⟩
        rw [h1] at h2; cases h2; exact hqp rfl

theorem run_append (s : Locks) : ∀ (a b : List Ev), run s (a ++ b) = run (run s a) b
  | [], b => rfl
  | e :: a, b => by
    show run (step s e).2 (a ++ b) = _
    rw [run_append]; rfl

theorem snoc_ind {α : Type} {P : List α → Prop} (h0 : P []) (h1 : ∀ l x, P l → P (l ++ [x])) (l : List α) : P l := by
  have : ∀ l : List α, P l.reverse := by
    intro l
    induction l with
    | nil => exact h0
    | cons x l ih => rw [List.reverse_cons]; exact h1 _ _ ih
  have h := this l.reverse
  rwa [List.reverse_reverse] at h

/-- histories in which each handle asks once keep the invariant -/
theorem run_inv (evs : List Ev) : Single evs → Inv (run start evs) ∧
    (∀ p, (run start evs).data p ≠ none → ∃ a u r o b, evs = a ++ .ask p u r o :: b ∧ .finish p ∉ b) ∧
    (∀ p u, Granted evs p u → (run start evs).data p = some u) := by
  induction evs using snoc_ind with
  | h0 =>
    intro _
    refine ⟨(by intro p u h; cases h), (by intro p h; exact absurd rfl h), ?_⟩
    rintro p u ⟨pre, r, o, post, h, _⟩
    cases pre <;> cases h
  | h1 evs e ih =>
    intro hs
    have hs' : Single evs := by
      intro pre p u r o post h a u' r' o' b hb
      exact hs pre p u r o (post ++ [e]) (by rw [h]; simp) a u' r' o' b hb
    obtain ⟨hi, hd, hg⟩ := ih hs'
    rw [run_append]
    show Inv (step (run start evs) e).2 ∧ (∀ p, (step (run start evs) e).2.data p ≠ none → _) ∧ (∀ p u, _ → (step (run start evs) e).2.data p = some u)
    cases e with
    | finish q =>
      obtain ⟨h1, h2, h3⟩ := inv_finish hi q
      refine ⟨h1, ?_, ?_⟩
      · intro p hp
        by_cases hpq : p = q
        · subst hpq; exact absurd h2 hp
        · rw [h3 p hpq] at hp
          obtain ⟨a, u, r, o, b, he, hb⟩ := hd p hp
          refine ⟨a, u, r, o, b ++ [.finish q], by rw [he]; simp, ?_⟩
          simp only [List.mem_append, List.mem_singleton, not_or]
          exact ⟨hb, fun h => hpq (by cases h; rfl)⟩
      · rintro p u ⟨pre, r, o, post, he, hgr, hf⟩
        rcases List.eq_nil_or_concat post with rfl | ⟨post', x, rfl⟩
        · have := congrArg List.getLast? he
          simp at this
        · rw [List.concat_eq_append] at he hf
          have he2 : evs ++ [Ev.finish q] = (pre ++ .ask p u r o :: post') ++ [x] := by rw [he]; simp
          obtain ⟨e1, e2⟩ := List.append_inj' he2 rfl
          cases e2
          have hpq : p ≠ q := by rintro rfl; exact hf (by simp)
          rw [h3 p hpq]
          exact hg p u ⟨pre, r, o, post', e1, hgr, fun h => hf (by simp [h])⟩
    | ask q v r' o' =>
      have hq : (run start evs).data q = none := by
        cases hdq : (run start evs).data q with
        | none => rfl
        | some x =>
          obtain ⟨a, u, r, o, b, he, hb⟩ := hd q (by rw [hdq]; simp)
          exact absurd (hs evs q v r' o' [] rfl a u r o b he) hb
      obtain ⟨h1, h2, h3, h4⟩ := inv_ask hi (u := v) hq r' o'
      refine ⟨h1, ?_, ?_⟩
      · intro p hp
        by_cases hpq : p = q
        · subst hpq; exact ⟨evs, v, r', o', [], rfl, by simp⟩
        · have : (ask (run start evs) q v r' o').2.data p = (run start evs).data p := h3 p hpq
          have hp' : (run start evs).data p ≠ none := by rw [← this]; exact hp
          obtain ⟨a, u, r, o, b, he, hb⟩ := hd p hp'
          refine ⟨a, u, r, o, b ++ [.ask q v r' o'], by rw [he]; simp, ?_⟩
          simp only [List.mem_append, List.mem_singleton, not_or]
          exact ⟨hb, fun h => by cases h⟩
      · rintro p u ⟨pre, r, o, post, he, hgr, hf⟩
        rcases List.eq_nil_or_concat post with rfl | ⟨post', x, rfl⟩
        · obtain ⟨e1, e2⟩ := List.append_inj' he rfl
          cases e2
          subst e1
          exact h2 hgr
        · rw [List.concat_eq_append] at he hf
          have he2 : evs ++ [Ev.ask q v r' o'] = (pre ++ .ask p u r o :: post') ++ [x] := by rw [he]; simp
          obtain ⟨e1, e2⟩ := List.append_inj' he2 rfl
          cases e2
          have hG := hg p u ⟨pre, r, o, post', e1, hgr, fun h => hf (by simp [h])⟩
          by_cases hpq : p = q
          · subst hpq; rw [hq] at hG; cases hG
          · exact (h3 p hpq).trans hG

/-- C145, exclusive logins: if every handle asks only once, then no two logins are granted exclusively for the same user at the same time; and none is granted while
processes of the user are seen to run. -/
theorem C145_exclusive_partial (evs : List Ev) (h : Single evs) :
    (∀ p q u, Granted evs p u → Granted evs q u → p = q) ∧
    (∀ s p u n o, 0 < n → step s (.ask p u (some n) o) = (false, s)) := by
  constructor
  · intro p q u hp hq
    obtain ⟨hi, _, hg⟩ := run_inv evs h
    have h1 := hi p u (hg p u hp)
    have h2 := hi q u (hg q u hq)
    rw [h1] at h2
    exact Option.some.inj h2
  · intro s p u n o hn
    cases n with
    | zero => omega
    | succ n => rfl

/-- C145, the end: at the end of an exclusive login the processes of the user are killed until none is seen to run (or /proc cannot be read); those of root never. -/
theorem C145_end (found : Nat → Option Nat) (uid n : Nat) :
    (uid = 0 → killAll found uid n = some 0) ∧
    (uid ≠ 0 → ∀ k, killAll found uid n = some k → 0 < k ∧ (∀ i < k - 1, ∃ c, 0 < c ∧ found i = some c) ∧ (found (k - 1) = none ∨ found (k - 1) = some 0)) ∧
    (uid ≠ 0 → killAll found uid n = none → ∀ i < n, ∃ c, 0 < c ∧ found i = some c) := by
  have gen : ∀ (n i : Nat),
      (∀ k, killLoop found n i = some k → i < k ∧ (∀ j, i ≤ j → j < k - 1 → ∃ c, 0 < c ∧ found j = some c) ∧ (found (k - 1) = none ∨ found (k - 1) = some 0)) ∧
      (killLoop found n i = none → ∀ j, i ≤ j → j < i + n → ∃ c, 0 < c ∧ found j = some c) := by
    intro n
    induction n with
    | zero => intro i; exact ⟨(by intro k h; cases h), (by intro _ j h1 h2; omega)⟩
    | succ n ih =>
      intro i
      unfold killLoop
      cases hf : found i with
      | none =>
        dsimp only
        refine ⟨?_, by intro h; cases h⟩
        rintro k h
        cases h
        exact ⟨by omega, by intro j h1 h2; omega, Or.inl hf⟩
      | some c =>
        cases c with
        | zero =>
          dsimp only
          refine ⟨?_, by intro h; cases h⟩
          rintro k h
          cases h
          exact ⟨by omega, by intro j h1 h2; omega, Or.inr hf⟩
        | succ c =>
          dsimp only
          obtain ⟨h1, h2⟩ := ih (i + 1)
          constructor
          · intro k hk
            obtain ⟨g1, g2, g3⟩ := h1 k hk
            refine ⟨by omega, ?_, g3⟩
            intro j hj hjk
            by_cases e : j = i
            · subst e; exact ⟨c + 1, by omega, hf⟩
            · exact g2 j (by omega) hjk
          · intro hk j hj hjn
            by_cases e : j = i
            · subst e; exact ⟨c + 1, by omega, hf⟩
            · exact h2 hk j (by omega) (by omega)
  unfold killAll
  refine ⟨fun h => if_pos h, ?_, ?_⟩
  · intro h k hk
    rw [if_neg h] at hk
    obtain ⟨g1, g2, g3⟩ := (gen n 0).1 k hk
    exact ⟨g1, fun i hi => g2 i (by omega) hi, g3⟩
  · intro h hk i hi
    rw [if_neg h] at hk
    exact (gen n 0).2 hk i (by omega) (by omega)

/-! ### examples, and where more does not hold -/

def w0 : World where
  user := some "ann".toList
  file := fun f => if f = "/etc/security/sepermit.conf".toList then some ["# comment\n".toList, "\n".toList, "@wheel\n".toList, " %guest_u:exclusive:ignore \n".toList] else none
  admin := true
  enforcing := true
  seuser := fun _ => some "guest_u".toList
  inGroup := fun _ _ => false
  euid := 0
  loginuid := none
  lock := true

example : sepermit w0 [] = some (PAM_IGNORE, true) ∧ sepermit { w0 with enforcing := false } [] = some (PAM_AUTH_ERR, false) ∧
    sepermit { w0 with lock := false } [] = some (PAM_AUTH_ERR, true) := by decide +kernel

example : Entry " %guest_u:exclusive:ignore \n".toList "%guest_u".toList ":exclusive:ignore".toList :=
  ⟨[], ⟨" ".toList, " \n".toList, [], Or.inl rfl, by decide, by decide, by decide, by decide, by simp; decide, by simp; decide⟩, by simp, by decide, by decide,
    Or.inr ⟨"exclusive:ignore".toList, rfl⟩⟩

example : Meant w0 "ann".toList "%guest_u".toList := Or.inr (Or.inl ⟨_, rfl, rfl⟩)

example : Passes w0 "ann".toList "# comment\n".toList := Or.inl (Or.inr rfl)

example : Single [.ask 1 5 (some 0) true, .finish 1, .ask 1 5 (some 0) true, .ask 2 6 none true] ∧ Granted [.ask 1 5 (some 0) true, .ask 2 6 none true] 1 5 := by
  constructor
  · intro pre p u r o post h a u' r' o' b hb
    subst hb
    match a, b with
    | [], [] => cases h
    | [], [x] => cases h; exact List.mem_cons_self
    | [], [x, y] => cases h
    | [], x :: y :: z :: b => simp at h
    | [_], [] => cases h
    | [_], [x] => cases h
    | [_], x :: y :: b => simp at h
    | [_, _], [] => cases h
    | [_, _], x :: b => simp at h
    | [_, _, _], b => simp at h
    | [_, _, _, _], b => simp at h
    | _ :: _ :: _ :: _ :: _ :: a, b => simp at h
  · exact ⟨[], some 0, true, [.ask 2 6 none true], rfl, rfl, by simp⟩

/-- C144: a line of a colon is a crash. -/
theorem C144_colon_counterexample : ∃ w : World, w.file "/etc/security/sepermit.conf".toList = some [":\n".toList] ∧ sepermit w [] = none :=
  ⟨{ w0 with file := fun _ => some [":\n".toList] }, rfl, by decide +kernel⟩

/-- C145: with the module both in the auth and the account stack the handle asks twice; the second time gives up the lock of the first, so that another login is
granted for the same user. -/
theorem C145_twice_counterexample :
    (step start (.ask 1 5 (some 0) true)).1 = true ∧
    (step (run start [.ask 1 5 (some 0) true]) (.ask 1 5 (some 0) true)).1 = true ∧
    (step (run start [.ask 1 5 (some 0) true, .ask 1 5 (some 0) true]) (.ask 2 5 (some 0) true)).1 = true := by decide

/-- C145: an exclusive login is granted if /proc cannot be read, whatever runs. -/
theorem C145_proc_counterexample : (step start (.ask 1 5 none true)).1 = true := rfl

end Pam.Audit.Sepermit
