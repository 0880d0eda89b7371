import Verif.Simple.Login
import Verif.Config.ControlSpec
/-
C124 to C126: pam_ftp, pam_rhosts, and the modules that only answer.
-/
namespace Pam.Simple
open Pam
open Pam.Small (skipPrefix skipPrefix_some skipPrefix_none Last Without last_or_without)

namespace Spec

/-- a word of a text whose words are separated by a character -/
def WordOf (sep : Char) (s t : Str) : Prop :=
  ∃ a b, s = a ++ t ++ b ∧ t ≠ [] ∧ sep ∉ t ∧ (a = [] ∨ ∃ a', a = a' ++ [sep]) ∧ (b = [] ∨ ∃ b', b = sep :: b')

/-- the first word -/
def FirstWord (sep : Char) (s t : Str) : Prop :=
  ∃ a b, s = a ++ t ++ b ∧ t ≠ [] ∧ sep ∉ t ∧ (∀ c ∈ a, c = sep) ∧ (b = [] ∨ ∃ b', b = sep :: b')

/-- the names for anonymous access: those of the list, or ftp and anonymous if there is no list or an empty one -/
def Anonymous (list : Option Str) (name : Str) : Prop :=
  ((list = none ∨ list = some []) ∧ (name = "ftp".toList ∨ name = "anonymous".toList)) ∨ ∃ l, list = some l ∧ WordOf ',' l name

/-- the list of the arguments: the last users= -/
def UsersArg (argv : List Str) (list : Option Str) : Prop :=
  (Without "users=" argv ∧ list = none) ∨ ∃ v, Last "users=" argv v ∧ list = some v

end Spec
open Spec

/-! ### lemmas -/

theorem drop_sep (sep : Char) : ∀ s : Str, ∃ a, s = a ++ s.dropWhile (· = sep) ∧ (∀ c ∈ a, c = sep) ∧ ∀ c r, s.dropWhile (· = sep) = c :: r → c ≠ sep
  | [] => ⟨[], rfl, by simp, by simp⟩
  | c :: s => by
    by_cases h : c = sep
    · obtain ⟨a, h1, h2, h3⟩ := drop_sep sep s
      rw [List.dropWhile_cons_of_pos (by simpa using h)]
      refine ⟨c :: a, ?_, ?_, h3⟩
      · rw [List.cons_append, ← h1]
      · intro d hd
        rcases List.mem_cons.mp hd with rfl | hd
        · exact h
        · exact h2 d hd
    · rw [List.dropWhile_cons_of_neg (by simpa using h)]
      refine ⟨[], rfl, by simp, ?_⟩
      rintro d r e; cases e; exact h

theorem cut_sep (sep : Char) : ∀ s : Str, s = s.takeWhile (· ≠ sep) ++ s.dropWhile (· ≠ sep) ∧ sep ∉ s.takeWhile (· ≠ sep) ∧
    (s.dropWhile (· ≠ sep) = [] ∨ ∃ r, s.dropWhile (· ≠ sep) = sep :: r)
  | [] => ⟨rfl, by simp, Or.inl rfl⟩
  | c :: s => by
    by_cases h : c = sep
    · rw [List.takeWhile_cons_of_neg (by simpa using h), List.dropWhile_cons_of_neg (by simpa using h)]
      exact ⟨rfl, by simp, Or.inr ⟨s, by rw [h]⟩⟩
    · obtain ⟨h1, h2, h3⟩ := cut_sep sep s
      rw [List.takeWhile_cons_of_pos (by simpa using h), List.dropWhile_cons_of_pos (by simpa using h)]
      refine ⟨by rw [List.cons_append, ← h1], ?_, h3⟩
      intro hm
      rcases List.mem_cons.mp hm with e | hm
      · exact h e.symm
      · exact h2 hm

theorem strtok_cases (sep : Char) (s : Str) :
    (strtok sep s = none ∧ ∀ c ∈ s, c = sep) ∨
    ∃ a t b, strtok sep s = some (t, b.drop 1) ∧ s = a ++ t ++ b ∧ (∀ c ∈ a, c = sep) ∧ t ≠ [] ∧ sep ∉ t ∧ (b = [] ∨ ∃ r, b = sep :: r) ∧
      t = (s.dropWhile (· = sep)).takeWhile (· ≠ sep) ∧ a = s.takeWhile (· = sep) := by
  obtain ⟨a, h1, h2, h3⟩ := drop_sep sep s
  unfold strtok
  cases hd : s.dropWhile (· = sep) with
  | nil => left; rw [hd, List.append_nil] at h1; exact ⟨rfl, by rw [h1]; exact h2⟩
  | cons c r =>
    right
    obtain ⟨k1, k2, k3⟩ := cut_sep sep (c :: r)
    have hc : c ≠ sep := h3 c r hd
    refine ⟨a, _, _, rfl, ?_, h2, ?_, k2, k3, rfl, ?_⟩
    · rw [List.append_assoc, ← k1, ← hd]; exact h1
    · rw [List.takeWhile_cons_of_pos (by simpa using hc)]; simp
    · have h4 := List.takeWhile_append_dropWhile (p := (· = sep)) (l := s)
      rw [hd] at h1 h4
      exact (List.append_cancel_right (h4.trans h1)).symm

/-- the first word is one, and there is no other first word -/
theorem first_unique {sep : Char} {s t u : Str} (h1 : FirstWord sep s t) (h2 : FirstWord sep s u) : t = u := by
  have key : ∀ x, FirstWord sep s x → x = (s.dropWhile (· = sep)).takeWhile (· ≠ sep) := by
    rintro x ⟨a, b, rfl, hne, hn, ha, hb⟩
    have e : (a ++ x ++ b).dropWhile (· = sep) = x ++ b := by
      clear hb h1 h2
      induction a with
      | nil =>
        cases x with
        | nil => exact absurd rfl hne
        | cons c r => rw [List.nil_append, List.cons_append, List.dropWhile_cons_of_neg]; simp; rintro rfl; exact hn (by simp)
      | cons c a ih => rw [List.cons_append, List.cons_append, List.dropWhile_cons_of_pos (by simpa using ha c (by simp))]; exact ih (fun d hd => ha d (by simp [hd]))
    rw [e]
    clear e ha hne h1 h2
    induction x with
    | nil => rcases hb with rfl | ⟨b', rfl⟩ <;> simp
    | cons c x ih =>
      rw [List.cons_append, List.takeWhile_cons_of_pos (by simp; rintro rfl; exact hn (by simp)), ← ih (fun h => hn (List.mem_cons_of_mem _ h))]
  rw [key t h1, key u h2]

theorem word_split {sep : Char} {a t b x : Str} (ha : ∀ c ∈ a, c = sep) (ht : t ≠ []) (hn : sep ∉ t) (hb : b = [] ∨ ∃ r, b = sep :: r) :
    WordOf sep (a ++ t ++ b) x ↔ x = t ∨ WordOf sep (b.drop 1) x := by
  constructor
  · rintro ⟨p, q, e, hx, hnx, hp, hq⟩
    -- where does x begin?
    by_cases hlen : p.length ≤ a.length
    · -- the word begins in the separators, or right after them: p = a
      have hpa : p = a := by
        rcases Nat.lt_or_ge p.length a.length with hl | hl
        · exfalso
          have h0 : (a ++ t ++ b)[p.length]? = (p ++ x ++ q)[p.length]? := by rw [e]
          cases x with
          | nil => exact hx rfl
          | cons c x =>
            rw [List.append_assoc, List.append_assoc, List.getElem?_append_left hl, List.getElem?_append_right (Nat.le_refl _)] at h0
            simp only [Nat.sub_self, List.cons_append, List.getElem?_cons_zero] at h0
            have := ha c (List.mem_of_getElem? h0)
            exact hnx (by simp [this])
        · rw [List.append_assoc, List.append_assoc] at e
          exact (List.append_inj e (by omega)).1.symm
      subst hpa
      left
      rw [List.append_assoc, List.append_assoc] at e
      have e' := List.append_cancel_left e
      clear e
      rename t ++ b = x ++ q => e
      clear hlen hp ha
      induction t generalizing x with
      | nil => exact absurd rfl ht
      | cons c t ih =>
        cases x with
        | nil => exact absurd rfl hx
        | cons d x =>
          simp only [List.cons_append, List.cons.injEq] at e
          obtain ⟨rfl, e⟩ := e
          congr 1
          cases t with
          | nil =>
            cases x with
            | nil => rfl
            | cons f x =>
              rcases hb with rfl | ⟨r, rfl⟩
              · simp at e
              · simp only [List.nil_append, List.cons_append, List.cons.injEq] at e
                exact absurd (by rw [e.1]; simp) hnx
          | cons g t =>
            cases x with
            | nil =>
              rcases hq with rfl | ⟨r, rfl⟩
              · simp at e
              · simp only [List.cons_append, List.nil_append, List.cons.injEq] at e
                exact absurd (by rw [e.1]; simp) hn
            | cons f x => exact ih (by simp) (fun h => hn (List.mem_cons_of_mem _ h)) (by simp) (fun h => hnx (List.mem_cons_of_mem _ h)) e
    · right
      have hlen : a.length < p.length := by omega
      rcases hp with rfl | ⟨p', rfl⟩
      · simp at hlen
      · -- p' reaches over t
        have hge : a.length + t.length ≤ p'.length := by
          refine Classical.byContradiction fun hlt => ?_
          rw [List.length_append] at hlen
          simp only [List.length_singleton] at hlen
          have h0 : (a ++ t ++ b)[p'.length]? = (p' ++ [sep] ++ x ++ q)[p'.length]? := by rw [e]
          rw [List.append_assoc, List.getElem?_append_right (by omega), List.getElem?_append_left (by omega)] at h0
          rw [List.append_assoc, List.append_assoc, List.getElem?_append_right (Nat.le_refl _)] at h0
          simp at h0
          exact hn (List.mem_of_getElem? h0)
        have hb' : ∃ r, b = sep :: r := by
          rcases hb with rfl | h
          · have := congrArg List.length e
            simp at this
            omega
          · exact h
        obtain ⟨r, rfl⟩ := hb'
        simp only [List.drop_succ_cons, List.drop_zero]
        obtain ⟨m, hm⟩ : ∃ m, p' = a ++ t ++ m := by
          refine ⟨p'.drop (a ++ t).length, ?_⟩
          have h2 : (a ++ t).length ≤ p'.length := by simp; omega
          have h0 := congrArg (List.take (a ++ t).length) e
          rw [List.take_left, List.append_assoc, List.append_assoc, List.take_append_of_le_length h2] at h0
          conv => lhs; rw [← List.take_append_drop (a ++ t).length p', ← h0]
        subst hm
        rw [List.append_assoc, List.append_assoc, List.append_assoc, List.append_assoc] at e
        have e := List.append_cancel_left (by simpa [List.append_assoc] using e : (a ++ t) ++ (sep :: r) = (a ++ t) ++ (m ++ ([sep] ++ (x ++ q))))
        cases m with
        | nil =>
          simp at e
          exact ⟨[], q, by simpa using e, hx, hnx, Or.inl rfl, hq⟩
        | cons c m =>
          simp at e
          exact ⟨m ++ [sep], q, by simp [e.2], hx, hnx, Or.inr ⟨m, rfl⟩, hq⟩
  · rintro (rfl | ⟨p, q, e, hx, hnx, hp, hq⟩)
    · refine ⟨a, b, rfl, ht, hn, ?_, hb⟩
      rcases List.eq_nil_or_concat a with rfl | ⟨a', c, rfl⟩
      · exact Or.inl rfl
      · right; exact ⟨a', by rw [List.concat_eq_append] at ha ⊢; rw [ha c (by simp)]⟩
    · rcases hb with rfl | ⟨r, rfl⟩
      · simp only [List.drop_nil] at e
        have := congrArg List.length e
        cases x with
        | nil => exact absurd rfl hx
        | cons c x => simp at this
      · simp only [List.drop_succ_cons, List.drop_zero] at e
        refine ⟨a ++ t ++ sep :: p, q, by rw [e]; simp, hx, hnx, ?_, hq⟩
        right
        rcases hp with rfl | ⟨p', rfl⟩
        · exact ⟨a ++ t, rfl⟩
        · exact ⟨a ++ t ++ sep :: p', by simp⟩

theorem no_word {sep : Char} {s x : Str} (h : ∀ c ∈ s, c = sep) : ¬ WordOf sep s x := by
  rintro ⟨a, b, rfl, hx, hn, -⟩
  cases x with
  | nil => exact hx rfl
  | cons c x => exact hn (by rw [← h c (by simp)]; simp)

theorem tokenIs_iff (name : Str) : ∀ (n : Nat) (s : Str), s.length ≤ n → (tokenIs name n s = true ↔ WordOf ',' s name)
  | 0, s, h => by
    have : s = [] := List.length_eq_zero_iff.mp (by omega)
    subst this
    simp only [tokenIs, Bool.false_eq_true, false_iff]
    exact no_word (by simp)
  | n + 1, s, h => by
    unfold tokenIs
    rcases strtok_cases ',' s with ⟨e, h1⟩ | ⟨a, t, b, e, hs, ha, ht, hn, hb, -, -⟩
    · rw [e]; simp only [Bool.false_eq_true, false_iff]; exact no_word h1
    · rw [e]
      dsimp only
      rw [hs, word_split ha ht hn hb]
      have hl : (b.drop 1).length ≤ n := by
        have h2 := congrArg List.length hs
        have h3 : 0 < t.length := List.length_pos_iff.mpr ht
        simp only [List.length_append, List.length_drop] at h2 ⊢
        omega
      by_cases hx : t = name
      · simp [hx]
      · rw [if_neg hx, tokenIs_iff name n _ hl]
        simp [Ne.symm hx]

theorem ftpUsers_iff (argv : List Str) : UsersArg argv (ftpUsers argv) := by
  have h := Small.foldl_last ftpArg id "users=" (by
      intro s a ha
      simp only [id_eq]
      unfold ftpArg
      rw [skipPrefix_none.mpr ha]
      split <;> rfl) argv none
  rcases last_or_without "users=" argv with hw | ⟨v, hv⟩
  · exact Or.inl ⟨hw, h.1 hw⟩
  · refine Or.inr ⟨v, hv, ?_⟩
    obtain ⟨pre, -, he⟩ := h.2 v hv
    unfold ftpUsers
    simp only [id_eq] at he
    rw [he]
    unfold ftpArg
    rw [if_neg, skipPrefix_some.mpr rfl]
    · rfl
    rintro (e | e) <;> (have := congrArg List.head? e; simp at this)

theorem lookup_iff (name : Str) (list : Option Str) : (lookup name list ≠ none ↔ Anonymous list name) := by
  unfold lookup Anonymous
  cases list with
  | none =>
    dsimp only
    split <;> simp_all
  | some l =>
    cases l with
    | nil =>
      dsimp only
      have : ¬ WordOf ',' [] name := no_word (by simp)
      split <;> simp_all
    | cons c l =>
      dsimp only
      have hi := tokenIs_iff name ((c :: l).length) (c :: l) (Nat.le_refl _)
      by_cases hw : WordOf ',' (c :: l) name
      · rw [if_pos (hi.mpr hw)]; simp [hw]
      · rw [if_neg (fun h => hw (hi.mp h))]; simp [hw]

/-! ### pam_ftp -/

/-- **C124**: pam_ftp lets in, at most, those who give a name for anonymous access and then answer; all others get PAM_AUTH_ERR with what they answered as the password, so that the next
module can use it. -/
theorem C124_only_anonymous (user : Option Str) (conv : Ask → Answer) (argv : List Str) (r : Int × List SetItem × List Ask) (list : Option Str) (hl : UsersArg argv list)
    (h : ftp user conv argv = some r) :
    (r.1 = PAM_SUCCESS → ∃ name a, user = some name ∧ Anonymous list name ∧ conv .guest = .resp a) ∧
    (∀ name, user = some name → ¬ Anonymous list name → ∀ a, conv (.password name) = .resp a → r = (PAM_AUTH_ERR, [.authtok a], [.password name])) ∧
    (∀ name c, user = some name → (Anonymous list name → conv .guest = .error c) → (¬ Anonymous list name → conv (.password name) = .error c) →
      r.1 = if c = PAM_CONV_AGAIN then PAM_INCOMPLETE else PAM_AUTHINFO_UNAVAIL) ∧
    (user = none → r = (PAM_USER_UNKNOWN, [], [])) := by
  have he : ftpUsers argv = list := by
    rcases ftpUsers_iff argv with ⟨hw, h1⟩ | ⟨v, hv, h1⟩ <;> rcases hl with ⟨hw', h2⟩ | ⟨v', hv', h2⟩
    · rw [h1, h2]
    · exact absurd hv' (Small.without_last hw)
    · exact absurd hv (Small.without_last hw')
    · rw [h1, h2, Small.last_unique hv hv']
  unfold ftp at h
  rw [he] at h
  cases user with
  | none =>
    dsimp only at h
    cases h
    exact ⟨fun e => absurd e (by decide), by simp, by simp, fun _ => rfl⟩
  | some name =>
    dsimp only at h
    have hi := lookup_iff name list
    cases hk : lookup name list with
    | some u =>
      have ha := hi.mp (by rw [hk]; simp)
      rw [hk] at h
      dsimp only at h
      cases hc : conv .guest with
      | error c =>
        rw [hc] at h; cases h
        refine ⟨?_, ?_, ?_, by simp⟩
        · intro e; exfalso; revert e; dsimp only; split <;> decide
        · rintro n e hn; cases e; exact absurd ha hn
        · rintro n c' e h1 -; cases e
          cases h1 ha; rfl
      | resp a =>
        refine ⟨fun _ => ⟨name, a, rfl, ha, rfl⟩, ?_, ?_, by simp⟩
        · rintro n e hn; cases e; exact absurd ha hn
        · rintro n c' e h1 -; cases e
          cases h1 ha
    | none =>
      have ha : ¬ Anonymous list name := fun h' => hi.mpr h' hk
      rw [hk] at h
      dsimp only at h
      cases hc : conv (.password name) with
      | error c =>
        rw [hc] at h; cases h
        refine ⟨?_, ?_, ?_, by simp⟩
        · intro e; exfalso; revert e; dsimp only; split <;> decide
        · rintro n e - a hca; cases e; rw [hc] at hca; cases hca
        · rintro n c' e - h1; cases e
          rw [h1 ha] at hc; cases hc; rfl
      | resp a =>
        rw [hc] at h; cases h
        refine ⟨fun e => absurd e (by decide : PAM_AUTH_ERR ≠ PAM_SUCCESS), ?_, ?_, by simp⟩
        · rintro n e - a' hca; cases e; rw [hc] at hca; cases hca; rfl
        · rintro n c' e - h1; cases e
          rw [h1 ha] at hc; cases hc

/-- the name an anonymous user is given -/
def Spec.GuestName (list : Option Str) (u : Str) : Prop :=
  ((list = none ∨ list = some []) ∧ u = "ftp".toList) ∨ ∃ l, list = some l ∧ FirstWord ',' l u

/-- **C124** (for lists that do not begin with a comma, and answers that are not NULL; false otherwise): whoever gives a name for anonymous access and answers is let in as the first user
of the list; the part of the answer before an @ becomes the remote user and the part after it the remote host, unless `ignore` is given. -/
theorem C124_anonymous_partial (name resp u : Str) (conv : Ask → Answer) (argv : List Str) (list : Option Str) (hl : UsersArg argv list) (hcomma : ∀ l, list ≠ some (',' :: l))
    (ha : Anonymous list name) (hu : GuestName list u) (hc : conv .guest = .resp (some resp)) :
    ∃ items, ftp (some name) conv argv = some (PAM_SUCCESS, .user u :: items, [.guest]) ∧
      ("ignore".toList ∈ argv → items = []) ∧
      ("ignore".toList ∉ argv → (∀ a b, resp = a ++ '@' :: b → a ≠ [] → b ≠ [] → '@' ∉ a → '@' ∉ b → items = [.ruser (some a), .rhost (some b)]) ∧
        (resp ≠ [] → '@' ∉ resp → items = [.ruser (some resp), .rhost none]) ∧ (resp = [] → items = [.ruser none])) := by
  have he : ftpUsers argv = list := by
    rcases ftpUsers_iff argv with ⟨hw, h1⟩ | ⟨v, hv, h1⟩ <;> rcases hl with ⟨hw', h2⟩ | ⟨v', hv', h2⟩
    · rw [h1, h2]
    · exact absurd hv' (Small.without_last hw)
    · exact absurd hv (Small.without_last hw')
    · rw [h1, h2, Small.last_unique hv hv']
  have hk : lookup name list = some u := by
    have hi := (lookup_iff name list).mpr ha
    unfold lookup at hi ⊢
    cases list with
    | none =>
      rcases hu with ⟨-, rfl⟩ | ⟨l, e, -⟩
      · dsimp only at hi ⊢; split
        · rfl
        · next h => rw [if_neg h] at hi; exact absurd rfl hi
      · cases e
    | some l =>
      cases l with
      | nil =>
        rcases hu with ⟨-, rfl⟩ | ⟨l, e, hf⟩
        · dsimp only at hi ⊢; split
          · rfl
          · next h => rw [if_neg h] at hi; exact absurd rfl hi
        · cases e
          obtain ⟨p, q, e, hne, -⟩ := hf
          cases u with
          | nil => exact absurd rfl hne
          | cons c u => have := congrArg List.length e; simp at this
      | cons c l =>
        dsimp only at hi ⊢
        split
        · rcases hu with ⟨h | h, -⟩ | ⟨l', e, hf⟩
          · cases h
          · cases h
          · cases e
            have hc' : c ≠ ',' := by rintro rfl; exact hcomma l rfl
            rcases strtok_cases ',' (c :: l) with ⟨-, h1⟩ | ⟨a, t, b, -, hs, h2, h3, h4, h5, h6, h7⟩
            · exact absurd (h1 c (by simp)) hc'
            · rw [first_unique hf ⟨a, b, hs, h3, h4, h2, h5⟩, ← h6, ← h7]
              congr 1
              have : a = [] := by
                rw [h7, List.takeWhile_cons_of_neg (by simpa using hc')]
              rw [this]; rfl
        · next h => rw [if_neg h] at hi; exact absurd rfl hi
  unfold ftp
  simp only [he, hk, hc]
  by_cases hig : "ignore".toList ∈ argv
  · rw [if_pos hig]
    exact ⟨[], rfl, fun _ => rfl, fun h => absurd hig h⟩
  · rw [if_neg hig]
    have sep : ∀ (x y : Str), x ≠ [] → '@' ∉ x → (y = [] ∨ ∃ z, y = '@' :: z) → strtok '@' (x ++ y) = some (x, y.drop 1) := by
      intro x y hx hnx hy
      rcases strtok_cases '@' (x ++ y) with ⟨-, h1⟩ | ⟨a, t, b, e, hs, h2, h3, h4, h5, -, -⟩
      · exfalso
        cases x with
        | nil => exact hx rfl
        | cons c x => exact hnx (by rw [← h1 c (by simp)]; simp)
      · have ht : t = x := first_unique ⟨a, b, hs, h3, h4, h2, h5⟩ ⟨[], y, by simp, hx, hnx, by simp, hy⟩
        subst ht
        have ha0 : a = [] := by
          cases a with
          | nil => rfl
          | cons c a =>
            cases t with
            | nil => exact absurd rfl hx
            | cons d t =>
              simp only [List.cons_append, List.cons.injEq] at hs
              exact absurd (by rw [← h2 c (by simp), hs.1]; simp) hnx
        subst ha0
        rw [List.nil_append] at hs
        rw [e, List.append_cancel_left hs]
    unfold address
    dsimp only
    rcases strtok_cases '@' resp with ⟨e, h1⟩ | ⟨a, t, b, e, -⟩
    · rw [e]
      refine ⟨[.ruser none], rfl, fun h => absurd h hig, fun _ => ⟨?_, ?_, fun _ => rfl⟩⟩
      · rintro a b rfl ha0 hb0 hna hnb
        exfalso
        cases a with
        | nil => exact ha0 rfl
        | cons c a => exact hna (by rw [← h1 c (by simp)]; simp)
      · rintro hr hn
        exfalso
        cases resp with
        | nil => exact hr rfl
        | cons c r => exact hn (by rw [← h1 c (by simp)]; simp)
    · rw [e]
      refine ⟨_, rfl, fun h => absurd h hig, fun _ => ⟨?_, ?_, ?_⟩⟩
      · rintro a' b' rfl ha0 hb0 hna hnb
        have h1 := sep a' ('@' :: b') ha0 hna (Or.inr ⟨b', rfl⟩)
        rw [e] at h1
        simp only [Option.some.injEq, Prod.mk.injEq] at h1
        obtain ⟨rfl, h1⟩ := h1
        rw [h1]
        have h2 := sep b' [] hb0 hnb (Or.inl rfl)
        rw [List.append_nil] at h2
        simp only [List.drop_succ_cons, List.drop_zero, h2, Option.map_some]
      · rintro hr hn
        have h1 := sep resp [] hr hn (Or.inl rfl)
        rw [List.append_nil, e] at h1
        simp only [Option.some.injEq, Prod.mk.injEq] at h1
        obtain ⟨rfl, h1⟩ := h1
        rw [h1]; rfl
      · rintro rfl
        cases e

/-- **C124** is false of a list that begins with a comma: the comma becomes part of the user's name. -/
theorem C124_comma_counterexample : FirstWord ',' ",guest,ftp".toList "guest".toList ∧
    ftp (some "ftp".toList) (fun _ => .resp (some "a@b".toList)) ["users=,guest,ftp".toList] =
      some (PAM_SUCCESS, [.user ",guest".toList, .ruser (some "a".toList), .rhost (some "b".toList)], [.guest]) :=
  ⟨⟨[','], ",ftp".toList, rfl, by decide, by decide, by decide, Or.inr ⟨_, rfl⟩⟩, by decide +kernel⟩

/-- **C124** is false if the application answers with NULL: `strtok_r` follows a NULL pointer. -/
theorem C124_null_counterexample : ftp (some "ftp".toList) (fun _ => .resp none) [] = none := by decide +kernel

example : ftp (some "anonymous".toList) (fun _ => .resp (some "me@there".toList)) [] =
    some (PAM_SUCCESS, [.user "ftp".toList, .ruser (some "me".toList), .rhost (some "there".toList)], [.guest]) := by decide +kernel
example : ftp (some "bob".toList) (fun _ => .resp (some "secret".toList)) ["users=a,b".toList] = some (PAM_AUTH_ERR, [.authtok (some "secret".toList)], [.password "bob".toList]) := by
  decide +kernel

/-! ### pam_rhosts -/

/-- the last superuser= -/
def Spec.Superuser (argv : List Str) (u : Str) : Prop := Last "superuser=" argv u

/-- **C125**: access is granted exactly if the remote host and user are known, the local user is known (or named as the superuser), and the system's files trust them; they are asked about
the superuser exactly if it is named so or has user id 0. -/
theorem C125_granted (w : RWorld) (argv : List Str) (he : w.user ≠ .error PAM_SUCCESS) :
    rhosts w argv = PAM_SUCCESS ↔ (∃ luser rhost ruser root, w.user = .ok luser ∧ w.rhost = some rhost ∧ w.ruser = some ruser ∧
      (Superuser argv luser ∧ root = true ∨ ¬ Superuser argv luser ∧ ∃ u, w.uid luser = some u ∧ (root = true ↔ u = 0)) ∧ w.ruserok rhost root ruser luser = 0) := by
  obtain ⟨s, hs⟩ : ∃ s, s = argv.foldl rhostsArg none := ⟨_, rfl⟩
  have hsu : ∀ l, s = some l ↔ Superuser argv l := by
    have h := Small.foldl_last rhostsArg id "superuser=" (by
        intro s a ha
        simp only [id_eq]
        unfold rhostsArg
        rw [skipPrefix_none.mpr ha]
        split <;> rfl) argv none
    rcases last_or_without "superuser=" argv with hw | ⟨v, hv⟩
    · intro l
      have := h.1 hw
      simp only [id_eq] at this
      rw [hs, this]
      simp only [reduceCtorEq, false_iff]
      exact Small.without_last hw
    · intro l
      obtain ⟨pre, -, he⟩ := h.2 v hv
      simp only [id_eq] at he
      rw [hs, he]
      unfold rhostsArg
      rw [if_neg, skipPrefix_some.mpr rfl]
      · simp only [Option.some_or, Option.some.injEq]
        constructor
        · rintro rfl; exact hv
        · intro hl; exact Small.last_unique hv hl
      · rintro (e | e | e)
        · have := congrArg List.head? e; simp at this
        · have := congrArg (List.drop 1) e; have := congrArg List.head? this; simp at this
        · have := congrArg (List.drop 3) e; have := congrArg List.head? this; simp at this
  unfold rhosts
  rw [← hs]
  cases hu : w.user with
  | error c =>
    simp only [reduceCtorEq, false_and, exists_false, iff_false]
    rintro rfl; exact he hu
  | ok luser =>
    simp only [Except.ok.injEq]
    cases h1 : w.rhost with
    | none => simp [PAM_AUTH_ERR, PAM_SUCCESS]
    | some rhost =>
      cases h2 : w.ruser with
      | none => simp [PAM_AUTH_ERR, PAM_SUCCESS]
      | some ruser =>
        dsimp only
        by_cases h3 : s = some luser
        · rw [if_pos h3]
          have h3' := (hsu luser).mp h3
          constructor
          · intro h
            split at h
            · exact absurd h (by decide)
            · next hz => exact ⟨luser, rhost, ruser, true, rfl, rfl, rfl, Or.inl ⟨h3', rfl⟩, by simpa using hz⟩
          · rintro ⟨_, _, _, root, rfl, e1, e2, h, hz⟩
            cases e1; cases e2
            rcases h with ⟨-, rfl⟩ | ⟨h, -⟩
            · rw [if_neg (by simpa using hz)]
            · exact absurd h3' h
        · rw [if_neg h3]
          have h3' : ¬ Superuser argv luser := fun h => h3 ((hsu luser).mpr h)
          cases h4 : w.uid luser with
          | none =>
            dsimp only
            constructor
            · intro h; exact absurd h (by decide)
            · rintro ⟨_, _, _, root, rfl, -, -, h, -⟩
              rcases h with ⟨h, -⟩ | ⟨-, u, hu, -⟩
              · exact absurd h h3'
              · rw [h4] at hu; cases hu
          | some u =>
            dsimp only
            constructor
            · intro h
              split at h
              · exact absurd h (by decide)
              · next hz => exact ⟨luser, rhost, ruser, decide (u = 0), rfl, rfl, rfl, Or.inr ⟨h3', u, h4, by simp⟩, by simpa using hz⟩
            · rintro ⟨_, _, _, root, rfl, e1, e2, h, hz⟩
              cases e1; cases e2
              rcases h with ⟨h, -⟩ | ⟨-, u', hu', hr⟩
              · exact absurd h h3'
              · rw [h4] at hu'; cases hu'
                have : root = decide (u = 0) := by rw [Bool.eq_iff_iff]; simpa using hr
                rw [← this, if_neg (by simpa using hz)]

/-- **C125**: otherwise the answer is an error, not that the module should be ignored; without remote host or user it is PAM_AUTH_ERR whatever the files say. -/
theorem C125_refused (w : RWorld) (argv : List Str) (luser : Str) (hu : w.user = .ok luser) (h : rhosts w argv ≠ PAM_SUCCESS) :
    rhosts w argv = PAM_AUTH_ERR ∨ (rhosts w argv = PAM_USER_UNKNOWN ∧ w.uid luser = none) := by
  unfold rhosts at h ⊢
  rw [hu] at h ⊢
  dsimp only at h ⊢
  cases h1 : w.rhost with
  | none => exact Or.inl rfl
  | some rhost =>
    cases h2 : w.ruser with
    | none => exact Or.inl rfl
    | some ruser =>
      rw [h1, h2] at h
      dsimp only at h ⊢
      by_cases hs : argv.foldl rhostsArg none = some luser
      · rw [if_pos hs] at h ⊢
        split at h
        · next hz => rw [if_pos hz]; exact Or.inl rfl
        · exact absurd rfl h
      · rw [if_neg hs] at h ⊢
        cases hw : w.uid luser with
        | none => exact Or.inr ⟨rfl, rfl⟩
        | some u =>
          rw [hw] at h
          dsimp only at h ⊢
          split at h
          · next hz => rw [if_pos hz]; exact Or.inl rfl
          · exact absurd rfl h

/-- a system that trusts ann at h as ann -/
def Spec.trusting : RWorld := ⟨some "h".toList, some "ann".toList, .ok "ann".toList, fun u => if u = "ann".toList then some 1000 else none, fun _ root _ _ => if root then 1 else 0⟩

example : rhosts trusting [] = PAM_SUCCESS := by decide +kernel
example : rhosts trusting ["superuser=ann".toList] = PAM_AUTH_ERR := by decide +kernel

/-! ### the modules that only answer -/

/-- **C126**: pam_canonicalize_user makes PAM_USER the name in the account's entry, and is otherwise ignored. -/
theorem C126_canonical (pwnam : Str → Option Str) (u n : Str) (h : pwnam u = some n) :
    (canonicalize pwnam (.ok u)).1 = PAM_IGNORE ∧ (canonicalize pwnam (.ok u)).2.getD u = n := by
  unfold canonicalize
  dsimp only
  rw [h]
  dsimp only
  split
  · next e => exact ⟨rfl, e⟩
  · exact ⟨rfl, rfl⟩

/-- **C126**: without an account, PAM_USER stays and the answer is PAM_USER_UNKNOWN. -/
theorem C126_canonical_unknown (pwnam : Str → Option Str) (u : Str) (h : pwnam u = none) : canonicalize pwnam (.ok u) = (PAM_USER_UNKNOWN, none) := by
  unfold canonicalize; dsimp only; rw [h]

/-- **C126**: pam_deny never succeeds and is never ignored; pam_permit always succeeds, once there is a user. -/
theorem C126_deny_permit (f : Fn) (u : Str) : deny f ≠ PAM_SUCCESS ∧ deny f ≠ PAM_IGNORE ∧ (permit f (.ok u)).1 = PAM_SUCCESS := by
  cases f <;> exact ⟨by decide, by decide, rfl⟩

/-- **C126**: after pam_permit the user's name is not empty; a name that is not empty stays. -/
theorem C126_nobody (u : Str) : ((permit .auth (.ok u)).2.getD u ≠ []) ∧ (u ≠ [] → (permit .auth (.ok u)).2 = none) ∧ ((permit .auth (.ok [])).2 = some "nobody".toList) := by
  unfold permit
  dsimp only
  refine ⟨?_, fun h => if_neg h, rfl⟩
  split
  · exact (by decide : "nobody".toList ≠ [])
  · next h => exact h

/-- the word by which a function is configured in pam_debug(8) -/
def Spec.word : Fn → String
  | .auth => "auth" | .setcred => "cred" | .acct => "acct" | .open => "open_session" | .close => "close_session" | .prelim => "prechauthtok" | .update => "chauthtok"

/-- **C126**: pam_debug answers what the first argument for the function asks for, if it is the name of a code; else it succeeds. -/
theorem C126_debug (f : Fn) (argv : List Str) :
    ((∀ a ∈ argv, ¬ ((word f).toList ++ ['=']) <+: a) → debug f argv = PAM_SUCCESS) ∧
    (∀ pre v post, argv = pre ++ ((word f).toList ++ '=' :: v) :: post → (∀ a ∈ pre, ¬ ((word f).toList ++ ['=']) <+: a) →
      (∀ (c : Nat) (n : String), Config.Spec.codeNames[c]? = some n → v = n.toList → debug f argv = c) ∧
      ((∀ n ∈ Config.Spec.codeNames, v ≠ n.toList) → debug f argv = PAM_SUCCESS)) := by
  have hev : event f = (word f).toList := by cases f <;> rfl
  unfold debug
  rw [hev]
  obtain ⟨ev, hw⟩ : ∃ ev, ev = (word f).toList := ⟨_, rfl⟩
  rw [← hw]
  clear hev hw
  have htab : Config.tokenReturns.take 32 = Config.Spec.codeNames.map String.toList := by decide +kernel
  have hnd : (Config.Spec.codeNames.map String.toList).Nodup := by decide +kernel
  have hskip : ∀ pre rest : List Str, (∀ a ∈ pre, ¬ (ev ++ ['=']) <+: a) → debugCode ev (pre ++ rest) = debugCode ev rest := by
    intro pre rest h
    induction pre with
    | nil => rfl
    | cons a pre ih =>
      rw [List.cons_append, debugCode, skipPrefix_none.mpr (h a (by simp))]
      exact ih (fun b hb => h b (by simp [hb]))
  refine ⟨fun h => ?_, fun pre v post e h => ?_⟩
  · have := hskip argv [] h
    rw [List.append_nil] at this
    rw [this]; rfl
  · have hv' : skipPrefix (ev ++ '=' :: v) (ev ++ ['=']) = some v := skipPrefix_some.mpr (by simp)
    rw [e, hskip pre _ h, debugCode, hv']
    dsimp only
    rw [htab]
    refine ⟨fun c n hc hv => ?_, fun hv => ?_⟩
    · have hg : (Config.Spec.codeNames.map String.toList)[c]? = some v := by rw [List.getElem?_map, hc, hv]; rfl
      have hi : (Config.Spec.codeNames.map String.toList).idxOf? v = some c := by
        rw [List.idxOf?_eq_some_iff]
        obtain ⟨hlt, hge⟩ := List.getElem?_eq_some_iff.mp hg
        refine ⟨hlt, by simp [hge], ?_⟩
        intro j hj hje
        have hje' : (Config.Spec.codeNames.map String.toList)[j] = (Config.Spec.codeNames.map String.toList)[c] := by rw [hge]; simpa using hje
        have := (List.getElem_inj hnd).mp hje'
        omega
      rw [hi]
    · have hi : (Config.Spec.codeNames.map String.toList).idxOf? v = none := by
        rw [List.idxOf?_eq_none_iff]
        intro hm
        obtain ⟨n, hn, e⟩ := List.mem_map.mp hm
        exact hv n hn e.symm
      rw [hi]

example : debug .auth ["cred=cred_err".toList, "auth=auth_err".toList, "auth=success".toList] = PAM_AUTH_ERR := by decide +kernel

end Pam.Simple
