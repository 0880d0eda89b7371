import Verif.Exec.Model
import Verif.Exec.Spec
import Verif.Small.Basics
/-
Lemmas: the options of pam_exec.
-/
namespace Pam.Exec
open Pam Spec

/-! ### the options -/

theorem skipIcase_setting (key : String) (hk : key.toList.map lower = key.toList) (a v : Str) :
    skipIcase a (key.toList ++ ['=']) = some v ↔ Setting key a v := by
  unfold skipIcase ieq Setting
  have hl : lower '=' = '=' := by decide
  simp only [List.map_append, hk, List.map_cons, List.map_nil, hl, beq_iff_eq, List.length_append, List.length_singleton]
  constructor
  · intro h
    split at h
    · next he =>
      cases h
      refine ⟨a.take key.toList.length, ?_, ?_⟩
      · have h1 : a = a.take (key.toList.length + 1) ++ a.drop (key.toList.length + 1) := (List.take_append_drop _ _).symm
        have h2 : (a.take (key.toList.length + 1)).length = key.toList.length + 1 := by
          have := congrArg List.length he
          simpa using this
        have h3 : a.take (key.toList.length + 1) = a.take key.toList.length ++ ['='] := by
          have h4 : (a.take (key.toList.length + 1)).map lower = key.toList ++ ['='] := he
          have hlt : key.toList.length < a.length := by rw [List.length_take] at h2; omega
          rw [List.take_succ_eq_append_getElem hlt] at h4 ⊢
          rw [List.map_append] at h4
          have h5 := List.append_inj_right' h4 rfl
          simp only [List.map_cons, List.map_nil, List.cons.injEq, and_true] at h5
          have h6 : ∀ c, lower c = '=' → c = '=' := by
            intro c hc
            unfold lower at hc
            split at hc
            · next hr =>
              have := congrArg Char.toNat hc
              have h7 : ∀ n, n < 200 → (Char.ofNat n).toNat = n := by decide +kernel
              rw [h7 _ (by have := hr.2; simp only [Char.reduceToNat] at this; omega)] at this
              have h8 := hr.1
              simp only [Char.reduceToNat] at this h8
              omega
            · exact hc
          rw [h6 _ h5]
        conv => lhs; rw [h1, h3]
        simp
      · have := congrArg (List.take key.toList.length) he
        rw [List.take_left, List.map_take, List.take_take] at this
        rw [List.map_take]
        simpa using this
    · cases h
  · rintro ⟨k, rfl, h⟩
    have hlen : k.length = key.toList.length := by rw [← h, List.length_map]
    have h1 : (k ++ '=' :: v).take (key.toList.length + 1) = k ++ ['='] := by
      rw [← hlen, show k ++ '=' :: v = (k ++ ['=']) ++ v by simp]
      exact List.take_left' (by simp)
    have h2 : (k ++ '=' :: v).drop (key.toList.length + 1) = v := by
      rw [← hlen, show k ++ '=' :: v = (k ++ ['=']) ++ v by simp]
      exact List.drop_left' (by simp)
    rw [h1, h2]
    simp [h, hl]

theorem skipIcase_setting_none (key : String) (hk : key.toList.map lower = key.toList) (a : Str) :
    skipIcase a (key.toList ++ ['=']) = none ↔ ∀ v, ¬ Setting key a v := by
  rw [Option.eq_none_iff_forall_ne_some]
  exact forall_congr' fun v => not_congr (skipIcase_setting key hk a v)

theorem ieq_word (w : String) (hk : w.toList.map lower = w.toList) (a : Str) : ieq a w.toList = true ↔ Word w a := by
  unfold ieq Word
  rw [hk, beq_iff_eq]

/-- what an argument is -/
inductive Kind | cmd | nothing | stdout | log (f : Str) | type (t : Str) | seteuid | quiet | expose
deriving DecidableEq

/-- the order of the tests of the module -/
def kind (a : Str) : Kind :=
  if a.head? = some '/' then .cmd
  else if ieq a "debug".toList then .nothing
  else if ieq a "stdout".toList then .stdout
  else match skipIcase a "log=".toList with
    | some f => .log f
    | none => match skipIcase a "type=".toList with
      | some t => .type t
      | none =>
        if ieq a "seteuid".toList then .seteuid
        else if ieq a "quiet".toList then .quiet
        else if ieq a "quiet_log".toList then .nothing
        else if ieq a "expose_authtok".toList then .expose
        else .cmd

theorem options_cons (type : Str) (o : Opts) (a : Str) (r : List Str) : options type o (a :: r) =
    match kind a with
    | .cmd => .done o (a :: r)
    | .nothing => options type o r
    | .stdout => options type { o with stdout := true } r
    | .log f => options type { o with log := some f } r
    | .type t => if type ≠ t then .ignore else options type o r
    | .seteuid => options type { o with seteuid := true } r
    | .quiet => options type { o with quiet := true } r
    | .expose => options type { o with expose := true } r := by
  rw [options, kind]
  split
  · rfl
  split
  · rfl
  split
  · rfl
  cases skipIcase a "log=".toList with
  | some f => rfl
  | none =>
    cases skipIcase a "type=".toList with
    | some f => rfl
    | none =>
      dsimp only
      split
      · rfl
      split
      · rfl
      split
      · rfl
      split
      · rfl
      · rfl

theorem kind_word {a : Str} (ws : String) (h : Word ws a) (k : Kind)
    (hk : (if ws.toList.head? = some '/' then false else true) = true ∧
      (if ws.toList = "debug".toList then Kind.nothing else if ws.toList = "stdout".toList then .stdout
        else if ws.toList.take 4 = "log=".toList then .cmd else if ws.toList.take 5 = "type=".toList then .cmd
        else if ws.toList = "seteuid".toList then .seteuid else if ws.toList = "quiet".toList then .quiet
        else if ws.toList = "quiet_log".toList then .nothing else if ws.toList = "expose_authtok".toList then .expose else .cmd) = k)
    (hne : k ≠ .cmd) : kind a = k := by
  obtain ⟨hk1, hk2⟩ := hk
  have hh : a.head? ≠ some '/' := by
    intro he
    have : ws.toList.head? = some '/' := by rw [← h, List.head?_map, he]; decide
    rw [if_pos this] at hk1
    cases hk1
  unfold kind
  rw [if_neg hh]
  have e1 : "debug".toList.map lower = "debug".toList := by decide
  have e2 : "stdout".toList.map lower = "stdout".toList := by decide
  have e3 : "seteuid".toList.map lower = "seteuid".toList := by decide
  have e4 : "quiet".toList.map lower = "quiet".toList := by decide
  have e5 : "quiet_log".toList.map lower = "quiet_log".toList := by decide
  have e6 : "expose_authtok".toList.map lower = "expose_authtok".toList := by decide
  have e7 : "log=".toList.map lower = "log=".toList := by decide
  have e8 : "type=".toList.map lower = "type=".toList := by decide
  have l7 : "log=".toList.length = 4 := by decide
  have l8 : "type=".toList.length = 5 := by decide
  simp only [ieq, skipIcase, List.map_take, show a.map lower = ws.toList from h, e1, e2, e3, e4, e5, e6, e7, e8, l7, l8, beq_iff_eq]
  subst hk2
  split
  · rfl
  split
  · rfl
  by_cases h3 : ws.toList.take 4 = "log=".toList
  · next h1 h2 => rw [if_neg h1, if_neg h2, if_pos h3] at hne; exact absurd rfl hne
  by_cases h4 : ws.toList.take 5 = "type=".toList
  · next h1 h2 => rw [if_neg h1, if_neg h2, if_neg h3, if_pos h4] at hne; exact absurd rfl hne
  rw [if_neg h3, if_neg h4, if_neg h3, if_neg h4]

theorem kind_log {a v : Str} (h : Setting "log" a v) : kind a = .log v := by
  have hs := (skipIcase_setting "log" (by decide) a v).2 h
  obtain ⟨k, rfl, h⟩ := h
  have hm : (k ++ '=' :: v).map lower = 'l' :: 'o' :: 'g' :: '=' :: v.map lower := by
    rw [List.map_append, h]; rfl
  have hh : (k ++ '=' :: v).head? ≠ some '/' := by
    intro he
    have := congrArg List.head? hm
    rw [List.head?_map, he] at this
    rw [Option.map_some, show lower '/' = '/' from by decide, List.head?_cons, Option.some.injEq] at this
    revert this; decide
  unfold kind
  rw [if_neg hh, if_neg (by simp only [ieq, hm]; simp [lower]), if_neg (by simp only [ieq, hm]; simp [lower])]
  rw [show "log=".toList = "log".toList ++ ['='] from rfl, hs]

theorem kind_type {a v : Str} (h : Setting "type" a v) : kind a = .type v := by
  have hs := (skipIcase_setting "type" (by decide) a v).2 h
  obtain ⟨k, rfl, h⟩ := h
  have hm : (k ++ '=' :: v).map lower = 't' :: 'y' :: 'p' :: 'e' :: '=' :: v.map lower := by
    rw [List.map_append, h]; rfl
  have hh : (k ++ '=' :: v).head? ≠ some '/' := by
    intro he
    have := congrArg List.head? hm
    rw [List.head?_map, he] at this
    rw [Option.map_some, show lower '/' = '/' from by decide, List.head?_cons, Option.some.injEq] at this
    revert this; decide
  unfold kind
  rw [if_neg hh, if_neg (by simp only [ieq, hm]; simp [lower]), if_neg (by simp only [ieq, hm]; simp [lower])]
  rw [show skipIcase (k ++ '=' :: v) "log=".toList = none by
    simp only [skipIcase, ieq, List.map_take, hm]; simp [lower]]
  rw [show "type=".toList = "type".toList ++ ['='] from rfl, hs]

theorem kind_cases (a : Str) : (kind a = .cmd ∧ ¬ IsOption a) ∨ (kind a = .nothing ∧ (Word "debug" a ∨ Word "quiet_log" a)) ∨ (kind a = .stdout ∧ Word "stdout" a) ∨
    (∃ f, kind a = .log f ∧ Setting "log" a f) ∨ (∃ t, kind a = .type t ∧ Setting "type" a t) ∨ (kind a = .seteuid ∧ Word "seteuid" a) ∨
    (kind a = .quiet ∧ Word "quiet" a) ∨ (kind a = .expose ∧ Word "expose_authtok" a) := by
  by_cases ho : IsOption a
  · right
    rcases ho with ⟨w, hw, h⟩ | ⟨v, h | h⟩
    · simp only [List.mem_cons, List.not_mem_nil, or_false] at hw
      rcases hw with rfl | rfl | rfl | rfl | rfl | rfl
      · exact Or.inl ⟨kind_word _ h _ (by decide) (by decide), Or.inl h⟩
      · exact Or.inr (Or.inl ⟨kind_word _ h _ (by decide) (by decide), h⟩)
      · exact Or.inr (Or.inr (Or.inr (Or.inr (Or.inl ⟨kind_word _ h _ (by decide) (by decide), h⟩))))
      · exact Or.inr (Or.inr (Or.inr (Or.inr (Or.inr (Or.inl ⟨kind_word _ h _ (by decide) (by decide), h⟩)))))
      · exact Or.inl ⟨kind_word _ h _ (by decide) (by decide), Or.inr h⟩
      · exact Or.inr (Or.inr (Or.inr (Or.inr (Or.inr (Or.inr ⟨kind_word _ h _ (by decide) (by decide), h⟩)))))
    · exact Or.inr (Or.inr (Or.inl ⟨v, kind_log h, h⟩))
    · exact Or.inr (Or.inr (Or.inr (Or.inl ⟨v, kind_type h, h⟩)))
  · refine Or.inl ⟨?_, ho⟩
    have hw : ∀ w : String, w ∈ ["debug", "stdout", "seteuid", "quiet", "quiet_log", "expose_authtok"] → w.toList.map lower = w.toList → ieq a w.toList = false :=
      fun w hw hl => Bool.eq_false_iff.2 fun h => ho (Or.inl ⟨w, hw, (ieq_word w hl a).1 h⟩)
    have h1 : skipIcase a "log=".toList = none := (skipIcase_setting_none "log" (by decide) a).2 fun v h => ho (Or.inr ⟨v, Or.inl h⟩)
    have h2 : skipIcase a "type=".toList = none := (skipIcase_setting_none "type" (by decide) a).2 fun v h => ho (Or.inr ⟨v, Or.inr h⟩)
    unfold kind
    rw [hw "debug" (by simp) (by decide), hw "stdout" (by simp) (by decide), h1, h2, hw "seteuid" (by simp) (by decide), hw "quiet" (by simp) (by decide),
      hw "quiet_log" (by simp) (by decide), hw "expose_authtok" (by simp) (by decide)]
    simp

theorem has_cons (w : String) (a : Str) (os : List Str) : Has w (a :: os) ↔ Word w a ∨ Has w os := by
  simp [Has]

theorem forType_cons (type a : Str) (os : List Str) : ForType type (a :: os) ↔ (∀ t, Setting "type" a t → t = type) ∧ ForType type os := by
  simp [ForType]

theorem logFile_cons (a : Str) (os : List Str) (f : Str) :
    LogFile (a :: os) f ↔ LogFile os f ∨ ((∀ x ∈ os, ∀ g, ¬ Setting "log" x g) ∧ Setting "log" a f) := by
  constructor
  · rintro ⟨p, o, b, h, hs, hb⟩
    cases p with
    | nil =>
      rw [List.nil_append, List.cons.injEq] at h
      obtain ⟨rfl, rfl⟩ := h
      exact Or.inr ⟨hb, hs⟩
    | cons y p =>
      rw [List.cons_append, List.cons.injEq] at h
      obtain ⟨rfl, rfl⟩ := h
      exact Or.inl ⟨p, o, b, rfl, hs, hb⟩
  · rintro (⟨p, o, b, rfl, hs, hb⟩ | ⟨hb, hs⟩)
    · exact ⟨a :: p, o, b, rfl, hs, hb⟩
    · exact ⟨[], a, os, rfl, hs, hb⟩

theorem not_word {a : Str} {k : Kind} (h : kind a = k) :
    (k ≠ .stdout → ¬ Word "stdout" a) ∧ (k ≠ .seteuid → ¬ Word "seteuid" a) ∧ (k ≠ .quiet → ¬ Word "quiet" a) ∧ (k ≠ .expose → ¬ Word "expose_authtok" a) ∧
    (∀ f, k ≠ .log f → ¬ Setting "log" a f) ∧ (∀ f, k ≠ .type f → ¬ Setting "type" a f) := by
  subst h
  exact ⟨fun hn h => hn (kind_word _ h _ (by decide) (by decide)), fun hn h => hn (kind_word _ h _ (by decide) (by decide)),
    fun hn h => hn (kind_word _ h _ (by decide) (by decide)), fun hn h => hn (kind_word _ h _ (by decide) (by decide)),
    fun f hn h => hn (kind_log h), fun f hn h => hn (kind_type h)⟩

/-- what the loop over the options finds -/
theorem options_done (type : Str) : ∀ (argv : List Str) (o o' : Opts) (rest : List Str), options type o argv = .done o' rest →
    ∃ os, argv = os ++ rest ∧ (∀ x ∈ os, IsOption x) ∧ ForType type os ∧ (∀ c, rest.head? = some c → ¬ IsOption c) ∧
      (o'.stdout = true ↔ o.stdout = true ∨ Has "stdout" os) ∧ (o'.seteuid = true ↔ o.seteuid = true ∨ Has "seteuid" os) ∧
      (o'.quiet = true ↔ o.quiet = true ∨ Has "quiet" os) ∧ (o'.expose = true ↔ o.expose = true ∨ Has "expose_authtok" os) ∧
      (∀ f, o'.log = some f ↔ LogFile os f ∨ ((∀ x ∈ os, ∀ g, ¬ Setting "log" x g) ∧ o.log = some f))
  | [], o, o', rest, h => by
    rw [options] at h
    cases h
    exact ⟨[], rfl, nofun, nofun, nofun, by simp [Has], by simp [Has], by simp [Has], by simp [Has], by simp [LogFile]⟩
  | a :: r, o, o', rest, h => by
    rw [options_cons] at h
    have hk : ∀ os, (∀ x ∈ os, IsOption x) → IsOption a → ∀ x ∈ a :: os, IsOption x := by
      intro os h1 h2 x hx
      rcases List.mem_cons.mp hx with rfl | hx
      · exact h2
      · exact h1 x hx
    rcases kind_cases a with ⟨e, ho⟩ | ⟨e, ho⟩ | ⟨e, ho⟩ | ⟨f, e, ho⟩ | ⟨t, e, ho⟩ | ⟨e, ho⟩ | ⟨e, ho⟩ | ⟨e, ho⟩ <;> rw [e] at h <;> dsimp only at h
    · cases h
      refine ⟨[], rfl, nofun, nofun, ?_, by simp [Has], by simp [Has], by simp [Has], by simp [Has], by simp [LogFile]⟩
      intro c hc
      cases hc
      exact ho
    all_goals obtain ⟨n1, n2, n3, n4, n5, n6⟩ := not_word e
    · obtain ⟨os, rfl, h1, h2, h3, h4, h5, h6, h7, h8⟩ := options_done type r _ _ _ h
      refine ⟨a :: os, rfl, hk os h1 (Or.inl ?_), (forType_cons ..).2 ⟨fun t ht => absurd ht (n6 t nofun), h2⟩, h3, ?_, ?_, ?_, ?_, ?_⟩
      · rcases ho with ho | ho
        · exact ⟨_, by simp, ho⟩
        · exact ⟨_, by simp, ho⟩
      · rw [has_cons, h4]; simp [n1]
      · rw [has_cons, h5]; simp [n2]
      · rw [has_cons, h6]; simp [n3]
      · rw [has_cons, h7]; simp [n4]
      · intro f; rw [logFile_cons, h8]; simp [n5]
    · obtain ⟨os, rfl, h1, h2, h3, h4, h5, h6, h7, h8⟩ := options_done type r _ _ _ h
      refine ⟨a :: os, rfl, hk os h1 (Or.inl ⟨_, by simp, ho⟩), (forType_cons ..).2 ⟨fun t ht => absurd ht (n6 t nofun), h2⟩, h3, ?_, ?_, ?_, ?_, ?_⟩
      · rw [has_cons, h4]; simp [ho]
      · rw [has_cons, h5]; simp [n2]
      · rw [has_cons, h6]; simp [n3]
      · rw [has_cons, h7]; simp [n4]
      · intro f; rw [logFile_cons, h8]; simp [n5]
    · obtain ⟨os, rfl, h1, h2, h3, h4, h5, h6, h7, h8⟩ := options_done type r _ _ _ h
      refine ⟨a :: os, rfl, hk os h1 (Or.inr ⟨f, Or.inl ho⟩), (forType_cons ..).2 ⟨fun t ht => absurd ht (n6 t nofun), h2⟩, h3, ?_, ?_, ?_, ?_, ?_⟩
      · rw [has_cons, h4]; simp [n1]
      · rw [has_cons, h5]; simp [n2]
      · rw [has_cons, h6]; simp [n3]
      · rw [has_cons, h7]; simp [n4]
      · intro g
        rw [logFile_cons, h8]
        have hg : Setting "log" a g ↔ f = g := by
          constructor
          · intro h
            have := kind_log h
            rw [e] at this
            cases this; rfl
          · rintro rfl; exact ho
        constructor
        · rintro (h | ⟨h, h'⟩)
          · exact Or.inl (Or.inl h)
          · cases h'
            exact Or.inl (Or.inr ⟨h, ho⟩)
        · rintro ((h | ⟨h, h'⟩) | ⟨h, -⟩)
          · exact Or.inl h
          · exact Or.inr ⟨h, by rw [hg.1 h']⟩
          · exact absurd ho (h a (by simp) f)
    · split at h
      · cases h
      next ht =>
      have ht : type = t := Decidable.not_not.1 ht
      obtain ⟨os, rfl, h1, h2, h3, h4, h5, h6, h7, h8⟩ := options_done type r _ _ _ h
      refine ⟨a :: os, rfl, hk os h1 (Or.inr ⟨t, Or.inr ho⟩), (forType_cons ..).2 ⟨fun u hu => ?_, h2⟩, h3, ?_, ?_, ?_, ?_, ?_⟩
      · have := kind_type hu
        rw [e] at this
        cases this
        exact ht.symm
      · rw [has_cons, h4]; simp [n1]
      · rw [has_cons, h5]; simp [n2]
      · rw [has_cons, h6]; simp [n3]
      · rw [has_cons, h7]; simp [n4]
      · intro f; rw [logFile_cons, h8]; simp [n5]
    · obtain ⟨os, rfl, h1, h2, h3, h4, h5, h6, h7, h8⟩ := options_done type r _ _ _ h
      refine ⟨a :: os, rfl, hk os h1 (Or.inl ⟨_, by simp, ho⟩), (forType_cons ..).2 ⟨fun t ht => absurd ht (n6 t nofun), h2⟩, h3, ?_, ?_, ?_, ?_, ?_⟩
      · rw [has_cons, h4]; simp [n1]
      · rw [has_cons, h5]; simp [ho]
      · rw [has_cons, h6]; simp [n3]
      · rw [has_cons, h7]; simp [n4]
      · intro f; rw [logFile_cons, h8]; simp [n5]
    · obtain ⟨os, rfl, h1, h2, h3, h4, h5, h6, h7, h8⟩ := options_done type r _ _ _ h
      refine ⟨a :: os, rfl, hk os h1 (Or.inl ⟨_, by simp, ho⟩), (forType_cons ..).2 ⟨fun t ht => absurd ht (n6 t nofun), h2⟩, h3, ?_, ?_, ?_, ?_, ?_⟩
      · rw [has_cons, h4]; simp [n1]
      · rw [has_cons, h5]; simp [n2]
      · rw [has_cons, h6]; simp [ho]
      · rw [has_cons, h7]; simp [n4]
      · intro f; rw [logFile_cons, h8]; simp [n5]
    · obtain ⟨os, rfl, h1, h2, h3, h4, h5, h6, h7, h8⟩ := options_done type r _ _ _ h
      refine ⟨a :: os, rfl, hk os h1 (Or.inl ⟨_, by simp, ho⟩), (forType_cons ..).2 ⟨fun t ht => absurd ht (n6 t nofun), h2⟩, h3, ?_, ?_, ?_, ?_, ?_⟩
      · rw [has_cons, h4]; simp [n1]
      · rw [has_cons, h5]; simp [n2]
      · rw [has_cons, h6]; simp [n3]
      · rw [has_cons, h7]; simp [ho]
      · intro f; rw [logFile_cons, h8]; simp [n5]

/-- the loop ends with PAM_IGNORE only for an option with another type -/
theorem options_ignore (type : Str) : ∀ (argv : List Str) (o : Opts), options type o argv = .ignore →
    ∃ os rest, argv = os ++ rest ∧ (∀ x ∈ os, IsOption x) ∧ ¬ ForType type os
  | [], o, h => by rw [options] at h; cases h
  | a :: r, o, h => by
    rw [options_cons] at h
    have hk : IsOption a → (∃ o, options type o r = .ignore) → ∃ os rest, a :: r = os ++ rest ∧ (∀ x ∈ os, IsOption x) ∧ ¬ ForType type os := by
      rintro ho ⟨o, h⟩
      obtain ⟨os, rest, rfl, h1, h2⟩ := options_ignore type r o h
      refine ⟨a :: os, rest, rfl, ?_, fun hf => h2 ((forType_cons ..).1 hf).2⟩
      intro x hx
      rcases List.mem_cons.mp hx with rfl | hx
      · exact ho
      · exact h1 x hx
    rcases kind_cases a with ⟨e, ho⟩ | ⟨e, ho⟩ | ⟨e, ho⟩ | ⟨f, e, ho⟩ | ⟨t, e, ho⟩ | ⟨e, ho⟩ | ⟨e, ho⟩ | ⟨e, ho⟩ <;> rw [e] at h <;> dsimp only at h
    · cases h
    · refine hk ?_ ⟨_, h⟩
      rcases ho with ho | ho
      · exact Or.inl ⟨_, by simp, ho⟩
      · exact Or.inl ⟨_, by simp, ho⟩
    · exact hk (Or.inl ⟨_, by simp, ho⟩) ⟨_, h⟩
    · exact hk (Or.inr ⟨f, Or.inl ho⟩) ⟨_, h⟩
    · split at h
      · next ht =>
        refine ⟨[a], r, rfl, ?_, fun hf => ht (hf a (by simp) t ho).symm⟩
        intro x hx
        rw [List.mem_singleton.1 hx]
        exact Or.inr ⟨t, Or.inr ho⟩
      · exact hk (Or.inr ⟨t, Or.inr ho⟩) ⟨_, h⟩
    · exact hk (Or.inl ⟨_, by simp, ho⟩) ⟨_, h⟩
    · exact hk (Or.inl ⟨_, by simp, ho⟩) ⟨_, h⟩
    · exact hk (Or.inl ⟨_, by simp, ho⟩) ⟨_, h⟩

/-- the arguments are split in one way only -/
theorem split_unique : ∀ {os os' rest rest' : List Str}, os ++ rest = os' ++ rest' → (∀ x ∈ os, IsOption x) → (∀ x ∈ os', IsOption x) →
    (∀ c, rest.head? = some c → ¬ IsOption c) → (∀ c, rest'.head? = some c → ¬ IsOption c) → os = os' ∧ rest = rest'
  | [], [], _, _, h, _, _, _, _ => ⟨rfl, h⟩
  | [], x :: os', rest, _, h, _, h2, h3, _ => by
    rw [List.nil_append] at h
    exact absurd (h2 x (by simp)) (h3 x (by rw [h]; rfl))
  | x :: os, [], _, rest', h, h1, _, _, h4 => by
    rw [List.nil_append] at h
    exact absurd (h1 x (by simp)) (h4 x (by rw [← h]; rfl))
  | x :: os, y :: os', _, _, h, h1, h2, h3, h4 => by
    rw [List.cons_append, List.cons_append, List.cons.injEq] at h
    obtain ⟨rfl, h⟩ := h
    obtain ⟨rfl, rfl⟩ := split_unique h (fun z hz => h1 z (by simp [hz])) (fun z hz => h2 z (by simp [hz])) h3 h4
    exact ⟨rfl, rfl⟩

/-- an option with another type is found, if only options come before it -/
theorem ignore_of (type : Str) (o : Opts) {os rest : List Str} (h : ∀ x ∈ os, IsOption x) (hf : ¬ ForType type os) :
    options type o (os ++ rest) = .ignore := by
  induction os generalizing o with
  | nil => exact absurd (by intro x hx; cases hx) hf
  | cons a os ih =>
    have ih := fun o (hf : ¬ ForType type os) => ih o (fun x hx => h x (by simp [hx])) hf
    rw [List.cons_append, options_cons]
    have hn : (∀ t, Setting "type" a t → t = type) → ¬ ForType type os := fun h1 h2 => hf ((forType_cons ..).2 ⟨h1, h2⟩)
    have h0 := h a (by simp)
    rcases kind_cases a with ⟨e, ho⟩ | ⟨e, ho⟩ | ⟨e, ho⟩ | ⟨f, e, ho⟩ | ⟨t, e, ho⟩ | ⟨e, ho⟩ | ⟨e, ho⟩ | ⟨e, ho⟩ <;> rw [e] <;> dsimp only
    · exact absurd h0 ho
    all_goals obtain ⟨-, -, -, -, -, n6⟩ := not_word e
    · exact ih _ (hn fun t ht => absurd ht (n6 t nofun))
    · exact ih _ (hn fun t ht => absurd ht (n6 t nofun))
    · exact ih _ (hn fun t ht => absurd ht (n6 t nofun))
    · split
      · rfl
      · next ht =>
        refine ih _ (hn fun u hu => ?_)
        have := kind_type hu
        rw [e] at this
        cases this
        exact (Decidable.not_not.1 ht).symm
    · exact ih _ (hn fun t ht => absurd ht (n6 t nofun))
    · exact ih _ (hn fun t ht => absurd ht (n6 t nofun))
    · exact ih _ (hn fun t ht => absurd ht (n6 t nofun))

end Pam.Exec
