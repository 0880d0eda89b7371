import Verif.Pwhistory.History
import Verif.Faillock.ConfigProps
/-
Property theorems C68: the options of the password history.
-/
namespace Pam.Pwh
open Pam

/-- the argument is `key` (in any case) followed by `text` -/
def Given (key arg text : Str) : Prop := ∃ k, arg = k ++ text ∧ ieq k key = true

/-- the last argument that gives `key` gives `text` -/
def LastGiven (key : Str) (argv : List Str) (text : Str) : Prop :=
  ∃ pre a post, argv = pre ++ a :: post ∧ Given key a text ∧ ∀ b ∈ post, ∀ t, ¬ Given key b t

/-- no argument gives `key` -/
def NotGiven (key : Str) (argv : List Str) : Prop := ∀ b ∈ argv, ∀ t, ¬ Given key b t

theorem skip_given {key arg text : Str} : skipIcase arg key = some text ↔ Given key arg text := by
  simp only [skipIcase, Given, ieq, beq_iff_eq]
  constructor
  · intro h
    split at h
    · next hk => cases h; exact ⟨_, (List.take_append_drop _ _).symm, hk⟩
    · cases h
  · rintro ⟨k, rfl, hk⟩
    have hl : k.length = key.length := by simpa using congrArg List.length hk
    rw [← hl, List.take_left, List.drop_left, if_pos hk]

theorem skip_none {key arg : Str} : skipIcase arg key = none ↔ ∀ t, ¬ Given key arg t := by
  constructor
  · intro h t ht; rw [← skip_given, h] at ht; cases ht
  · intro h
    cases hs : skipIcase arg key with
    | none => rfl
    | some t => exact absurd (skip_given.mp hs) (h t)

theorem given_prefix {key arg text : Str} (h : skipIcase arg key = some text) : ∃ t, arg.map lower = key.map lower ++ t := by
  obtain ⟨k, rfl, hk⟩ := skip_given.mp h
  simp only [ieq, beq_iff_eq] at hk
  exact ⟨text.map lower, by rw [List.map_append, hk]⟩

/-- an argument with a value is none of the plain words -/
theorem given_word {key arg text w : Str} (h : skipIcase arg key = some text) (hw : (key.map lower).isPrefixOf (w.map lower) = false) :
    ieq arg w = false := by
  obtain ⟨t, ht⟩ := given_prefix h
  cases he : ieq arg w with
  | false => rfl
  | true =>
    simp only [ieq, beq_iff_eq] at he
    rw [← he, ht] at hw
    rw [List.isPrefixOf_iff_prefix.mpr (List.prefix_append _ _)] at hw
    cases hw

/-- and gives no other key -/
theorem given_other {key arg text key' : Str} (h : skipIcase arg key = some text)
    (h1 : (key.map lower).isPrefixOf (key'.map lower) = false) (h2 : (key'.map lower).isPrefixOf (key.map lower) = false) :
    skipIcase arg key' = none := by
  cases hs : skipIcase arg key' with
  | none => rfl
  | some t =>
    obtain ⟨a, ha⟩ := given_prefix h
    obtain ⟨b, hb⟩ := given_prefix hs
    have p1 : key.map lower <+: arg.map lower := ⟨a, ha.symm⟩
    have p2 : key'.map lower <+: arg.map lower := ⟨b, hb.symm⟩
    rcases List.prefix_or_prefix_of_prefix p1 p2 with p | p
    · rw [List.isPrefixOf_iff_prefix.mpr p] at h1; cases h1
    · rw [List.isPrefixOf_iff_prefix.mpr p] at h2; cases h2

/-- the number of passwords an argument asks for -/
def argRemember (s : Str) : Int := let r := toInt (strtol s); let r := if r < 0 then 0 else r; if r > 400 then 400 else r

/-- the number of tries an argument asks for -/
def argTries (s : Str) : Int := let r := toInt (strtol s); if r < 0 then 1 else r

theorem parse_words {o : Options} {arg : Str} (key : Str) {text : Str} (h : skipIcase arg key = some text)
    (hw : (["try_first_pass", "use_first_pass", "use_authtok", "debug", "enforce_for_root"].all
      fun w => !(key.map lower).isPrefixOf (w.toList.map lower)) = true) :
    parseOption o arg = match skipIcase arg "remember=".toList with
      | some s => { o with remember := argRemember s }
      | none => match skipIcase arg "retry=".toList with
        | some s => { o with tries := argTries s }
        | none => match skipIcase arg "authtok_type=".toList with
          | some _ => o
          | none => match skipIcase arg "file=".toList with
            | some s => if s.head? ≠ some '/' then o else { o with filename := some s }
            | none => o := by
  have hno : ∀ w ∈ ["try_first_pass", "use_first_pass", "use_authtok", "debug", "enforce_for_root"], ieq arg w.toList = false := by
    intro w hm
    refine given_word h ?_
    have := List.all_eq_true.mp hw w hm
    simpa using this
  unfold parseOption
  rw [hno _ (by simp), hno "use_first_pass" (by simp), hno "use_authtok" (by simp), hno "debug" (by simp), hno "enforce_for_root" (by simp)]
  rfl

theorem parse_remember (o : Options) (arg : Str) :
    (parseOption o arg).remember = ((skipIcase arg "remember=".toList).map argRemember).getD o.remember := by
  cases h : skipIcase arg "remember=".toList with
  | some s => rw [parse_words _ h (by decide)]; simp only [h]; rfl
  | none =>
    unfold parseOption
    rw [h]
    generalize ieq arg "try_first_pass".toList = b0
    generalize ieq arg "use_first_pass".toList = b1
    generalize ieq arg "use_authtok".toList = b2
    generalize ieq arg "debug".toList = b3
    generalize ieq arg "enforce_for_root".toList = b4
    generalize skipIcase arg "retry=".toList = k1
    generalize skipIcase arg "authtok_type=".toList = k2
    generalize skipIcase arg "file=".toList = k3
    cases b0 <;> cases b1 <;> cases b2 <;> cases b3 <;> cases b4 <;> cases k1 <;> cases k2 <;> cases k3 <;>
      first | rfl | (simp only [apply_ite Options.remember]; simp)

theorem parse_tries (o : Options) (arg : Str) :
    (parseOption o arg).tries = ((skipIcase arg "retry=".toList).map argTries).getD o.tries := by
  cases h : skipIcase arg "retry=".toList with
  | some s => rw [parse_words _ h (by decide)]; simp only [given_other (key' := "remember=".toList) h (by decide) (by decide), h]; rfl
  | none =>
    unfold parseOption
    rw [h]
    generalize ieq arg "try_first_pass".toList = b0
    generalize ieq arg "use_first_pass".toList = b1
    generalize ieq arg "use_authtok".toList = b2
    generalize ieq arg "debug".toList = b3
    generalize ieq arg "enforce_for_root".toList = b4
    generalize skipIcase arg "remember=".toList = k0
    generalize skipIcase arg "authtok_type=".toList = k2
    generalize skipIcase arg "file=".toList = k3
    cases b0 <;> cases b1 <;> cases b2 <;> cases b3 <;> cases b4 <;> cases k0 <;> cases k2 <;> cases k3 <;>
      first | rfl | (simp only [apply_ite Options.tries]; simp)

/-- an absolute path -/
def argFile (s : Str) : Option Str := if s.head? = some '/' then some s else none

theorem parse_file (o : Options) (arg : Str) :
    (parseOption o arg).filename = ((skipIcase arg "file=".toList).bind argFile).or o.filename := by
  cases h : skipIcase arg "file=".toList with
  | some s =>
    rw [parse_words _ h (by decide)]
    simp only [given_other (key' := "remember=".toList) h (by decide) (by decide), given_other (key' := "retry=".toList) h (by decide) (by decide),
      given_other (key' := "authtok_type=".toList) h (by decide) (by decide), h, Option.bind_some, argFile]
    by_cases hs : s.head? = some '/'
    · rw [if_neg (by simpa using hs), if_pos hs]; rfl
    · rw [if_pos hs, if_neg hs]; rfl
  | none =>
    unfold parseOption
    rw [h]
    generalize ieq arg "try_first_pass".toList = b0
    generalize ieq arg "use_first_pass".toList = b1
    generalize ieq arg "use_authtok".toList = b2
    generalize ieq arg "debug".toList = b3
    generalize ieq arg "enforce_for_root".toList = b4
    generalize skipIcase arg "remember=".toList = k0
    generalize skipIcase arg "retry=".toList = k1
    generalize skipIcase arg "authtok_type=".toList = k2
    cases b0 <;> cases b1 <;> cases b2 <;> cases b3 <;> cases b4 <;> cases k0 <;> cases k1 <;> cases k2 <;>
      first | rfl | (simp only [apply_ite Options.filename]; simp)

theorem ieq_trans {a w v : Str} (h : ieq a w = true) (h' : ieq w v = false) : ieq a v = false := by
  simp only [ieq, beq_iff_eq] at h
  simp only [ieq, beq_eq_false_iff_ne] at h' ⊢
  rw [h]; exact h'

theorem word_key {a w key : Str} (h : ieq a w = true) (hk : (key.map lower).isPrefixOf (w.map lower) = false) : skipIcase a key = none := by
  cases hs : skipIcase a key with
  | none => rfl
  | some t => have := given_word hs hk; rw [h] at this; cases this

theorem parse_enforce (o : Options) (arg : Str) :
    (parseOption o arg).enforceForRoot = (o.enforceForRoot || ieq arg "enforce_for_root".toList) := by
  cases h : ieq arg "enforce_for_root".toList with
  | true =>
    unfold parseOption
    rw [ieq_trans h (by decide), ieq_trans (v := "use_first_pass".toList) h (by decide), ieq_trans (v := "use_authtok".toList) h (by decide),
      ieq_trans (v := "debug".toList) h (by decide), word_key (key := "remember=".toList) h (by decide),
      word_key (key := "retry=".toList) h (by decide), h]
    simp
  | false =>
    unfold parseOption
    rw [h]
    generalize ieq arg "try_first_pass".toList = b0
    generalize ieq arg "use_first_pass".toList = b1
    generalize ieq arg "use_authtok".toList = b2
    generalize ieq arg "debug".toList = b3
    generalize skipIcase arg "remember=".toList = k0
    generalize skipIcase arg "retry=".toList = k1
    generalize skipIcase arg "authtok_type=".toList = k2
    generalize skipIcase arg "file=".toList = k3
    cases b0 <;> cases b1 <;> cases b2 <;> cases b3 <;> cases k0 <;> cases k1 <;> cases k2 <;> cases k3 <;>
      first | rfl | (simp only [apply_ite Options.enforceForRoot]; simp)

/-! ### all arguments -/

theorem fold_none {α : Type} (f : Options → α) (get : Str → Option α) (h : ∀ o a, f (parseOption o a) = (get a).getD (f o)) :
    ∀ (argv : List Str) (o : Options), (∀ a ∈ argv, get a = none) → f (argv.foldl parseOption o) = f o
  | [], _, _ => rfl
  | a :: r, o, hn => by
    rw [List.foldl_cons, fold_none f get h r _ (fun b hb => hn b (by simp [hb])), h, hn a (by simp)]; rfl

theorem fold_last {α : Type} (f : Options → α) (get : Str → Option α) (h : ∀ o a, f (parseOption o a) = (get a).getD (f o))
    (pre : List Str) (a : Str) (post : List Str) (o : Options) (v : α) (ha : get a = some v) (hn : ∀ b ∈ post, get b = none) :
    f ((pre ++ a :: post).foldl parseOption o) = v := by
  rw [List.foldl_append, List.foldl_cons, fold_none f get h post _ hn, h, ha]; rfl

/-- C68: the number of passwords to remember: the last argument, or else the configuration file, or else ten. -/
theorem C68_remember (files : Option Str → Option Str) (argv : List Str) :
    (∀ text, LastGiven "remember=".toList argv text →
      (∀ n, Digits 10 text n → n < 2 ^ 31 → (readOptions files argv).remember = min n 400) ∧
      (∀ n, Signed (Digits 10) text n → n < 0 → -2 ^ 31 ≤ n → (readOptions files argv).remember = 0)) ∧
    (NotGiven "remember=".toList argv → Util.searchKey (files (confArg argv)) "remember".toList = none → (readOptions files argv).remember = 10) ∧
    (NotGiven "remember=".toList argv → ∀ v n, Util.searchKey (files (confArg argv)) "remember".toList = some v → Digits 10 v n → n < 2 ^ 31 →
      (readOptions files argv).remember = n) := by
  refine ⟨?_, ?_, ?_⟩
  · rintro text ⟨pre, a, post, rfl, ha, hpost⟩
    have key : (readOptions files (pre ++ a :: post)).remember = argRemember text := by
      refine fold_last Options.remember (fun a => (skipIcase a "remember=".toList).map argRemember) parse_remember pre a post _ _ ?_ ?_
      · simp only [skip_given.mpr ha, Option.map_some]
      · intro b hb; simp only [skip_none.mpr (hpost b hb), Option.map_none]
    rw [key]
    constructor
    · intro n hd hn
      have h : strtoInt 10 text = ((n : Int), []) ∧ text ≠ [] :=
        (strtoInt_base 10 (by decide) (by decide) (by decide) text n).mpr ⟨[], text, n, by simp, hd, Or.inl ⟨rfl, rfl⟩⟩
      simp only [argRemember, strtol, toInt, h.1]
      clear key hpost ha hd h
      have e : (max (-(2 ^ 63)) (min (2 ^ 63 - 1) (n : Int)) + 2 ^ 31) % 2 ^ 32 - 2 ^ 31 = (n : Int) := by omega
      rw [e]
      split <;> split <;> omega
    · intro n hd h0 hn
      have h : strtoInt 10 text = (n, []) ∧ text ≠ [] := (strtoInt_base 10 (by decide) (by decide) (by decide) text n).mpr hd
      simp only [argRemember, strtol, toInt, h.1]
      clear key hpost ha hd h
      have e : (max (-(2 ^ 63)) (min (2 ^ 63 - 1) n) + 2 ^ 31) % 2 ^ 32 - 2 ^ 31 = n := by omega
      rw [e]
      split <;> split <;> omega
  · intro hno hs
    rw [readOptions, fold_none Options.remember (fun a => (skipIcase a "remember=".toList).map argRemember) parse_remember]
    · simp only [parseConfig, hs, confNumber]; rfl
    · intro b hb; simp only [skip_none.mpr (hno b hb), Option.map_none]
  · intro hno v n hs hd hn
    rw [readOptions, fold_none Options.remember (fun a => (skipIcase a "remember=".toList).map argRemember) parse_remember]
    · simp only [parseConfig, hs, confNumber, Faillock.scan_digits hd (show n < 2 ^ 32 by omega) (by decide), toInt]
      clear hno hs hd; omega
    · intro b hb; simp only [skip_none.mpr (hno b hb), Option.map_none]

example : (readOptions (fun _ => some "remember = 7\nretry=3\n".toList) ["retry=2".toList, "REMEMBER=5".toList, "remember=500".toList]).remember = 400 := by
  decide +kernel
example : LastGiven "remember=".toList ["retry=2".toList, "REMEMBER=5".toList] "5".toList :=
  ⟨["retry=2".toList], "REMEMBER=5".toList, [], rfl, ⟨"REMEMBER=".toList, rfl, by decide⟩, by simp⟩
example : (readOptions (fun _ => some "remember = 7\nretry=3\n".toList) ["use_authtok".toList]).remember = 7 := by decide +kernel

/-- C68: the number of tries, likewise, the default being one. -/
theorem C68_tries (files : Option Str → Option Str) (argv : List Str) :
    (∀ text, LastGiven "retry=".toList argv text → ∀ n, Digits 10 text n → n < 2 ^ 31 → (readOptions files argv).tries = n) ∧
    (NotGiven "retry=".toList argv → Util.searchKey (files (confArg argv)) "retry".toList = none → (readOptions files argv).tries = 1) ∧
    (NotGiven "retry=".toList argv → ∀ v n, Util.searchKey (files (confArg argv)) "retry".toList = some v → Digits 10 v n → n < 2 ^ 31 →
      (readOptions files argv).tries = n) := by
  refine ⟨?_, ?_, ?_⟩
  · rintro text ⟨pre, a, post, rfl, ha, hpost⟩ n hd hn
    have key : (readOptions files (pre ++ a :: post)).tries = argTries text := by
      refine fold_last Options.tries (fun a => (skipIcase a "retry=".toList).map argTries) parse_tries pre a post _ _ ?_ ?_
      · simp only [skip_given.mpr ha, Option.map_some]
      · intro b hb; simp only [skip_none.mpr (hpost b hb), Option.map_none]
    rw [key]
    have h : strtoInt 10 text = ((n : Int), []) ∧ text ≠ [] :=
      (strtoInt_base 10 (by decide) (by decide) (by decide) text n).mpr ⟨[], text, n, by simp, hd, Or.inl ⟨rfl, rfl⟩⟩
    simp only [argTries, strtol, toInt, h.1]
    clear key hpost ha hd h
    have e : (max (-(2 ^ 63)) (min (2 ^ 63 - 1) (n : Int)) + 2 ^ 31) % 2 ^ 32 - 2 ^ 31 = (n : Int) := by omega
    rw [e]
    split <;> omega
  · intro hno hs
    rw [readOptions, fold_none Options.tries (fun a => (skipIcase a "retry=".toList).map argTries) parse_tries]
    · simp only [parseConfig, hs, confNumber]; rfl
    · intro b hb; simp only [skip_none.mpr (hno b hb), Option.map_none]
  · intro hno v n hs hd hn
    rw [readOptions, fold_none Options.tries (fun a => (skipIcase a "retry=".toList).map argTries) parse_tries]
    · simp only [parseConfig, hs, confNumber, Faillock.scan_digits hd (show n < 2 ^ 32 by omega) (by decide), toInt]
      clear hno hs hd; omega
    · intro b hb; simp only [skip_none.mpr (hno b hb), Option.map_none]

/-- C68: root is bound exactly if an argument or the configuration file says so. -/
theorem C68_enforce (files : Option Str → Option Str) (argv : List Str) :
    (readOptions files argv).enforceForRoot = true ↔
      (∃ a ∈ argv, ieq a "enforce_for_root".toList = true) ∨ Util.searchKey (files (confArg argv)) "enforce_for_root".toList ≠ none := by
  have fold : ∀ (l : List Str) (o : Options), (l.foldl parseOption o).enforceForRoot = true ↔
      (∃ a ∈ l, ieq a "enforce_for_root".toList = true) ∨ o.enforceForRoot = true := by
    intro l
    induction l with
    | nil => intro o; simp
    | cons a r ih =>
      intro o
      rw [List.foldl_cons, ih, parse_enforce]
      simp only [List.mem_cons, Bool.or_eq_true]
      constructor
      · rintro (⟨b, hb, h⟩ | h | h)
        · exact Or.inl ⟨b, Or.inr hb, h⟩
        · exact Or.inr h
        · exact Or.inl ⟨a, Or.inl rfl, h⟩
      · rintro (⟨b, rfl | hb, h⟩ | h)
        · exact Or.inr (Or.inr h)
        · exact Or.inl ⟨b, hb, h⟩
        · exact Or.inr (Or.inl h)
  rw [readOptions, fold]
  have : (parseConfig (files (confArg argv)) defaults).enforceForRoot = true ↔
      Util.searchKey (files (confArg argv)) "enforce_for_root".toList ≠ none := by
    simp only [parseConfig, defaults, Bool.false_or]
    cases Util.searchKey (files (confArg argv)) "enforce_for_root".toList <;> simp
  rw [this]

/-- C68: the file used is the last absolute path given as an argument, or else an absolute path of the configuration file. -/
theorem C68_file (files : Option Str → Option Str) (argv : List Str) :
    (∀ pre a post text, argv = pre ++ a :: post → Given "file=".toList a text → text.head? = some '/' →
      (∀ b ∈ post, ∀ t, Given "file=".toList b t → t.head? ≠ some '/') → (readOptions files argv).filename = some text) ∧
    ((∀ b ∈ argv, ∀ t, Given "file=".toList b t → t.head? ≠ some '/') →
      (readOptions files argv).filename = (Util.searchKey (files (confArg argv)) "file".toList).bind argFile) := by
  have step : ∀ o a, (parseOption o a).filename =
      (((skipIcase a "file=".toList).bind argFile).map some).getD o.filename := by
    intro o a; rw [parse_file]
    cases (skipIcase a "file=".toList).bind argFile <;> rfl
  have none_of : ∀ b, (∀ t, Given "file=".toList b t → t.head? ≠ some '/') →
      (((skipIcase b "file=".toList).bind argFile).map some) = none := by
    intro b hb
    cases hs : skipIcase b "file=".toList with
    | none => rfl
    | some t => simp only [Option.bind_some, argFile, if_neg (hb t (skip_given.mp hs)), Option.map_none]
  constructor
  · rintro pre a post text rfl ha ht hpost
    refine fold_last Options.filename (fun a => ((skipIcase a "file=".toList).bind argFile).map some) step pre a post _ _ ?_
      (fun b hb => none_of b (hpost b hb))
    simp only [skip_given.mpr ha, Option.bind_some, argFile, if_pos ht, Option.map_some]
  · intro hno
    rw [readOptions, fold_none Options.filename (fun a => ((skipIcase a "file=".toList).bind argFile).map some) step _ _
      (fun b hb => none_of b (hno b hb))]
    simp only [parseConfig, defaults]
    cases Util.searchKey (files (confArg argv)) "file".toList with
    | none => rfl
    | some v =>
      simp only [Option.bind_some, argFile]
      by_cases hv : v.head? = some '/'
      · rw [if_neg (by simpa using hv), if_pos hv]
      · rw [if_pos hv, if_neg hv]

/-- C68 is false of numbers out of range: some switch the module off.  In the configuration file there is no upper limit, and a
negative number of passwords keeps the check but records nothing; on the command line a multiple of 2^32 counts as 0. -/
theorem C68_range_counterexample :
    (readOptions (fun _ => some "remember=1000\n".toList) []).remember = 1000 ∧
    (readOptions (fun _ => some "remember=4294967295\n".toList) []).remember = -1 ∧
    (readOptions (fun _ => none) ["remember=4294967296".toList]).remember = 0 ∧
    (readOptions (fun _ => none) ["retry=0".toList]).tries = 0 := by
  decide +kernel

/-- with a negative number nothing is ever recorded -/
theorem C68_negative (crypt : Str → Str → Option Str) (sys : Sys) (o : Options) (c : Call) (fs : Fs) (u h : Str) (uid : Nat)
    (hu : c.user = .ok u) (hc : Current sys u uid h) (hn : o.remember < 0) : (chauthtok crypt sys o c fs).ops = [] := by
  rcases chauthtok_ops (crypt := crypt) (sys := sys) (o := o) (fs := fs) hu with h | h
  · exact h
  · rw [h, saveOld_small hc (by omega)]

/-- C68: the configuration file is that of the last argument `conf=`, and the default one if there is none. -/
theorem C68_conf (argv : List Str) :
    (∀ pre text post, argv = pre ++ ("conf=".toList ++ text) :: post → (∀ b ∈ post, ¬ "conf=".toList <+: b) → confArg argv = some text) ∧
    ((∀ b ∈ argv, ¬ "conf=".toList <+: b) → confArg argv = none) := by
  have none' : ∀ (l : List Str) (r : Option Str), (∀ b ∈ l, ¬ "conf=".toList <+: b) →
      l.foldl (fun r a => if "conf=".toList.isPrefixOf a then some (a.drop 5) else r) r = r := by
    intro l
    induction l with
    | nil => intro r _; rfl
    | cons a l ih =>
      intro r h
      rw [List.foldl_cons, if_neg (fun hp => h a (by simp) (List.isPrefixOf_iff_prefix.mp hp))]
      exact ih r (fun b hb => h b (by simp [hb]))
  constructor
  · rintro pre text post rfl h
    rw [confArg, List.foldl_append, List.foldl_cons, if_pos (List.isPrefixOf_iff_prefix.mpr (List.prefix_append _ _)), none' post _ h]
    rfl
  · intro h
    exact none' argv none h

example : confArg ["conf=/a".toList, "retry=3".toList, "conf=/b".toList] = some "/b".toList :=
  (C68_conf _).1 ["conf=/a".toList, "retry=3".toList] "/b".toList [] rfl (by simp)

end Pam.Pwh
