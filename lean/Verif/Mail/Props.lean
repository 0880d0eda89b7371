import Verif.Mail.Model
import Verif.Small.UsertypeProps
/-
C137 and C138: pam_mail.
-/
namespace Pam.Mail
open Pam Pam.Small

namespace Spec

/-- the letters of a name, each in a directory of its own -/
def dirs (letters : Str) : Str := letters.flatMap (fun c => ['/', c])

/-- the number of letters asked for -/
def Letters (argv : List Str) (n : Nat) : Prop :=
  (Without "hash=" argv ∧ n = 0) ∨ (∃ v, Last "hash=" argv v ∧ Signed (Digits 10) v n ∧ n < 2 ^ 64)

/-- the folder of an account -/
inductive Folder (deflt : Str) (argv : List Str) (name home : Str) : Str → Prop
  /-- in the directory for mail, below a directory for each of the first letters -/
  | standard {n} (h : ∀ v, v ≠ [] → "dir=".toList ++ v ∉ argv) (hn : Letters argv n) : Folder deflt argv name home (deflt ++ dirs (name.take n) ++ '/' :: name)
  /-- in a given directory -/
  | given {d n} (h : Last "dir=" argv d) (hd : d ≠ []) (h0 : d.head? ≠ some '~') (hn : Letters argv n) :
      Folder deflt argv name home (d ++ dirs (name.take n) ++ '/' :: name)
  /-- in the home directory -/
  | home {p} (h : Last "dir=" argv ('~' :: '/' :: p)) (hp : p ≠ []) : Folder deflt argv name home (home ++ '/' :: p)
  | tilde {p} (h : Last "dir=" argv ('~' :: p)) (hp : p ≠ []) (h0 : p.head? ≠ some '/') : Folder deflt argv name home (home ++ '/' :: p)

/-- there is something in a directory, besides "." and ".." -/
def Holds (s : Scan) : Prop := ∃ n, s = .entries n ∧ n > 2

/-- the mail that is there -/
inductive Has (standard empty : Bool) : Box → Status → Prop
  | newDir {new cur} (h : Holds new) : Has standard empty (.dir new cur) .newMail
  | oldDir {new cur} (h : ¬ Holds new) (hm : new ≠ .nomem) (hc : Holds cur) : Has standard empty (.dir new cur) .oldMail
  | noDir {new cur} (h : ¬ Holds new) (hm : new ≠ .nomem) (hc : ¬ Holds cur) (hm2 : cur ≠ .nomem) (he : empty = true) : Has standard empty (.dir new cur) .noMail
  | newFile {n a m} (h : n > 0) (hn : a < m) : Has standard empty (.file n a m) .newMail
  | oldFile {n a m} (h : n > 0) (hn : m ≤ a) (hs : standard = false) : Has standard empty (.file n a m) .oldMail
  | someFile {n a m} (h : n > 0) (hn : m ≤ a) (hs : standard = true) : Has standard empty (.file n a m) .mail
  | noFile {a m} (he : empty = true) : Has standard empty (.file 0 a m) .noMail

/-- the mail that is there is to be told: messages are wanted, and with "quiet" it is new -/
def Tells (silent : Bool) (argv : List Str) (b : Box) (st : Status) : Prop :=
  Has (decide ("standard".toList ∈ argv)) (decide ("standard".toList ∈ argv ∨ "empty".toList ∈ argv)) b st ∧ silent = false ∧ ("quiet".toList ∈ argv → st = .newMail)

/-- how the mail is called -/
def word : Status → String
  | .newMail => "new mail"
  | .oldMail => "old mail"
  | .noMail => "no mail"
  | .mail => "mail"

/-- what is told of it -/
def sentence (standard : Bool) (st : Status) (folder : Str) : Str :=
  if standard then (if st = .noMail then "You do not have any new mail.".toList else "You have ".toList ++ (word st).toList ++ ".".toList)
  else "You have ".toList ++ (word st).toList ++ " in folder ".toList ++ folder ++ ".".toList

/-- the calls that begin, and those that end -/
def Begins : Fn → Prop | .establish => True | .openSession => True | _ => False
def Ends : Fn → Prop | .delete => True | .closeSession => True | _ => False

end Spec
open Spec

theorem foldl_flag {σ : Type} (step : σ → Str → σ) (get : σ → Bool) (p : Str → Bool) (h : ∀ s a, get (step s a) = (get s || p a)) :
    ∀ (argv : List Str) (s : σ), get (argv.foldl step s) = (get s || argv.any p)
  | [], s => by simp
  | a :: argv, s => by rw [List.foldl_cons, foldl_flag step get p h argv, h, List.any_cons, Bool.or_assoc]

theorem any_mem (k : Str) (argv : List Str) : argv.any (fun a => decide (a = k)) = decide (k ∈ argv) := by
  rw [Bool.eq_iff_iff, List.any_eq_true]; simp

theorem prefix_ne {k a v : Str} (h : k ++ v = a) (n : a.take k.length ≠ k) : False := n (by rw [← h]; simp)

/-- what an argument does to each option -/
theorem arg_flags (o : Opts) (a : Str) :
    (arg o a).quiet = (o.quiet || decide (a = "quiet".toList)) ∧
    (arg o a).standard = (o.standard || decide (a = "standard".toList)) ∧
    (arg o a).empty = (o.empty || (decide (a = "standard".toList) || decide (a = "empty".toList))) ∧
    (arg o a).close = (o.close || decide (a = "close".toList)) ∧
    (arg o a).nopen = (o.nopen || decide (a = "nopen".toList)) ∧
    (arg o a).noenv = (o.noenv || decide (a = "noenv".toList)) := by
  unfold arg
  by_cases h1 : a = "debug".toList
  · subst h1; rw [if_pos rfl]; simp
  rw [if_neg h1]
  by_cases h2 : a = "quiet".toList
  · subst h2; rw [if_pos rfl]; simp
  rw [if_neg h2]
  by_cases h3 : a = "standard".toList
  · subst h3; rw [if_pos rfl]; simp
  rw [if_neg h3]
  cases h4 : skipPrefix a "dir=".toList with
  | some v =>
    rw [skipPrefix_some] at h4
    subst h4
    dsimp only
    by_cases hv : v = [] <;> simp [hv]
  | none =>
    dsimp only
    cases h5 : skipPrefix a "hash=".toList with
    | some v =>
      rw [skipPrefix_some] at h5
      subst h5
      simp
    | none =>
      dsimp only
      by_cases h6 : a = "close".toList
      · subst h6; rw [if_pos rfl]; simp
      rw [if_neg h6]
      by_cases h7 : a = "nopen".toList
      · subst h7; rw [if_pos rfl]; simp
      rw [if_neg h7]
      by_cases h8 : a = "noenv".toList
      · subst h8; rw [if_pos rfl]; simp
      rw [if_neg h8]
      by_cases h9 : a = "empty".toList
      · subst h9; rw [if_pos rfl]; simp
      rw [if_neg h9, decide_eq_false h2, decide_eq_false h3, decide_eq_false h6, decide_eq_false h7, decide_eq_false h8, decide_eq_false h9]
      simp

theorem arg_dir (o : Opts) (v : Str) : arg o ("dir=".toList ++ v) = (if v ≠ [] then { o with dir := v, newDir := true } else { o with dir := v }) := by
  unfold arg
  rw [if_neg (by simp), if_neg (by simp), if_neg (by simp), skipPrefix_some.mpr rfl]

theorem arg_hash (o : Opts) (v : Str) : arg o ("hash=".toList ++ v) = { o with hash := (strtoul10 v).1 } := by
  unfold arg
  rw [if_neg (by simp), if_neg (by simp), if_neg (by simp), skipPrefix_none.mpr (by rintro ⟨t, h⟩; simp at h)]
  dsimp only
  rw [skipPrefix_some.mpr rfl]

theorem arg_no_dir (o : Opts) (a : Str) (h : ¬ "dir=".toList <+: a) : (arg o a).dir = o.dir ∧ (arg o a).newDir = o.newDir := by
  unfold arg
  rw [skipPrefix_none.mpr h]
  dsimp only
  cases skipPrefix a "hash=".toList with
  | some v => dsimp only; constructor <;> (repeat' split) <;> rfl
  | none => dsimp only; constructor <;> (repeat' split) <;> rfl

theorem arg_no_hash (o : Opts) (a : Str) (h : ¬ "hash=".toList <+: a) : (arg o a).hash = o.hash := by
  unfold arg
  rw [skipPrefix_none.mpr h]
  cases skipPrefix a "dir=".toList with
  | some v => dsimp only; (repeat' split) <;> rfl
  | none => dsimp only; (repeat' split) <;> rfl

theorem hashed_eq : ∀ (n : Nat) (name : Str), hashed n name = dirs (name.take n)
  | 0, _ => by simp [hashed, dirs]
  | n + 1, [] => by simp [hashed, dirs]
  | n + 1, c :: r => by rw [hashed, hashed_eq n r]; rfl

theorem take_min (n : Nat) (name : Str) : name.take (if n < name.length then n else name.length) = name.take n := by
  by_cases h : n < name.length
  · rw [if_pos h]
  · rw [if_neg h, List.take_length, List.take_of_length_le (by omega)]

theorem fold_hash {argv : List Str} {n : Nat} (h : Letters argv n) : (argv.foldl arg {}).hash = n := by
  obtain ⟨h1, h2⟩ := foldl_last arg (·.hash) "hash=" arg_no_hash argv {}
  rcases h with ⟨hw, rfl⟩ | ⟨v, hl, hs, hb⟩
  · exact h1 hw
  · obtain ⟨pre, -, e⟩ := h2 v hl
    rw [e, arg_hash]
    dsimp only
    rw [(strtoul10_some hs).2]
    dsimp only
    rw [if_neg (by omega)]
    omega

theorem fold_dir {argv : List Str} {d : Str} (h : Last "dir=" argv d) (hd : d ≠ []) :
    (argv.foldl arg {}).dir = d ∧ (argv.foldl arg {}).newDir = true := by
  obtain ⟨_, h2⟩ := foldl_last arg (fun o => (o.dir, o.newDir)) "dir=" (fun o a ha => by
    have := arg_no_dir o a ha
    exact Prod.ext this.1 this.2) argv {}
  obtain ⟨pre, -, e⟩ := h2 d h
  rw [arg_dir, if_pos hd] at e
  exact ⟨congrArg Prod.fst e, congrArg Prod.snd e⟩

theorem arg_newDir (o : Opts) (a : Str) : (arg o a).newDir = (o.newDir || (skipPrefix a "dir=".toList).any (fun v => decide (v ≠ []))) := by
  by_cases h : "dir=".toList <+: a
  · obtain ⟨v, rfl⟩ := h
    rw [arg_dir, skipPrefix_some.mpr rfl]
    by_cases hv : v = [] <;> simp [hv]
  · rw [(arg_no_dir o a h).2, skipPrefix_none.mpr h]; simp

theorem fold_no_dir {argv : List Str} (h : ∀ v, v ≠ [] → "dir=".toList ++ v ∉ argv) : (argv.foldl arg {}).newDir = false := by
  rw [foldl_flag arg (·.newDir) _ arg_newDir]
  rw [Bool.or_eq_false_iff]
  refine ⟨rfl, ?_⟩
  rw [List.any_eq_false]
  intro a ha hx
  rw [Option.any_eq_true] at hx
  obtain ⟨v, hv, hne⟩ := hx
  rw [skipPrefix_some] at hv
  subst hv
  exact h v (by simpa using hne) ha

theorem parse_newDir {deflt : Str} {argv : List Str} (h : (argv.foldl arg {}).newDir = true) : parse deflt argv = argv.foldl arg {} := by
  unfold parse
  dsimp only
  rw [if_neg (by simp [h])]

theorem parse_flags (deflt : Str) (argv : List Str) :
    (parse deflt argv).quiet = decide ("quiet".toList ∈ argv) ∧ (parse deflt argv).standard = decide ("standard".toList ∈ argv) ∧
    (parse deflt argv).empty = decide ("standard".toList ∈ argv ∨ "empty".toList ∈ argv) ∧ (parse deflt argv).close = decide ("close".toList ∈ argv) ∧
    (parse deflt argv).nopen = decide ("nopen".toList ∈ argv) ∧ (parse deflt argv).noenv = decide ("noenv".toList ∈ argv) := by
  have key : ∀ {β : Type} (get : Opts → β), (∀ o d, get { o with dir := d, newDir := true } = get o) → get (parse deflt argv) = get (argv.foldl arg {}) := by
    intro β get h
    unfold parse
    dsimp only
    split
    · exact h _ _
    · rfl
  refine ⟨?_, ?_, ?_, ?_, ?_, ?_⟩
  · rw [key (·.quiet) (fun _ _ => rfl), foldl_flag arg (·.quiet) _ (fun o a => (arg_flags o a).1), any_mem]; rfl
  · rw [key (·.standard) (fun _ _ => rfl), foldl_flag arg (·.standard) _ (fun o a => (arg_flags o a).2.1), any_mem]; rfl
  · rw [key (·.empty) (fun _ _ => rfl), foldl_flag arg (·.empty) _ (fun o a => (arg_flags o a).2.2.1)]
    rw [Bool.eq_iff_iff]
    simp only [Bool.or_eq_true, List.any_eq_true, decide_eq_true_eq]
    constructor
    · rintro (h | ⟨a, ha, rfl | rfl⟩)
      · cases h
      · exact Or.inl ha
      · exact Or.inr ha
    · rintro (h | h)
      · exact Or.inr ⟨_, h, Or.inl rfl⟩
      · exact Or.inr ⟨_, h, Or.inr rfl⟩
  · rw [key (·.close) (fun _ _ => rfl), foldl_flag arg (·.close) _ (fun o a => (arg_flags o a).2.2.2.1), any_mem]; rfl
  · rw [key (·.nopen) (fun _ _ => rfl), foldl_flag arg (·.nopen) _ (fun o a => (arg_flags o a).2.2.2.2.1), any_mem]; rfl
  · rw [key (·.noenv) (fun _ _ => rfl), foldl_flag arg (·.noenv) _ (fun o a => (arg_flags o a).2.2.2.2.2), any_mem]; rfl

theorem folder_put {deflt : Str} {o : Opts} {name home : Str} (h : o.dir.head? ≠ some '~') (hn : o.newDir = true) :
    getFolder deflt o name home = some (o.dir ++ dirs (name.take o.hash) ++ '/' :: name) := by
  unfold getFolder
  dsimp only
  rw [if_pos hn, hashed_eq, take_min]
  split
  · next p e => rw [e] at h; simp at h
  · next p e => rw [e] at h; simp at h
  · rfl

/-- the folder the module uses is the one meant -/
theorem folder_eq {deflt : Str} {argv : List Str} {name home f : Str} (h0 : deflt.head? ≠ some '~') (h : Folder deflt argv name home f) :
    getFolder deflt (parse deflt argv) name home = some f := by
  cases h with
  | @standard n h hn =>
    have hnd := fold_no_dir h
    have hh := fold_hash hn
    by_cases hz : n = 0
    · have : parse deflt argv = argv.foldl arg {} := by
        unfold parse; dsimp only; rw [if_neg (by rw [hh]; simp [hz])]
      rw [this]
      unfold getFolder
      dsimp only
      rw [if_neg (by simp [hnd]), hashed_eq, take_min, hh]
    · have : parse deflt argv = { argv.foldl arg {} with dir := deflt, newDir := true } := by
        unfold parse; dsimp only; rw [if_pos ⟨by rw [hh]; exact hz, hnd⟩]
      rw [this, folder_put h0 rfl]
      dsimp only
      rw [hh]
  | @given d n h hd hx hn =>
    obtain ⟨e1, e2⟩ := fold_dir h hd
    rw [parse_newDir e2, folder_put (by rw [e1]; exact hx) e2, e1, fold_hash hn]
  | @home p h hp =>
    obtain ⟨e1, e2⟩ := fold_dir h (by simp)
    rw [parse_newDir e2]
    unfold getFolder
    dsimp only
    rw [if_pos e2, e1]
    simp only [if_neg hp]
  | @tilde p h hp hx =>
    obtain ⟨e1, e2⟩ := fold_dir h (by simp)
    rw [parse_newDir e2]
    unfold getFolder
    dsimp only
    rw [if_pos e2, e1]
    split
    · next q e => cases e; simp at hx
    · next q _ e => cases e; rw [if_neg hp]
    · next q e2 e3 => exact absurd rfl (e3 p)

/-- the status is the mail that is there -/
theorem status_iff (o : Opts) (b : Box) (st : Status) : status o b = some st ↔ Has o.standard o.empty b st := by
  constructor
  · intro h
    cases b with
    | missing => cases h
    | file n a m =>
      unfold status at h
      dsimp only at h
      by_cases hn : n > 0
      · rw [if_pos hn] at h
        by_cases ha : a < m
        · rw [if_pos ha] at h; cases h; exact .newFile hn ha
        · rw [if_neg ha] at h
          by_cases hs : o.standard = true
          · rw [if_pos hs] at h; cases h; exact .someFile hn (by omega) hs
          · rw [if_neg hs] at h; cases h; exact .oldFile hn (by omega) (by simpa using hs)
      · rw [if_neg hn] at h
        have : n = 0 := by omega
        subst this
        by_cases he : o.empty = true
        · rw [if_pos he] at h; cases h; exact .noFile he
        · rw [if_neg he] at h; cases h
    | dir new cur =>
      have hnew : ¬ Holds new → new ≠ .nomem → Has o.standard o.empty (.dir new cur) st ∨
          oldStatus o cur ≠ some st := by
        intro h1 h2
        cases cur with
        | nomem => right; simp [oldStatus]
        | failed =>
          by_cases he : o.empty = true
          · by_cases hst : st = .noMail
            · subst hst; left; exact .noDir h1 h2 (fun ⟨_, h, _⟩ => by cases h) (by simp) he
            · right; simp [oldStatus, he]; exact fun e => hst e.symm
          · right; simp [oldStatus, he]
        | entries k =>
          by_cases hk : k > 2
          · by_cases hst : st = .oldMail
            · subst hst; left; exact .oldDir h1 h2 ⟨k, rfl, hk⟩
            · right; simp [oldStatus, hk]; exact fun e => hst e.symm
          · by_cases he : o.empty = true
            · by_cases hst : st = .noMail
              · subst hst; left; exact .noDir h1 h2 (fun ⟨_, h, h'⟩ => by cases h; exact hk h') (by simp) he
              · right; simp [oldStatus, he, hk]; exact fun e => hst e.symm
            · right; simp [oldStatus, he, hk]
      unfold status at h
      dsimp only at h
      cases new with
      | nomem => cases h
      | failed => exact (hnew (fun ⟨_, h, _⟩ => by cases h) (by simp)).resolve_right (fun hx => hx h)
      | entries n =>
        dsimp only at h
        by_cases hn : n > 2
        · rw [if_pos hn] at h; cases h; exact .newDir ⟨n, rfl, hn⟩
        · rw [if_neg hn] at h
          exact (hnew (fun ⟨_, h, h'⟩ => by cases h; exact hn h') (by simp)).resolve_right (fun hx => hx h)
  · intro h
    cases h with
    | newDir h => obtain ⟨n, rfl, hn⟩ := h; simp [status, oldStatus, hn]
    | @oldDir new cur h hm hc =>
      obtain ⟨n, rfl, hn⟩ := hc
      cases new with
      | nomem => exact absurd rfl hm
      | failed => simp [status, oldStatus, hn]
      | entries k =>
        have : ¬ k > 2 := fun hk => h ⟨k, rfl, hk⟩
        simp [status, oldStatus, hn, this]
    | @noDir new cur h hm hc hm2 he =>
      cases new with
      | nomem => exact absurd rfl hm
      | failed =>
        cases cur with
        | nomem => exact absurd rfl hm2
        | failed => simp [status, oldStatus, he]
        | entries k =>
          have : ¬ k > 2 := fun hk => hc ⟨k, rfl, hk⟩
          simp [status, oldStatus, he, this]
      | entries j =>
        have hj : ¬ j > 2 := fun hk => h ⟨j, rfl, hk⟩
        cases cur with
        | nomem => exact absurd rfl hm2
        | failed => simp [status, oldStatus, he, hj]
        | entries k =>
          have : ¬ k > 2 := fun hk => hc ⟨k, rfl, hk⟩
          simp [status, oldStatus, he, this, hj]
    | newFile h hn => simp [status, oldStatus, h, hn]
    | oldFile h hn hs => simp [status, oldStatus, h, hs]; omega
    | someFile h hn hs => simp [status, oldStatus, h, hs]; omega
    | noFile he => simp [status, oldStatus, he]

theorem message_eq (standard : Bool) (st : Status) (folder : Str) : message standard st folder = sentence standard st folder := by
  cases standard <;> cases st <;> simp [message, sentence, word]

/-- the check of a folder, outright -/
theorem check_eq {w : World} {est silent : Bool} {argv : List Str} {f : Str} (hd : w.drop = true) (hr : w.regain = true)
    (hc : (est = true ∧ "nopen".toList ∉ argv) ∨ (est = false ∧ "close".toList ∈ argv)) :
    (∀ st, Tells silent argv (w.box f) st → check w est silent (parse w.deflt argv) f =
      (w.info, [.drop, .look f, .regain, .say (sentence (decide ("standard".toList ∈ argv)) st f)], false)) ∧
    ((¬ ∃ st, Tells silent argv (w.box f) st) → check w est silent (parse w.deflt argv) f = (PAM_SUCCESS, [.drop, .look f, .regain], false)) := by
  obtain ⟨f1, f2, f3, f4, f5, f6⟩ := parse_flags w.deflt argv
  have hc' : (est = true ∧ (parse w.deflt argv).nopen = false) ∨ (est = false ∧ (parse w.deflt argv).close = true) := by
    rw [f4, f5]
    rcases hc with ⟨a, b⟩ | ⟨a, b⟩
    · exact Or.inl ⟨a, decide_eq_false b⟩
    · exact Or.inr ⟨a, decide_eq_true b⟩
  unfold check
  rw [if_pos hc', if_neg (by simp [hd]), if_neg (by simp [hr])]
  constructor
  · rintro st ⟨h1, h2, h3⟩
    rw [← f2, ← f3, ← status_iff] at h1
    rw [h1]
    dsimp only
    unfold report
    rw [if_neg]
    · rw [message_eq, f2]; rfl
    · rw [f1]
      rintro (h | ⟨h, h'⟩)
      · rw [h2] at h; cases h
      · exact h' (h3 (of_decide_eq_true h))
  · intro hn
    cases hs : status (parse w.deflt argv) (w.box f) with
    | none => rfl
    | some st =>
      dsimp only
      have h1 := (status_iff _ _ _).mp hs
      rw [f2, f3] at h1
      unfold report
      rw [if_pos]
      · rfl
      · rw [f1]
        apply Classical.byContradiction
        intro hx
        rw [not_or] at hx
        refine hn ⟨st, h1, by simpa using hx.1, fun hq => ?_⟩
        apply Classical.byContradiction
        intro hne
        exact hx.2 ⟨decide_eq_true hq, hne⟩

theorem check_skip {w : World} {est silent : Bool} {argv : List Str} {f : Str}
    (hc : (est = true ∧ "nopen".toList ∈ argv) ∨ (est = false ∧ "close".toList ∉ argv)) :
    check w est silent (parse w.deflt argv) f = (PAM_SUCCESS, [], false) := by
  obtain ⟨f1, f2, f3, f4, f5, f6⟩ := parse_flags w.deflt argv
  unfold check
  rw [if_neg]
  rw [f4, f5]
  rcases hc with ⟨a, b⟩ | ⟨a, b⟩
  · rintro (⟨_, h⟩ | ⟨h, _⟩)
    · exact absurd b (of_decide_eq_false h)
    · rw [a] at h; cases h
  · rintro (⟨h, _⟩ | ⟨_, h⟩)
    · rw [a] at h; cases h
    · exact b (of_decide_eq_true h)

theorem mail_begins {w : World} {fn : Fn} {silent : Bool} {argv : List Str} (h : Begins fn) : mail w fn silent argv = doMail w true silent argv := by
  cases fn <;> first | rfl | cases h

theorem mail_ends {w : World} {fn : Fn} {silent : Bool} {argv : List Str} (h : Ends fn) : mail w fn silent argv = doMail w false silent argv := by
  cases fn <;> first | rfl | cases h

/-- C137, the folder: when a session is opened or credentials are established, MAIL is set to the folder of the account: in the directory for mail, or that of the
last dir= argument, below a directory for each of the first letters hash= asks for; or in the home directory after "~". With "noenv" it is not set. Then, unless
"nopen" is given, privileges are dropped, the folder is looked at, privileges are regained, and what is there is told: nothing with PAM_SILENT, and
only new mail with "quiet". -/
theorem C137_begin_partial (w : World) (fn : Fn) (silent : Bool) (argv : List Str) (name home f : Str) (hf : Begins fn) (hpw : w.pw = some (name, home))
    (h0 : w.deflt.head? ≠ some '~') (hfo : Folder w.deflt argv name home f) (hd : w.drop = true) (hr : w.regain = true) (hp : w.putenv = PAM_SUCCESS) :
    let env : List Op := if "noenv".toList ∈ argv then [] else [.setEnv ("MAIL=".toList ++ f)]
    ("nopen".toList ∈ argv → mail w fn silent argv = (PAM_SUCCESS, env)) ∧
    ("nopen".toList ∉ argv →
      (∀ st, Tells silent argv (w.box f) st → mail w fn silent argv =
        (w.info, env ++ [.drop, .look f, .regain, .say (sentence (decide ("standard".toList ∈ argv)) st f)])) ∧
      ((¬ ∃ st, Tells silent argv (w.box f) st) → mail w fn silent argv = (PAM_SUCCESS, env ++ [.drop, .look f, .regain]))) := by
  have henv : ∀ x : Int × List Op × Bool, check w true silent (parse w.deflt argv) f = x →
      mail w fn silent argv = (x.1, (if "noenv".toList ∈ argv then [] else [.setEnv ("MAIL=".toList ++ f)]) ++ x.2.1) := by
    intro x hx
    obtain ⟨r, ops, stop⟩ := x
    rw [mail_begins hf]
    unfold doMail
    dsimp only
    rw [hpw]
    dsimp only
    rw [folder_eq h0 hfo]
    dsimp only
    rw [if_neg (by rintro ⟨_, _, h⟩; exact h hp), hx]
    dsimp only
    rw [(parse_flags w.deflt argv).2.2.2.2.2]
    have e : (if stop = false ∧ true = false ∧ decide ("noenv".toList ∈ argv) = false then [Op.unsetEnv] else []) = ([] : List Op) :=
      if_neg (fun h => by cases h.2.1)
    rw [e, List.append_nil]
    by_cases hn : "noenv".toList ∈ argv
    · rw [if_pos hn, decide_eq_true hn, if_neg (by simp)]
    · rw [if_neg hn, decide_eq_false hn, if_pos ⟨rfl, rfl⟩]
  refine ⟨fun hn => ?_, fun hn => ⟨fun st ht => ?_, fun ht => ?_⟩⟩
  · rw [henv _ (check_skip (Or.inl ⟨rfl, hn⟩))]; simp
  · exact henv _ ((check_eq hd hr (Or.inl ⟨rfl, hn⟩)).1 st ht)
  · exact henv _ ((check_eq hd hr (Or.inl ⟨rfl, hn⟩)).2 ht)

/-- C138, the end: when a session is closed or credentials are deleted, MAIL is removed, unless "noenv" is given, and with "close" the mail is told before. -/
theorem C138_end_partial (w : World) (fn : Fn) (silent : Bool) (argv : List Str) (name home f : Str) (hf : Ends fn) (hpw : w.pw = some (name, home))
    (h0 : w.deflt.head? ≠ some '~') (hfo : Folder w.deflt argv name home f) (hd : w.drop = true) (hr : w.regain = true) :
    let env : List Op := if "noenv".toList ∈ argv then [] else [.unsetEnv]
    ("close".toList ∉ argv → mail w fn silent argv = (PAM_SUCCESS, env)) ∧
    ("close".toList ∈ argv →
      (∀ st, Tells silent argv (w.box f) st → mail w fn silent argv =
        (w.info, [.drop, .look f, .regain, .say (sentence (decide ("standard".toList ∈ argv)) st f)] ++ env)) ∧
      ((¬ ∃ st, Tells silent argv (w.box f) st) → mail w fn silent argv = (PAM_SUCCESS, [.drop, .look f, .regain] ++ env))) := by
  have henv : ∀ r ops, check w false silent (parse w.deflt argv) f = (r, ops, false) →
      mail w fn silent argv = (r, ops ++ (if "noenv".toList ∈ argv then [] else [.unsetEnv])) := by
    intro r ops hx
    rw [mail_ends hf]
    unfold doMail
    dsimp only
    rw [hpw]
    dsimp only
    rw [folder_eq h0 hfo]
    dsimp only
    rw [if_neg (by simp), hx]
    dsimp only
    have e : (if (parse w.deflt argv).noenv = false ∧ false = true then [Op.setEnv ("MAIL=".toList ++ f)] else []) = ([] : List Op) :=
      if_neg (fun h => by cases h.2)
    rw [e, (parse_flags w.deflt argv).2.2.2.2.2, List.nil_append]
    by_cases hn : "noenv".toList ∈ argv
    · rw [if_pos hn, decide_eq_true hn, if_neg (by simp)]
    · rw [if_neg hn, decide_eq_false hn, if_pos ⟨rfl, rfl, rfl⟩]
  refine ⟨fun hn => ?_, fun hn => ⟨fun st ht => ?_, fun ht => ?_⟩⟩
  · rw [henv _ _ (check_skip (Or.inr ⟨rfl, hn⟩))]; simp
  · exact henv _ _ ((check_eq hd hr (Or.inr ⟨rfl, hn⟩)).1 st ht)
  · exact henv _ _ ((check_eq hd hr (Or.inr ⟨rfl, hn⟩)).2 ht)

theorem look_unique {a b pre post : List Op} {f p : Str} (h : a ++ Op.look f :: b = pre ++ .look p :: post) (ha : ∀ q, Op.look q ∉ a) (hb : ∀ q, Op.look q ∉ b) :
    a = pre ∧ b = post := by
  induction a generalizing pre with
  | nil =>
    cases pre with
    | nil => cases h; exact ⟨rfl, rfl⟩
    | cons y pre =>
      rw [List.nil_append, List.cons_append, List.cons.injEq] at h
      exact absurd (by rw [h.2]; simp) (hb p)
  | cons x a ih =>
    cases pre with
    | nil =>
      rw [List.nil_append, List.cons_append, List.cons.injEq] at h
      exact absurd (by rw [h.1]; simp) (ha p)
    | cons y pre =>
      rw [List.cons_append, List.cons_append, List.cons.injEq] at h
      obtain ⟨h1, h2⟩ := ih h.2 (fun q hq => ha q (by simp [hq]))
      exact ⟨by rw [h.1, h1], h2⟩

/-- C138, privileges: whatever the arguments and the system, a folder is looked at only after privileges were dropped, and they are regained next; when either
fails the call fails, and when they cannot be dropped nothing is looked at. -/
theorem C138_privileges (w : World) (fn : Fn) (silent : Bool) (argv : List Str) (r : Int) (ops : List Op) (h : mail w fn silent argv = (r, ops)) :
    (∀ pre p post, ops = pre ++ .look p :: post → w.drop = true ∧ ∃ pre' post', pre = pre' ++ [.drop] ∧ post = .regain :: post') ∧
    (Op.drop ∈ ops → w.drop = false ∨ w.regain = false → r = PAM_SESSION_ERR ∧ ∀ s, Op.say s ∉ ops) := by
  have hcheck : ∀ est f r ops stop, check w est silent (parse w.deflt argv) f = (r, ops, stop) →
      ops = [] ∨ (ops = [.drop] ∧ w.drop = false ∧ r = PAM_SESSION_ERR) ∨ (w.drop = true ∧ w.regain = false ∧ r = PAM_SESSION_ERR ∧ ops = [.drop, .look f, .regain]) ∨
      (w.drop = true ∧ w.regain = true ∧ ∃ x, ops = [.drop, .look f, .regain] ++ x ∧ (x = [] ∨ ∃ s, x = [.say s])) := by
    intro est f r ops stop hx
    unfold check at hx
    split at hx
    · split at hx
      · next hd => cases hx; exact Or.inr (Or.inl ⟨rfl, hd, rfl⟩)
      · next hd =>
        have hd : w.drop = true := by simpa using hd
        split at hx
        · next hr => cases hx; exact Or.inr (Or.inr (Or.inl ⟨hd, hr, rfl, rfl⟩))
        · next hr =>
          have hr : w.regain = true := by simpa using hr
          right; right; right
          refine ⟨hd, hr, ?_⟩
          split at hx
          · cases hx; exact ⟨[], rfl, Or.inl rfl⟩
          · unfold report at hx
            split at hx
            · next heq => split at heq <;> cases heq <;> cases hx
                          · exact ⟨[], rfl, Or.inl rfl⟩
                          · exact ⟨_, rfl, Or.inr ⟨_, rfl⟩⟩
    · cases hx; exact Or.inl rfl
  have hdo : ∀ est, doMail w est silent argv = (r, ops) → ∃ a b c, ops = a ++ b ++ c ∧ (a = [] ∨ ∃ s, a = [.setEnv s]) ∧ (c = [] ∨ c = [.unsetEnv]) ∧
      (b = [] ∨ (b = [.drop] ∧ w.drop = false ∧ r = PAM_SESSION_ERR) ∨ (∃ f, w.drop = true ∧ w.regain = false ∧ r = PAM_SESSION_ERR ∧ b = [.drop, .look f, .regain]) ∨
      (∃ f, w.drop = true ∧ w.regain = true ∧ ∃ x, b = [.drop, .look f, .regain] ++ x ∧ (x = [] ∨ ∃ s, x = [.say s]))) := by
    intro est hx
    unfold doMail at hx
    dsimp only at hx
    split at hx
    · cases hx; exact ⟨[], [], [], rfl, Or.inl rfl, Or.inl rfl, Or.inl rfl⟩
    · split at hx
      · cases hx; exact ⟨[], [], [], rfl, Or.inl rfl, Or.inl rfl, Or.inl rfl⟩
      · next f _ =>
        have ha : ∀ P : Prop, [Decidable P] → ∀ s, ((if P then [Op.setEnv s] else []) = ([] : List Op) ∨ ∃ s', (if P then [Op.setEnv s] else []) = [Op.setEnv s']) := by
          intro P _ s; by_cases hp : P
          · rw [if_pos hp]; exact Or.inr ⟨s, rfl⟩
          · rw [if_neg hp]; exact Or.inl rfl
        have hz : ∀ P : Prop, [Decidable P] → ((if P then [Op.unsetEnv] else []) = ([] : List Op) ∨ (if P then [Op.unsetEnv] else []) = [Op.unsetEnv]) := by
          intro P _; by_cases hp : P
          · rw [if_pos hp]; exact Or.inr rfl
          · rw [if_neg hp]; exact Or.inl rfl
        split at hx
        · cases hx
          exact ⟨_, [], [], by rw [List.append_nil, List.append_nil], ha _ _, Or.inl rfl, Or.inl rfl⟩
        · obtain ⟨⟨r1, ops1, stop1⟩, hc⟩ : ∃ x, check w est silent (parse w.deflt argv) f = x := ⟨_, rfl⟩
          rw [hc] at hx
          dsimp only at hx
          cases hx
          refine ⟨_, ops1, _, rfl, ha _ _, hz _, ?_⟩
          rcases hcheck _ _ _ _ _ hc with h | h | h | h
          · exact Or.inl h
          · exact Or.inr (Or.inl h)
          · exact Or.inr (Or.inr (Or.inl ⟨f, h⟩))
          · exact Or.inr (Or.inr (Or.inr ⟨f, h⟩))
  have hall : ops = [] ∨ ∃ est, doMail w est silent argv = (r, ops) := by
    cases fn <;> first | exact Or.inr ⟨_, h⟩ | (simp only [mail] at h; cases h; exact Or.inl rfl)
  rcases hall with rfl | ⟨est, hx⟩
  · refine ⟨fun pre p post h => by simp at h, fun h => by cases h⟩
  · obtain ⟨a, b, c, rfl, ha, hc, hb⟩ := hdo est hx
    have clean : ∀ l : List Op, (∃ s, l = [.setEnv s]) ∨ l = [.unsetEnv] ∨ l = [] ∨ (∃ s, l = [.say s]) → ∀ p, Op.look p ∉ l := by
      rintro l (⟨s, rfl⟩ | rfl | rfl | ⟨s, rfl⟩) p <;> simp
    rcases hb with rfl | ⟨rfl, hd, hr⟩ | ⟨f, hd, hr, hs, rfl⟩ | ⟨f, hd, hr, x, rfl, hxs⟩
    · constructor
      · intro pre p post h
        have : Op.look p ∈ a ++ [] ++ c := by rw [h]; simp
        rcases ha with rfl | ⟨s, rfl⟩ <;> rcases hc with rfl | rfl <;> simp at this
      · intro h
        rcases ha with rfl | ⟨s, rfl⟩ <;> rcases hc with rfl | rfl <;> simp at h
    · constructor
      · intro pre p post h
        have : Op.look p ∈ a ++ [.drop] ++ c := by rw [h]; simp
        rcases ha with rfl | ⟨s, rfl⟩ <;> rcases hc with rfl | rfl <;> simp at this
      · intro _ _
        refine ⟨hr, fun s => ?_⟩
        rcases ha with rfl | ⟨s, rfl⟩ <;> rcases hc with rfl | rfl <;> simp
    · constructor
      · intro pre p post h
        refine ⟨hd, ?_⟩
        have h' : (a ++ [.drop]) ++ Op.look f :: (.regain :: c) = pre ++ .look p :: post := by simpa using h
        obtain ⟨h1, h2⟩ := look_unique h' (by rcases ha with rfl | ⟨s, rfl⟩ <;> simp) (by rcases hc with rfl | rfl <;> simp)
        exact ⟨a, c, h1.symm, h2.symm⟩
      · intro _ _
        refine ⟨hs, fun s => ?_⟩
        rcases ha with rfl | ⟨s, rfl⟩ <;> rcases hc with rfl | rfl <;> simp
    · constructor
      · intro pre p post h
        refine ⟨hd, ?_⟩
        have h' : (a ++ [.drop]) ++ Op.look f :: (.regain :: (x ++ c)) = pre ++ .look p :: post := by simpa using h
        obtain ⟨h1, h2⟩ := look_unique h' (by rcases ha with rfl | ⟨s, rfl⟩ <;> simp)
          (by rcases hc with rfl | rfl <;> rcases hxs with rfl | ⟨s, rfl⟩ <;> simp)
        exact ⟨a, x ++ c, h1.symm, h2.symm⟩
      · intro _ h
        rcases h with h | h
        · rw [hd] at h; cases h
        · rw [hr] at h; cases h

/-- C137, the folder: a path that is only "~" or "~/" is an error, and nothing is done. -/
theorem C137_bad (w : World) (fn : Fn) (silent : Bool) (argv : List Str) (q : Str × Str) (hf : Begins fn ∨ Ends fn) (hpw : w.pw = some q)
    (h : Last "dir=" argv ['~'] ∨ Last "dir=" argv ['~', '/']) : mail w fn silent argv = (PAM_SERVICE_ERR, []) := by
  have : getFolder w.deflt (parse w.deflt argv) q.1 q.2 = none := by
    rcases h with h | h <;> obtain ⟨e1, e2⟩ := fold_dir h (by simp) <;> rw [parse_newDir e2] <;> unfold getFolder <;> dsimp only <;> rw [if_pos e2, e1]
    · simp
    · simp
  have hdo : ∀ est, doMail w est silent argv = (PAM_SERVICE_ERR, []) := by
    intro est
    obtain ⟨name, home⟩ := q
    simp only [doMail, hpw]
    rw [this]
  rcases hf with hf | hf
  · rw [mail_begins hf]; exact hdo _
  · rw [mail_ends hf]; exact hdo _

/-- C137, the folder: for a user who is not known nothing is done. -/
theorem C137_unknown (w : World) (fn : Fn) (silent : Bool) (argv : List Str) (hf : Begins fn ∨ Ends fn) (hpw : w.pw = none) :
    mail w fn silent argv = (PAM_USER_UNKNOWN, []) := by
  rcases hf with hf | hf
  · rw [mail_begins hf]; simp only [doMail, hpw]
  · rw [mail_ends hf]; simp only [doMail, hpw]

/-- C138: authentication, and credentials that are refreshed, are not its business. -/
theorem C138_nothing (w : World) (silent : Bool) (argv : List Str) :
    mail w .authenticate silent argv = (PAM_IGNORE, []) ∧ mail w .refresh silent argv = (PAM_IGNORE, []) := ⟨rfl, rfl⟩

/-- a system with a mail file -/
def w0 : World where
  pw := some ("alice".toList, "/home/alice".toList)
  deflt := "/var/spool/mail".toList
  box := fun p => if p = "/var/spool/mail/alice".toList then .file 10 5 7 else if p = "/var/mail/a/l/alice".toList then .dir (.entries 2) (.entries 9) else .missing
  drop := true
  regain := true
  putenv := PAM_SUCCESS
  info := PAM_SUCCESS

/-- the theorems are met: new mail in the usual file -/
example : Folder w0.deflt ["quiet".toList] "alice".toList "/home/alice".toList "/var/spool/mail/alice".toList ∧
    Tells false ["quiet".toList] (w0.box "/var/spool/mail/alice".toList) .newMail ∧
    mail w0 .openSession false ["quiet".toList] = (PAM_SUCCESS, [.setEnv "MAIL=/var/spool/mail/alice".toList, .drop, .look "/var/spool/mail/alice".toList, .regain,
      .say "You have new mail in folder /var/spool/mail/alice.".toList]) := by
  refine ⟨Folder.standard (n := 0) (by simp) (Or.inl ⟨fun x hx => ?_, rfl⟩), ⟨.newFile (by decide) (by decide), rfl, fun _ => rfl⟩, by decide +kernel⟩
  rw [List.mem_singleton] at hx
  subst hx
  decide

/-- and a hashed mail directory, when a session is closed -/
example : Folder w0.deflt ["dir=/var/mail".toList, "hash=2".toList, "close".toList] "alice".toList "/home/alice".toList "/var/mail/a/l/alice".toList ∧
    mail w0 .closeSession false ["dir=/var/mail".toList, "hash=2".toList, "close".toList] = (PAM_SUCCESS, [.drop, .look "/var/mail/a/l/alice".toList, .regain,
      .say "You have old mail in folder /var/mail/a/l/alice.".toList, .unsetEnv]) := by
  refine ⟨Folder.given (d := "/var/mail".toList) (n := 2) ⟨[], _, rfl, by decide⟩ (by decide) (by decide)
    (Or.inr ⟨['2'], ⟨[_], [_], rfl, by decide⟩, ⟨[], ['2'], 2, by decide, ⟨by decide, by decide, by decide⟩, Or.inl ⟨rfl, rfl⟩⟩, by decide⟩), by decide +kernel⟩

/-- C137 fails for an empty dir= after another: it is said to be ignored, and the folder is looked for in the root directory. -/
theorem C137_empty_counterexample : mail w0 .openSession false ["dir=/var/mail".toList, "dir=".toList] =
    (PAM_SUCCESS, [.setEnv "MAIL=/alice".toList, .drop, .look "/alice".toList, .regain]) := by decide +kernel

/-- C138 fails when privileges cannot be dropped at the end of a session: MAIL stays. -/
theorem C138_stays_counterexample : mail { w0 with drop := false } .closeSession false ["close".toList] = (PAM_SESSION_ERR, [.drop]) := by decide +kernel

end Pam.Mail
