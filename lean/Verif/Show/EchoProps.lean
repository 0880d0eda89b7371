import Verif.Show.Echo
/-
C129: pam_echo.
-/
namespace Pam.Show
open Pam
open Pam.Small (skipPrefix cstr Last Without)

namespace Spec

/-- the item a letter after `%` stands for, as documented in pam_echo(8) -/
inductive Names (it : Items) : Char → Option Str → Prop
  | rhost : Names it 'H' it.rhost
  | host : Names it 'h' it.host
  | service : Names it 's' it.service
  | tty : Names it 't' it.tty
  | ruser : Names it 'U' it.ruser
  | user : Names it 'u' it.user

/-- a message and what is told for it -/
inductive Says (it : Items) : Str → Str → Prop
  | nil : Says it [] []
  /-- any other character stands for itself -/
  | plain {c : Char} {r t : Str} : c ≠ '%' → Says it r t → Says it (c :: r) (c :: t)
  /-- a `%` at the end stands for itself -/
  | last : Says it ['%'] ['%']
  /-- an item that is set -/
  | known {c : Char} {v r t : Str} : Names it c (some v) → Says it r t → Says it ('%' :: c :: r) (v ++ t)
  /-- an item that is not set -/
  | unknown {c : Char} {r t : Str} : Names it c none → Says it r t → Says it ('%' :: c :: r) ("(null)".toList ++ t)
  /-- any other letter stands for itself -/
  | letter {c : Char} {r t : Str} : c ∉ ['H', 'h', 's', 't', 'U', 'u'] → Says it r t → Says it ('%' :: c :: r) (c :: t)

/-- the words with a blank between them -/
def joined : List Str → Str
  | [] => []
  | [a] => a
  | a :: b :: r => a ++ ' ' :: joined (b :: r)

/-- a text and what is left of it without a newline at its end -/
def Line (s t : Str) : Prop := s = t ++ ['\n'] ∨ (s = t ∧ ∀ u, s ≠ u ++ ['\n'])

end Spec
open Spec

theorem put_ok {cap : Nat} {buf : Str} (c : Char) (h : buf.length < cap) : put cap buf c = some (buf ++ [c]) := if_pos h

theorem puts_eq (cap : Nat) : ∀ (s buf : Str), buf.length ≤ cap - 1 → puts cap buf s = some ((buf ++ s).take (cap - 1))
  | [], buf, h => by rw [puts, List.append_nil, List.take_of_length_le h]
  | c :: r, buf, h => by
    rw [puts]
    by_cases hc : buf.length < cap - 1
    · rw [if_pos hc, put_ok c (by omega)]
      dsimp only
      rw [puts_eq cap r _ (by simp; omega), List.append_assoc]; rfl
    · rw [if_neg hc, List.take_append_of_le_length (by omega), List.take_of_length_le (by omega)]

/-- all that is told, if there is room enough -/
def says (it : Items) : Str → Str
  | [] => []
  | [c] => [c]
  | c :: d :: r =>
    if c ≠ '%' then c :: says it (d :: r)
    else match item it d with
      | none => d :: says it r
      | some s => s ++ says it r

theorem take_full {α : Type} {n : Nat} {l r : List α} (h : n ≤ l.length) : (l ++ r).take n = l.take n := List.take_append_of_le_length h

theorem replaceLoop_full (it : Items) (cap : Nat) (p buf : Str) (h : ¬ buf.length < cap - 1) : replaceLoop it cap buf p = some buf := by
  match p with
  | [] => rfl
  | [c] => rw [replaceLoop, if_neg h]
  | c :: d :: r => rw [replaceLoop, if_neg h]

theorem replaceLoop_eq (it : Items) (cap : Nat) : ∀ (n : Nat) (p buf : Str), p.length ≤ n → buf.length ≤ cap - 1 → replaceLoop it cap buf p = some ((buf ++ says it p).take (cap - 1))
  | n, [], buf, _, h => by rw [replaceLoop, says, List.append_nil, List.take_of_length_le h]
  | n, [c], buf, _, h => by
    rw [replaceLoop, says]
    by_cases hc : buf.length < cap - 1
    · rw [if_pos hc, put_ok c (by omega), List.take_of_length_le (by simp; omega)]
    · rw [if_neg hc, take_full (by omega), List.take_of_length_le h]
  | 0, c :: d :: r, _, hn, _ => by simp at hn
  | n + 1, c :: d :: r, buf, hn, h => by
    simp only [List.length_cons] at hn
    by_cases hc : buf.length < cap - 1
    · rw [replaceLoop, if_pos hc, says]
      by_cases hp : c ≠ '%'
      · rw [if_pos hp, if_pos hp, put_ok c (by omega)]
        dsimp only
        rw [replaceLoop_eq it cap n (d :: r) _ (by simp; omega) (by simp; omega), List.append_assoc]; rfl
      · rw [if_neg hp, if_neg hp]
        cases item it d with
        | none =>
          dsimp only
          rw [put_ok d (by omega)]
          dsimp only
          rw [replaceLoop_eq it cap n r _ (by omega) (by simp; omega), List.append_assoc]; rfl
        | some s =>
          dsimp only
          rw [puts_eq cap s buf h]
          dsimp only
          rw [replaceLoop_eq it cap n r _ (by omega) (by rw [List.length_take]; omega), ← List.append_assoc]
          by_cases hl : (buf ++ s).length ≤ cap - 1
          · rw [List.take_of_length_le hl]
          · rw [take_full (l := buf ++ s) (by omega), take_full (by rw [List.length_take]; omega), List.take_take, Nat.min_self]
    · rw [replaceLoop_full it cap _ _ hc, take_full (by omega), List.take_of_length_le h]

theorem item_known {it : Items} {c : Char} {v : Option Str} (h : Names it c v) : item it c = some (v.getD "(null)".toList) := by cases h <;> rfl

theorem item_letter {it : Items} {c : Char} (h : c ∉ ['H', 'h', 's', 't', 'U', 'u']) : item it c = none := by
  simp only [List.mem_cons, List.not_mem_nil, or_false, not_or] at h
  unfold item
  simp [h]

theorem says_of {it : Items} {m t : Str} (h : Says it m t) : says it m = t := by
  induction h with
  | nil => rfl
  | @plain c r t hc _ ih =>
    cases r with
    | nil => rw [← ih]; rfl
    | cons d r => rw [says, if_pos hc, ih]
  | last => rfl
  | known hn _ ih => rw [says, if_neg (by simp), item_known hn]; dsimp only [Option.getD]; rw [ih]
  | unknown hn _ ih => rw [says, if_neg (by simp), item_known hn]; dsimp only [Option.getD]; rw [ih]
  | letter hn _ ih => rw [says, if_neg (by simp), item_letter hn]; dsimp only; rw [ih]

theorem says_total (it : Items) : ∀ (n : Nat) (m : Str), m.length ≤ n → ∃ t, Says it m t
  | _, [], _ => ⟨[], .nil⟩
  | 0, c :: r, h => by simp at h
  | n + 1, c :: r, h => by
    simp only [List.length_cons] at h
    by_cases hc : c = '%'
    · subst hc
      cases r with
      | nil => exact ⟨_, .last⟩
      | cons d r =>
        simp only [List.length_cons] at h
        obtain ⟨t, ht⟩ := says_total it n r (by omega)
        by_cases hd : d ∈ ['H', 'h', 's', 't', 'U', 'u']
        · have hx : ∃ v, Names it d v := by
            simp only [List.mem_cons, List.not_mem_nil, or_false] at hd
            rcases hd with rfl | rfl | rfl | rfl | rfl | rfl
            · exact ⟨_, .rhost⟩
            · exact ⟨_, .host⟩
            · exact ⟨_, .service⟩
            · exact ⟨_, .tty⟩
            · exact ⟨_, .ruser⟩
            · exact ⟨_, .user⟩
          obtain ⟨v, hv⟩ := hx
          cases v with
          | none => exact ⟨_, .unknown hv ht⟩
          | some v => exact ⟨_, .known hv ht⟩
        · exact ⟨_, .letter hd ht⟩
    · obtain ⟨t, ht⟩ := says_total it n r (by omega)
      exact ⟨_, .plain hc ht⟩

theorem replaceAndPrint_eq (it : Items) (m : Str) : replaceAndPrint it m = some ((says it m).take (m.length + 511)) := by
  unfold replaceAndPrint
  dsimp only
  rw [replaceLoop_eq it _ m.length m [] (Nat.le_refl _) (by simp)]
  dsimp only
  have e : m.length + 512 - 1 = m.length + 511 := by omega
  rw [e, put_ok NUL (by rw [List.length_take]; omega)]
  rfl

theorem tell_eq {it : Items} {m t : Str} (h : Says it m t) : tell it m = some (PAM_SUCCESS, some (t.take (m.length + 511))) := by
  unfold tell
  rw [replaceAndPrint_eq, says_of h]; rfl

/-- the rest of the arguments, each after a blank -/
def after : List Str → Str
  | [] => []
  | a :: r => ' ' :: a ++ after r

theorem joined_cons : ∀ (a : Str) (r : List Str), joined (a :: r) = a ++ after r
  | a, [] => by simp [joined, after]
  | a, b :: r => by rw [joined, joined_cons b r, after]; rfl

theorem joinLoop_after (cap : Nat) : ∀ (r : List Str) (buf : Str), buf.length ≤ cap - 1 → joinLoop cap false buf r = some ((buf ++ after r).take (cap - 1))
  | [], buf, h => by rw [joinLoop, after, List.append_nil, List.take_of_length_le h]
  | a :: r, buf, h => by
    rw [joinLoop]
    by_cases hc : buf.length < cap - 1
    · rw [if_pos hc, if_neg (by decide), put_ok ' ' (by omega)]
      dsimp only
      rw [puts_eq cap a _ (by simp; omega)]
      dsimp only
      rw [joinLoop_after cap r _ (by rw [List.length_take]; omega), after]
      have e : buf ++ (' ' :: a ++ after r) = (buf ++ [' '] ++ a) ++ after r := by simp
      rw [e]
      by_cases hl : (buf ++ [' '] ++ a).length ≤ cap - 1
      · rw [List.take_of_length_le hl]
      · rw [take_full (l := buf ++ [' '] ++ a) (by omega), take_full (by rw [List.length_take]; omega), List.take_take, Nat.min_self]
    · rw [if_neg hc, take_full (by omega), List.take_of_length_le h]

theorem joinLoop_eq (argv : List Str) : joinLoop 512 true [] argv = some ((joined argv).take 511) := by
  cases argv with
  | nil => rfl
  | cons a r =>
    rw [joinLoop, if_pos (by decide), if_pos rfl]
    dsimp only
    rw [puts_eq 512 a [] (by simp)]
    dsimp only
    rw [joinLoop_after 512 r _ (by rw [List.length_take]; omega), joined_cons, List.nil_append]
    by_cases hl : a.length ≤ 511
    · rw [List.take_of_length_le (l := a) hl]
    · rw [take_full (l := a) (by omega), take_full (by rw [List.length_take]; omega), List.take_take, Nat.min_self]

theorem fileArg_last (argv : List Str) : (Without "file=" argv ∧ argv.foldl fileArg none = none) ∨ ∃ v, Last "file=" argv v ∧ argv.foldl fileArg none = some v := by
  have h := Small.foldl_last fileArg id "file=" (by
      intro s a ha
      simp only [id_eq]
      unfold fileArg
      rw [Small.skipPrefix_none.mpr ha]) argv none
  rcases Small.last_or_without "file=" argv with hw | ⟨v, hv⟩
  · exact Or.inl ⟨hw, h.1 hw⟩
  · refine Or.inr ⟨v, hv, ?_⟩
    obtain ⟨pre, -, e⟩ := h.2 v hv
    simp only [id_eq] at e
    rw [e]
    unfold fileArg
    rw [Small.skipPrefix_some.mpr rfl]

theorem line_noNewline {s t : Str} (h : Line s t) : noNewline s = t := by
  unfold noNewline
  rcases h with rfl | ⟨rfl, h⟩
  · rw [if_pos (by simp)]; simp
  · rw [if_neg]
    intro e
    rw [List.getLast?_eq_some_iff] at e
    obtain ⟨u, hu⟩ := e
    exact h u hu

/-- **C129**: with PAM_SILENT nothing is told; so it is for credentials, the end of a session and the second pass of a password change. -/
theorem C129_nothing (it : Items) (fn : Fn) (silent prelim : Bool) (file : Str → Option File) (argv : List Str)
    (h : silent = true ∨ fn = .setcred ∨ fn = .closeS ∨ (fn = .chauthtok ∧ prelim = false)) : echoFn it fn silent prelim file argv = some (PAM_IGNORE, none) := by
  rcases h with rfl | rfl | rfl | ⟨rfl, rfl⟩
  · cases fn <;> first | rfl | skip
    cases prelim <;> rfl
  · rfl
  · rfl
  · rfl

/-- the function tells something, if it is not told to be silent -/
def Speaks (fn : Fn) (prelim : Bool) : Prop := fn = .auth ∨ fn = .account ∨ fn = .openS ∨ (fn = .chauthtok ∧ prelim = true)

theorem echoFn_speaks {it : Items} {fn : Fn} {prelim : Bool} (h : Speaks fn prelim) (silent : Bool) (file : Str → Option File) (argv : List Str) :
    echoFn it fn silent prelim file argv = echo it silent file argv := by
  rcases h with rfl | rfl | rfl | ⟨rfl, rfl⟩ <;> rfl

/-- **C129**: without a file (file= is not given or the last one is empty) the arguments are told, with a blank between them and the items in them replaced. The first 511 characters of the arguments count, and
at most 511 more characters than those are told. -/
theorem C129_arguments (it : Items) (fn : Fn) (prelim : Bool) (file : Str → Option File) (argv : List Str) (t : Str) (hf : Speaks fn prelim)
    (h : Without "file=" argv ∨ Last "file=" argv []) (hs : Says it ((joined argv).take 511) t) :
    echoFn it fn false prelim file argv = some (PAM_SUCCESS, some (t.take (min 511 (joined argv).length + 511))) := by
  rw [echoFn_speaks hf]
  have hn : (argv.foldl fileArg none).getD [] = [] := by
    rcases fileArg_last argv with ⟨-, e⟩ | ⟨v, hv, e⟩
    · rw [e]; rfl
    · rcases h with h | h
      · exact absurd hv (Small.without_last h)
      · rw [e, Small.last_unique hv h]; rfl
  unfold echo
  rw [if_neg (by decide)]
  dsimp only
  rw [if_pos hn, joinLoop_eq]
  dsimp only
  rw [put_ok NUL (by rw [List.length_take]; omega)]
  dsimp only
  rw [tell_eq hs, List.length_take]

/-- **C129**: with a file its text is told, up to the first NUL and without a newline at its end, and with the items in it replaced; at most 511 more characters than the text has are told. -/
theorem C129_file (it : Items) (fn : Fn) (prelim : Bool) (file : Str → Option File) (argv : List Str) (name text line t : Str) (hf : Speaks fn prelim)
    (h : Last "file=" argv name) (hname : name ≠ []) (hfile : file name = some ⟨some text.length, text⟩) (h1 : text ≠ []) (h2 : text.length < 2 ^ 31)
    (hl : Line text line) (hs : Says it (line.takeWhile (· ≠ NUL)) t) :
    echoFn it fn false prelim file argv = some (PAM_SUCCESS, some (t.take ((line.takeWhile (· ≠ NUL)).length + 511))) := by
  rw [echoFn_speaks hf]
  have hn : (argv.foldl fileArg none).getD [] = name := by
    rcases fileArg_last argv with ⟨hw, -⟩ | ⟨v, hv, e⟩
    · exact absurd h (Small.without_last hw)
    · rw [e, Small.last_unique hv h]; rfl
  unfold echo
  rw [if_neg (by decide)]
  dsimp only
  rw [hn, if_neg hname, hfile]
  dsimp only
  have hpos := List.length_pos_iff.mpr h1
  rw [if_neg (by omega), if_neg (by omega), if_neg (by omega), List.take_of_length_le (by omega), line_noNewline hl]
  exact tell_eq hs

/-- **C129**: a file that cannot be opened or read or is empty is ignored, and nothing is told; one that is too large is an error. -/
theorem C129_no_file (it : Items) (fn : Fn) (prelim : Bool) (file : Str → Option File) (argv : List Str) (name : Str) (hf : Speaks fn prelim)
    (h : Last "file=" argv name) (hname : name ≠ []) :
    (file name = none → echoFn it fn false prelim file argv = some (PAM_IGNORE, none)) ∧
    (∀ f, file name = some f → f.size = none ∨ f.size = some 0 ∨ (∃ n, f.size = some n ∧ f.text.length < n ∧ n < 2 ^ 31) → echoFn it fn false prelim file argv = some (PAM_IGNORE, none)) ∧
    (∀ f n, file name = some f → f.size = some n → 2 ^ 31 ≤ n → echoFn it fn false prelim file argv = some (PAM_BUF_ERR, none)) := by
  rw [echoFn_speaks hf]
  have hn : (argv.foldl fileArg none).getD [] = name := by
    rcases fileArg_last argv with ⟨hw, -⟩ | ⟨v, hv, e⟩
    · exact absurd h (Small.without_last hw)
    · rw [e, Small.last_unique hv h]; rfl
  unfold echo
  rw [if_neg (by decide)]
  dsimp only
  rw [hn, if_neg hname]
  refine ⟨fun e => by rw [e], ?_, ?_⟩
  · rintro f e (h1 | h1 | ⟨n, h1, h2, h3⟩)
    · rw [e]; dsimp only; rw [h1]
    · rw [e]; dsimp only; rw [h1]; exact if_pos rfl
    · rw [e]; dsimp only; rw [h1]
      dsimp only
      rw [if_neg (by omega), if_neg (by omega), if_pos h2]
  · intro f n e h1 h2
    rw [e]; dsimp only; rw [h1]
    dsimp only
    rw [if_neg (by omega), if_pos (by omega)]

/-- **C129**: every message has exactly one meaning, so that the theorems above cover all of them, and nothing is ever written outside a buffer. -/
theorem C129_safe (it : Items) (m : Str) (fn : Fn) (silent prelim : Bool) (file : Str → Option File) (argv : List Str) :
    (∃ t, Says it m t ∧ ∀ u, Says it m u → u = t) ∧ echoFn it fn silent prelim file argv ≠ none := by
  refine ⟨?_, ?_⟩
  · obtain ⟨t, ht⟩ := says_total it m.length m (Nat.le_refl _)
    exact ⟨t, ht, fun u hu => by rw [← says_of ht, says_of hu]⟩
  · have htell : ∀ m, tell it m ≠ none := fun m => by unfold tell; rw [replaceAndPrint_eq]; simp
    have hecho : echo it silent file argv ≠ none := by
      unfold echo
      split
      · simp
      · dsimp only
        split
        · rw [joinLoop_eq]
          dsimp only
          rw [put_ok NUL (by rw [List.length_take]; omega)]
          exact htell _
        · split
          · simp
          · split
            · simp
            · split
              · simp
              · split
                · simp
                · split
                  · simp
                  · exact htell _
    cases fn
    · exact hecho
    · simp [echoFn]
    · exact hecho
    · exact hecho
    · simp [echoFn]
    · cases prelim
      · simp [echoFn]
      · exact hecho

/-- an example -/
def sample : Items := ⟨some "far".toList, some "login".toList, none, none, some "bob".toList, some "near".toList⟩

example : echoFn sample .auth false false (fun _ => none) ["Hello".toList, "%u@%h:".toList, "100%% %t %".toList] = some (PAM_SUCCESS, some "Hello bob@near: 100% (null) %".toList) := by decide +kernel
example : echoFn sample .openS false false (fun n => if n = "/m".toList then some ⟨some 10, "hi %H\nyou\n".toList⟩ else none) ["x".toList, "file=/m".toList] =
    some (PAM_SUCCESS, some "hi far\nyou".toList) := by decide +kernel
example : Says sample "%u: %".toList "bob: %".toList :=
  .known (v := "bob".toList) .user (.plain (by decide) (.plain (by decide) .last))

end Pam.Show
