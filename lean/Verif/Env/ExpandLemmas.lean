import Verif.Env.ParseLemmas
/-
`_expand_arg` puts in what the specification says.
-/
namespace Pam.Env
open Pam Pam.Small Spec

theorem itemByName_eq (w : Who) (n : Str) : itemByName w n = item w n := by
  unfold itemByName item
  simp only [List.lookup_cons, List.lookup_nil]
  by_cases h1 : n = "PAM_USER".toList
  · subst h1
    cases w.user <;> rfl
  by_cases h2 : n = "HOME".toList
  · subst h2
    rcases hu : w.user with - | u
    · simp
    · simp only [Option.bind_some]
      rcases hp : w.pw u with - | ⟨d, s⟩ <;> simp [hp]
  by_cases h3 : n = "SHELL".toList
  · subst h3
    rcases hu : w.user with - | u
    · simp
    · simp only [Option.bind_some]
      rcases hp : w.pw u with - | ⟨d, s⟩ <;> simp [hp]
  have e1 : (n == "PAM_USER".toList) = false := by simpa using h1
  have e2 : (n == "HOME".toList) = false := by simpa using h2
  have e3 : (n == "SHELL".toList) = false := by simpa using h3
  rw [if_neg (by rintro (h | h | h) <;> contradiction), e1, e2, e3]
  dsimp only
  have e4 : ¬ (n = "HOME".toList ∨ n = "SHELL".toList) := by rintro (h | h) <;> contradiction
  simp only [if_neg e4]
  by_cases h5 : n = "PAM_USER_PROMPT".toList
  · rw [if_pos h5, h5]
    cases w.userPrompt <;> rfl
  rw [if_neg h5, show (n == "PAM_USER_PROMPT".toList) = false by simpa using h5]
  by_cases h6 : n = "PAM_TTY".toList
  · rw [if_pos h6, h6]
    cases w.tty <;> rfl
  rw [if_neg h6, show (n == "PAM_TTY".toList) = false by simpa using h6]
  by_cases h7 : n = "PAM_RUSER".toList
  · rw [if_pos h7, h7]
    cases w.ruser <;> rfl
  rw [if_neg h7, show (n == "PAM_RUSER".toList) = false by simpa using h7]
  by_cases h8 : n = "PAM_RHOST".toList
  · rw [if_pos h8, h8]
    cases w.rhost <;> rfl
  rw [if_neg h8, show (n == "PAM_RHOST".toList) = false by simpa using h8]
  rfl

theorem isSpecial_iff (c : Char) : isSpecial c = true ↔ Special c := by
  unfold isSpecial Special
  simp [or_assoc]

/-- the outcome in the model's terms -/
def toExpanded : Option Str → Expanded
  | some s => .done s
  | none => .abort

theorem cons_map (a : Str) (r : Option Str) : (toExpanded r).cons a = toExpanded (r.map (a ++ ·)) := by
  cases r <;> rfl

theorem cons_char (c : Char) (r : Option Str) : (toExpanded r).cons [c] = toExpanded (r.map (c :: ·)) := by
  cases r <;> rfl

theorem brace_split {n s : Str} (h : '}' ∉ n) :
    (n ++ '}' :: s).takeWhile (· ≠ '}') = n ∧ (n ++ '}' :: s).dropWhile (· ≠ '}') = '}' :: s :=
  ⟨takeWhile_all' (fun c hc => decide_eq_true (fun e => h (e ▸ hc))) (by intro c hc; cases hc; rfl),
   dropWhile_all (fun c hc => decide_eq_true (fun e => h (e ▸ hc))) (by intro c hc; cases hc; rfl)⟩

theorem expandLoop_eq {e : PEnv} {m : Vars} {w : Who} (hm : Reads e m) {s : Str} {r : Option Str} (h : Expands m w s r) :
    ∀ fuel, s.length ≤ fuel → expandLoop e w fuel s = toExpanded r := by
  induction h with
  | nil => intro fuel _; unfold expandLoop; rfl
  | @char c s r hc _ ih =>
    intro fuel hf
    cases fuel with
    | zero => cases hf
    | succ fuel =>
      unfold expandLoop
      unfold Special at hc
      rw [not_or] at hc
      rw [if_neg hc.1, if_neg hc.2, ih fuel (Nat.le_of_succ_le_succ hf), cons_char]
  | @escaped c s r hc _ ih =>
    intro fuel hf
    cases fuel with
    | zero => cases hf
    | succ fuel =>
      unfold expandLoop
      rw [if_pos rfl]
      dsimp only
      rw [if_pos ((isSpecial_iff c).mpr hc), ih fuel (by rw [List.length_cons, List.length_cons] at hf; omega), cons_char]
  | @dropped s r hc _ ih =>
    intro fuel hf
    cases fuel with
    | zero => cases hf
    | succ fuel =>
      have ih := ih fuel (Nat.le_of_succ_le_succ hf)
      unfold expandLoop
      rw [if_pos rfl]
      cases s with
      | nil => exact ih
      | cons d s =>
        dsimp only
        rw [if_neg (fun h => hc d rfl ((isSpecial_iff d).mp h))]
        exact ih
  | @lone c s r hc hb _ ih =>
    intro fuel hf
    cases fuel with
    | zero => cases hf
    | succ fuel =>
      unfold expandLoop
      rw [if_neg (by rcases hc with rfl | rfl <;> decide), if_pos hc, if_neg hb, ih fuel (Nat.le_of_succ_le_succ hf), cons_char]
  | @var n s r hn hne _ ih =>
    intro fuel hf
    cases fuel with
    | zero => cases hf
    | succ fuel =>
      obtain ⟨b1, b2⟩ := brace_split (s := s) hn
      show expandLoop e w (fuel + 1) ('$' :: '{' :: (n ++ '}' :: s)) = _
      unfold expandLoop
      rw [if_neg (by decide), if_pos (Or.inl rfl), if_pos (show ('{' :: (n ++ '}' :: s)).head? = some '{' from rfl),
        if_neg (show ¬ ('}' ∉ ('{' :: (n ++ '}' :: s)).tail) from not_not_intro (List.mem_append_right n List.mem_cons_self))]
      dsimp only [List.tail_cons]
      rw [b1, b2, if_pos rfl, hm.2 n hne]
      dsimp only [List.tail_cons]
      rw [ih fuel (by
        have : ("${".toList ++ n ++ '}' :: s).length ≤ fuel + 1 := hf
        rw [List.length_append, List.length_cons] at this; omega), cons_map]
  | @item n s r hn _ ih =>
    intro fuel hf
    cases fuel with
    | zero => cases hf
    | succ fuel =>
      obtain ⟨b1, b2⟩ := brace_split (s := s) hn
      show expandLoop e w (fuel + 1) ('@' :: '{' :: (n ++ '}' :: s)) = _
      unfold expandLoop
      rw [if_neg (by decide), if_pos (Or.inr rfl), if_pos (show ('{' :: (n ++ '}' :: s)).head? = some '{' from rfl),
        if_neg (show ¬ ('}' ∉ ('{' :: (n ++ '}' :: s)).tail) from not_not_intro (List.mem_append_right n List.mem_cons_self))]
      dsimp only [List.tail_cons]
      rw [b1, b2, if_neg (by decide), itemByName_eq]
      dsimp only [List.tail_cons]
      rw [ih fuel (by
        have : ("@{".toList ++ n ++ '}' :: s).length ≤ fuel + 1 := hf
        rw [List.length_append, List.length_cons] at this; omega), cons_map]
  | @unclosed c s hc hb =>
    intro fuel hf
    cases fuel with
    | zero => cases hf
    | succ fuel =>
      unfold expandLoop
      rw [if_neg (by rcases hc with rfl | rfl <;> decide), if_pos hc, if_pos (show ('{' :: s).head? = some '{' from rfl),
        if_pos (show '}' ∉ ('{' :: s).tail from hb)]
      rfl

theorem expandLoop_plain (e : PEnv) (w : Who) : ∀ (s : Str) (fuel : Nat), s.any isSpecial = false → s.length ≤ fuel → expandLoop e w fuel s = .done s
  | [], fuel, _, _ => by unfold expandLoop; rfl
  | c :: s, 0, _, h => by cases h
  | c :: s, fuel + 1, hs, h => by
    rw [List.any_cons, Bool.or_eq_false_iff] at hs
    have hc : ¬ Special c := fun h => by rw [(isSpecial_iff c).mpr h] at hs; cases hs.1
    unfold Special at hc
    rw [not_or] at hc
    unfold expandLoop
    rw [if_neg hc.1, if_neg hc.2, expandLoop_plain e w s fuel hs.2 (Nat.le_of_succ_le_succ h)]
    rfl

theorem expandArg_eq {e : PEnv} {m : Vars} {w : Who} (hm : Reads e m) {s : Str} {r : Option Str} (h : Expands m w s r) :
    expandArg e w s = toExpanded r := by
  rw [← expandLoop_eq hm h s.length (Nat.le_refl _)]
  unfold expandArg
  split
  · next hs => rw [expandLoop_plain e w s _ (by simpa using hs) (Nat.le_refl _)]
  · rfl

/-- the value of a setting that counts -/
theorem expandVal_eq {e : PEnv} {m : Vars} {w : Who} (hm : Reads e m) {o : Option Setting} {r : Option (Option Str)} (h : Value m w o r) :
    expandVal e w (valOf o) = toExpanded (r.map (·.getD [])) ∧ (valOf o = .null ↔ o = none) ∧ (r = some none ↔ o = none) := by
  cases o with
  | none => cases h; exact ⟨rfl, ⟨fun _ => rfl, fun _ => rfl⟩, ⟨fun _ => rfl, fun _ => rfl⟩⟩
  | some s =>
    obtain ⟨x, hx, rfl⟩ := h
    have e1 : ((x.map some).map (·.getD [])) = x := by cases x <;> rfl
    rw [e1]
    refine ⟨?_, ⟨fun h => ?_, nofun⟩, ⟨fun h => ?_, nofun⟩⟩
    · rw [← expandArg_eq hm hx]
      unfold valOf
      dsimp only
      split
      · next h => rw [h]; rfl
      · rfl
    · unfold valOf at h
      dsimp only at h
      split at h <;> cases h
    · cases x <;> cases h

/-- what is done about the variable -/
theorem checkVar_eq {e : PEnv} {m : Vars} {w : Who} (hm : Reads e m) {en : Entry} {f : Effect} (h : en.Does m w f) :
    checkVar e w { name := en.name, defval := valOf (en.last false), override := valOf (en.last true) } = match f with
      | .set v => .define v
      | .unset => .undefine
      | .fails => .abort := by
  unfold checkVar
  dsimp only
  cases h with
  | @override d v h1 h2 hv =>
    rw [(expandVal_eq hm h1).1, (expandVal_eq hm h2).1]
    dsimp only [Option.map_some, toExpanded, Option.getD_some]
    rw [if_pos hv]
  | @default v o h1 h2 ho =>
    rw [(expandVal_eq hm h1).1, (expandVal_eq hm h2).1]
    have : o.getD [] = [] := by rcases ho with rfl | rfl <;> rfl
    dsimp only [Option.map_some, toExpanded, Option.getD_some]
    rw [this, if_neg (fun h => h rfl), if_pos]
    intro hn
    have := (expandVal_eq hm h1).2.2.mpr ((expandVal_eq hm h1).2.1.mp hn)
    cases this
  | @unset o h1 h2 ho =>
    rw [(expandVal_eq hm h1).1, (expandVal_eq hm h2).1]
    have : o.getD [] = [] := by rcases ho with rfl | rfl <;> rfl
    dsimp only [Option.map_some, toExpanded, Option.getD_some]
    rw [this, if_neg (fun h => h rfl), if_neg]
    intro hn
    exact hn ((expandVal_eq hm h1).2.1.mpr ((expandVal_eq hm h1).2.2.mp rfl))
  | @fails d o h1 h2 hf =>
    rw [(expandVal_eq hm h1).1, (expandVal_eq hm h2).1]
    rcases d with - | d
    · rfl
    · rcases o with - | o
      · rfl
      · rcases hf with hf | hf <;> cases hf

end Pam.Env
