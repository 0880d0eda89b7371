import Verif.Simple.Umask
import Verif.Util.FilesProps
/-
C127 and C128: pam_faildelay and pam_umask.
-/
namespace Pam.Simple
open Pam
open Pam.Small (skipPrefix skipPrefix_some skipPrefix_none Last Without last_or_without)

namespace Spec

/-- a decimal number: blanks, a sign and digits -/
def Decimal (s : Text) (v : Int) : Prop := Signed (Digits 10) s v

/-- an octal number: blanks, a sign and digits -/
def Octal (s : Text) (v : Int) : Prop := Signed (Digits 8) s v

/-- an argument `key=value` -/
def Arg (key : String) (a v : Text) : Prop := a = key.toList ++ v

/-- a delay that can be set, in microseconds -/
def Delay (s : Text) (n : Nat) : Prop := Decimal s n ∧ n ≤ 4294967295

/-- the pieces of a text between commas -/
def fields : Text → List Text
  | [] => [[]]
  | c :: cs =>
    if c = ',' then [] :: fields cs
    else match fields cs with
      | [] => [[c]]
      | l :: ls => (c :: l) :: ls

/-- `key=value` with the key in upper or lower case -/
def Setting (key : String) (a v : Text) : Prop := ∃ k, a = k ++ '=' :: v ∧ k.map lower = key.toList

/-- what a field of the GECOS entry asks for -/
inductive Field : Text → List Act → Prop
  | umask (f v : Text) (n : Nat) : Setting "umask" f v → Octal v n → n ≤ 0o777 → Field f [.mask n]
  | pri (f v : Text) (n : Int) : Setting "pri" f v → Decimal v n → -(2 ^ 31) ≤ n → n < 2 ^ 31 → Field f [.nice n]
  | ulimit (f v : Text) (n : Nat) : Setting "ulimit" f v → Decimal v n → n < 2 ^ 54 → Field f [.fsize (512 * n)]
  | other (f : Text) : (∀ v, ¬ Setting "umask" f v ∧ ¬ Setting "pri" f v ∧ ¬ Setting "ulimit" f v) → Field f []

/-- what the fields ask for, in their order -/
inductive Fields : List Text → List Act → Prop
  | nil : Fields [] []
  | cons (f : Text) (a : List Act) (r : List Text) (b : List Act) : Field f a → Fields r b → Fields (f :: r) (a ++ b)

/-- the mask with the digits o, g and t -/
def digits (o g t : Nat) : Nat := o * 64 + g * 8 + t

end Spec
open Spec

/-! ### pam_faildelay -/

theorem strtoInt10 {s : Text} {v : Int} : (strtoInt 10 s = (v, []) ∧ s ≠ []) ↔ Decimal s v := strtoInt_base 10 (by decide) (by decide) (by decide) s v

theorem parseDelay_iff (s : Text) (n : Nat) (hn : n ≤ 4294967295) : parseDelay s = some n ↔ Decimal s n := by
  rw [← strtoInt10]
  unfold parseDelay
  obtain ⟨⟨v, rest⟩, h⟩ : ∃ t, strtoInt 10 s = t := ⟨_, rfl⟩
  rw [h]
  dsimp only
  constructor
  · intro e
    split at e
    · cases e
    · next hc =>
      simp only [not_or, ne_eq, Classical.not_not] at hc
      obtain ⟨h1, h2, rfl⟩ := hc
      have h2 : s ≠ [] := fun e => h2 e.symm
      simp only [Option.some.injEq] at e
      refine ⟨?_, h2⟩
      have : v = n := by omega
      rw [this]
  · rintro ⟨e, hs⟩
    cases e
    rw [if_neg]
    · simp only [Option.some.injEq]; omega
    · simp only [not_or, ne_eq, Classical.not_not]
      exact ⟨by omega, fun e => hs e.symm, trivial⟩

theorem parseDelay_ok (s : Text) : (∃ n, parseDelay s = some n ∧ n ≤ 4294967295) ↔ ∃ n, Delay s n :=
  ⟨fun ⟨n, h, hn⟩ => ⟨n, (parseDelay_iff s n hn).mp h, hn⟩, fun ⟨n, h, hn⟩ => ⟨n, (parseDelay_iff s n hn).mpr h, hn⟩⟩

theorem delayArgs_spec : ∀ (argv : List Text) (d : Option Nat),
    (delayArgs d argv = none ↔ ∃ a ∈ argv, ∃ v, Arg "delay=" a v ∧ ∀ n, ¬ Delay v n) ∧
    (∀ x, delayArgs d argv = some x → (Without "delay=" argv ∧ x = d) ∨ ∃ v n, Last "delay=" argv v ∧ Delay v n ∧ x = some n)
  | [], d => ⟨by simp [delayArgs], fun x h => by simp only [delayArgs, Option.some.injEq] at h; exact Or.inl ⟨(fun y hy => nomatch hy), h.symm⟩⟩
  | a :: r, d => by
    unfold delayArgs
    cases hs : skipPrefix a "delay=".toList with
    | none =>
      obtain ⟨h1, h2⟩ := delayArgs_spec r d
      have hna := skipPrefix_none.mp hs
      dsimp only
      refine ⟨?_, fun x hx => ?_⟩
      · rw [h1]
        constructor
        · rintro ⟨b, hb, h⟩; exact ⟨b, List.mem_cons_of_mem _ hb, h⟩
        · rintro ⟨b, hb, v, hv, h⟩
          rcases List.mem_cons.mp hb with rfl | hb
          · exact absurd ⟨v, hv.symm⟩ hna
          · exact ⟨b, hb, v, hv, h⟩
      · rcases h2 x hx with ⟨hw, e⟩ | ⟨v, n, hl, h⟩
        · refine Or.inl ⟨fun y hy => ?_, e⟩
          rcases List.mem_cons.mp hy with rfl | hy
          · exact hna
          · exact hw y hy
        · exact Or.inr ⟨v, n, Small.last_cons.mpr (Or.inl hl), h⟩
    | some v =>
      have ha := skipPrefix_some.mp hs
      dsimp only
      cases hp : parseDelay v with
      | none =>
        dsimp only
        refine ⟨⟨fun _ => ⟨a, by simp, v, ha, fun n hd => ?_⟩, fun _ => rfl⟩, fun x hx => by cases hx⟩
        rw [(parseDelay_iff v n hd.2).mpr hd.1] at hp; cases hp
      | some n =>
        dsimp only
        by_cases hn : n > 4294967295
        · rw [if_pos hn]
          refine ⟨⟨fun _ => ⟨a, by simp, v, ha, fun k hd => ?_⟩, fun _ => rfl⟩, fun x hx => by cases hx⟩
          rw [(parseDelay_iff v k hd.2).mpr hd.1] at hp; cases hp; exact absurd hd.2 (by omega)
        · rw [if_neg hn]
          have hd : Delay v n := ⟨(parseDelay_iff v n (by omega)).mp hp, by omega⟩
          obtain ⟨h1, h2⟩ := delayArgs_spec r (some n)
          refine ⟨?_, fun x hx => ?_⟩
          · rw [h1]
            constructor
            · rintro ⟨b, hb, h⟩; exact ⟨b, List.mem_cons_of_mem _ hb, h⟩
            · rintro ⟨b, hb, w, hw, h⟩
              rcases List.mem_cons.mp hb with rfl | hb
              · unfold Arg at hw
                rw [ha] at hw
                cases List.append_cancel_left hw
                exact absurd hd (h n)
              · exact ⟨b, hb, w, hw, h⟩
          · rcases h2 x hx with ⟨hw, e⟩ | ⟨w, k, hl, h⟩
            · exact Or.inr ⟨v, n, Small.last_cons.mpr (Or.inr ⟨hw, ha⟩), hd, e⟩
            · exact Or.inr ⟨w, k, Small.last_cons.mpr (Or.inl hl), h⟩

/-- **C127**: pam_faildelay is always ignored. -/
theorem C127_ignored (defs : Option Text) (argv : List Text) : (failDelay defs argv).1 = PAM_IGNORE := by
  unfold failDelay
  split
  · rfl
  · rfl
  · split
    · rfl
    · split
      · rfl
      · split <;> rfl

/-- **C127**: with delay= arguments the last one is the delay, in microseconds, if all of them are numbers from 0 to 4294967295; otherwise no delay is set. -/
theorem C127_argument (defs : Option Text) (argv : List Text) (h : ¬ Without "delay=" argv) :
    (∀ n, (failDelay defs argv).2 = some n ↔ (∀ a ∈ argv, ∀ v, Arg "delay=" a v → ∃ k, Delay v k) ∧ ∃ v, Last "delay=" argv v ∧ Delay v n) := by
  intro n
  obtain ⟨h1, h2⟩ := delayArgs_spec argv none
  unfold failDelay
  cases hd : delayArgs none argv with
  | none =>
    obtain ⟨a, ha, v, hv, hno⟩ := h1.mp hd
    simp only [reduceCtorEq, false_iff, not_and]
    intro hall
    obtain ⟨k, hk⟩ := hall a ha v hv
    exact absurd hk (hno k)
  | some x =>
    rcases h2 x hd with ⟨hw, -⟩ | ⟨v, k, hl, hk, rfl⟩
    · exact absurd hw h
    · dsimp only
      simp only [Option.some.injEq]
      constructor
      · rintro rfl
        refine ⟨fun a ha w hw => ?_, v, hl, hk⟩
        refine Classical.byContradiction fun hn => ?_
        have := h1.mpr ⟨a, ha, w, hw, fun m hm => hn ⟨m, hm⟩⟩
        rw [hd] at this; cases this
      · rintro ⟨-, w, hw, hm⟩
        cases Small.last_unique hl hw
        have e1 := (parseDelay_iff v k hk.2).mpr hk.1
        have e2 := (parseDelay_iff v n hm.2).mpr hm.1
        rw [e1] at e2; cases e2; rfl

/-- **C127** (for values of login.defs without blanks at their end; false otherwise): without delay= arguments the delay is what the first FAIL_DELAY of login.defs says, in seconds, if that
is a number up to 4294; otherwise none is set. -/
theorem C127_login_defs_partial (file : Text) (argv : List Text) (h : Without "delay=" argv) (us : Nat) :
    (failDelay (some file) argv).2 = some us ↔ ∃ n v before line after k, us = n * 1000000 ∧ Decimal v n ∧ n ≤ 4294 ∧
      Util.Spec.lines file = before ++ line :: after ∧ Util.Spec.Defines line k v ∧ k.map lower = "FAIL_DELAY".toList.map lower ∧
      ∀ b ∈ before, ∀ k' v', Util.Spec.Defines b k' v' → k'.map lower ≠ "FAIL_DELAY".toList.map lower := by
  obtain ⟨-, h2⟩ := delayArgs_spec argv none
  obtain ⟨h1, -⟩ := delayArgs_spec argv none
  unfold failDelay
  cases hd : delayArgs none argv with
  | none =>
    obtain ⟨a, ha, v, hv, -⟩ := h1.mp hd
    exact absurd ⟨v, hv.symm⟩ (h a ha)
  | some x =>
    rcases h2 x hd with ⟨-, rfl⟩ | ⟨v, k, hl, -⟩
    · dsimp only
      cases hk : Util.searchKey (some file) "FAIL_DELAY".toList with
      | none =>
        simp only [reduceCtorEq, false_iff]
        rintro ⟨n, v, before, line, after, k, -, -, -, h3⟩
        rw [(Util.C32_first_definition_partial file _ v).mpr ⟨before, line, after, k, h3⟩] at hk
        cases hk
      | some v =>
        have hdef := (Util.C32_first_definition_partial file _ v).mp hk
        dsimp only
        constructor
        · intro e
          cases hp : parseDelay v with
          | none => rw [hp] at e; cases e
          | some n =>
            rw [hp] at e
            dsimp only at e
            split at e
            · cases e
            · next hn =>
              cases e
              obtain ⟨before, line, after, k, h3⟩ := hdef
              have : 4294967295 / 1000000 = 4294 := by decide
              exact ⟨n, v, before, line, after, k, rfl, (parseDelay_iff v n (by omega)).mp hp, by omega, h3⟩
        · rintro ⟨n, w, before, line, after, k, rfl, hdec, hn, h3⟩
          have hk2 := (Util.C32_first_definition_partial file _ w).mpr ⟨before, line, after, k, h3⟩
          rw [hk] at hk2; cases hk2
          rw [(parseDelay_iff v n (by omega)).mpr hdec]
          dsimp only
          rw [if_neg (by omega)]
    · exact absurd hl (Small.without_last h)

/-- **C127** is false if the line has a blank at its end: no delay is set. -/
theorem C127_blank_counterexample : failDelay (some "FAIL_DELAY 3 \n".toList) [] = (PAM_IGNORE, none) ∧ failDelay (some "FAIL_DELAY 3\n".toList) [] = (PAM_IGNORE, some 3000000) := by
  decide +kernel

example : failDelay none ["delay=10000000".toList] = (PAM_IGNORE, some 10000000) := by decide +kernel
example : failDelay none ["delay=5".toList, "delay=4294967296".toList] = (PAM_IGNORE, none) := by decide +kernel

/-! ### pam_umask: lemmas -/

theorem magnitude_comma (b : Nat) (hb : b ≤ 10) (r : Text) : ∀ (ds : Text) (acc : Nat), (magnitude b acc (ds ++ ',' :: r)).1 = (magnitude b acc ds).1
  | [], acc => by
    have : isDigitOf b ',' = false := by
        have : digitVal ',' = 99 := by decide
        unfold isDigitOf; rw [this]; simp; omega
    simp [magnitude, this]
  | c :: ds, acc => by
    rw [List.cons_append, magnitude, magnitude]
    split
    · exact magnitude_comma b hb r ds _
    · rfl

theorem dropWhile_comma (r : Text) : ∀ s : Text, (s ++ ',' :: r).dropWhile isSpace = s.dropWhile isSpace ++ ',' :: r
  | [] => by rw [List.nil_append, List.dropWhile_cons_of_neg (by decide)]; rfl
  | c :: s => by
    by_cases h : isSpace c = true
    · rw [List.cons_append, List.dropWhile_cons_of_pos h, List.dropWhile_cons_of_pos h, dropWhile_comma r s]
    · rw [List.cons_append, List.dropWhile_cons_of_neg h, List.dropWhile_cons_of_neg h, List.cons_append]

theorem takeSign_comma (r : Text) : ∀ s : Text, takeSign (s ++ ',' :: r) = ((takeSign s).1, (takeSign s).2 ++ ',' :: r)
  | [] => rfl
  | c :: s => by
    rw [List.cons_append, takeSign, takeSign]
    split
    · rfl
    · split <;> rfl

theorem strtoInt_comma (b : Nat) (h0 : b ≠ 0) (hb : b ≤ 10) (s r : Text) : (strtoInt b (s ++ ',' :: r)).1 = (strtoInt b s).1 := by
  unfold strtoInt
  dsimp only
  have hbase : ∀ u, takeBase b u = (b, u) := by intro u; unfold takeBase; rw [if_neg (by omega)]
  rw [dropWhile_comma, takeSign_comma, hbase, hbase]
  dsimp only
  have hbeg : beginsNumber b ((takeSign (s.dropWhile isSpace)).2 ++ ',' :: r) = beginsNumber b (takeSign (s.dropWhile isSpace)).2 := by
    cases (takeSign (s.dropWhile isSpace)).2 with
    | nil =>
      have : isDigitOf b ',' = false := by
        have : digitVal ',' = 99 := by decide
        unfold isDigitOf; rw [this]; simp; omega
      simp [beginsNumber, this]
    | cons c t => rfl
  rw [hbeg]
  split
  · dsimp only; rw [magnitude_comma b hb]
  · rfl

theorem skipIcase_comma (pre : Text) (hp : ',' ∉ pre.map lower) : ∀ (f r : Text), skipIcase (f ++ ',' :: r) pre = (skipIcase f pre).map (· ++ ',' :: r) := by
  intro f r
  unfold skipIcase
  by_cases hl : pre.length ≤ f.length
  · rw [List.take_append_of_le_length hl, List.drop_append_of_le_length hl]
    split <;> rfl
  · have hl : f.length < pre.length := by omega
    rw [if_neg, if_neg]
    · rfl
    · intro h
      have := congrArg List.length (by simpa [ieq] using h : (f.take pre.length).map lower = pre.map lower)
      simp at this
      omega
    · intro h
      have h : ((f ++ ',' :: r).take pre.length).map lower = pre.map lower := by simpa [ieq] using h
      refine hp ?_
      rw [← h]
      refine List.mem_map.mpr ⟨',', ?_, by decide⟩
      rw [List.take_append]
      refine List.mem_append_right _ ?_
      obtain ⟨k, hk⟩ : ∃ k, pre.length - f.length = k + 1 := ⟨pre.length - f.length - 1, by omega⟩
      rw [hk]; simp

theorem gecosItem_comma (f r : Text) : gecosItem (f ++ ',' :: r) = gecosItem f := by
  unfold gecosItem
  rw [skipIcase_comma _ (by decide), skipIcase_comma _ (by decide), skipIcase_comma _ (by decide)]
  cases skipIcase f "umask=".toList with
  | some v => simp only [Option.map_some]; rw [strtoInt_comma 8 (by decide) (by decide)]
  | none =>
    simp only [Option.map_none]
    cases skipIcase f "pri=".toList with
    | some v => simp only [Option.map_some]; rw [strtoInt_comma 10 (by decide) (by decide)]
    | none =>
      simp only [Option.map_none]
      cases skipIcase f "ulimit=".toList with
      | some v => simp only [Option.map_some]; rw [strtoInt_comma 10 (by decide) (by decide)]
      | none => rfl

theorem fields_none : ∀ s : Text, ',' ∉ s → fields s = [s]
  | [], _ => rfl
  | c :: s, h => by
    have hc : c ≠ ',' := fun e => h (by simp [e])
    rw [fields, if_neg hc, fields_none s (fun hm => h (List.mem_cons_of_mem _ hm))]

theorem fields_comma : ∀ s r : Text, ',' ∉ s → fields (s ++ ',' :: r) = s :: fields r
  | [], r, _ => by simp [fields]
  | c :: s, r, h => by
    have hc : c ≠ ',' := fun e => h (by simp [e])
    rw [List.cons_append, fields, if_neg hc, fields_comma s r (fun hm => h (List.mem_cons_of_mem _ hm))]

/-- all items of the fields, one after the other -/
def items : List Text → Option (List Act)
  | [] => some []
  | f :: r =>
    match gecosItem f with
    | none => none
    | some a => (items r).map (a ++ ·)

theorem split_comma (s : Text) : (',' ∉ s ∧ s.dropWhile (· ≠ ',') = []) ∨ ∃ f r, s = f ++ ',' :: r ∧ ',' ∉ f ∧ s.dropWhile (· ≠ ',') = ',' :: r := by
  induction s with
  | nil => exact Or.inl ⟨by simp, rfl⟩
  | cons c s ih =>
    by_cases hc : c = ','
    · exact Or.inr ⟨[], s, by rw [hc]; rfl, by simp, by rw [List.dropWhile_cons_of_neg (by simp [hc]), hc]⟩
    · rw [List.dropWhile_cons_of_pos (by simpa using hc)]
      rcases ih with ⟨h1, h2⟩ | ⟨f, r, h1, h2, h3⟩
      · refine Or.inl ⟨fun hm => ?_, h2⟩
        rcases List.mem_cons.mp hm with e | hm
        · exact hc e.symm
        · exact h1 hm
      · refine Or.inr ⟨c :: f, r, by rw [h1]; rfl, fun hm => ?_, h3⟩
        rcases List.mem_cons.mp hm with e | hm
        · exact hc e.symm
        · exact h2 hm

/-- from the second round on `cp` is at a comma -/
theorem gecosLoop_comma : ∀ (n : Nat) (s : Text), s.length < n → gecosLoop n (',' :: s) = items (fields s)
  | 0, s, h => by omega
  | n + 1, s, h => by
    unfold gecosLoop
    simp only [List.head?_cons, if_true, List.drop_succ_cons, List.drop_zero]
    rcases split_comma s with ⟨h1, h2⟩ | ⟨f, r, h1, h2, h3⟩
    · rw [fields_none s h1, h2, items, items]
      cases gecosItem s with
      | none => rfl
      | some a => simp
    · have hlt : r.length < n := by
        have := congrArg List.length h1
        simp at this; omega
      rw [h3, h1, fields_comma f r h2, gecosItem_comma, items]
      cases gecosItem f with
      | none => rfl
      | some a => dsimp only; rw [gecosLoop_comma n r hlt]

theorem gecosItem_nil : gecosItem [] = some [] := by decide +kernel

theorem gecosLoop_fields (s : Text) : gecosLoop (s.length + 1) s = items (fields s) := by
  cases s with
  | nil =>
    rw [gecosLoop, fields, items, items]
    simp [gecosItem_nil]
  | cons c s =>
    by_cases hc : c = ','
    · subst hc
      rw [gecosLoop_comma _ _ (by simp only [List.length_cons]; omega), fields, if_pos rfl, items, gecosItem_nil]
      simp
    · unfold gecosLoop
      rw [if_neg (by simpa using hc)]
      dsimp only
      rcases split_comma (c :: s) with ⟨h1, h2⟩ | ⟨f, r, h1, h2, h3⟩
      · rw [fields_none _ h1, h2, items, items]
        cases gecosItem (c :: s) with
        | none => rfl
        | some a => simp
      · rw [h3, h1, fields_comma f r h2, gecosItem_comma, items]
        have hlt : r.length < (f ++ ',' :: r).length := by simp; omega
        cases gecosItem f with
        | none => rfl
        | some a => dsimp only; rw [gecosLoop_comma _ r hlt]

theorem ofNat_small {n : Nat} (h : n < 256) : (Char.ofNat n).toNat = n := by
  have h2 : n.isValidChar := Or.inl (by omega)
  simp [Char.ofNat, dif_pos h2, Char.toNat, Char.ofNatAux]

theorem lower_eq_sign (c : Char) : lower c = '=' ↔ c = '=' := by
  unfold lower
  split
  · next h =>
    constructor
    · intro e
      have h2 := congrArg Char.toNat e
      have hA : 'A'.toNat = 65 := rfl
      have hZ : 'Z'.toNat = 90 := rfl
      rw [show (Char.ofNat (c.toNat + 32)).toNat = c.toNat + 32 from ofNat_small (by omega)] at h2
      have : ('=').toNat = 61 := rfl
      omega
    · rintro rfl; revert h; decide
  · rfl

theorem skipIcase_setting {key : String} {pre f v : Text} (hp : pre = key.toList ++ ['=']) (hk : key.toList.map lower = key.toList) :
    skipIcase f pre = some v ↔ Setting key f v := by
  subst hp
  unfold skipIcase Setting
  have hlen : (key.toList ++ ['=']).length = key.toList.length + 1 := by simp
  rw [hlen]
  constructor
  · intro h
    split at h
    · next hi =>
      have hi : (f.take (key.toList.length + 1)).map lower = key.toList ++ ['='] := by
        have : (f.take (key.toList.length + 1)).map lower = (key.toList ++ ['=']).map lower := by simpa [ieq] using hi
        rw [this, List.map_append, hk]; rfl
      cases h
      obtain ⟨a, b, e1, e2, e3⟩ := List.map_eq_append_iff.mp hi
      obtain ⟨c, d, e4, e5, e6⟩ := List.map_eq_cons_iff.mp e3
      rw [List.map_eq_nil_iff] at e6
      subst e6
      rw [lower_eq_sign] at e5
      subst e5
      refine ⟨a, ?_, e2⟩
      have : f = f.take (key.toList.length + 1) ++ f.drop (key.toList.length + 1) := (List.take_append_drop _ _).symm
      rw [e1, e4] at this
      rw [this, List.append_assoc]
      have hl := congrArg List.length e2
      rw [List.length_map] at hl
      rw [← hl]
      simp
    · cases h
  · rintro ⟨k, rfl, h⟩
    have hl := congrArg List.length h
    rw [List.length_map] at hl
    rw [← hl]
    have h1 : (k ++ '=' :: v).take (k.length + 1) = k ++ ['='] := by rw [List.take_length_add_append]; rfl
    have h2 : (k ++ '=' :: v).drop (k.length + 1) = v := by simp
    rw [h1, h2, if_pos]
    simp only [ieq, List.map_append, h, hk]
    simp

theorem skip_umask {f v : Text} : skipIcase f "umask=".toList = some v ↔ Setting "umask" f v := skipIcase_setting (key := "umask") rfl (by decide)
theorem skip_pri {f v : Text} : skipIcase f "pri=".toList = some v ↔ Setting "pri" f v := skipIcase_setting (key := "pri") rfl (by decide)
theorem skip_ulimit {f v : Text} : skipIcase f "ulimit=".toList = some v ↔ Setting "ulimit" f v := skipIcase_setting (key := "ulimit") rfl (by decide)

theorem not_setting {x : Option Text} {P : Text → Prop} (h : ∀ v, x = some v ↔ P v) (hn : ∀ v, ¬ P v) : x = none := by
  cases x with
  | none => rfl
  | some v => exact absurd ((h v).mp rfl) (hn v)

/-- a field has one key -/
theorem setting_key {a b : String} {f v w : Text} (h1 : Setting a f v) (h2 : Setting b f w) (ha : '=' ∉ a.toList) (hb : '=' ∉ b.toList) : a.toList = b.toList := by
  obtain ⟨k, rfl, hk⟩ := h1
  obtain ⟨l, e, hl⟩ := h2
  have nk : '=' ∉ k := fun hm => ha (by rw [← hk]; exact List.mem_map.mpr ⟨_, hm, rfl⟩)
  have nl : '=' ∉ l := fun hm => hb (by rw [← hl]; exact List.mem_map.mpr ⟨_, hm, rfl⟩)
  have t : ∀ (x y : Text), '=' ∉ x → (x ++ '=' :: y).takeWhile (fun c => decide (c ≠ '=')) = x := by
    intro x y hx
    rw [List.takeWhile_append_of_pos (fun c hc => decide_eq_true (by rintro rfl; exact hx hc))]
    simp
  have := congrArg (List.takeWhile (fun c => decide (c ≠ '='))) e
  rw [t _ _ nk, t _ _ nl] at this
  rw [← hk, ← hl, this]

theorem strtoInt8 {s : Text} {v : Int} (h : Octal s v) : strtoInt 8 s = (v, []) := ((strtoInt_base 8 (by decide) (by decide) (by decide) s v).mpr h).1

theorem clamp_small (n : Int) (h1 : -(2 ^ 63) ≤ n) (h2 : n < 2 ^ 63) : clampLong n = n := by unfold clampLong; omega

theorem gecosItem_field {f : Text} {a : List Act} (h : Field f a) : gecosItem f = some a := by
  cases h with
  | umask v n hs hd hn =>
    unfold gecosItem
    rw [skip_umask.mpr hs]
    dsimp only
    rw [strtoInt8 hd]
    dsimp only
    rw [clamp_small _ (by omega) (by omega)]
    have : ((n : Int) % 512).toNat = n := by omega
    rw [this]
  | pri v n hs hd h1 h2 =>
    unfold gecosItem
    rw [not_setting (fun w => skip_umask (v := w)) (fun w hw => absurd (setting_key hs hw (by decide) (by decide)) (by decide)), skip_pri.mpr hs]
    dsimp only
    rw [(strtoInt10.mpr hd).1]
    dsimp only
    rw [clamp_small _ (by omega) (by omega)]
    have : toInt n = n := by unfold toInt; omega
    rw [this]
  | ulimit v n hs hd hn =>
    unfold gecosItem
    rw [not_setting (fun w => skip_umask (v := w)) (fun w hw => absurd (setting_key hs hw (by decide) (by decide)) (by decide)),
      not_setting (fun w => skip_pri (v := w)) (fun w hw => absurd (setting_key hs hw (by decide) (by decide)) (by decide)), skip_ulimit.mpr hs]
    dsimp only
    rw [(strtoInt10.mpr hd).1]
    dsimp only
    rw [clamp_small _ (by omega) (by omega), if_neg (by omega)]
    have : ((512 * (n : Int)) % 2 ^ 64).toNat = 512 * n := by omega
    rw [this]
  | other hn =>
    unfold gecosItem
    rw [not_setting (fun w => skip_umask (v := w)) (fun w => (hn w).1), not_setting (fun w => skip_pri (v := w)) (fun w => (hn w).2.1),
      not_setting (fun w => skip_ulimit (v := w)) (fun w => (hn w).2.2)]

theorem items_fields {l : List Text} {a : List Act} (h : Fields l a) : items l = some a := by
  induction h with
  | nil => rfl
  | cons f a r b h1 _ ih => rw [items, gecosItem_field h1, ih]; rfl

theorem sameAsOwner_digits : ∀ o < 8, ∀ g < 8, ∀ t < 8, sameAsOwner (digits o g t) = digits o o t := by decide +kernel

/-! ### pam_umask: arguments -/

/-- the value of the last umask= argument -/
def OptLast (argv : List Text) (v : Text) : Prop := ∃ pre a post, argv = pre ++ a :: post ∧ Setting "umask" a v ∧ ∀ b ∈ post, ∀ w, ¬ Setting "umask" b w

/-- neither usergroups nor nousergroups -/
def Neither (a : Text) : Prop := a.map lower ≠ "usergroups".toList ∧ a.map lower ≠ "nousergroups".toList

/-- usergroups are configured: the last such argument says so, or there is none and the module was compiled so -/
def Groups (ug : Bool) (argv : List Text) : Prop :=
  (∃ pre a post, argv = pre ++ a :: post ∧ a.map lower = "usergroups".toList ∧ ∀ b ∈ post, Neither b) ∨ (ug = true ∧ ∀ b ∈ argv, Neither b)

theorem ieq_iff {a b : Text} (hb : b.map lower = b) : ieq a b = true ↔ a.map lower = b := by simp [ieq, hb]

theorem umaskArg_umask (o : UmaskOpts) (a : Text) : (∃ v, Setting "umask" a v ∧ umaskArg o a = { o with umask := some v }) ∨
    ((∀ v, ¬ Setting "umask" a v) ∧ (umaskArg o a).umask = o.umask) := by
  unfold umaskArg
  by_cases h0 : a = []
  · rw [if_pos h0]
    refine Or.inr ⟨?_, rfl⟩
    rintro v ⟨k, e, -⟩
    rw [h0] at e
    simp at e
  · rw [if_neg h0]
    by_cases h1 : ieq a "debug".toList = true
    · rw [if_pos h1]
      refine Or.inr ⟨?_, rfl⟩
      rintro v ⟨k, e, hk⟩
      rw [ieq_iff (by decide)] at h1
      rw [e, List.map_append, hk] at h1
      revert h1
      simp
    · rw [if_neg h1]
      cases hs : skipIcase a "umask=".toList with
      | some v => exact Or.inl ⟨v, skip_umask.mp hs, rfl⟩
      | none =>
        refine Or.inr ⟨(by intro v hv; rw [skip_umask.mpr hv] at hs; cases hs), ?_⟩
        dsimp only
        split
        · rfl
        · split <;> rfl

theorem umaskArg_groups (o : UmaskOpts) (a : Text) : (a.map lower = "usergroups".toList ∧ (umaskArg o a).usergroups = true) ∨
    (a.map lower = "nousergroups".toList ∧ (umaskArg o a).usergroups = false) ∨ (Neither a ∧ (umaskArg o a).usergroups = o.usergroups) := by
  have hset : ∀ v (s : String), Setting "umask" a v → a.map lower = s.toList → '=' ∈ s.toList := by
    rintro v s ⟨k, e, hk⟩ h
    rw [← h, e]; simp [show lower '=' = '=' from rfl]
  have hno : ∀ v, Setting "umask" a v → Neither a := fun v hv => ⟨fun h => absurd (hset v _ hv h) (by decide), fun h => absurd (hset v _ hv h) (by decide)⟩
  unfold umaskArg
  by_cases h0 : a = []
  · rw [if_pos h0, h0]; exact Or.inr (Or.inr ⟨⟨by decide, by decide⟩, rfl⟩)
  · rw [if_neg h0]
    by_cases h1 : ieq a "debug".toList = true
    · rw [if_pos h1]
      rw [ieq_iff (by decide)] at h1
      exact Or.inr (Or.inr ⟨⟨by rw [h1]; decide, by rw [h1]; decide⟩, rfl⟩)
    · rw [if_neg h1]
      cases hs : skipIcase a "umask=".toList with
      | some v => exact Or.inr (Or.inr ⟨hno v (skip_umask.mp hs), rfl⟩)
      | none =>
        dsimp only
        by_cases h2 : ieq a "usergroups".toList = true
        · rw [if_pos h2]; exact Or.inl ⟨(ieq_iff (by decide)).mp h2, rfl⟩
        · rw [if_neg h2]
          by_cases h3 : ieq a "nousergroups".toList = true
          · rw [if_pos h3]; exact Or.inr (Or.inl ⟨(ieq_iff (by decide)).mp h3, rfl⟩)
          · rw [if_neg h3]
            exact Or.inr (Or.inr ⟨⟨fun e => h2 ((ieq_iff (by decide)).mpr e), fun e => h3 ((ieq_iff (by decide)).mpr e)⟩, rfl⟩)

theorem setting_unique {a v w : Text} (h1 : Setting "umask" a v) (h2 : Setting "umask" a w) : v = w := by
  have e1 := skip_umask.mpr h1
  rw [skip_umask.mpr h2] at e1
  cases e1; rfl

theorem umask_fold : ∀ (argv : List Text) (o : UmaskOpts) (v : Text),
    (argv.foldl umaskArg o).umask = some v ↔ OptLast argv v ∨ (o.umask = some v ∧ ∀ b ∈ argv, ∀ w, ¬ Setting "umask" b w)
  | [], o, v => by
    simp only [List.foldl_nil, List.not_mem_nil, false_implies, implies_true, and_true]
    constructor
    · exact Or.inr
    · rintro (⟨pre, a, post, e, -⟩ | h)
      · simp at e
      · exact h
  | a :: r, o, v => by
    rw [List.foldl_cons, umask_fold r]
    rcases umaskArg_umask o a with ⟨w, hw, e⟩ | ⟨hn, e⟩
    · rw [e]
      dsimp only
      constructor
      · rintro (⟨pre, b, post, rfl, h⟩ | ⟨h1, h2⟩)
        · exact Or.inl ⟨a :: pre, b, post, rfl, h⟩
        · cases h1; exact Or.inl ⟨[], a, r, rfl, hw, h2⟩
      · rintro (⟨pre, b, post, e2, h, h3⟩ | ⟨h1, h2⟩)
        · cases pre with
          | nil =>
            simp only [List.nil_append, List.cons.injEq] at e2
            obtain ⟨rfl, rfl⟩ := e2
            exact Or.inr ⟨by rw [setting_unique hw h], h3⟩
          | cons x pre =>
            simp only [List.cons_append, List.cons.injEq] at e2
            exact Or.inl ⟨pre, b, post, e2.2, h, h3⟩
        · exact absurd hw (h2 a (by simp) w)
    · rw [e]
      constructor
      · rintro (⟨pre, b, post, rfl, h⟩ | ⟨h1, h2⟩)
        · exact Or.inl ⟨a :: pre, b, post, rfl, h⟩
        · refine Or.inr ⟨h1, fun b hb => ?_⟩
          rcases List.mem_cons.mp hb with rfl | hb
          · exact hn
          · exact h2 b hb
      · rintro (⟨pre, b, post, e2, h, h3⟩ | ⟨h1, h2⟩)
        · cases pre with
          | nil =>
            simp only [List.nil_append, List.cons.injEq] at e2
            obtain ⟨rfl, rfl⟩ := e2
            exact absurd h (hn v)
          | cons x pre =>
            simp only [List.cons_append, List.cons.injEq] at e2
            exact Or.inl ⟨pre, b, post, e2.2, h, h3⟩
        · exact Or.inr ⟨h1, fun b hb => h2 b (List.mem_cons_of_mem _ hb)⟩

theorem groups_fold : ∀ (argv : List Text) (o : UmaskOpts), (argv.foldl umaskArg o).usergroups = true ↔ Groups o.usergroups argv
  | [], o => by
    unfold Groups
    simp
  | a :: r, o => by
    rw [List.foldl_cons, groups_fold r]
    unfold Groups
    have hcons : (∃ pre b post, a :: r = pre ++ b :: post ∧ b.map lower = "usergroups".toList ∧ ∀ b ∈ post, Neither b) ↔
        (a.map lower = "usergroups".toList ∧ ∀ b ∈ r, Neither b) ∨ (∃ pre b post, r = pre ++ b :: post ∧ b.map lower = "usergroups".toList ∧ ∀ b ∈ post, Neither b) := by
      constructor
      · rintro ⟨pre, b, post, e, h⟩
        cases pre with
        | nil =>
          simp only [List.nil_append, List.cons.injEq] at e
          obtain ⟨rfl, rfl⟩ := e
          exact Or.inl h
        | cons x pre =>
          simp only [List.cons_append, List.cons.injEq] at e
          exact Or.inr ⟨pre, b, post, e.2, h⟩
      · rintro (h | ⟨pre, b, post, rfl, h⟩)
        · exact ⟨[], a, r, rfl, h⟩
        · exact ⟨a :: pre, b, post, rfl, h⟩
    rw [hcons, List.forall_mem_cons]
    rcases umaskArg_groups o a with ⟨h, e⟩ | ⟨h, e⟩ | ⟨h, e⟩
    · rw [e]
      have : ¬ Neither a := fun hn => hn.1 h
      simp only [h, this, true_and, false_and, and_false, or_false]
      exact or_comm
    · rw [e]
      have h2 : ¬ Neither a := fun hn => hn.2 h
      have h3 : a.map lower ≠ "usergroups".toList := by rw [h]; decide
      simp only [h2, h3, false_and, and_false, or_false, false_or, Bool.false_eq_true]
    · rw [e]
      have h3 : a.map lower ≠ "usergroups".toList := h.1
      simp only [h, h3, false_and, true_and, false_or]

/-! ### pam_umask: the property -/

/-- the first UMASK of a file -/
def First (file : Option Text) (v : Text) : Prop := ∃ t before line after k, file = some t ∧
  Util.Spec.lines t = before ++ line :: after ∧ Util.Spec.Defines line k v ∧ k.map lower = "UMASK".toList.map lower ∧
  ∀ b ∈ before, ∀ k' v', Util.Spec.Defines b k' v' → k'.map lower ≠ "UMASK".toList.map lower

/-- the configured value: the last umask= argument, else that of login.defs, else that of default/login -/
def Value (argv : List Text) (defs conf : Option Text) (v : Text) : Prop :=
  OptLast argv v ∨ (¬ ∃ w, OptLast argv w) ∧ (First defs v ∨ (¬ ∃ w, First defs w) ∧ First conf v)

theorem first_iff (file : Option Text) (v : Text) : Util.searchKey file "UMASK".toList = some v ↔ First file v := by
  unfold First
  cases file with
  | none => simp [Util.searchKey]
  | some t =>
    rw [Util.C32_first_definition_partial]
    constructor
    · rintro ⟨before, line, after, k, h⟩; exact ⟨t, before, line, after, k, rfl, h⟩
    · rintro ⟨t', before, line, after, k, e, h⟩; cases e; exact ⟨before, line, after, k, h⟩

theorem value_iff (ug : Bool) (argv : List Text) (defs conf : Option Text) (v : Text) :
    (argv.foldl umaskArg ⟨ug, none⟩).umask.or ((Util.searchKey defs "UMASK".toList).or (Util.searchKey conf "UMASK".toList)) = some v ↔ Value argv defs conf v := by
  have h1 : ∀ w, (argv.foldl umaskArg ⟨ug, none⟩).umask = some w ↔ OptLast argv w := fun w => by rw [umask_fold]; simp
  have h2 := first_iff defs
  have h3 := first_iff conf
  unfold Value
  simp only [← h1, ← h2, ← h3]
  cases (argv.foldl umaskArg ⟨ug, none⟩).umask <;> cases Util.searchKey defs "UMASK".toList <;> simp

/-- **C128** (for values that are masks and fields that have numbers; false otherwise): the session sets the configured mask; then, if usergroups are on, the user is not root and their group has
their name, the group digit of the mask is made the owner digit; then what the fields of the GECOS entry ask for is done, in their order. Nothing else is done. -/
theorem C128_session_partial (ug : Bool) (defs conf : Option Text) (argv : List Text) (pw : Account) (m m1 o g t : Nat) (a b c : List Act)
    (ha : (∃ (v : Text) (n : Nat), Value argv defs conf v ∧ Octal v n ∧ n ≤ 0o777 ∧ a = [.mask n] ∧ m1 = n) ∨ ((¬ ∃ v, Value argv defs conf v) ∧ a = [] ∧ m1 = m))
    (hm : m1 = digits o g t ∧ o < 8 ∧ g < 8 ∧ t < 8)
    (hb : (Groups ug argv ∧ pw.uid ≠ 0 ∧ pw.group = some pw.name ∧ b = [.mask (digits o o t)]) ∨ (¬ (Groups ug argv ∧ pw.uid ≠ 0 ∧ pw.group = some pw.name) ∧ b = []))
    (hc : (pw.gecos = none ∧ c = []) ∨ ∃ e, pw.gecos = some e ∧ Fields (fields e) c) :
    umaskSession ug defs conf argv pw m = some (a ++ b ++ c) := by
  unfold umaskSession
  dsimp only
  have hval := value_iff ug argv defs conf
  have hgr := groups_fold argv ⟨ug, none⟩
  generalize (argv.foldl umaskArg ⟨ug, none⟩) = opts at hval hgr
  generalize opts.umask.or ((Util.searchKey defs "UMASK".toList).or (Util.searchKey conf "UMASK".toList)) = value at hval ⊢
  obtain ⟨a', hae⟩ : ∃ a', a' = (match value.bind setUmask with | none => [] | some n => [Act.mask n]) := ⟨_, rfl⟩
  have ha' : a' = a ∧ maskAfter m a = m1 := by
    rcases ha with ⟨v, n, hv, ho, hn, rfl, rfl⟩ | ⟨hv, rfl, rfl⟩
    · rw [(hval v).mpr hv] at hae
      have hs : setUmask v = some m1 := by
        unfold setUmask
        rw [strtoInt8 ho]
        dsimp only
        rw [if_neg (c := (m1 : Int).natAbs ≥ 2 ^ 64) (by omega)]
        have hnil : v ≠ [] := ((strtoInt_base 8 (by decide) (by decide) (by decide) v m1).mpr ho).2
        rw [if_neg (fun h => hnil h.2.symm)]
        congr 1
        omega
      simp only [Option.bind_some, hs] at hae
      exact ⟨hae, rfl⟩
    · cases value with
      | none => exact ⟨hae, rfl⟩
      | some v => exact absurd ⟨v, (hval v).mp rfl⟩ hv
  obtain ⟨b', hbe⟩ : ∃ b', b' = (if opts.usergroups = true ∧ pw.uid ≠ 0 ∧ pw.group = some pw.name then [Act.mask (sameAsOwner (maskAfter m a'))] else []) := ⟨_, rfl⟩
  have hb' : b' = b := by
    rw [hbe, ha'.1, ha'.2, hm.1, sameAsOwner_digits o hm.2.1 g hm.2.2.1 t hm.2.2.2]
    rcases hb with ⟨h1, h2, h3, rfl⟩ | ⟨h1, rfl⟩
    · rw [if_pos ⟨hgr.mpr h1, h2, h3⟩]
    · rw [if_neg (fun h => h1 ⟨hgr.mp h.1, h.2⟩)]
  have hc' : (match pw.gecos with | none => some (a' ++ b') | some g => (gecosLoop (g.length + 1) g).map (a' ++ b' ++ ·)) = some (a ++ b ++ c) := by
    rw [hb', ha'.1]
    rcases hc with ⟨h1, rfl⟩ | ⟨e, h1, h2⟩
    · rw [h1]; simp
    · rw [h1]
      dsimp only
      rw [gecosLoop_fields, items_fields h2]
      rfl
  rw [hbe, hae] at hc'
  exact hc'

/-- **C128** is false for a configured value that is not an octal number: what the digits before the first other character say is the mask, also none of them after a 0; and a GECOS field without a
number asks for the mask 0, too. -/
theorem C128_not_octal_counterexample (pw : Account) (h : pw.gecos = none) (m : Nat) :
    umaskSession false none none ["umask=09".toList] pw m = some [.mask 0] ∧ umaskSession false none none ["umask=22x".toList] pw m = some [.mask 0o22] ∧
    gecosItem "umask=".toList = some [.mask 0] := by
  have key : ∀ v n, setUmask v = some n → umaskSession false none none [("umask=".toList ++ v)] pw m = some [.mask n] := by
    intro v n hv
    have h1 := (value_iff false ["umask=".toList ++ v] none none v).mpr (Or.inl ⟨[], _, [], rfl, ⟨"umask".toList, rfl, by decide⟩, fun b hb => nomatch hb⟩)
    have h2 : ¬ (["umask=".toList ++ v].foldl umaskArg ⟨false, none⟩).usergroups = true := by
      rw [groups_fold]
      rintro (⟨pre, a, post, e, h3, -⟩ | ⟨h3, -⟩)
      · cases pre with
        | nil =>
          simp only [List.nil_append, List.cons.injEq] at e
          rw [← e.1] at h3
          have : ('=' : Char) ∈ "usergroups".toList := by rw [← h3]; exact List.mem_map.mpr ⟨'=', List.mem_append_left _ (by decide), by decide⟩
          exact absurd this (by decide)
        | cons x pre => simp at e
      · cases h3
    unfold umaskSession
    dsimp only
    rw [h1, h, Option.bind_some, hv]
    dsimp only
    rw [if_neg (fun hh => h2 hh.1)]
    rfl
  exact ⟨key "09".toList 0 (by decide +kernel), key "22x".toList 0o22 (by decide +kernel), by decide +kernel⟩

/-- **C128** is false for a ulimit= of the GECOS field that is out of range: a signed product overflows. -/
theorem C128_ulimit_counterexample : gecosItem "ulimit=18014398509481984".toList = none := by decide +kernel

/-- **C128** is false for a pri= of the GECOS field that is out of range: it is cut to 32 bits. -/
theorem C128_pri_counterexample : gecosItem "pri=4294967301".toList = some [.nice 5] := by decide +kernel

example : umaskSession true (some "# mode\nUMASK 027\n".toList) none ["debug".toList] ⟨"bob".toList, 1000, some "bob".toList, some "Bob,room 7,PRI=-5,ulimit=2,umask=077".toList⟩ 0o22 =
    some [.mask 0o27, .mask 0o7, .nice (-5), .fsize 1024, .mask 0o77] := by decide +kernel
example : Field "PRI=-5".toList [.nice (-5)] :=
  .pri _ "-5".toList _ ⟨"PRI".toList, rfl, by decide⟩ (strtoInt10.mp ⟨by decide +kernel, by decide⟩) (by decide) (by decide)
example : Field "room 7".toList [] := by
  refine .other _ fun v => ?_
  simp only [← skip_umask, ← skip_pri, ← skip_ulimit]
  rw [show skipIcase "room 7".toList "umask=".toList = none by decide +kernel, show skipIcase "room 7".toList "pri=".toList = none by decide +kernel,
    show skipIcase "room 7".toList "ulimit=".toList = none by decide +kernel]
  simp
example : ¬ Groups true ["usergroups".toList, "NOusergroups".toList] := by
  rw [← groups_fold _ ⟨true, none⟩]; decide +kernel

end Pam.Simple
