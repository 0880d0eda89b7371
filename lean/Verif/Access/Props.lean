import Verif.Access.Lemmas
import Verif.Access.Example
/-
C40: the table of pam_access.
-/
namespace Pam.Access
open Pam Pam.Access.Spec

/-! ## the cache -/

/-- what the cache may hold when the origin is steady -/
def CacheOk (sys : Sys) (item : Item) (cache : Cache) : Prop :=
  cache = none ∨ (cache = some (sys.gai .inet item.origin) ∧
    ((isip sys item.origin).isSome ∨ sys.gai .inet item.origin = sys.gai .unspec item.origin))

theorem network_steady {sys : Sys} {item : Item} (hs : (isip sys item.origin).isSome ∨ sys.gai .inet item.origin = sys.gai .unspec item.origin)
    {cache : Cache} (hc : CacheOk sys item cache) (w : Str) :
    (networkMatch sys item cache w).1 = (networkMatch sys item none w).1 ∧ CacheOk sys item (networkMatch sys item cache w).2 := by
  unfold networkMatch
  cases hr : resolveToken sys item w with
  | none => exact ⟨rfl, hc⟩
  | some p =>
    simp only
    by_cases hip : (isip sys item.origin).isSome = true
    · rw [if_pos hip, if_pos hip]; exact ⟨rfl, hc⟩
    · rw [if_neg hip, if_neg hip]
      have hg := hs.resolve_left hip
      have hl : (lookup sys .unspec item.origin cache).1 = sys.gai .unspec item.origin ∧
          (lookup sys .unspec item.origin cache).2 = some (sys.gai .unspec item.origin) := by
        rcases hc with rfl | ⟨rfl, -⟩
        · exact ⟨rfl, rfl⟩
        · rw [hg]; exact ⟨rfl, rfl⟩
      have hl' : (lookup sys .unspec item.origin none) = (sys.gai .unspec item.origin, some (sys.gai .unspec item.origin)) := rfl
      have hll : lookup sys .unspec item.origin cache = (sys.gai .unspec item.origin, some (sys.gai .unspec item.origin)) :=
        Prod.ext hl.1 hl.2
      rw [hll, hl']
      cases hu : sys.gai .unspec item.origin with
      | none => exact ⟨rfl, Or.inr ⟨by rw [hg, hu], Or.inr hg⟩⟩
      | some l => exact ⟨rfl, Or.inr ⟨by rw [hg, hu], Or.inr hg⟩⟩

theorem remote_steady {sys : Sys} {item : Item} (hs : (isip sys item.origin).isSome ∨ sys.gai .inet item.origin = sys.gai .unspec item.origin)
    {cache : Cache} (hc : CacheOk sys item cache) (w : Str) :
    (remoteMatch sys item cache w).1 = (remoteMatch sys item none w).1 ∧ CacheOk sys item (remoteMatch sys item cache w).2 := by
  unfold remoteMatch
  by_cases h1 : w.head? = some '.'
  · rw [if_pos h1, if_pos h1]
    by_cases h2 : w.length < item.origin.length ∧ ieq w (item.origin.drop (item.origin.length - w.length)) = true
    · rw [if_pos h2, if_pos h2]; exact ⟨rfl, hc⟩
    · rw [if_neg h2, if_neg h2]; exact network_steady hs hc w
  · rw [if_neg h1, if_neg h1]
    by_cases h2 : w.getLast? = some '.'
    · rw [if_pos h2, if_pos h2]
      have hll : lookup sys .inet item.origin cache = (sys.gai .inet item.origin, some (sys.gai .inet item.origin)) := by
        rcases hc with rfl | ⟨rfl, -⟩ <;> rfl
      have hl' : (lookup sys .inet item.origin none) = (sys.gai .inet item.origin, some (sys.gai .inet item.origin)) := rfl
      rw [hll, hl']
      cases hu : sys.gai .inet item.origin with
      | none => exact ⟨rfl, Or.inr ⟨by rw [hu], hs⟩⟩
      | some l => exact ⟨rfl, Or.inr ⟨by rw [hu], hs⟩⟩
    · rw [if_neg h2, if_neg h2]; exact network_steady hs hc w

theorem from_steady {sys : Sys} {item : Item} (hs : Steady sys item) {cache : Cache} (hc : CacheOk sys item cache) (w : Str) :
    ((fromMatch sys item cache w).1 = true ↔ OriginWord sys item w) ∧ CacheOk sys item (fromMatch sys item cache w).2 := by
  unfold OriginWord fromMatch
  by_cases h1 : w.head? = some '@'
  · rw [if_pos h1, if_pos h1]; exact ⟨Iff.rfl, hc⟩
  · rw [if_neg h1, if_neg h1]
    by_cases h2 : stringMatch w item.origin = true
    · rw [if_pos h2, if_pos h2]; exact ⟨Iff.rfl, hc⟩
    · rw [if_neg h2, if_neg h2]
      by_cases h3 : ieq w "LOCAL".toList = true
      · rw [if_pos h3, if_pos h3]; exact ⟨Iff.rfl, hc⟩
      · rw [if_neg h3, if_neg h3]
        by_cases h4 : item.remote = true
        · rw [if_pos h4, if_pos h4]
          have hs' := hs.resolve_left (by rw [h4]; simp)
          obtain ⟨e1, e2⟩ := remote_steady hs' hc w
          exact ⟨by rw [e1], e2⟩
        · rw [if_neg h4, if_neg h4]; exact ⟨Iff.rfl, hc⟩

/-! ## C40 -/

theorem decides_cons {U F : Str → Prop} {r : Rule} {rs : List Rule} {d : Option Bool} (h : ¬ Applies U F r)
    (hd : Decides U F rs d) : Decides U F (r :: rs) d := by
  cases d with
  | none =>
    intro q hq
    rcases List.mem_cons.mp hq with rfl | hq
    · exact h
    · exact hd q hq
  | some b =>
    obtain ⟨pre, q, post, h1, h2, h3, h4⟩ := hd
    refine ⟨r :: pre, q, post, by rw [h1]; rfl, ?_, h3, h4⟩
    intro p hp
    rcases List.mem_cons.mp hp with rfl | hp
    · exact h
    · exact h2 p hp

theorem table_steady {sys : Sys} {item : Item} (hs : Steady sys item) {lines : List Str} {rs : List Rule}
    (ht : Table item.fs item.sep lines rs) : ∀ cache, CacheOk sys item cache →
      Decides (UserWord sys item) (OriginWord sys item) rs (loginLines sys item cache lines).1 ∧
      CacheOk sys item (loginLines sys item cache lines).2 := by
  induction ht with
  | nil =>
    intro cache hc
    exact ⟨(fun r hr => by cases hr), hc⟩
  | skip hi _ ih =>
    intro cache hc
    rw [loginLines, readLine_ignored hi]
    exact ih cache hc
  | @rule l ls r rs hr _ ih =>
    intro cache hc
    obtain ⟨users, origins, h1, h2, h3⟩ := readLine_rule hr
    rw [loginLines, h1]
    simp only
    have hU := listMatch_spec (M := UserWord sys item) (m := fun (_ : Unit) tok => (userMatch sys item tok, ()))
      (Inv := fun _ => True) (fun st w _ => ⟨Iff.rfl, trivial⟩) h2 (st := ()) trivial
    have hF := listMatch_spec (M := OriginWord sys item) (m := fromMatch sys item)
      (Inv := CacheOk sys item) (fun st w hst => from_steady hs hst w) h3 (st := cache) hc
    by_cases hu : (listMatch (fun (_ : Unit) tok => (userMatch sys item tok, ())) item.sep () users).1 = true
    · rw [if_pos hu]
      by_cases hf : (listMatch (fromMatch sys item) item.sep cache origins).1 = true
      · rw [if_pos hf]
        refine ⟨⟨[], r, rs, rfl, by simp, ⟨hU.1.mp hu, hF.1.mp hf⟩, ?_⟩, hF.2⟩
        cases r.allow <;> rfl
      · rw [if_neg hf]
        obtain ⟨e1, e2⟩ := ih _ hF.2
        exact ⟨decides_cons (fun h => hf (hF.1.mpr h.2)) e1, e2⟩
    · rw [if_neg hu]
      obtain ⟨e1, e2⟩ := ih cache hc
      exact ⟨decides_cons (fun h => hu (hU.1.mpr h.1)) e1, e2⟩

/-- C40: with a table in documented form the first rule that applies decides.  (Partial: the answers about the origin must
not depend on earlier questions, see `C40_cache_counterexample`.) -/
theorem C40_table_partial (sys : Sys) (item : Item) (hs : Steady sys item) (lines : List Str) (rs : List Rule)
    (ht : Table item.fs item.sep lines rs) :
    Decides (UserWord sys item) (OriginWord sys item) rs (loginAccess sys item none (.ok lines)).1 :=
  (table_steady hs ht none (Or.inl rfl)).1

/-- decisions are unique -/
theorem C40_unique (U F : Str → Prop) (rs : List Rule) (d d' : Option Bool) (h : Decides U F rs d) (h' : Decides U F rs d') :
    d = d' := by
  have key : ∀ (rs : List Rule) (d d' : Option Bool), Decides U F rs d → Decides U F rs d' → d = d' := by
    intro rs
    induction rs with
    | nil =>
      intro d d' h h'
      have : ∀ d, Decides U F [] d → d = none := by
        intro d h
        cases d with
        | none => rfl
        | some b => obtain ⟨pre, r, post, h1, -⟩ := h; cases pre <;> cases h1
      rw [this d h, this d' h']
    | cons r rs ih =>
      intro d d' h h'
      by_cases hr : Applies U F r
      · have : ∀ d, Decides U F (r :: rs) d → d = some r.allow := by
          intro d h
          cases d with
          | none => exact absurd hr (h r (by simp))
          | some b =>
            obtain ⟨pre, q, post, h1, h2, -, h4⟩ := h
            cases pre with
            | nil => cases h1; rw [h4]
            | cons p pre => cases h1; exact absurd hr (h2 r (by simp))
        rw [this d h, this d' h']
      · have : ∀ d, Decides U F (r :: rs) d → Decides U F rs d := by
          intro d h
          cases d with
          | none => exact fun q hq => h q (by simp [hq])
          | some b =>
            obtain ⟨pre, q, post, h1, h2, h3, h4⟩ := h
            cases pre with
            | nil => cases h1; exact absurd h3 hr
            | cons p pre => cases h1; exact ⟨pre, q, post, rfl, fun x hx => h2 x (by simp [hx]), h3, h4⟩
        exact ih d d' (this d h) (this d' h')
  exact key rs d d' h h'

/-! ## a table -/

/-- alice, on the terminal -/
def alice : Item := ⟨"alice".toList, 1000, "tty1".toList, none, false, false, ":".toList, ", \t".toList, false⟩

theorem words_one {sep w : Str} (h : w ≠ []) (h' : ∀ c ∈ w, c ∉ sep) : Words sep w [w] :=
  ⟨[], [], by simp, by simp, h, h', by simp, by simp [Words]⟩

theorem words_cons {sep w : Str} {c : Char} {rest : Str} {ws : List Str} (h : w ≠ []) (h' : ∀ c ∈ w, c ∉ sep) (hc : c ∈ sep)
    (hw : Words sep rest ws) : Words sep (w ++ c :: rest) (w :: ws) := by
  refine ⟨[], c :: rest, by simp, by simp, h, h', by simpa using hc, ?_⟩
  cases ws with
  | nil =>
    intro x hx
    rcases List.mem_cons.mp hx with rfl | hx
    · exact hc
    · exact hw x hx
  | cons v vs =>
    obtain ⟨gap, r, rfl, h1, h2⟩ := hw
    refine ⟨c :: gap, r, by simp, ?_, h2⟩
    intro x hx
    rcases List.mem_cons.mp hx with rfl | hx
    · exact hc
    · exact h1 x hx

/-- the table of the example: a comment, a blank line and two rules -/
def exTable : List Str := ["# who may log in\n".toList, "\n".toList, "+ : wheel EXCEPT bob : LOCAL \n".toList, "-:ALL:ALL\n".toList]

theorem ex_deny : IsRule ":".toList ", \t".toList "-:ALL:ALL\n".toList ⟨false, ["ALL".toList], ["ALL".toList]⟩ := by
  refine ⟨'-', [], ':', "ALL".toList, ':', "ALL".toList, [], by decide, by decide, by decide, by decide, by decide, by decide, by decide,
    by decide, by decide, by decide, by decide, by decide, by decide, ?_, ?_⟩
  · exact words_one (by decide) (by decide)
  · exact words_one (by decide) (by decide)

theorem ex_table : Table alice.fs alice.sep exTable
    [⟨true, ["wheel".toList, "EXCEPT".toList, "bob".toList], ["LOCAL".toList]⟩, ⟨false, ["ALL".toList], ["ALL".toList]⟩] := by
  refine .skip (Or.inl ⟨_, rfl⟩) (.skip (Or.inr (by decide)) (.rule ?_ (.rule ex_deny .nil)))
  refine ⟨'+', " ".toList, ':', " wheel EXCEPT bob ".toList, ':', " LOCAL".toList, " ".toList, by decide, by decide, by decide,
    by decide, by decide, by decide, by decide, by decide, by decide, by decide, by decide, by decide, by decide, ?_, ?_⟩
  · refine ⟨" ".toList, " EXCEPT bob ".toList, by decide, by decide, by decide, by decide, by decide, ?_⟩
    refine ⟨" ".toList, " bob ".toList, by decide, by decide, by decide, by decide, by decide, ?_⟩
    exact ⟨" ".toList, " ".toList, by decide, by decide, by decide, by decide, by decide, by unfold Words; decide⟩
  · exact ⟨" ".toList, [], by decide, by decide, by decide, by decide, by decide, by unfold Words; decide⟩

/-- the hypotheses of `C40_table_partial` hold for alice on the terminal, and the first rule lets alice in -/
example : Steady Example.sys alice ∧ (loginAccess Example.sys alice none (.ok exTable)).1 = some true := by
  have hs : Steady Example.sys alice := Or.inl rfl
  refine ⟨hs, C40_unique _ _ _ _ _ (C40_table_partial _ _ hs _ _ ex_table) ⟨[], _, _, rfl, by simp, ⟨?_, ?_⟩, rfl⟩⟩
  · refine ⟨⟨"wheel".toList, by decide, by unfold UserWord; decide +kernel⟩, ?_⟩
    rintro ⟨⟨w, hw, h⟩, -⟩
    have : w = "bob".toList := List.mem_singleton.mp hw
    rw [this] at h
    exact absurd h (by unfold UserWord; decide +kernel)
  · exact ⟨⟨"LOCAL".toList, by decide, by unfold OriginWord; decide +kernel⟩, fun h => h⟩

/-! ## where C40 is false -/

/-- bob, from a host that has addresses of both families -/
def bob : Item := ⟨"bob".toList, 1001, "gate".toList, none, false, false, ":".toList, ", \t".toList, true⟩

/-- C40 is false of host names with IPv6 addresses: behind a word such as `192.` the IPv6 addresses of the host are not
looked at, and the rule against its network is passed over. -/
theorem C40_cache_counterexample : ∃ (sys : Sys) (item : Item) (lines : List Str) (rs : List Rule), Lawful sys ∧
    Table item.fs item.sep lines rs ∧
    ¬ Decides (UserWord sys item) (OriginWord sys item) rs (loginAccess sys item none (.ok lines)).1 := by
  have w1 : Words ", \t".toList "192. 32:1:0:0:0:0:0:0:0:0:0:0:0:0:0:0/120".toList ["192.".toList, "32:1:0:0:0:0:0:0:0:0:0:0:0:0:0:0/120".toList] :=
    words_cons (w := "192.".toList) (c := ' ') (by decide) (by decide) (by decide) (words_one (by decide) (by decide))
  have w2 : Words ", \t".toList "ALL".toList ["ALL".toList] := words_one (by decide) (by decide)
  refine ⟨Example.sys, bob, ["-:ALL:192. 32:1:0:0:0:0:0:0:0:0:0:0:0:0:0:0/120\n".toList, "+:ALL:ALL\n".toList],
    [⟨false, ["ALL".toList], ["192.".toList, "32:1:0:0:0:0:0:0:0:0:0:0:0:0:0:0/120".toList]⟩, ⟨true, ["ALL".toList], ["ALL".toList]⟩],
    Example.lawful, .rule ?_ (.rule ?_ .nil), ?_⟩
  · exact ⟨'-', [], ':', "ALL".toList, ':', "192. 32:1:0:0:0:0:0:0:0:0:0:0:0:0:0:0/120".toList, [], by decide, by decide, by decide,
      by decide, by decide, by decide, by decide, by decide, by decide, by decide, by decide, by decide, by decide, w2, w1⟩
  · exact ⟨'+', [], ':', "ALL".toList, ':', "ALL".toList, [], by decide, by decide, by decide,
      by decide, by decide, by decide, by decide, by decide, by decide, by decide, by decide, by decide, by decide, w2, w2⟩
  · intro h
    have h' : Decides (UserWord Example.sys bob) (OriginWord Example.sys bob)
        [⟨false, ["ALL".toList], ["192.".toList, "32:1:0:0:0:0:0:0:0:0:0:0:0:0:0:0/120".toList]⟩, ⟨true, ["ALL".toList], ["ALL".toList]⟩]
        (some false) := by
      refine ⟨[], _, _, rfl, by simp, ⟨?_, ?_⟩, rfl⟩
      · exact ⟨⟨"ALL".toList, by decide, by unfold UserWord; decide +kernel⟩, fun h => h⟩
      · exact ⟨⟨"32:1:0:0:0:0:0:0:0:0:0:0:0:0:0:0/120".toList, by decide, by unfold OriginWord; decide +kernel⟩, fun h => h⟩
    have e := C40_unique _ _ _ _ _ h h'
    have r1 : readLine bob.fs "-:ALL:192. 32:1:0:0:0:0:0:0:0:0:0:0:0:0:0:0/120\n".toList =
        some (some '-', "ALL".toList, "192. 32:1:0:0:0:0:0:0:0:0:0:0:0:0:0:0/120".toList) := by decide +kernel
    have r2 : readLine bob.fs "+:ALL:ALL\n".toList = some (some '+', "ALL".toList, "ALL".toList) := by decide +kernel
    unfold loginAccess at e
    simp only [loginLines] at e
    rw [r1, r2] at e
    simp only [listMatch] at e
    rw [show bob.sep = ", \t".toList from rfl, tokens_words w1, tokens_words w2] at e
    exact absurd e (by decide +kernel)

/-- A table whose last line has no newline at its end: the line is passed over, so this table denies nobody anything. -/
theorem C40_newline_counterexample (sys : Sys) (item : Item) (h : item.fs = ":".toList) :
    (loginAccess sys item none (.ok ["-:ALL:ALL".toList])).1 = none := by
  have r1 : readLine item.fs "-:ALL:ALL".toList = none := by rw [h]; decide +kernel
  simp only [loginAccess, loginLines, r1]

/-- A line that begins with a field separator is not passed over, and denies although its first field is `+`. -/
theorem C40_leading_separator_counterexample (sys : Sys) (item : Item) (h : item.fs = ":".toList) (h' : item.sep = ", \t".toList) :
    (loginAccess sys item none (.ok [":+:ALL:ALL\n".toList])).1 = some false := by
  have r1 : readLine item.fs ":+:ALL:ALL\n".toList = some (some ':', "ALL".toList, "ALL".toList) := by rw [h]; decide +kernel
  have w2 : Words ", \t".toList "ALL".toList ["ALL".toList] := words_one (by decide) (by decide)
  have hm : ∀ {σ : Type} (m : σ → Str → Bool × σ) (st : σ),
      listMatch m ", \t".toList st "ALL".toList = listLoop m true false false st ["ALL".toList] := fun m st => by
    rw [listMatch, tokens_words w2]
  simp only [loginAccess, loginLines, r1, h', hm]
  rfl

end Pam.Access
