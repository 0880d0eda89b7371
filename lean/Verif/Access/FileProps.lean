import Verif.Access.Props
/-
C57: what pam_access reads and what it answers.
-/
namespace Pam.Access
open Pam Pam.Access.Spec

/-! ## order of the files -/

theorem strLe_trans : ∀ a b c : Str, strLe a b = true → strLe b c = true → strLe a c = true
  | [], _, _, _, _ => by simp [strLe]
  | _ :: _, [], _, h, _ => by simp [strLe] at h
  | _ :: _, _ :: _, [], _, h => by simp [strLe] at h
  | a :: s, b :: t, c :: u, h1, h2 => by
    unfold strLe at h1 h2 ⊢
    by_cases hab : a = b
    · subst hab
      rw [if_pos rfl] at h1
      by_cases hac : a = c
      · subst hac
        rw [if_pos rfl] at h2 ⊢
        exact strLe_trans s t u h1 h2
      · rw [if_neg hac] at h2 ⊢
        exact h2
    · rw [if_neg hab] at h1
      have h1' : a.toNat < b.toNat := by simpa using h1
      by_cases hbc : b = c
      · subst hbc
        rw [if_neg hab]
        exact h1
      · rw [if_neg hbc] at h2
        have h2' : b.toNat < c.toNat := by simpa using h2
        have : a ≠ c := by rintro rfl; omega
        rw [if_neg this]
        simp; omega

theorem strLe_total : ∀ a b : Str, (strLe a b || strLe b a) = true
  | [], _ => by simp [strLe]
  | _ :: _, [] => by simp [strLe]
  | a :: s, b :: t => by
    unfold strLe
    by_cases h : a = b
    · subst h
      rw [if_pos rfl, if_pos rfl]
      exact strLe_total s t
    · rw [if_neg h, if_neg (fun e => h e.symm)]
      have : a.toNat ≠ b.toNat := fun e => h (Char.toNat_inj.mp e)
      simp; omega

theorem strLe_antisymm : ∀ a b : Str, strLe a b = true → strLe b a = true → a = b
  | [], [], _, _ => rfl
  | [], _ :: _, _, h => by simp [strLe] at h
  | _ :: _, [], h, _ => by simp [strLe] at h
  | a :: s, b :: t, h1, h2 => by
    unfold strLe at h1 h2
    by_cases h : a = b
    · subst h
      rw [if_pos rfl] at h1 h2
      rw [strLe_antisymm s t h1 h2]
    · rw [if_neg h] at h1
      rw [if_neg (fun e => h e.symm)] at h2
      have h1' : a.toNat < b.toNat := by simpa using h1
      have h2' : b.toNat < a.toNat := by simpa using h2
      omega

/-- C57: the files of the directories are those of /etc and those of the vendor whose name is not in /etc, each name once,
in the order of their names. -/
theorem C57_directory (etc vendor : List Str) (he : (etc.map baseName).Nodup) (hv : (vendor.map baseName).Nodup) :
    (∀ f, f ∈ accessDir etc vendor ↔ f ∈ etc ∨ (f ∈ vendor ∧ ∀ e ∈ etc, baseName e ≠ baseName f)) ∧
    ((accessDir etc vendor).map baseName).Nodup ∧
    ((accessDir etc vendor).map baseName).Pairwise (fun a b => strLe a b = true ∧ strLe b a = false) := by
  have hmem : ∀ f, f ∈ accessDir etc vendor ↔ f ∈ etc ∨ (f ∈ vendor ∧ ∀ e ∈ etc, baseName e ≠ baseName f) := by
    intro f
    unfold accessDir
    rw [List.mem_mergeSort, List.mem_append, List.mem_filter]
    simp
  have hnd : ((accessDir etc vendor).map baseName).Nodup := by
    unfold accessDir
    rw [((List.mergeSort_perm _ _).map baseName).nodup_iff, List.map_append, List.nodup_append]
    refine ⟨he, ?_, ?_⟩
    · exact List.Nodup.sublist (List.filter_sublist.map baseName) hv
    · intro a ha b hb hab
      subst hab
      obtain ⟨e, he1, rfl⟩ := List.mem_map.mp ha
      obtain ⟨v, hv1, hv2⟩ := List.mem_map.mp hb
      have := (List.mem_filter.mp hv1).2
      simp only [Bool.not_eq_true', List.any_eq_false, beq_iff_eq] at this
      exact this e he1 hv2.symm
  refine ⟨hmem, hnd, ?_⟩
  have hp : (accessDir etc vendor).Pairwise (fun a b => strLe (baseName a) (baseName b) = true) := by
    unfold accessDir
    exact List.pairwise_mergeSort (le := fun a b => strLe (baseName a) (baseName b))
      (fun a b c h1 h2 => strLe_trans _ _ _ h1 h2) (fun a b => strLe_total _ _) _
  have hp' : ((accessDir etc vendor).map baseName).Pairwise (fun a b => strLe a b = true) := List.pairwise_map.mpr hp
  refine (hp'.and hnd).imp ?_
  intro a b ⟨h1, h2⟩
  refine ⟨h1, ?_⟩
  cases h : strLe b a with
  | false => rfl
  | true => exact absurd (strLe_antisymm a b h1 h) h2

example : (["/e/20.conf".toList, "/e/10.conf".toList].map baseName).Nodup ∧
    (["/v/15.conf".toList, "/v/20.conf".toList].map baseName).Nodup := by decide +kernel

/-- C57: names are what is behind the last slash, and compared character by character. -/
theorem C57_names (d n a b : Str) (hn : '/' ∉ n) : baseName n = n ∧ baseName (d ++ '/' :: n) = n ∧
    (strLe a b = true ↔ a <+: b ∨ ∃ p x y s t, a = p ++ x :: s ∧ b = p ++ y :: t ∧ x.toNat < y.toNat) := by
  have hr : ∀ c ∈ n.reverse, (decide (c ≠ '/')) = true := by
    intro c hc
    have := List.mem_reverse.mp hc
    simp only [ne_eq, decide_not, Bool.not_eq_true', decide_eq_false_iff_not]
    rintro rfl
    exact hn this
  refine ⟨?_, ?_, ?_⟩
  · unfold baseName
    have := takeWhile_gap (t := []) hr (fun c hc => by cases hc)
    rw [List.append_nil] at this
    rw [this, List.reverse_reverse]
  · unfold baseName
    rw [List.reverse_append, List.reverse_cons, List.append_assoc]
    rw [takeWhile_gap hr (fun c hc => by cases hc; decide), List.reverse_reverse]
  · induction a generalizing b with
    | nil => simp [strLe]
    | cons x a ih =>
      cases b with
      | nil =>
        refine iff_of_false (by simp [strLe]) ?_
        rintro (h | ⟨p, u, v, s, t, -, h, -⟩)
        · exact absurd h (by simp)
        · cases p <;> cases h
      | cons y b =>
        rw [strLe]
        by_cases hxy : x = y
        · subst hxy
          rw [if_pos rfl, ih, List.cons_prefix_cons]
          constructor
          · rintro (h | ⟨p, u, v, s, t, h1, h2, h3⟩)
            · exact Or.inl ⟨rfl, h⟩
            · exact Or.inr ⟨x :: p, u, v, s, t, by rw [h1]; rfl, by rw [h2]; rfl, h3⟩
          · rintro (⟨-, h⟩ | ⟨p, u, v, s, t, h1, h2, h3⟩)
            · exact Or.inl h
            · cases p with
              | nil => cases h1; cases h2; omega
              | cons q p => cases h1; cases h2; exact Or.inr ⟨p, u, v, s, t, rfl, rfl, h3⟩
        · rw [if_neg hxy, decide_eq_true_eq]
          constructor
          · intro h
            exact Or.inr ⟨[], x, y, a, b, rfl, rfl, h⟩
          · rintro (h | ⟨p, u, v, s, t, h1, h2, h3⟩)
            · exact absurd (List.cons_prefix_cons.mp h).1 hxy
            · cases p with
              | nil => cases h1; cases h2; exact h3
              | cons q p => cases h1; cases h2; exact absurd rfl hxy

/-! ## arguments -/

/-- the value of the last argument that begins with `key`, or the default -/
def lastValue (key : String) (dflt : Str) (argv : List Str) : Str :=
  ((argv.filterMap (fun w => if key.toList.isPrefixOf w then some (w.drop key.length) else none)).getLast?).getD dflt

theorem lastValue_cons (key : String) (dflt : Str) (w : Str) (ws : List Str) :
    lastValue key dflt (w :: ws) =
      lastValue key (if key.toList.isPrefixOf w then w.drop key.length else dflt) ws := by
  unfold lastValue
  rw [List.filterMap_cons]
  by_cases h : key.toList.isPrefixOf w = true
  · simp only [if_pos h]
    cases hl : (ws.filterMap (fun w => if key.toList.isPrefixOf w = true then some (w.drop key.length) else none)) with
    | nil => rfl
    | cons a l => rw [List.getLast?_cons_cons, List.getLast?_eq_some_getLast (by simp)]; rfl
  · simp only [if_neg h]

/-- texts that begin differently differ -/
theorem ne_head {a b : Str} {x y : Char} (ha : a.head? = some x) (hb : b.head? = some y) (h : x ≠ y) : a ≠ b := by
  rintro rfl
  rw [ha] at hb
  exact h (Option.some.inj hb)

theorem or_ne {P Q R : Prop} (h : ¬ Q) : (P ∨ R ↔ P ∨ Q ∨ R) := by
  constructor
  · rintro (h' | h')
    · exact Or.inl h'
    · exact Or.inr (Or.inr h')
  · rintro (h' | h' | h')
    · exact Or.inl h'
    · exact absurd h' h
    · exact Or.inr h'

theorem parseArgs_spec (canOpen : Str → Bool) : ∀ (argv : List Str) (a0 a : Args), parseArgs canOpen a0 argv = some a →
    a.fs = lastValue "fieldsep=" a0.fs argv ∧ a.sep = lastValue "listsep=" a0.sep argv ∧
    (a.nodefgroup = true ↔ a0.nodefgroup = true ∨ "nodefgroup".toList ∈ argv) ∧
    (a.nodns = true ↔ a0.nodns = true ∨ "nodns".toList ∈ argv) ∧
    a.file = ((argv.filterMap (fun w => if "accessfile=".toList.isPrefixOf w then some (w.drop 11) else none)).getLast?).or a0.file := by
  intro argv
  induction argv with
  | nil =>
    intro a0 a h
    cases h
    exact ⟨rfl, rfl, ⟨Or.inl, fun h => h.resolve_right List.not_mem_nil⟩, ⟨Or.inl, fun h => h.resolve_right List.not_mem_nil⟩, rfl⟩
  | cons w ws ih =>
    intro a0 a h
    rw [parseArgs] at h
    have pre : ∀ {k : Str}, k.isPrefixOf w = true → ∃ t, w = k ++ t := by
      intro k hk
      obtain ⟨t, ht⟩ := List.isPrefixOf_iff_prefix.mp hk
      exact ⟨t, ht.symm⟩
    rw [lastValue_cons, lastValue_cons, List.filterMap_cons, List.mem_cons, List.mem_cons]
    by_cases h1 : "fieldsep=".toList.isPrefixOf w = true
    · rw [if_pos h1] at h
      obtain ⟨e1, e2, e3, e4, e5⟩ := ih _ _ h
      obtain ⟨t, rfl⟩ := pre h1
      refine ⟨e1, e2, ?_, ?_, e5⟩
      · rw [e3]; exact or_ne (ne_head (x := 'n') (y := 'f') rfl rfl (by decide))
      · rw [e4]; exact or_ne (ne_head (x := 'n') (y := 'f') rfl rfl (by decide))
    · rw [if_neg h1] at h ⊢
      by_cases h2 : "listsep=".toList.isPrefixOf w = true
      · rw [if_pos h2] at h ⊢
        obtain ⟨e1, e2, e3, e4, e5⟩ := ih _ _ h
        obtain ⟨t, rfl⟩ := pre h2
        refine ⟨e1, e2, ?_, ?_, e5⟩
        · rw [e3]; exact or_ne (ne_head (x := 'n') (y := 'l') rfl rfl (by decide))
        · rw [e4]; exact or_ne (ne_head (x := 'n') (y := 'l') rfl rfl (by decide))
      · rw [if_neg h2] at h ⊢
        by_cases h3 : "accessfile=".toList.isPrefixOf w = true
        · rw [if_pos h3] at h
          simp only [if_pos h3]
          split at h
          · obtain ⟨e1, e2, e3, e4, e5⟩ := ih _ _ h
            obtain ⟨t, rfl⟩ := pre h3
            refine ⟨e1, e2, ?_, ?_, ?_⟩
            · rw [e3]; exact or_ne (ne_head (x := 'n') (y := 'a') rfl rfl (by decide))
            · rw [e4]; exact or_ne (ne_head (x := 'n') (y := 'a') rfl rfl (by decide))
            · rw [e5, List.getLast?_cons]
              cases (ws.filterMap (fun w => if "accessfile=".toList.isPrefixOf w = true then some (w.drop 11) else none)).getLast? <;> rfl
          · cases h
        · rw [if_neg h3] at h
          simp only [if_neg h3]
          by_cases h4 : w = "nodefgroup".toList
          · rw [if_pos h4] at h
            obtain ⟨e1, e2, e3, e4, e5⟩ := ih _ _ h
            refine ⟨e1, e2, ?_, ?_, e5⟩
            · rw [e3]
              exact ⟨fun _ => Or.inr (Or.inl h4.symm), fun _ => Or.inl rfl⟩
            · rw [e4]
              exact or_ne (by rw [h4]; decide)
          · rw [if_neg h4] at h
            by_cases h5 : w = "nodns".toList
            · rw [if_pos h5] at h
              obtain ⟨e1, e2, e3, e4, e5⟩ := ih _ _ h
              refine ⟨e1, e2, ?_, ?_, e5⟩
              · rw [e3]
                exact or_ne (by rw [h5]; decide)
              · rw [e4]
                exact ⟨fun _ => Or.inr (Or.inl h5.symm), fun _ => Or.inl rfl⟩
            · rw [if_neg h5] at h
              obtain ⟨e1, e2, e3, e4, e5⟩ := ih _ _ h
              refine ⟨e1, e2, ?_, ?_, e5⟩
              · rw [e3]; exact or_ne (fun e => h4 e.symm)
              · rw [e4]; exact or_ne (fun e => h5 e.symm)

/-- C57: the arguments: the last of each kind counts; the separators are colon and comma, space and tabulator by default. -/
theorem C57_arguments (canOpen : Str → Bool) (argv : List Str) (a : Args) (h : parseArgs canOpen .default argv = some a) :
    a.fs = lastValue "fieldsep=" ":".toList argv ∧ a.sep = lastValue "listsep=" ", \t".toList argv ∧
    (a.nodefgroup = true ↔ "nodefgroup".toList ∈ argv) ∧ (a.nodns = true ↔ "nodns".toList ∈ argv) ∧
    a.file = (argv.filterMap (fun w => if "accessfile=".toList.isPrefixOf w then some (w.drop 11) else none)).getLast? := by
  obtain ⟨e1, e2, e3, e4, e5⟩ := parseArgs_spec canOpen argv _ _ h
  refine ⟨e1, e2, e3.trans ?_, e4.trans ?_, e5.trans (Option.or_none)⟩
  · exact ⟨fun h => h.resolve_left (by decide), Or.inr⟩
  · exact ⟨fun h => h.resolve_left (by decide), Or.inr⟩

example : (parseArgs (fun _ => true) .default ["nodns".toList, "fieldsep=|".toList, "listsep=,".toList, "accessfile=/a".toList]) =
    some ⟨"|".toList, ",".toList, some "/a".toList, false, true⟩ := by decide

/-- C57: the arguments are refused exactly if an access file is named that cannot be opened. -/
theorem C57_accessfile (canOpen : Str → Bool) (argv : List Str) :
    parseArgs canOpen .default argv = none ↔ ∃ f, "accessfile=".toList ++ f ∈ argv ∧ canOpen f = false := by
  have key : ∀ (argv : List Str) (a : Args), parseArgs canOpen a argv = none ↔ ∃ f, "accessfile=".toList ++ f ∈ argv ∧ canOpen f = false := by
    intro argv
    induction argv with
    | nil => intro a; exact iff_of_false (by simp [parseArgs]) (by rintro ⟨f, h, -⟩; cases h)
    | cons w ws ih =>
      intro a
      have other : (∀ f, w ≠ "accessfile=".toList ++ f) →
          ((∃ f, "accessfile=".toList ++ f ∈ w :: ws ∧ canOpen f = false) ↔ ∃ f, "accessfile=".toList ++ f ∈ ws ∧ canOpen f = false) := by
        intro hne
        constructor
        · rintro ⟨f, h, h'⟩
          exact ⟨f, (List.mem_cons.mp h).resolve_left (fun e => hne f e.symm), h'⟩
        · rintro ⟨f, h, h'⟩
          exact ⟨f, List.mem_cons_of_mem _ h, h'⟩
      rw [parseArgs]
      by_cases h1 : "fieldsep=".toList.isPrefixOf w = true
      · rw [if_pos h1, ih, other]
        obtain ⟨t, rfl⟩ := List.isPrefixOf_iff_prefix.mp h1
        exact fun f => ne_head (x := 'f') (y := 'a') rfl rfl (by decide)
      · rw [if_neg h1]
        by_cases h2 : "listsep=".toList.isPrefixOf w = true
        · rw [if_pos h2, ih, other]
          obtain ⟨t, rfl⟩ := List.isPrefixOf_iff_prefix.mp h2
          exact fun f => ne_head (x := 'l') (y := 'a') rfl rfl (by decide)
        · rw [if_neg h2]
          by_cases h3 : "accessfile=".toList.isPrefixOf w = true
          · rw [if_pos h3]
            obtain ⟨t, rfl⟩ := List.isPrefixOf_iff_prefix.mp h3
            have hd : ("accessfile=".toList ++ t).drop 11 = t := rfl
            rw [hd]
            cases hc : canOpen t with
            | false => exact iff_of_true rfl ⟨t, by simp, hc⟩
            | true =>
              rw [if_pos rfl, ih]
              constructor
              · rintro ⟨f, h, h'⟩; exact ⟨f, List.mem_cons_of_mem _ h, h'⟩
              · rintro ⟨f, h, h'⟩
                rcases List.mem_cons.mp h with h | h
                · rw [List.append_cancel_left h, hc] at h'; cases h'
                · exact ⟨f, h, h'⟩
          · rw [if_neg h3]
            have hne : ∀ f, w ≠ "accessfile=".toList ++ f := by
              rintro f rfl
              exact h3 (List.isPrefixOf_iff_prefix.mpr ⟨f, rfl⟩)
            split
            · rw [ih, other hne]
            · split
              · rw [ih, other hne]
              · rw [ih, other hne]
  exact key argv _

/-! ## origin -/

/-- C57: the origin is the remote host, if there is one; otherwise the terminal, as the application or the process knows it,
or the service, in this order.  A path of a device is taken without its directory. -/
theorem C57_origin (c : Call) :
    (∀ h, c.rhost = some h → h ≠ [] → originOf c = some (h, true)) ∧
    (c.rhost = none ∨ c.rhost = some [] → originOf c = (c.tty.or (c.ttyname.or c.service)).map (fun t => (stripDevice t, false))) ∧
    (∀ t, stripDevice ("/dev/".toList ++ t) = t) ∧ (∀ t, t.head? ≠ some '/' → stripDevice t = t) := by
  refine ⟨?_, ?_, ?_, ?_⟩
  · intro h hr hne
    unfold originOf
    rw [hr]
    cases h with
    | nil => exact absurd rfl hne
    | cons x xs => rfl
  · intro hr
    unfold originOf
    rcases hr with hr | hr <;> (rw [hr]; cases c.tty <;> cases c.ttyname <;> cases c.service <;> rfl)
  · intro t
    show (if '/' ∈ 'd' :: 'e' :: 'v' :: '/' :: t then (('d' :: 'e' :: 'v' :: '/' :: t).dropWhile (· ≠ '/')).drop 1 else 'd' :: 'e' :: 'v' :: '/' :: t) = t
    rw [if_pos (by simp)]
    rfl
  · intro t ht
    unfold stripDevice
    split
    · exact absurd rfl ht
    · rfl

/-! ## answer -/

/-- the rules a file holds: those written down in it, or none if there is no such file -/
def Holds (c : Call) (fs sep f : Str) (rs : List Rule) : Prop :=
  (∃ lines, c.open_ f = .ok lines ∧ Table fs sep lines rs) ∨ (c.open_ f = .error .enoent ∧ rs = [])

theorem decides_append_none {U F : Str → Prop} {rs : List Rule} (h : Decides U F rs none) {rs' : List Rule} {d : Option Bool}
    (hd : Decides U F rs' d) : Decides U F (rs ++ rs') d := by
  induction rs with
  | nil => exact hd
  | cons r rs ih => exact decides_cons (h r (by simp)) (ih (fun q hq => h q (by simp [hq])))

theorem decides_append_some {U F : Str → Prop} {rs : List Rule} {b : Bool} (h : Decides U F rs (some b)) (rs' : List Rule) :
    Decides U F (rs ++ rs') (some b) := by
  obtain ⟨pre, r, post, h1, h2, h3, h4⟩ := h
  exact ⟨pre, r, post ++ rs', by rw [h1]; simp, h2, h3, h4⟩

theorem holds_steady {sys : Sys} {item : Item} (hs : Steady sys item) {c : Call} {f : Str} {rs : List Rule}
    (h : Holds c item.fs item.sep f rs) {cache : Cache} (hc : CacheOk sys item cache) :
    Decides (UserWord sys item) (OriginWord sys item) rs (loginAccess sys item cache (c.open_ f)).1 ∧
    CacheOk sys item (loginAccess sys item cache (c.open_ f)).2 := by
  rcases h with ⟨lines, h1, h2⟩ | ⟨h1, rfl⟩
  · rw [h1]; exact table_steady hs h2 cache hc
  · rw [h1]; exact ⟨(fun r hr => by cases hr), hc⟩

theorem eachFile_steady {sys : Sys} {item : Item} (hs : Steady sys item) {c : Call} {rules : Str → List Rule} :
    ∀ (files : List Str), (∀ f ∈ files, Holds c item.fs item.sep f (rules f)) → ∀ cache, CacheOk sys item cache →
      Decides (UserWord sys item) (OriginWord sys item) (files.flatMap rules) (eachFile sys item c.open_ cache files) := by
  intro files
  induction files with
  | nil => intro _ cache _ r hr; cases hr
  | cons f fs ih =>
    intro hf cache hc
    obtain ⟨h1, h2⟩ := holds_steady hs (hf f (by simp)) hc
    rw [eachFile, List.flatMap_cons]
    cases hl : loginAccess sys item cache (c.open_ f) with
    | mk d c' =>
      rw [hl] at h1 h2
      cases d with
      | none => exact decides_append_none h1 (ih (fun g hg => hf g (by simp [hg])) c' h2)
      | some b => exact decides_append_some h1 _

/-- C57: for a known user with an origin and files in documented form, the module denies exactly if the first rule that
applies denies; the rules are those of the file named with `accessfile=` or, without such an argument, those of the
default file followed by those of the directories.  (Partial as `C40_table_partial` is.) -/
theorem C57_answer_partial (sys : Sys) (c : Call) (argv : List Str) (user : Str) (uid : Nat) (hu : c.user = some (user, uid)) (a : Args)
    (ha : parseArgs (canOpen c) .default argv = some a)
    (origin : Str) (remote : Bool) (ho : originOf c = some (origin, remote)) (item : Item)
    (hi : item = ⟨user, uid, origin, c.hostname, a.nodefgroup, a.nodns, a.fs, a.sep, remote⟩) (hs : Steady sys item)
    (rules : Str → List Rule)
    (hf : ∀ f, f = a.file.getD c.default ∨ f ∈ accessDir c.etcDir c.vendorDir → Holds c a.fs a.sep f (rules f)) :
    ∃ d, Decides (UserWord sys item) (OriginWord sys item)
        (rules (a.file.getD c.default) ++
          (if a.file = none then (accessDir c.etcDir c.vendorDir).flatMap rules else [])) d ∧
      pamAccess sys c argv = if d = some false then PAM_PERM_DENIED else PAM_SUCCESS := by
  have hfs : item.fs = a.fs := by rw [hi]
  have hsep : item.sep = a.sep := by rw [hi]
  have h0 := holds_steady hs (c := c) (f := a.file.getD c.default) (rs := rules (a.file.getD c.default))
    (by rw [hfs, hsep]; exact hf _ (Or.inl rfl)) (cache := none) (Or.inl rfl)
  have hfiles : ∀ f ∈ accessDir c.etcDir c.vendorDir, Holds c item.fs item.sep f (rules f) := by
    intro f hm; rw [hfs, hsep]; exact hf f (Or.inr hm)
  have hpam : pamAccess sys c argv =
      (let r := loginAccess sys item none (c.open_ (a.file.getD c.default))
       let rv := match r.1 with
          | some b => some b
          | none => if a.file = none then eachFile sys item c.open_ r.2 (accessDir c.etcDir c.vendorDir) else none
       if rv = some false then PAM_PERM_DENIED else PAM_SUCCESS) := by
    unfold pamAccess
    rw [hu]
    simp only
    rw [ha]
    simp only
    rw [ho]
    simp only
    rw [hi]
    rfl
  rw [hpam]
  cases hl : loginAccess sys item none (c.open_ (a.file.getD c.default)) with
  | mk d c' =>
    rw [hl] at h0
    simp only
    cases d with
    | some b => exact ⟨some b, decides_append_some h0.1 _, rfl⟩
    | none =>
      by_cases hfile : a.file = none
      · refine ⟨_, decides_append_none h0.1 ?_, rfl⟩
        rw [if_pos hfile]
        simp only [if_pos hfile]
        exact eachFile_steady hs _ hfiles c' h0.2
      · refine ⟨none, ?_, ?_⟩
        · rw [if_neg hfile, List.append_nil]; exact h0.1
        · simp only [if_neg hfile]

/-- C57: what else can be answered: a user that is not known, an access file that cannot be opened, no origin at all; a
default file that exists but cannot be opened denies. -/
theorem C57_failures (sys : Sys) (c : Call) (argv : List Str) :
    (c.user = none → pamAccess sys c argv = PAM_USER_UNKNOWN) ∧
    (c.user.isSome → parseArgs (canOpen c) .default argv = none →
      pamAccess sys c argv = PAM_ABORT) ∧
    (c.user.isSome → originOf c = none → pamAccess sys c argv = PAM_ABORT) ∧
    (∀ a, c.user.isSome → (originOf c).isSome →
      parseArgs (canOpen c) .default argv = some a →
      c.open_ (a.file.getD c.default) = .error .other → pamAccess sys c argv = PAM_PERM_DENIED) := by
  refine ⟨?_, ?_, ?_, ?_⟩
  · intro h
    unfold pamAccess
    rw [h]
  · intro h1 h2
    obtain ⟨u, hu⟩ := Option.isSome_iff_exists.mp h1
    unfold pamAccess
    rw [hu]
    simp only
    rw [h2]
  · intro h1 h2
    obtain ⟨u, hu⟩ := Option.isSome_iff_exists.mp h1
    unfold pamAccess
    rw [hu]
    simp only
    split
    · rfl
    · rw [h2]
  · intro a h1 h2 h3 h4
    obtain ⟨u, hu⟩ := Option.isSome_iff_exists.mp h1
    obtain ⟨o, ho⟩ := Option.isSome_iff_exists.mp h2
    unfold pamAccess
    rw [hu]
    simp only
    rw [h3]
    simp only
    rw [ho]
    simp only
    rw [h4]
    rfl

/-- a call by alice on the terminal, with the table of the example as the default file and no others -/
def exCall : Call :=
  ⟨some ("alice".toList, 1000), none, some "/dev/tty1".toList, none, none, none, "/etc/security/access.conf".toList,
    fun f => if f = "/etc/security/access.conf".toList then .ok exTable else .error .enoent, [], []⟩

/-- the hypotheses of `C57_answer_partial` -/
example : ∃ rules : Str → List Rule, parseArgs (canOpen exCall) .default [] = some .default ∧
    originOf exCall = some ("tty1".toList, false) ∧ Steady Example.sys alice ∧
    ∀ f, f = Args.default.file.getD exCall.default ∨ f ∈ accessDir exCall.etcDir exCall.vendorDir →
      Holds exCall Args.default.fs Args.default.sep f (rules f) := by
  refine ⟨fun _ => [⟨true, ["wheel".toList, "EXCEPT".toList, "bob".toList], ["LOCAL".toList]⟩, ⟨false, ["ALL".toList], ["ALL".toList]⟩],
    rfl, by decide, Or.inl rfl, ?_⟩
  rintro f (rfl | h)
  · exact Or.inl ⟨exTable, rfl, ex_table⟩
  · unfold accessDir at h
    rw [List.mem_mergeSort] at h
    cases h

end Pam.Access
