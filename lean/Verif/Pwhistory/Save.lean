import Verif.Pwhistory.Lemmas
/-
What becomes of the lines of the history file.
-/
namespace Pam.Pwh
open Pam Spec

theorem flatten_lines (ls : List Str) : (ls.map (· ++ ['\n'])).flatten = cat ls := by
  rw [cat, List.flatMap_def]

theorem cat_append (a b : List Str) : cat (a ++ b) = cat a ++ cat b := by simp [cat]

theorem saveLine_foreign {n : Int} {u h l : Str} (hl : Foreign u l) : saveLine n u h (l ++ ['\n']) = (false, some (l ++ ['\n'])) := by
  rw [saveLine, lineText_line hl.1, cstr_line hl.1, foreign_isFor hl]
  simp

theorem text_ne_nil (e : Entry) : e.text ≠ [] := by
  intro h; have := text_isFor (e := e); rw [h] at this; simp at this

theorem saveLine_own {n : Int} {h : Str} {e : Entry} (he : e.Ok) :
    saveLine n e.user h (e.text ++ ['\n']) =
      (true, some (updateEntry n h ⟨some e.user, some e.uid, some (join e.hashes)⟩ (e.text ++ ['\n']))) := by
  rw [saveLine, lineText_line (text_line he), cstr_line (text_line he), if_neg (text_ne_nil e), if_pos (isFor_iff.mpr text_isFor),
    parse_text he]

/-- two names before a colon -/
theorem name_prefix : ∀ {u v r : Str}, ':' ∉ u → ':' ∉ v → (u ++ [':']) <+: (v ++ ':' :: r) → u = v
  | [], [], _, _, _, _ => rfl
  | [], x :: v, _, _, hv, h => by
    rw [List.nil_append, List.cons_append, List.cons_prefix_cons] at h
    exact absurd (by rw [h.1]; simp) hv
  | x :: u, [], _, hu, _, h => by
    rw [List.nil_append, List.cons_append, List.cons_prefix_cons] at h
    exact absurd (by rw [h.1]; simp) hu
  | x :: u, y :: v, r, hu, hv, h => by
    rw [List.cons_append, List.cons_append, List.cons_prefix_cons] at h
    rw [h.1, name_prefix (fun e => hu (by simp [e])) (fun e => hv (by simp [e])) h.2]

theorem mem_takeWhile {p : Char → Bool} {x : Char} : ∀ {s : Str}, x ∈ s.takeWhile p → x ∈ s
  | [], h => by simp at h
  | y :: s, h => by
    rw [List.takeWhile_cons] at h
    split at h
    · rcases List.mem_cons.mp h with h | h
      · simp [h]
      · simp [mem_takeWhile h]
    · simp at h

theorem isLine_sub {a l : Str} (h : IsLine l) (hs : ∀ x ∈ a, x ∈ l) : IsLine a := ⟨fun e => h.1 (hs _ e), fun e => h.2 (hs _ e)⟩

theorem strsep_sub {c : Char} {o : Option Str} {l : Str} (h : ∀ s, o = some s → ∀ x ∈ s, x ∈ l) :
    (∀ s, (strsep c o).1 = some s → ∀ x ∈ s, x ∈ l) ∧ (∀ s, (strsep c o).2 = some s → ∀ x ∈ s, x ∈ l) := by
  cases o with
  | none => constructor <;> intro s hs <;> cases hs
  | some t =>
    rw [strsep]
    split
    · constructor
      · intro s hs x hx; cases hs; exact h t rfl x (mem_takeWhile hx)
      · intro s hs x hx; cases hs; exact h t rfl x ((List.dropWhile_suffix _).mem (List.mem_of_mem_drop hx))
    · constructor
      · intro s hs x hx; cases hs; exact h t rfl x hx
      · intro s hs; cases hs

theorem parse_parts {l : Str} {e : Opwd} (h : parseEntry l = some e) :
    e.user = (strsep ':' (some l)).1 ∧ (∀ s, e.uid = some s → ∀ x ∈ s, x ∈ l) ∧ (∀ s, e.old = some s → ∀ x ∈ s, x ∈ l) := by
  simp only [parseEntry] at h
  have h0 : ∀ s, some l = some s → ∀ x ∈ s, x ∈ l := fun s hs x hx => by cases hs; exact hx
  have h1 := strsep_sub (c := ':') h0
  have h2 := strsep_sub (c := ':') h1.2
  have h3 := strsep_sub (c := ':') h2.2
  have h4 := strsep_sub (c := ':') h3.2
  cases hc : (strsep ':' (strsep ':' (strsep ':' (some l)).2).2).1 with
  | none => rw [hc] at h; cases h
  | some t =>
    rw [hc] at h
    simp only at h
    split at h
    · cases h
    · cases h
      exact ⟨rfl, h2.1, h4.1⟩

theorem dropFirst_sub {o : Str} : ∀ x ∈ dropFirst o, x ∈ o := by
  intro x hx
  rw [dropFirst] at hx
  split at hx
  · exact (List.dropWhile_suffix _).mem (List.mem_of_mem_drop hx)
  · exact hx

theorem trim_sub {n : Int} : ∀ {c : Nat} {o : Str}, ∀ x ∈ (trim n c o).2, x ∈ o
  | 0, _, _, hx => hx
  | c + 1, o, x, hx => by
    rw [trim] at hx
    split at hx
    · exact dropFirst_sub x (trim_sub x hx)
    · exact hx

theorem digits_line (n : Nat) : IsLine (Nat.toDigits 10 n) := by
  have h := (toDigits_spec n).2.1
  exact ⟨fun e => absurd (h _ e) (by decide), fun e => absurd (h _ e) (by decide)⟩

theorem toDigits_isDigit (n : Nat) : ∀ c ∈ Nat.toDigits 10 n, isDigit c := by
  intro c hc
  have h := (toDigits_spec n).2.1 c hc
  have h' : digitVal c < 10 := by simpa [isDigitOf] using h
  rw [digitVal] at h'
  cases hd : isDigit c with
  | true => rfl
  | false => rw [if_neg (by rw [hd]; decide)] at h'; split at h' <;> (try split at h') <;> omega

theorem pr_line {o : Option Str} {l : Str} (hl : IsLine l) (h : ∀ s, o = some s → ∀ x ∈ s, x ∈ l) : IsLine (pr o) := by
  cases o with
  | none => unfold IsLine; decide
  | some s => exact isLine_sub hl (h s rfl)

theorem newLine_shape {e : Opwd} {l h old : Str} {c : Nat} (hl : IsLine l) (hh : IsLine h) (hold : IsLine old)
    (huid : ∀ s, e.uid = some s → ∀ x ∈ s, x ∈ l) :
    ∃ r, newLine e c old h = (pr e.user ++ ':' :: r) ++ ['\n'] ∧ IsLine r := by
  have hu := pr_line hl huid
  rw [newLine]
  split
  · refine ⟨pr e.uid ++ ':' :: Nat.toDigits 10 c ++ ':' :: h, by simp, ?_⟩
    rw [List.append_assoc]
    exact isLine_append hu (isLine_cons (by decide) (by decide) (isLine_append (digits_line c) (isLine_cons (by decide) (by decide) hh)))
  · refine ⟨pr e.uid ++ ':' :: Nat.toDigits 10 c ++ ':' :: old ++ ',' :: h, by simp, ?_⟩
    simp only [List.append_assoc, List.cons_append]
    exact isLine_append hu (isLine_cons (by decide) (by decide) (isLine_append (digits_line c) (isLine_cons (by decide) (by decide)
      (isLine_append hold (isLine_cons (by decide) (by decide) hh)))))

theorem updateEntry_shape {n : Int} {e : Opwd} {l h save : Str} (hl : IsLine l) (hh : IsLine h)
    (huid : ∀ s, e.uid = some s → ∀ x ∈ s, x ∈ l) (hold : ∀ s, e.old = some s → ∀ x ∈ s, x ∈ l) :
    updateEntry n h e save = save ∨ ∃ r, updateEntry n h e save = (pr e.user ++ ':' :: r) ++ ['\n'] ∧ IsLine r := by
  rw [updateEntry]
  split
  · rename_i c o ho
    simp only
    split
    · exact Or.inl rfl
    · exact Or.inr (newLine_shape hl hh (isLine_sub hl (fun x hx => hold _ ho x (trim_sub x hx))) huid)
  · exact Or.inr (newLine_shape hl hh ⟨by simp, by simp⟩ huid)

theorem strsep_prefix {v l : Str} (hv : ':' ∉ v) (h : (v ++ [':']) <+: l) : (strsep ':' (some l)).1 = some v := by
  obtain ⟨r, rfl⟩ := h
  rw [List.append_assoc, List.singleton_append, strsep_at r hv]

/-- lines of other users stay lines of other users, whatever they are -/
theorem saveLine_other {n : Int} {u v h l : Str} (hu : ':' ∉ u) (hv : IsName v) (huv : u ≠ v) (hh : IsLine h) (hl : Foreign u l) :
    (saveLine n v h (l ++ ['\n'])).2 = none ∨ ∃ l', (saveLine n v h (l ++ ['\n'])).2 = some (l' ++ ['\n']) ∧ Foreign u l' := by
  rw [saveLine, lineText_line hl.1, cstr_line hl.1]
  by_cases h0 : l = []
  · rw [if_pos h0]; exact Or.inr ⟨l, rfl, hl⟩
  rw [if_neg h0]
  by_cases hf : isFor v l
  · rw [if_pos hf]
    cases hp : parseEntry l with
    | none => exact Or.inl rfl
    | some e =>
      right
      obtain ⟨p1, p2, p3⟩ := parse_parts hp
      have hus := strsep_prefix hv.1 (isFor_iff.mp hf)
      rcases updateEntry_shape (n := n) (save := l ++ ['\n']) hl.1 hh p2 p3 with hs | ⟨r, hs, hr⟩
      · exact ⟨l, by simp only [hs], hl⟩
      · refine ⟨pr e.user ++ ':' :: r, by simp only [hs], ?_, ?_⟩
        · rw [p1, hus]; exact isLine_append hv.line (isLine_cons (by decide) (by decide) hr)
        · rw [p1, hus]; intro hx; exact huv (name_prefix hu hv.1 hx)
  · rw [if_neg hf]; exact Or.inr ⟨l, rfl, hl⟩

theorem saveLines_other {n : Int} {u v h : Str} (hu : ':' ∉ u) (hv : IsName v) (huv : u ≠ v) (hh : IsLine h) : ∀ {ls : List Str},
    (∀ l ∈ ls, Foreign u l) →
    ∃ ls' : List Str, (ls.map (· ++ ['\n'])).filterMap (fun l => (saveLine n v h l).2) = ls'.map (· ++ ['\n']) ∧ ∀ l ∈ ls', Foreign u l
  | [], _ => ⟨[], rfl, by simp⟩
  | l :: ls, hf => by
    obtain ⟨ls', h1, h2⟩ := saveLines_other (n := n) hu hv huv hh (fun x hx => hf x (List.mem_cons_of_mem l hx))
    rw [List.map_cons, List.filterMap_cons]
    rcases saveLine_other (n := n) hu hv huv hh (hf l (by simp)) with h3 | ⟨l', h3, h4⟩
    · rw [h3]; exact ⟨ls', h1, h2⟩
    · rw [h3]
      refine ⟨l' :: ls', by simp only [h1, List.map_cons], ?_⟩
      intro x hx
      rcases List.mem_cons.mp hx with rfl | hx
      · exact h4
      · exact h2 x hx

/-- all that is written, as one text -/
def content (howmany : Int) (user oldpass : Str) (uid : Nat) (old : Option Str) : Str := (outputs howmany user oldpass uid old).flatten

/-- the line for a user without an entry -/
def firstEntry (u : Str) (uid : Nat) (h : Str) : Entry := ⟨u, Nat.toDigits 10 uid, ['1'], [h]⟩

theorem firstEntry_ok {u : Str} {uid : Nat} {h : Str} (hu : IsName u) (hh : IsHash h) : (firstEntry u uid h).Ok :=
  ⟨hu, digits_name (toDigits_isDigit uid), by intro c hc; simp only [firstEntry, List.mem_singleton] at hc; subst hc; decide,
    by intro x hx; simp only [firstEntry, List.mem_singleton] at hx; subst hx; exact hh⟩

theorem firstEntry_text (u : Str) (uid : Nat) (h : Str) :
    u ++ ':' :: Nat.toDigits 10 uid ++ ":1:".toList ++ h ++ ['\n'] = (firstEntry u uid h).text ++ ['\n'] := by
  have : ":1:".toList = [':', '1', ':'] := by decide
  rw [this]; simp [firstEntry, Entry.text, join]

theorem content_cat {n : Int} {u h : Str} {uid : Nat} {ls : List Str} (hls : ∀ l ∈ ls, '\n' ∉ l) :
    content n u h uid (some (cat ls)) =
      ((ls.map (· ++ ['\n'])).filterMap (fun l => (saveLine n u h l).2)).flatten ++
        (if ls.any (fun l => (saveLine n u h (l ++ ['\n'])).1) then [] else (firstEntry u uid h).text ++ ['\n']) := by
  simp only [content, outputs, physLines_cat ls hls]
  simp only [List.flatten_append, List.filterMap_map, List.any_map, firstEntry_text]
  congr 1
  simp only [Function.comp_def]
  by_cases hx : ls.any (fun l => (saveLine n u h (l ++ ['\n'])).1) = true
  · rw [if_pos hx, if_pos hx]; rfl
  · rw [if_neg hx, if_neg hx]; simp

theorem filterMap_foreign {n : Int} {u h : Str} : ∀ {ls : List Str}, (∀ l ∈ ls, Foreign u l) →
    (ls.map (· ++ ['\n'])).filterMap (fun l => (saveLine n u h l).2) = ls.map (· ++ ['\n'])
  | [], _ => rfl
  | l :: ls, hf => by
    rw [List.map_cons, List.filterMap_cons, saveLine_foreign (hf l (by simp)), filterMap_foreign (fun x hx => hf x (List.mem_cons_of_mem l hx))]

theorem any_foreign {n : Int} {u h : Str} {ls : List Str} (hf : ∀ l ∈ ls, Foreign u l) :
    ls.any (fun l => (saveLine n u h (l ++ ['\n'])).1) = false := by
  rw [List.any_eq_false]
  intro l hl
  rw [saveLine_foreign (hf l hl)]; exact Bool.false_ne_true

/-- no entry: one is added at the end -/
theorem content_new {n : Int} {u h : Str} {uid : Nat} {ls : List Str} (hf : ∀ l ∈ ls, Foreign u l) :
    content n u h uid (some (cat ls)) = cat (ls ++ [(firstEntry u uid h).text]) := by
  rw [content_cat (fun l hl => (hf l hl).1.1), filterMap_foreign hf, any_foreign hf, flatten_lines, cat_append]
  simp [cat]

theorem content_none {n : Int} {u h : Str} {uid : Nat} : content n u h uid none = cat [(firstEntry u uid h).text] := by
  simp only [content, outputs, firstEntry_text]
  simp [cat]

/-- the entry after the update: unchanged if the password is the last one and there are not too many -/
def newEntry (n : Nat) (h : Str) (e : Entry) : Entry :=
  if e.hashes.getLast? = some h ∧ e.hashes.length ≤ n then e
  else { e with count := Nat.toDigits 10 (min (e.hashes.length + 1) n), hashes := keep (n - 1) e.hashes ++ [h] }

theorem content_own {n : Nat} (hn : 1 ≤ n) {h : Str} {uid : Nat} {pre post : List Str} {e : Entry} (he : e.Ok)
    (hf : ∀ l ∈ pre ++ post, Foreign e.user l) :
    content n e.user h uid (some (cat (pre ++ [e.text] ++ post))) = cat (pre ++ [(newEntry n h e).text] ++ post) := by
  have hpre : ∀ l ∈ pre, Foreign e.user l := fun l hl => hf l (by simp [hl])
  have hpost : ∀ l ∈ post, Foreign e.user l := fun l hl => hf l (by simp [hl])
  rw [content_cat]
  · rw [if_pos]
    · rw [List.map_append, List.map_append, List.filterMap_append, List.filterMap_append, filterMap_foreign hpre, filterMap_foreign hpost]
      simp only [List.map_cons, List.map_nil, List.filterMap_cons, List.filterMap_nil, saveLine_own he, List.flatten_append, flatten_lines,
        cat_append, List.append_nil]
      congr 2
      rw [newEntry]
      by_cases hc : e.hashes.getLast? = some h ∧ e.hashes.length ≤ n
      · rw [if_pos hc, update_same he hc]; simp [cat]
      · rw [if_neg hc, update_text he hn hc]; simp [cat]
    · rw [List.any_append, List.any_append, any_foreign hpre, any_foreign hpost]
      simp [saveLine_own he]
  · intro l hl
    simp only [List.mem_append, List.mem_singleton] at hl
    rcases hl with (hl | hl) | hl
    · exact (hpre l hl).1.1
    · rw [hl]; exact (text_line he).1
    · exact (hpost l hl).1.1

theorem newEntry_ok {n : Nat} {h : Str} {e : Entry} (he : e.Ok) (hh : IsHash h) : (newEntry n h e).Ok := by
  rw [newEntry]
  split
  · exact he
  · refine ⟨he.user, he.uid, toDigits_isDigit _, ?_⟩
    intro x hx
    simp only [List.mem_append, List.mem_singleton] at hx
    rcases hx with hx | rfl
    · exact he.hashes x (List.mem_of_mem_drop hx)
    · exact hh

theorem newEntry_user {n : Nat} {h : Str} {e : Entry} : (newEntry n h e).user = e.user := by
  rw [newEntry]; split <;> rfl

/-- the passwords remembered -/
theorem newEntry_hashes {n : Nat} (hn : 1 ≤ n) {h : Str} {e : Entry} (hc : e.hashes.getLast? = some h → e.hashes.length ≤ n) :
    (newEntry n h e).hashes = remember n e.hashes h := by
  rw [newEntry, remember]
  by_cases hl : e.hashes.getLast? = some h
  · rw [if_pos ⟨hl, hc hl⟩, if_pos hl, keep, show e.hashes.length - n = 0 by have := hc hl; omega, List.drop_zero]
  · rw [if_neg (fun x => hl x.1), if_neg hl]
    simp only [keep, List.length_append, List.length_cons, List.length_nil]
    rw [show e.hashes.length + (0 + 1) - n = e.hashes.length - (n - 1) by omega, List.drop_append_of_le_length (by omega)]

/-- lines written for somebody else -/
theorem content_other {n : Int} {u v h : Str} {uid : Nat} (hu : ':' ∉ u) (hv : IsName v) (huv : u ≠ v) (hh : IsHash h) {ls : List Str}
    (hf : ∀ l ∈ ls, Foreign u l) :
    ∃ ls' : List Str, content n v h uid (some (cat ls)) = cat ls' ∧ ∀ l ∈ ls', Foreign u l := by
  have hline : IsLine h := ⟨hh.2.2.2.1, hh.2.2.2.2⟩
  obtain ⟨ls', h1, h2⟩ := saveLines_other (n := n) hu hv huv hline hf
  rw [content_cat (fun l hl => (hf l hl).1.1), h1, flatten_lines]
  have hfirst : Foreign u (firstEntry v uid h).text := by
    refine ⟨text_line (firstEntry_ok hv hh), fun hx => huv ?_⟩
    refine name_prefix (v := v) (r := (Nat.toDigits 10 uid) ++ ':' :: ['1'] ++ ':' :: join [h]) hu hv.1 ?_
    have e : (firstEntry v uid h).text = v ++ ':' :: ((Nat.toDigits 10 uid) ++ ':' :: ['1'] ++ ':' :: join [h]) := by
      simp [firstEntry, Entry.text]
    rw [← e]; exact hx
  by_cases ha : ls.any (fun l => (saveLine n v h (l ++ ['\n'])).1)
  · rw [if_pos ha]; exact ⟨ls', by simp, h2⟩
  · rw [if_neg ha]
    refine ⟨ls' ++ [(firstEntry v uid h).text], by rw [cat_append]; simp [cat], ?_⟩
    intro l hl
    rcases List.mem_append.mp hl with hl | hl
    · exact h2 l hl
    · rw [List.mem_singleton.mp hl]; exact hfirst

/-- the entry of `u` is not changed by updates for somebody else -/
theorem saveLine_entry_other {n : Int} {v h : Str} {e : Entry} (he : e.Ok) (hv : IsName v) (huv : e.user ≠ v) :
    saveLine n v h (e.text ++ ['\n']) = (false, some (e.text ++ ['\n'])) := by
  apply saveLine_foreign
  refine ⟨text_line he, fun hx => huv ?_⟩
  have ht : e.text = e.user ++ ':' :: (e.uid ++ ':' :: e.count ++ ':' :: join e.hashes) := by simp [Entry.text]
  rw [ht] at hx
  exact (name_prefix hv.1 he.user.1 hx).symm

theorem holds_other {n : Int} {u v h : Str} {uid : Nat} {file : Option Str} {hs : List Str} (hv : IsName v) (huv : u ≠ v)
    (hh : IsHash h) (hold : Holds file u hs) : Holds (some (content n v h uid file)) u hs := by
  obtain ⟨pre, e, post, rfl, he, rfl, rfl, hf⟩ := hold
  have hpre : ∀ l ∈ pre, Foreign e.user l := fun l hl => hf l (by simp [hl])
  have hpost : ∀ l ∈ post, Foreign e.user l := fun l hl => hf l (by simp [hl])
  have hline : IsLine h := ⟨hh.2.2.2.1, hh.2.2.2.2⟩
  obtain ⟨pre', p1, p2⟩ := saveLines_other (n := n) he.user.1 hv huv hline hpre
  have hall : ∀ l ∈ pre ++ [e.text] ++ post, '\n' ∉ l := by
    intro l hl
    simp only [List.mem_append, List.mem_singleton] at hl
    rcases hl with (hl | hl) | hl
    · exact (hpre l hl).1.1
    · rw [hl]; exact (text_line he).1
    · exact (hpost l hl).1.1
  obtain ⟨post', q1, q2⟩ := saveLines_other (n := n) he.user.1 hv huv hline hpost
  have hfirst : Foreign e.user (firstEntry v uid h).text := by
    refine ⟨text_line (firstEntry_ok hv hh), fun hx => huv ?_⟩
    have e' : (firstEntry v uid h).text = v ++ ':' :: ((Nat.toDigits 10 uid) ++ ':' :: ['1'] ++ ':' :: join [h]) := by
      simp [firstEntry, Entry.text]
    rw [e'] at hx
    exact name_prefix he.user.1 hv.1 hx
  refine ⟨pre', e, post' ++ (if (pre ++ [e.text] ++ post).any (fun l => (saveLine n v h (l ++ ['\n'])).1) then [] else [(firstEntry v uid h).text]),
    ?_, he, rfl, rfl, ?_⟩
  · rw [content_cat hall]
    simp only [List.map_append, List.filterMap_append, p1, q1, List.map_cons, List.map_nil, List.filterMap_cons, List.filterMap_nil,
      saveLine_entry_other he hv huv, List.flatten_append, flatten_lines, cat_append]
    split <;> simp [cat]
  · intro l hl
    simp only [List.mem_append] at hl
    rcases hl with hl | hl | hl
    · exact p2 l hl
    · exact q2 l hl
    · split at hl
      · simp at hl
      · rw [List.mem_singleton.mp hl]; exact hfirst

theorem noEntry_other {n : Int} {u v h : Str} {uid : Nat} {file : Option Str} (hu : ':' ∉ u) (hv : IsName v) (huv : u ≠ v)
    (hh : IsHash h) (hold : NoEntry file u) : NoEntry (some (content n v h uid file)) u := by
  rcases hold with rfl | ⟨ls, rfl, hf⟩
  · right
    obtain ⟨ls', h1, h2⟩ := content_other (n := n) (uid := uid) hu hv huv hh (ls := []) (by simp)
    exact ⟨ls', congrArg some ((content_none.trans (content_new (ls := []) (by simp)).symm).trans h1), h2⟩
  · right
    obtain ⟨ls', h1, h2⟩ := content_other (n := n) (uid := uid) hu hv huv hh hf
    exact ⟨ls', congrArg some h1, h2⟩

theorem holds_own {n : Nat} (hn : 1 ≤ n) {u h : Str} {uid : Nat} {file : Option Str} {hs : List Str} (hh : IsHash h)
    (hold : Holds file u hs) (hc : hs.getLast? = some h → hs.length ≤ n) : Holds (some (content n u h uid file)) u (remember n hs h) := by
  obtain ⟨pre, e, post, rfl, he, rfl, rfl, hf⟩ := hold
  exact ⟨pre, newEntry n h e, post, congrArg some (content_own hn he hf), newEntry_ok he hh, newEntry_user, newEntry_hashes hn hc, hf⟩

theorem holds_new {n : Int} {u h : Str} {uid : Nat} {file : Option Str} (hu : IsName u) (hh : IsHash h)
    (hold : NoEntry file u) : Holds (some (content n u h uid file)) u [h] := by
  rcases hold with rfl | ⟨ls, rfl, hf⟩
  · exact ⟨[], firstEntry u uid h, [], by rw [content_none]; simp, firstEntry_ok hu hh, rfl, rfl, by simp⟩
  · exact ⟨ls, firstEntry u uid h, [], by rw [content_new hf]; simp, firstEntry_ok hu hh, rfl, rfl, by simpa using hf⟩

end Pam.Pwh
