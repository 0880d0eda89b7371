import Verif.Show.Issue
import Verif.Core.Strtol
/-
C130: pam_issue.
-/
namespace Pam.Show
open Pam
open Pam.Small (skipPrefix cstr Last Without)

namespace Spec

/-- a number with two digits -/
def two (n : Nat) : Str := [Nat.digitChar (n / 10), Nat.digitChar (n % 10)]

/-- the names of the days, Sunday is 0 -/
def Day (n : Nat) (s : Str) : Prop := ["Sun", "Mon", "Tue", "Wed", "Thu", "Fri", "Sat"][n]?.map String.toList = some s

/-- the names of the months, January is 0 -/
def Month (n : Nat) (s : Str) : Prop := ["Jan", "Feb", "Mar", "Apr", "May", "Jun", "Jul", "Aug", "Sep", "Oct", "Nov", "Dec"][n]?.map String.toList = some s

/-- the letters that mean something after a backslash, as documented in pam_issue(8) -/
def letters : List Char := ['d', 'l', 'm', 'n', 'o', 'r', 's', 't', 'u', 'U', 'v']

/-- what such a letter stands for -/
inductive Means (w : System) : Char → Str → Prop
  | date (d m : Str) : Day w.wday d → Month w.month m → Means w 'd' (d ++ " ".toList ++ m ++ " ".toList ++ Nat.toDigits 10 w.mday ++ "  ".toList ++ Nat.toDigits 10 w.year)
  | dev (t : Str) : w.tty = some ("/dev/".toList ++ t) → Means w 'l' t
  | tty (t : Str) : w.tty = some t → (∀ u, t ≠ "/dev/".toList ++ u) → Means w 'l' t
  | noTty : w.tty = none → Means w 'l' []
  | machine : Means w 'm' w.machine
  | nodename : Means w 'n' w.nodename
  | domain : Means w 'o' w.domain
  | release : Means w 'r' w.release
  | sysname : Means w 's' w.sysname
  | time : w.hour < 100 → w.min < 100 → w.sec < 100 → Means w 't' (two w.hour ++ ":".toList ++ two w.min ++ ":".toList ++ two w.sec)
  | users (n : Nat) : w.users = some n → Means w 'u' (Nat.toDigits 10 n)
  | user : w.users = some 1 → Means w 'U' "1 user".toList
  | usersU (n : Nat) : w.users = some n → n ≠ 1 → Means w 'U' (Nat.toDigits 10 n ++ " users".toList)
  | version : Means w 'v' w.version

/-- the text of a file and what is shown for it -/
inductive Shows (w : System) : Str → Str → Prop
  | nil : Shows w [] []
  | plain {c : Char} {r t : Str} : c ≠ '\\' → c ≠ NUL → Shows w r t → Shows w (c :: r) (c :: t)
  | escape {c : Char} {v r t : Str} : Means w c v → Shows w r t → Shows w ('\\' :: c :: r) (v ++ t)
  | letter {c : Char} {r t : Str} : c ∉ letters → c ≠ NUL → Shows w r t → Shows w ('\\' :: c :: r) (c :: t)
  /-- a backslash at the end is dropped -/
  | last : Shows w ['\\'] []
  /-- a NUL is dropped -/
  | nul {r t : Str} : Shows w r t → Shows w (NUL :: r) t
  | escapedNul {r t : Str} : Shows w r t → Shows w ('\\' :: NUL :: r) t

/-- what the system says are C strings -/
def Clean (w : System) : Prop := NUL ∉ w.sysname ∧ NUL ∉ w.nodename ∧ NUL ∉ w.release ∧ NUL ∉ w.version ∧ NUL ∉ w.machine ∧ NUL ∉ w.domain ∧ ∀ t, w.tty = some t → NUL ∉ t

/-- the file: the last issue= argument, else /etc/issue -/
def IssueFile (argv : List Str) (f : Str) : Prop := Last "issue=" argv f ∨ (Without "issue=" argv ∧ f = "/etc/issue".toList)

end Spec
open Spec

theorem grow_ok {size : Nat} {buf src : Str} (h : buf.length < size) : ∃ s, grow size buf src = some (s, buf ++ src) ∧ (buf ++ src).length < s := by
  unfold grow
  dsimp only
  split
  · rw [if_pos (by omega)]; exact ⟨_, rfl, by rw [List.length_append]; omega⟩
  · rw [if_pos (by omega)]; exact ⟨_, rfl, by rw [List.length_append]; omega⟩

theorem dec2_two : ∀ n < 100, dec2 n = two n := by decide +kernel

theorem escape_means {w : System} {c : Char} {v : Str} (h : Means w c v) : Show.escape w c = some v := by
  cases h with
  | date d m hd hm =>
    have hd' : weekday.getD w.wday [] = d := by
      unfold Day at hd
      unfold weekday
      rw [List.getD_eq_getElem?_getD, List.getElem?_map, hd]; rfl
    have hm' : Show.month.getD w.month [] = m := by
      unfold Month at hm
      unfold Show.month
      rw [List.getD_eq_getElem?_getD, List.getElem?_map, hm]; rfl
    unfold Show.escape
    rw [hd', hm']
    simp [dec]
  | dev _ h =>
    unfold Show.escape
    rw [h]
    simp only [Char.reduceEq, if_false, if_true]
    rw [Small.skipPrefix_some.mpr rfl]; rfl
  | tty _ h h2 =>
    unfold Show.escape
    rw [h]
    simp only [Char.reduceEq, if_false, if_true]
    rw [Small.skipPrefix_none.mpr (by rintro ⟨u, hu⟩; exact h2 u hu.symm)]; rfl
  | noTty h =>
    unfold Show.escape
    rw [h]
    simp only [Char.reduceEq, if_false, if_true]
  | machine => rfl
  | nodename => rfl
  | domain => rfl
  | release => rfl
  | sysname => rfl
  | time h1 h2 h3 =>
    unfold Show.escape
    rw [dec2_two _ h1, dec2_two _ h2, dec2_two _ h3]
    simp [two]
  | users n h => unfold Show.escape; rw [h]; rfl
  | user h => unfold Show.escape; rw [h]; rfl
  | usersU n h hn =>
    unfold Show.escape
    rw [h]
    simp [hn, dec]
  | version => rfl

theorem escape_letter (w : System) {c : Char} (h : c ∉ letters) : Show.escape w c = some (if c = NUL then [] else [c]) := by
  simp only [letters, List.mem_cons, List.not_mem_nil, or_false, not_or] at h
  unfold Show.escape
  simp [h]

theorem quoted_shows {w : System} {s t : Str} (h : Shows w s t) : ∀ (size : Nat) (buf : Str), buf.length < size → ∃ sz, quotedLoop w size buf s = .ok sz (buf ++ t) ∧ (buf ++ t).length < sz := by
  induction h with
  | nil => intro size buf hb; exact ⟨size, by rw [quotedLoop, List.append_nil], by simpa using hb⟩
  | @plain c r t hc hn hr ih =>
    intro size buf hb
    obtain ⟨sz, hg, hl⟩ := grow_ok (src := [c]) hb
    cases r with
    | nil =>
      cases hr
      rw [quotedLoop, if_neg hc, if_neg hn, hg]
      exact ⟨sz, rfl, hl⟩
    | cons d r =>
      rw [quotedLoop, if_neg hc, if_neg hn, hg]
      dsimp only
      obtain ⟨s2, h1, h2⟩ := ih sz _ hl
      rw [List.append_assoc] at h1 h2
      exact ⟨s2, h1, h2⟩
  | @escape c v r t hm hr ih =>
    intro size buf hb
    obtain ⟨sz, hg, hl⟩ := grow_ok (src := v) hb
    rw [quotedLoop, if_pos rfl, escape_means hm]
    dsimp only
    rw [hg]
    dsimp only
    obtain ⟨s2, h1, h2⟩ := ih sz _ hl
    rw [List.append_assoc] at h1 h2
    exact ⟨s2, h1, h2⟩
  | @letter c r t hc hn hr ih =>
    intro size buf hb
    obtain ⟨sz, hg, hl⟩ := grow_ok (src := [c]) hb
    rw [quotedLoop, if_pos rfl, escape_letter w hc, if_neg hn]
    dsimp only
    rw [hg]
    dsimp only
    obtain ⟨s2, h1, h2⟩ := ih sz _ hl
    rw [List.append_assoc] at h1 h2
    exact ⟨s2, h1, h2⟩
  | last => intro size buf hb; exact ⟨size, by rw [quotedLoop, if_pos rfl, List.append_nil], by simpa using hb⟩
  | @nul r t hr ih =>
    intro size buf hb
    obtain ⟨sz, hg, hl⟩ := grow_ok (src := []) hb
    cases r with
    | nil =>
      cases hr
      rw [quotedLoop, if_neg (by decide), if_pos rfl, hg]
      exact ⟨sz, rfl, hl⟩
    | cons d r =>
      rw [quotedLoop, if_neg (by decide), if_pos rfl, hg]
      dsimp only
      obtain ⟨s2, h1, h2⟩ := ih sz _ hl
      rw [List.append_nil] at h1 h2
      exact ⟨s2, by rw [List.append_nil]; exact h1, h2⟩
  | @escapedNul r t hr ih =>
    intro size buf hb
    obtain ⟨sz, hg, hl⟩ := grow_ok (src := []) hb
    rw [quotedLoop, if_pos rfl, escape_letter w (by decide), if_pos rfl]
    dsimp only
    rw [hg]
    dsimp only
    obtain ⟨s2, h1, h2⟩ := ih sz _ hl
    rw [List.append_nil] at h1 h2
    exact ⟨s2, by rw [List.append_nil]; exact h1, h2⟩

theorem quoted_safe (w : System) : ∀ (n : Nat) (s : Str) (size : Nat) (buf : Str), s.length ≤ n → buf.length < size →
    quotedLoop w size buf s = .error ∨ ∃ sz b, quotedLoop w size buf s = .ok sz b ∧ b.length < sz
  | _, [], size, buf, _, hb => Or.inr ⟨size, buf, by rw [quotedLoop], hb⟩
  | _, [c], size, buf, _, hb => by
    rw [quotedLoop]
    split
    · exact Or.inr ⟨size, buf, rfl, hb⟩
    · obtain ⟨sz, hg, hl⟩ := grow_ok (src := if c = NUL then [] else [c]) hb
      rw [hg]; exact Or.inr ⟨sz, _, rfl, hl⟩
  | 0, c :: d :: r, _, _, hn, _ => by simp at hn
  | n + 1, c :: d :: r, size, buf, hn, hb => by
    simp only [List.length_cons] at hn
    rw [quotedLoop]
    split
    · cases escape w d with
      | none => exact Or.inl rfl
      | some src =>
        dsimp only
        obtain ⟨sz, hg, hl⟩ := grow_ok (src := src) hb
        rw [hg]
        exact quoted_safe w n r sz _ (by omega) hl
    · obtain ⟨sz, hg, hl⟩ := grow_ok (src := if c = NUL then [] else [c]) hb
      rw [hg]
      exact quoted_safe w n (d :: r) sz _ (by simp; omega) hl

theorem issue_opts : ∀ (argv : List Str) (o : Option Str × Bool),
    ((argv.foldl issueArg o).1 = o.1 ∧ Without "issue=" argv ∨ ∃ f, Last "issue=" argv f ∧ (argv.foldl issueArg o).1 = some f) ∧
    ((argv.foldl issueArg o).2 = true ↔ o.2 = true ∧ "noesc".toList ∉ argv)
  | [], o => ⟨Or.inl ⟨rfl, fun y hy => nomatch hy⟩, by simp⟩
  | a :: r, o => by
    rw [List.foldl_cons]
    obtain ⟨h1, h2⟩ := issue_opts r (issueArg o a)
    cases hs : skipPrefix a "issue=".toList with
    | none =>
      have hna := Small.skipPrefix_none.mp hs
      have e1 : (issueArg o a).1 = o.1 := by unfold issueArg; rw [hs]; dsimp only; split <;> rfl
      have e2 : (issueArg o a).2 = if a = "noesc".toList then false else o.2 := by unfold issueArg; rw [hs]; dsimp only; split <;> rfl
      constructor
      · rcases h1 with ⟨e, hw⟩ | ⟨f, hl, e⟩
        · refine Or.inl ⟨by rw [e, e1], fun y hy => ?_⟩
          rcases List.mem_cons.mp hy with rfl | hy
          · exact hna
          · exact hw y hy
        · exact Or.inr ⟨f, Small.last_cons.mpr (Or.inl hl), e⟩
      · rw [h2, e2]
        by_cases ha : a = "noesc".toList
        · rw [if_pos ha]; simp [ha]
        · rw [if_neg ha]
          have : "noesc".toList ≠ a := fun e => ha e.symm
          simp only [List.mem_cons, this, false_or]
    | some v =>
      have ha := Small.skipPrefix_some.mp hs
      have e : issueArg o a = (some v, o.2) := by unfold issueArg; rw [hs]
      rw [e] at h1 h2 ⊢
      constructor
      · rcases h1 with ⟨e, hw⟩ | ⟨f, hl, e⟩
        · exact Or.inr ⟨v, Small.last_cons.mpr (Or.inr ⟨hw, ha⟩), e⟩
        · exact Or.inr ⟨f, Small.last_cons.mpr (Or.inl hl), e⟩
      · rw [h2]
        have : "noesc".toList ≠ a := by rw [ha]; intro e; have := congrArg (List.take 6) e; simp at this
        simp only [List.mem_cons, this, false_or]

theorem issue_names {argv : List Str} {f : Str} (h : IssueFile argv f) : ((argv.foldl issueArg (none, true)).1).getD "/etc/issue".toList = f := by
  rcases (issue_opts argv (none, true)).1 with ⟨e, hw⟩ | ⟨g, hl, e⟩ <;> rcases h with h | ⟨h, rfl⟩
  · exact absurd h (Small.without_last hw)
  · rw [e]; rfl
  · rw [e, Small.last_unique hl h]; rfl
  · exact absurd hl (Small.without_last h)

theorem issue_esc {argv : List Str} : (argv.foldl issueArg (none, true)).2 = true ↔ "noesc".toList ∉ argv := by
  rw [(issue_opts argv (none, true)).2]; simp

theorem digits_no_nul (n : Nat) : NUL ∉ Nat.toDigits 10 n := by
  intro h
  exact absurd ((toDigits_spec n).2.1 _ h) (by decide)

theorem two_no_nul : ∀ n < 100, NUL ∉ two n := by decide +kernel

theorem means_clean {w : System} (h : Clean w) {c : Char} {v : Str} (hm : Means w c v) : NUL ∉ v := by
  obtain ⟨h1, h2, h3, h4, h5, h6, h7⟩ := h
  cases hm with
  | date d m hd hm =>
    have hd' : NUL ∉ d := by
      have h7 : ∀ n < 7, ∀ s, ["Sun", "Mon", "Tue", "Wed", "Thu", "Fri", "Sat"][n]?.map String.toList = some s → NUL ∉ s := by
        intro n hn
        have : n = 0 ∨ n = 1 ∨ n = 2 ∨ n = 3 ∨ n = 4 ∨ n = 5 ∨ n = 6 := by omega
        rcases this with rfl | rfl | rfl | rfl | rfl | rfl | rfl <;> (intro s e; cases e; decide)
      exact h7 _ w.wday.isLt d hd
    have hm' : NUL ∉ m := by
      have h12 : ∀ n < 12, ∀ s, ["Jan", "Feb", "Mar", "Apr", "May", "Jun", "Jul", "Aug", "Sep", "Oct", "Nov", "Dec"][n]?.map String.toList = some s → NUL ∉ s := by
        intro n hn
        have : n = 0 ∨ n = 1 ∨ n = 2 ∨ n = 3 ∨ n = 4 ∨ n = 5 ∨ n = 6 ∨ n = 7 ∨ n = 8 ∨ n = 9 ∨ n = 10 ∨ n = 11 := by omega
        rcases this with rfl | rfl | rfl | rfl | rfl | rfl | rfl | rfl | rfl | rfl | rfl | rfl <;> (intro s e; cases e; decide)
      exact h12 _ w.month.isLt m hm
    simp only [List.mem_append, not_or]
    exact ⟨⟨⟨⟨⟨⟨hd', by decide⟩, hm'⟩, by decide⟩, digits_no_nul _⟩, by decide⟩, digits_no_nul _⟩
  | dev _ h => exact fun hc => h7 _ h (List.mem_append_right _ hc)
  | tty _ h _ => exact h7 _ h
  | noTty _ => simp
  | machine => exact h5
  | nodename => exact h2
  | domain => exact h6
  | release => exact h3
  | sysname => exact h1
  | time ha hb hc =>
    simp only [List.mem_append, not_or]
    exact ⟨⟨⟨⟨two_no_nul _ ha, by decide⟩, two_no_nul _ hb⟩, by decide⟩, two_no_nul _ hc⟩
  | users n _ => exact digits_no_nul n
  | user _ => decide
  | usersU n _ _ => rw [List.mem_append, not_or]; exact ⟨digits_no_nul n, by decide⟩
  | version => exact h4

theorem shows_no_nul {w : System} {s t : Str} (h : Shows w s t) (hv : ∀ c v, Means w c v → NUL ∉ v) : NUL ∉ t := by
  induction h with
  | nil => simp
  | plain _ hn _ ih => simp only [List.mem_cons, not_or]; exact ⟨fun e => hn e.symm, ih⟩
  | escape hm _ ih => rw [List.mem_append]; exact fun h => h.elim (hv _ _ hm) ih
  | letter _ hn _ ih => simp only [List.mem_cons, not_or]; exact ⟨fun e => hn e.symm, ih⟩
  | last => simp
  | nul _ ih => exact ih
  | escapedNul _ ih => exact ih

/-- **C130**: the first time in a process the text of the file, with the escapes in it replaced, is put before the prompt, and the module is ignored. -/
theorem C130_escapes (w : System) (file : Str → Option Opened) (argv : List Str) (prompt : Option Str) (f : Str) (o : Opened) (t : Str) (hn : IssueFile argv f) (he : "noesc".toList ∉ argv)
    (hf : file f = some o) (hr : o.read = true) (hs : Shows w o.text t) (hw : Clean w) :
    issue w file argv false prompt = some (true, PAM_IGNORE, some (t ++ prompt.getD [])) := by
  unfold issue
  rw [if_neg (by decide)]
  dsimp only
  rw [issue_names hn, hf]
  dsimp only
  rw [if_pos (issue_esc.mpr he)]
  unfold readQuoted
  obtain ⟨sz, h1, h2⟩ := quoted_shows hs 1024 [] (by decide)
  rw [h1]
  dsimp only
  rw [if_pos h2, if_pos hr]
  dsimp only
  have : cstr ([] ++ t) = t := by
    rw [List.nil_append]
    unfold cstr
    have := List.takeWhile_append_of_pos (p := fun c => decide (c ≠ NUL)) (l₁ := t) (l₂ := []) (fun c hc => decide_eq_true (by rintro rfl; exact shows_no_nul hs (fun c v => means_clean hw) hc))
    simpa using this
  rw [this]

/-- **C130**: with noesc it is the text as it is, up to the first NUL. -/
theorem C130_noesc (w : System) (file : Str → Option Opened) (argv : List Str) (prompt : Option Str) (f : Str) (o : Opened) (hn : IssueFile argv f) (he : "noesc".toList ∈ argv)
    (hf : file f = some o) (hs : o.stat = true) (hr : o.read = true) :
    issue w file argv false prompt = some (true, PAM_IGNORE, some (o.text.takeWhile (· ≠ NUL) ++ prompt.getD [])) := by
  unfold issue
  rw [if_neg (by decide)]
  dsimp only
  rw [issue_names hn, hf]
  dsimp only
  rw [if_neg (fun h => issue_esc.mp h he)]
  unfold readRaw
  rw [if_neg (by rw [hs]; decide), if_neg (by rw [hr]; decide)]
  rfl

/-- **C130**: a file that cannot be opened or read is an error, and the prompt stays. -/
theorem C130_error (w : System) (file : Str → Option Opened) (argv : List Str) (prompt : Option Str) (f : Str) (hn : IssueFile argv f) (h : file f = none ∨ ∃ o, file f = some o ∧ o.read = false) :
    issue w file argv false prompt = some (true, PAM_SERVICE_ERR, prompt) := by
  unfold issue
  rw [if_neg (by decide)]
  dsimp only
  rw [issue_names hn]
  rcases h with h | ⟨o, h, hr⟩
  · rw [h]
  · rw [h]
    dsimp only
    by_cases hq : (argv.foldl issueArg (none, true)).2 = true
    · rw [if_pos hq]
      unfold readQuoted
      rcases quoted_safe w o.text.length o.text 1024 [] (Nat.le_refl _) (by decide) with e | ⟨sz, b, e, hb⟩
      · rw [e]
      · rw [e]; dsimp only; rw [if_pos hb, if_neg (by rw [hr]; decide)]
    · rw [if_neg hq]
      unfold readRaw
      rw [if_pos (c := o.read = false) hr]
      split
      · next h => split at h <;> cases h
      · rfl
      · next h => split at h <;> cases h

/-- **C130**: after the first time in a process, whatever came of it and for whatever handle, nothing is done. -/
theorem C130_once (w w' : System) (file file' : Str → Option Opened) (argv argv' : List Str) (set : Bool) (prompt prompt' : Option Str) (r : Bool × Int × Option Str)
    (h : issue w file argv set prompt = some r) : issue w' file' argv' r.1 prompt' = some (r.1, PAM_IGNORE, prompt') := by
  have : r.1 = true := by
    unfold issue at h
    split at h
    · next hs => cases h; exact hs
    · dsimp only at h
      split at h
      · cases h; rfl
      · split at h
        · cases h
        · cases h; rfl
        · cases h; rfl
  rw [this]
  rfl

/-- **C130**: nothing is written outside the buffer, whatever the file and the system say. -/
theorem C130_safe (w : System) (file : Str → Option Opened) (argv : List Str) (set : Bool) (prompt : Option Str) : issue w file argv set prompt ≠ none := by
  unfold issue
  split
  · simp
  · dsimp only
    split
    · simp
    · next o _ =>
      split
      · next h =>
        exfalso
        split at h
        · unfold readQuoted at h
          rcases quoted_safe w o.text.length o.text 1024 [] (Nat.le_refl _) (by decide) with e | ⟨sz, b, e, hb⟩
          · rw [e] at h; cases h
          · rw [e] at h; dsimp only at h; rw [if_pos hb] at h; split at h <;> cases h
        · unfold readRaw at h
          split at h
          · cases h
          · split at h <;> cases h
      · simp
      · simp

/-- an example -/
def here : System := ⟨"Linux".toList, "near".toList, "6.1".toList, "#1".toList, "x86_64".toList, "".toList, 2, 10, 17, 2026, 9, 5, 0, some "/dev/pts/3".toList, some 1⟩

example : issue here (fun f => if f = "/etc/issue".toList then some ⟨"\\s \\n on \\l\n\\d \\t, \\U\\\\".toList, true, true⟩ else none) [] false (some "login: ".toList) =
    some (true, PAM_IGNORE, some "Linux near on pts/3\nTue Nov 17  2026 09:05:00, 1 user\\login: ".toList) := by decide +kernel
example : Clean here := by unfold Clean; simp only [here]; exact ⟨by decide, by decide, by decide, by decide, by decide, by decide, fun t h => by cases h; decide⟩
example : Shows here "\\t\\".toList "09:05:00".toList := by
  have h := Shows.escape (w := here) (.time (by decide) (by decide) (by decide)) .last
  exact h

end Pam.Show
