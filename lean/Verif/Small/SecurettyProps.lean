import Verif.Small.NologinProps
import Verif.Small.ListfileProps
/-
Property theorem C87: pam_securetty.
-/
namespace Pam.Small
open Pam

/-! ### vocabulary -/

/-- what may follow the name of a console in the kernel's command line -/
def EndOfName (post : Str) : Prop := post = [] ∨ ∃ c r, post = c :: r ∧ (c = ',' ∨ c = ' ' ∨ c = '\n')

/-- the kernel was told to use this console: `console=` and its name at the beginning of a word -/
def KernelConsole (line tty : Str) : Prop :=
  ∃ pre post, line = pre ++ ("console=".toList ++ (tty ++ post)) ∧ (pre = [] ∨ ∃ p, pre = p ++ [' ']) ∧ EndOfName post

/-- the name is one of the words of the line, which may end with a newline -/
def ActiveConsole (line tty : Str) : Prop :=
  ' ' ∉ tty ∧ ∃ first, (line = first ∨ ∃ rest, line = first ++ '\n' :: rest) ∧ '\n' ∉ first ∧
    ∃ pre post, first = pre ++ (tty ++ post) ∧ (pre = [] ∨ ∃ p, pre = p ++ [' ']) ∧ (post = [] ∨ ∃ r, post = ' ' :: r)

/-- the terminal is a safe one: it is a line of /etc/securetty or, unless `noconsole` is given, a console -/
def Secure (c : TtyCall) (argv : List Str) (content tty : Str) : Prop :=
  FileLine content tty ∨
  ("noconsole".toList ∉ argv ∧ ((∃ line, c.cmdline = some line ∧ KernelConsole line tty) ∨ (∃ line, c.active = some line ∧ ActiveConsole line tty)))

/-- the kernel's command line is not one the module misreads: it is long enough, and if it does not begin with `console=` its ninth character does not begin
the terminal's name -/
def PlainCmdline (c : TtyCall) (tty : Str) : Prop :=
  ∀ line, c.cmdline = some line → 8 ≤ line.length ∧ ("console=".toList <+: line ∨ ¬ tty <+: line.drop 8)

/-! ### helper lemmas -/

theorem nameEnd_iff (e : Str) : nameEnd e = true ↔ EndOfName e := by
  unfold nameEnd EndOfName
  cases e with
  | nil => simp
  | cons c r => simp [or_assoc]

theorem hit_iff (tty p : Str) : hit tty p = true ↔ ∃ post, p = tty ++ post ∧ EndOfName post := by
  unfold hit
  cases h : skipPrefix p tty with
  | none =>
    constructor
    · intro h; cases h
    · rintro ⟨post, rfl, -⟩; exact absurd ⟨post, rfl⟩ (skipPrefix_none.mp h)
  | some e =>
    have h := skipPrefix_some.mp h
    dsimp only
    rw [nameEnd_iff]
    exact ⟨fun he => ⟨e, h, he⟩, fun ⟨post, h', he⟩ => by rw [h] at h'; rw [List.append_cancel_left h']; exact he⟩

/-- all places at once -/
def scanConsole (tty : Str) : Char → Str → Bool
  | _, [] => false
  | prev, c :: r => ("console=".toList.isPrefixOf (c :: r) && (prev = ' ' && hit tty ((c :: r).drop 8))) || scanConsole tty c r

theorem findConsole_none (tty : Str) : ∀ (q : Str) (prev : Char), findConsole prev q = none → scanConsole tty prev q = false
  | [], _, _ => rfl
  | c :: r, prev, h => by
    unfold findConsole at h
    split at h
    · cases h
    · next hn =>
      unfold scanConsole
      rw [findConsole_none tty r c h, Bool.eq_false_iff.mpr hn]; rfl

theorem findConsole_some (tty : Str) : ∀ (q : Str) (prev b : Char) (p : Str), findConsole prev q = some (b, p) →
    scanConsole tty prev q = scanConsole tty b p ∧ p.length ≤ q.length ∧ "console=".toList.isPrefixOf p = true
  | [], _, _, _, h => by cases h
  | c :: r, prev, b, p, h => by
    unfold findConsole at h
    split at h
    · next hp => cases h; exact ⟨rfl, Nat.le_refl _, hp⟩
    · next hn =>
      obtain ⟨h1, h2, h3⟩ := findConsole_some tty r c b p h
      refine ⟨?_, Nat.le_succ_of_le h2, h3⟩
      rw [← h1]
      show (("console=".toList.isPrefixOf (c :: r) && _) || scanConsole tty c r) = scanConsole tty c r
      rw [Bool.eq_false_iff.mpr hn]; rfl

theorem consoleLoop_iff (tty : Str) : ∀ (fuel : Nat) (prev : Char) (q : Str), q.length < fuel → consoleLoop tty fuel prev q = scanConsole tty prev q
  | 0, _, _, h => by omega
  | fuel + 1, prev, q, h => by
    unfold consoleLoop
    cases hf : findConsole prev q with
    | none => exact (findConsole_none tty q prev hf).symm
    | some bp =>
      obtain ⟨b, p⟩ := bp
      obtain ⟨h1, h2, h3⟩ := findConsole_some tty q prev b p hf
      dsimp only
      rw [h1]
      cases p with
      | nil => cases h3
      | cons c r =>
        show _ = (("console=".toList.isPrefixOf (c :: r) && (b = ' ' && hit tty ((c :: r).drop 8))) || scanConsole tty c r)
        rw [h3, Bool.true_and]
        rw [List.length_cons] at h2
        split
        · next hx => rw [hx]; rfl
        · next hx => rw [Bool.eq_false_iff.mpr hx, Bool.false_or]; exact consoleLoop_iff tty fuel c r (by omega)

theorem scanConsole_iff (tty : Str) : ∀ (q : Str) (prev : Char), scanConsole tty prev q = true ↔
    ∃ pre post, q = pre ++ ("console=".toList ++ (tty ++ post)) ∧ (prev :: pre).getLast? = some ' ' ∧ EndOfName post
  | [], prev => by
    constructor
    · intro h; cases h
    · rintro ⟨pre, post, h, -⟩
      simp at h
  | c :: r, prev => by
    have step : scanConsole tty prev (c :: r) = (("console=".toList.isPrefixOf (c :: r) && (decide (prev = ' ') && hit tty ((c :: r).drop 8))) || scanConsole tty c r) := rfl
    rw [step, Bool.or_eq_true, Bool.and_eq_true, Bool.and_eq_true, decide_eq_true_iff, hit_iff, scanConsole_iff tty r c]
    constructor
    · rintro (⟨h1, h2, post, h3, h4⟩ | ⟨pre, post, h1, h2, h3⟩)
      · obtain ⟨t, ht⟩ := List.isPrefixOf_iff_prefix.mp h1
        refine ⟨[], post, ?_, by rw [h2]; rfl, h4⟩
        rw [← ht] at h3 ⊢
        have : ("console=".toList ++ t).drop 8 = t := by
          rw [List.drop_append_of_le_length (by decide)]; rfl
        rw [this] at h3
        rw [h3]; rfl
      · exact ⟨c :: pre, post, by rw [h1]; rfl, by rw [List.getLast?_cons_cons]; exact h2, h3⟩
    · rintro ⟨pre, post, h1, h2, h3⟩
      cases pre with
      | nil =>
        left
        rw [List.nil_append] at h1
        refine ⟨List.isPrefixOf_iff_prefix.mpr ⟨tty ++ post, h1.symm⟩, by simpa using h2, post, ?_, h3⟩
        rw [h1, List.drop_append_of_le_length (by decide)]; rfl
      | cons d pre =>
        right
        rw [List.cons_append, List.cons.injEq] at h1
        obtain ⟨rfl, h1⟩ := h1
        exact ⟨pre, post, h1, by rw [List.getLast?_cons_cons] at h2; exact h2, h3⟩

theorem getLast_space (x : Char) (pre : Str) : (x :: pre).getLast? = some ' ' ↔ ∃ p, x :: pre = p ++ [' '] := by
  rw [List.getLast?_eq_some_iff]

theorem onCmdline_eq {tty line : Str} (h8 : 8 ≤ line.length) (hplain : "console=".toList <+: line ∨ ¬ tty <+: line.drop 8) :
    ∃ b, onCmdline tty line = some b ∧ (b = true ↔ KernelConsole line tty) := by
  unfold onCmdline
  rw [if_neg (by omega)]
  unfold KernelConsole
  split
  · next hh =>
    obtain ⟨post, h1, h2⟩ := (hit_iff _ _).mp hh
    refine ⟨true, rfl, fun _ => ?_, fun _ => rfl⟩
    rcases hplain with ⟨t, ht⟩ | hn
    · refine ⟨[], post, ?_, Or.inl rfl, h2⟩
      rw [← ht, List.drop_append_of_le_length (by decide)] at h1
      rw [← ht, List.nil_append]
      congr 1
    · exact absurd ⟨post, h1.symm⟩ hn
  · next hh =>
    cases line with
    | nil => simp at h8
    | cons c r =>
      dsimp only
      refine ⟨_, rfl, ?_⟩
      rw [consoleLoop_iff tty _ c r (by rw [List.length_cons]; omega), scanConsole_iff]
      constructor
      · rintro ⟨pre, post, h1, h2, h3⟩
        exact ⟨c :: pre, post, by rw [h1]; rfl, Or.inr ((getLast_space c pre).mp h2), h3⟩
      · rintro ⟨pre, post, h1, h2, h3⟩
        cases pre with
        | nil =>
          refine absurd ?_ hh
          rw [hit_iff]
          exact ⟨post, by rw [h1, List.nil_append, List.drop_append_of_le_length (by decide)]; rfl, h3⟩
        | cons d pre =>
          rw [List.cons_append, List.cons.injEq] at h1
          obtain ⟨rfl, h1⟩ := h1
          refine ⟨pre, post, h1, ?_, h3⟩
          rw [getLast_space]
          rcases h2 with h2 | h2
          · cases h2
          · exact h2

theorem splitSpaces_cons (c : Char) (r : Str) (hc : c ≠ ' ') : ∃ w ws, splitSpaces r = w :: ws ∧ splitSpaces (c :: r) = (c :: w) :: ws := by
  have hne : splitSpaces r ≠ [] := by
    cases r with
    | nil => nofun
    | cons d r =>
      unfold splitSpaces
      split
      · nofun
      · split <;> nofun
  cases h : splitSpaces r with
  | nil => exact absurd h hne
  | cons w ws =>
    refine ⟨w, ws, rfl, ?_⟩
    show (if c = ' ' then [] :: splitSpaces r else match splitSpaces r with
      | [] => [[c]]
      | w :: ws => (c :: w) :: ws) = _
    rw [if_neg hc, h]

/-- the first word, and the others -/
theorem splitSpaces_words : ∀ l : Str, ∃ w ws, splitSpaces l = w :: ws ∧
    (∀ x, x = w ↔ ' ' ∉ x ∧ ∃ post, l = x ++ post ∧ (post = [] ∨ ∃ r, post = ' ' :: r)) ∧
    (∀ x, x ∈ ws ↔ ' ' ∉ x ∧ ∃ p post, l = p ++ ' ' :: (x ++ post) ∧ (post = [] ∨ ∃ r, post = ' ' :: r))
  | [] => by
    refine ⟨[], [], rfl, fun x => ?_, fun x => ?_⟩
    · constructor
      · rintro rfl; exact ⟨nofun, [], rfl, Or.inl rfl⟩
      · rintro ⟨-, post, h, -⟩
        rw [eq_comm, List.append_eq_nil_iff] at h; exact h.1
    · constructor
      · intro h; cases h
      · rintro ⟨-, p, post, h, -⟩; simp at h
  | c :: l => by
    obtain ⟨w, ws, e, h1, h2⟩ := splitSpaces_words l
    by_cases hc : c = ' '
    · subst hc
      refine ⟨[], w :: ws, by show (if ' ' = ' ' then [] :: splitSpaces l else _) = _; rw [if_pos rfl, e], fun x => ?_, fun x => ?_⟩
      · constructor
        · rintro rfl; exact ⟨nofun, _, rfl, Or.inr ⟨l, rfl⟩⟩
        · rintro ⟨hx, post, h, -⟩
          cases x with
          | nil => rfl
          | cons d x =>
            rw [List.cons_append, List.cons.injEq] at h
            exact absurd (by rw [h.1]; exact List.mem_cons_self) hx
      · rw [List.mem_cons, h1 x, h2 x]
        constructor
        · rintro (⟨hx, post, rfl, hp⟩ | ⟨hx, p, post, rfl, hp⟩)
          · exact ⟨hx, [], post, rfl, hp⟩
          · exact ⟨hx, ' ' :: p, post, rfl, hp⟩
        · rintro ⟨hx, p, post, h, hp⟩
          cases p with
          | nil =>
            rw [List.nil_append, List.cons.injEq] at h
            exact Or.inl ⟨hx, post, h.2, hp⟩
          | cons d p =>
            rw [List.cons_append, List.cons.injEq] at h
            exact Or.inr ⟨hx, p, post, h.2, hp⟩
    · obtain ⟨w', ws', e', e2⟩ := splitSpaces_cons c l hc
      rw [e, List.cons.injEq] at e'
      obtain ⟨rfl, rfl⟩ := e'
      refine ⟨c :: w, ws, e2, fun x => ?_, fun x => ?_⟩
      · constructor
        · rintro rfl
          obtain ⟨hx, post, hl, hp⟩ := (h1 w).mp rfl
          refine ⟨?_, post, by rw [hl]; rfl, hp⟩
          rw [List.mem_cons]
          rintro (h | h)
          · exact hc h.symm
          · exact hx h
        · rintro ⟨hx, post, h, hp⟩
          cases x with
          | nil =>
            rw [List.nil_append] at h
            rcases hp with rfl | ⟨r, rfl⟩
            · cases h
            · rw [List.cons.injEq] at h; exact absurd h.1 hc
          | cons d x =>
            rw [List.cons_append, List.cons.injEq] at h
            rw [h.1, (h1 x).mpr ⟨fun hh => hx (List.mem_cons_of_mem _ hh), post, h.2, hp⟩]
      · rw [h2 x]
        constructor
        · rintro ⟨hx, p, post, rfl, hp⟩
          exact ⟨hx, c :: p, post, rfl, hp⟩
        · rintro ⟨hx, p, post, h, hp⟩
          cases p with
          | nil =>
            rw [List.nil_append, List.cons.injEq] at h
            exact absurd h.1 hc
          | cons d p =>
            rw [List.cons_append, List.cons.injEq] at h
            exact ⟨hx, p, post, h.2, hp⟩

theorem splitSpaces_mem (l w : Str) : w ∈ splitSpaces l ↔ ' ' ∉ w ∧
    ∃ pre post, l = pre ++ (w ++ post) ∧ (pre = [] ∨ ∃ p, pre = p ++ [' ']) ∧ (post = [] ∨ ∃ r, post = ' ' :: r) := by
  obtain ⟨w0, ws, e, h1, h2⟩ := splitSpaces_words l
  rw [e, List.mem_cons, h1 w, h2 w]
  constructor
  · rintro (⟨hx, post, h, hp⟩ | ⟨hx, p, post, h, hp⟩)
    · exact ⟨hx, [], post, h, Or.inl rfl, hp⟩
    · exact ⟨hx, p ++ [' '], post, by rw [h]; simp, Or.inr ⟨p, rfl⟩, hp⟩
  · rintro ⟨hx, pre, post, h, hpre, hp⟩
    rcases hpre with rfl | ⟨p, rfl⟩
    · exact Or.inl ⟨hx, post, h, hp⟩
    · exact Or.inr ⟨hx, p, post, by rw [h]; simp, hp⟩

theorem isActive_iff (tty line : Str) : isActive tty line = true ↔ ActiveConsole line tty := by
  unfold isActive ActiveConsole
  rw [List.contains_iff_mem, splitSpaces_mem]
  have key : ∀ first, first = line.takeWhile (· ≠ '\n') ↔ (line = first ∨ ∃ rest, line = first ++ '\n' :: rest) ∧ '\n' ∉ first := by
    intro first
    induction line generalizing first with
    | nil =>
      rw [List.takeWhile_nil]
      constructor
      · rintro rfl; exact ⟨Or.inl rfl, nofun⟩
      · rintro ⟨h | ⟨r, h⟩, -⟩
        · exact h.symm
        · simp at h
    | cons c t ih =>
      rw [List.takeWhile_cons]
      by_cases hc : c = '\n'
      · subst hc
        rw [if_neg (by simp)]
        constructor
        · rintro rfl; exact ⟨Or.inr ⟨t, rfl⟩, nofun⟩
        · rintro ⟨h, hn⟩
          cases first with
          | nil => rfl
          | cons d f =>
            have : d = '\n' := by
              rcases h with h | ⟨r, h⟩
              · rw [List.cons.injEq] at h; exact h.1.symm
              · rw [List.cons_append, List.cons.injEq] at h; exact h.1.symm
            exact absurd (by rw [this]; exact List.mem_cons_self) hn
      · rw [if_pos (by simpa using hc)]
        constructor
        · rintro rfl
          obtain ⟨h, hn⟩ := (ih _).mp rfl
          refine ⟨?_, ?_⟩
          · rcases h with h | ⟨r, h⟩
            · exact Or.inl (by rw [← h])
            · exact Or.inr ⟨r, by rw [List.cons_append, ← h]⟩
          · rw [List.mem_cons]
            rintro (h' | h')
            · exact hc h'.symm
            · exact hn h'
        · rintro ⟨h, hn⟩
          cases first with
          | nil =>
            rcases h with h | ⟨r, h⟩
            · cases h
            · rw [List.nil_append, List.cons.injEq] at h; exact absurd h.1 hc
          | cons d f =>
            have hd : c = d ∧ (t = f ∨ ∃ r, t = f ++ '\n' :: r) := by
              rcases h with h | ⟨r, h⟩
              · rw [List.cons.injEq] at h; exact ⟨h.1, Or.inl h.2⟩
              · rw [List.cons_append, List.cons.injEq] at h; exact ⟨h.1, Or.inr ⟨r, h.2⟩⟩
            rw [hd.1, ← (ih f).mpr ⟨hd.2, fun hh => hn (List.mem_cons_of_mem _ hh)⟩]
  obtain ⟨k1, k2⟩ := (key _).mp rfl
  constructor
  · rintro ⟨h1, h2⟩; exact ⟨h1, _, k1, k2, h2⟩
  · rintro ⟨h1, first, h3, h4, h2⟩; exact ⟨h1, by rw [← (key first).mpr ⟨h3, h4⟩]; exact h2⟩

theorem listed_iff (content tty : Str) :
    (Config.physLines content).any (fun line => (cstr line).takeWhile (· ≠ '\n') = tty ||
      ((if tty.head?.any isDigit then "pts/".toList ++ tty else []) ≠ [] && (if tty.head?.any isDigit then "pts/".toList ++ tty else []) = tty)) = true ↔
    FileLine content tty := by
  have hpts : ((if tty.head?.any isDigit then "pts/".toList ++ tty else []) = tty) → (if tty.head?.any isDigit then "pts/".toList ++ tty else []) = [] := by
    intro h
    split at h
    · have := congrArg List.length h
      simp at this
      omega
    · next hn => rw [if_neg hn]
  have e : ∀ l : Str, (decide (l = tty) || (decide ((if tty.head?.any isDigit then "pts/".toList ++ tty else []) ≠ []) &&
      decide ((if tty.head?.any isDigit then "pts/".toList ++ tty else []) = tty))) = decide (l = tty) := by
    intro l
    generalize (if tty.head?.any isDigit then "pts/".toList ++ tty else []) = pt at hpts
    by_cases h : pt = tty
    · simp [hpts h]
    · simp [h]
  simp only [e]
  rw [any_fileLine content (fun l => decide (l = tty))]
  exact ⟨fun ⟨l, h, e⟩ => by rw [← of_decide_eq_true e]; exact h, fun h => ⟨tty, h, decide_eq_true rfl⟩⟩

/-! ### the theorems -/

/-- **C87**: pam_securetty lets everybody but root and unknown users pass; those pass at safe terminals, and if there is no /etc/securetty at all.
What is missing: command lines of the kernel the module misreads (`PlainCmdline`, `C87_cmdline_counterexample`, `C87_short_counterexample`). -/
theorem C87_answer_partial (a : Accounts) (c : TtyCall) (argv : List Str) :
    (c.user.1 ≠ PAM_SUCCESS → securettyArgs a c argv = some (if c.user.1 = PAM_CONV_AGAIN then PAM_INCOMPLETE else c.user.1)) ∧
    (c.user.1 = PAM_SUCCESS → (∃ u, a.pwnam c.user.2 = some u ∧ u.uid ≠ 0) → securettyArgs a c argv = some PAM_SUCCESS) ∧
    (c.user.1 = PAM_SUCCESS → (∀ u, a.pwnam c.user.2 = some u → u.uid = 0) →
      (c.tty.1 ≠ PAM_SUCCESS ∨ c.tty.2 = none → securettyArgs a c argv = some PAM_SERVICE_ERR) ∧
      (∀ t tty, c.tty = (PAM_SUCCESS, some t) → Terminal t tty →
        (c.stat = none → securettyArgs a c argv = some PAM_SUCCESS) ∧
        (∀ ww reg, c.stat = some (ww, reg) → (ww = true ∨ reg = false) → securettyArgs a c argv = some PAM_AUTH_ERR) ∧
        (c.stat = some (false, true) → c.open_ = none → securettyArgs a c argv = some PAM_SERVICE_ERR) ∧
        (∀ content, c.stat = some (false, true) → c.open_ = some content → PlainCmdline c tty →
          (Secure c argv content tty → securettyArgs a c argv = some PAM_SUCCESS) ∧
          (¬ Secure c argv content tty → securettyArgs a c argv = some (if a.pwnam c.user.2 = none then PAM_USER_UNKNOWN else PAM_AUTH_ERR))))) := by
  unfold securettyArgs securetty
  refine ⟨fun h => by rw [if_pos h], fun h1 ⟨u, h2, h3⟩ => ?_, fun h1 h2 => ?_⟩
  · rw [if_neg (fun h => h h1), h2]
    dsimp only
    rw [if_pos (by simpa using h3)]
  · rw [if_neg (fun h => h h1)]
    dsimp only
    rw [if_neg (by
      cases hp : a.pwnam c.user.2 with
      | none => decide
      | some u => simpa using h2 u hp)]
    refine ⟨?_, ?_⟩
    · intro h
      split
      · next r t hc =>
        rw [hc] at h
        rcases h with h | h
        · rw [if_pos h]
        · cases h
      · rfl
    · intro t tty hc ht
      rw [hc]
      dsimp only
      rw [if_neg (fun h => h rfl), (terminal_iff t tty).mp ht]
      refine ⟨fun hs => by rw [hs], ?_, fun hs ho => by rw [hs, ho]; rfl, ?_⟩
      · intro ww reg hs hw
        rw [hs]
        dsimp only
        rw [if_pos (by rcases hw with rfl | rfl <;> simp)]
      · intro content hs ho hplain
        rw [hs, ho]
        dsimp only
        rw [if_neg (by decide)]
        have hl := listed_iff content tty
        generalize (Config.physLines content).any _ = found at hl ⊢
        unfold Secure
        have hdenied : ttyDenied (a.pwnam c.user.2).isSome = if a.pwnam c.user.2 = none then PAM_USER_UNKNOWN else PAM_AUTH_ERR := by
          cases a.pwnam c.user.2 <;> rfl
        rw [hdenied]
        generalize (if a.pwnam c.user.2 = none then PAM_USER_UNKNOWN else PAM_AUTH_ERR) = denied
        cases found with
        | true =>
          have hl := hl.mp rfl
          exact ⟨fun _ => rfl, fun h => absurd (Or.inl hl) h⟩
        | false =>
          have hl : ¬ FileLine content tty := fun h => nomatch hl.mpr h
          rw [if_neg (by decide)]
          rw [List.contains_eq_mem]
          by_cases hn : "noconsole".toList ∈ argv
          · rw [if_pos (decide_eq_true hn)]
            refine ⟨fun h => ?_, fun _ => rfl⟩
            rcases h with h | h
            · exact absurd h hl
            · exact absurd hn h.1
          · rw [if_neg (fun h => hn (of_decide_eq_true h))]
            have hcmd : ∃ b, (match c.cmdline with
                | none => some false
                | some line => onCmdline tty line) = some b ∧ (b = true ↔ ∃ line, c.cmdline = some line ∧ KernelConsole line tty) := by
              cases hcl : c.cmdline with
              | none => exact ⟨false, rfl, nofun, fun ⟨_, h, _⟩ => nomatch h⟩
              | some line =>
                obtain ⟨b, h1, h2⟩ := onCmdline_eq (hplain line hcl).1 (hplain line hcl).2
                refine ⟨b, h1, ?_⟩
                rw [h2]
                exact ⟨fun h => ⟨line, rfl, h⟩, fun ⟨l, e, h⟩ => by cases e; exact h⟩
            have hact : c.active.any (isActive tty) = true ↔ ∃ line, c.active = some line ∧ ActiveConsole line tty := by
              cases hal : c.active with
              | none => exact ⟨nofun, fun ⟨_, h, _⟩ => nomatch h⟩
              | some line =>
                rw [Option.any_some, isActive_iff]
                exact ⟨fun h => ⟨line, rfl, h⟩, fun ⟨l, e, h⟩ => by cases e; exact h⟩
            obtain ⟨b, h1, h2⟩ := hcmd
            split
            · next h => exact absurd (h.symm.trans h1) nofun
            · next h =>
              have : b = true := by have := h.symm.trans h1; cases this; rfl
              exact ⟨fun _ => rfl, fun hh => absurd (Or.inr ⟨hn, Or.inl (h2.mp this)⟩) hh⟩
            · next h =>
              have : b = false := by have := h.symm.trans h1; cases this; rfl
              have h2 : ¬ ∃ line, c.cmdline = some line ∧ KernelConsole line tty := fun hh => by rw [h2.mpr hh] at this; cases this
              split
              · next hx => exact ⟨fun _ => rfl, fun hh => absurd (Or.inr ⟨hn, Or.inr (hact.mp hx)⟩) hh⟩
              · next hx =>
                refine ⟨fun hh => ?_, fun _ => rfl⟩
                rcases hh with hh | ⟨-, hh | hh⟩
                · exact absurd hh hl
                · exact absurd hh h2
                · exact absurd (hact.mpr hh) hx

/-! ### concrete cases -/

def ttyCall (who tty file cmdline active : String) : TtyCall :=
  ⟨(PAM_SUCCESS, who.toList), (PAM_SUCCESS, some tty.toList), some (false, true), some file.toList, some cmdline.toList, some active.toList⟩

example : securettyArgs wheelAccounts (ttyCall "root" "/dev/tty1" "tty1\n" "ro quiet console=ttyS0" "tty0") [] = some PAM_SUCCESS := by decide +kernel
example : securettyArgs wheelAccounts (ttyCall "root" "/dev/tty2" "tty1\n" "ro quiet console=ttyS0" "tty0") [] = some PAM_AUTH_ERR := by decide +kernel
example : securettyArgs wheelAccounts (ttyCall "nobody" "/dev/tty2" "tty1\n" "ro quiet console=ttyS0" "tty0") [] = some PAM_USER_UNKNOWN := by decide +kernel
example : securettyArgs wheelAccounts (ttyCall "root" "ttyS0" "tty1\n" "ro quiet console=ttyS0,115200" "tty0") [] = some PAM_SUCCESS := by decide +kernel
example : securettyArgs wheelAccounts (ttyCall "root" "ttyS0" "tty1\n" "ro quiet console=ttyS0,115200" "tty0") ["noconsole".toList] = some PAM_AUTH_ERR := by decide +kernel
example : securettyArgs wheelAccounts (ttyCall "root" "ttyS0" "tty1\n" "ro quiet xconsole=ttyS0 console=ttyS01" "tty0") [] = some PAM_AUTH_ERR := by decide +kernel
example : securettyArgs wheelAccounts (ttyCall "root" "ttyS0" "tty1\n" "ro quiet" "tty0 ttyS0\n") [] = some PAM_SUCCESS := by decide +kernel
example : securettyArgs wheelAccounts (ttyCall "ann" "ttyS0" "" "ro quiet" "") [] = some PAM_SUCCESS := by decide +kernel
example : PlainCmdline (ttyCall "root" "ttyS0" "tty1\n" "ro quiet console=ttyS0,115200" "tty0") "ttyS0".toList := by
  intro line h; cases h; exact ⟨by decide, Or.inr (by decide)⟩
example : Secure (ttyCall "root" "ttyS0" "tty1\n" "ro quiet console=ttyS0,115200" "tty0") [] "tty1\n".toList "ttyS0".toList :=
  Or.inr ⟨nofun, Or.inl ⟨_, rfl, "ro quiet ".toList, ",115200".toList, rfl, Or.inr ⟨"ro quiet".toList, rfl⟩, Or.inr ⟨',', "115200".toList, rfl, Or.inl rfl⟩⟩⟩

/-- **C87** is false of some command lines: the first eight characters of the line are taken for `console=`.  Root gets in at tty1, which is neither in
/etc/securetty nor a console. -/
theorem C87_cmdline_counterexample : ∃ (a : Accounts) (c : TtyCall) (content tty : Str), (∀ u, a.pwnam c.user.2 = some u → u.uid = 0) ∧ c.tty = (PAM_SUCCESS, some tty) ∧
    Terminal tty tty ∧ c.stat = some (false, true) ∧ c.open_ = some content ∧ ¬ Secure c [] content tty ∧ securettyArgs a c [] = some PAM_SUCCESS := by
  refine ⟨wheelAccounts, ttyCall "root" "tty1" "tty2\n" "noblank,tty1 quiet" "tty0", "tty2\n".toList, "tty1".toList, ?_, rfl, Or.inr ⟨rfl, by decide⟩, rfl, rfl, ?_, by decide +kernel⟩
  · intro u h; cases h; rfl
  · rintro (h | ⟨-, ⟨line, hl, pre, post, h, -⟩ | ⟨line, hl, h⟩⟩)
    · exact absurd ((listed_iff _ _).mpr h) (by decide)
    · cases hl
      have : 'c' ∈ "noblank,tty1 quiet".toList := by rw [h]; simp
      exact absurd this (by decide)
    · cases hl
      exact absurd ((isActive_iff _ _).mpr h) (by decide)

/-- **C87** is false of a short command line: what lies beyond its end is read -/
theorem C87_short_counterexample : ∃ (a : Accounts) (c : TtyCall), securettyArgs a c [] = none :=
  ⟨wheelAccounts, ttyCall "root" "tty1" "tty2\n" "ro\n" "tty0", by decide +kernel⟩

/-- A terminal known by a number is compared with `pts/` and that number, but with itself instead of the lines of /etc/securetty: listing `pts/0` does not
help somebody at the terminal called 0. -/
theorem C87_pts_counterexample : ∃ (a : Accounts) (c : TtyCall) (content : Str), c.tty = (PAM_SUCCESS, some "0".toList) ∧ c.stat = some (false, true) ∧ c.open_ = some content ∧
    FileLine content "pts/0".toList ∧ securettyArgs a c [] = some PAM_AUTH_ERR := by
  refine ⟨wheelAccounts, ttyCall "root" "0" "pts/0\n" "ro quiet" "tty0", "pts/0\n".toList, rfl, rfl, rfl, ?_, by decide +kernel⟩
  exact ⟨"pts/0".toList, (physLines_iff _ _).mp ⟨"pts/0\n".toList, by decide, by decide⟩, by decide⟩

/-- An empty line of /etc/securetty makes the terminal without a name a safe one -/
theorem C87_empty_line_counterexample : ∃ (a : Accounts) (c : TtyCall), c.tty = (PAM_SUCCESS, some []) ∧ c.open_ = some "tty1\n\ntty2\n".toList ∧
    securettyArgs a c ["noconsole".toList] = some PAM_SUCCESS :=
  ⟨wheelAccounts, ttyCall "root" "" "tty1\n\ntty2\n" "ro quiet" "tty0", rfl, rfl, by decide +kernel⟩

end Pam.Small
