import Verif.Audit.Tty
import Verif.Simple.LoginProps
/-
C142 and C143: pam_tty_audit.
-/
namespace Pam.Audit
open Pam Pam.Small
open Pam.Simple.Spec (WordOf)

namespace Spec

/-- a number of a user id in decimal, which may have blanks before it and a sign, modulo 2^32 -/
def Id (s : Str) (n : Nat) : Prop := ∃ x, Signed (Digits 10) s x ∧ x.natAbs < 18446744073709551616 ∧ x % 4294967296 = n

/-- the pattern is for this user: without a colon, a pattern for the name; `:n` for one id, `n:` for all from it on, `n:m` for a range -/
def Hit (fnmatch : Str → Str → Bool) (user : Str) (uid : Nat) (t : Str) : Prop :=
  (':' ∉ t ∧ fnmatch t user = true) ∨
  ∃ lo hi, t = lo ++ ':' :: hi ∧ ':' ∉ lo ∧
    ((lo = [] ∧ Id hi uid) ∨ (hi = [] ∧ ∃ n, Id lo n ∧ n ≤ uid) ∨ (∃ n m, Id lo n ∧ Id hi m ∧ n ≤ uid ∧ uid ≤ m))

/-- the argument is enable= (`true`) or disable= and one of its patterns is for this user -/
def Applies (w : World) (user : Str) (uid : Nat) (a : Str) (enable : Bool) : Prop :=
  ∃ list t, a = (if enable then "enable=" else "disable=").toList ++ list ∧ WordOf ',' list t ∧ Hit w.fnmatch user uid t

/-- the last argument that applies says this -/
def Chosen (w : World) (user : Str) (uid : Nat) (argv : List Str) (enable : Bool) : Prop :=
  ∃ pre a post, argv = pre ++ a :: post ∧ Applies w user uid a enable ∧ ∀ x ∈ post, ∀ e, ¬ Applies w user uid x e

/-- the status asked for -/
def Wanted (argv : List Str) (enable : Bool) : Status := ⟨if enable then 1 else 0, if "log_passwd".toList ∈ argv then 1 else 0⟩

end Spec
open Spec

theorem mem_toks (sep : Char) : ∀ (n : Nat) (s t : Str), s.length ≤ n → (t ∈ toks sep n s ↔ WordOf sep s t)
  | 0, s, t, h => by
    have : s = [] := List.length_eq_zero_iff.mp (by omega)
    subst this
    constructor
    · intro h; cases h
    · rintro ⟨a, b, e, hne, _⟩
      have := (List.append_eq_nil_iff.mp e.symm).1
      exact absurd (List.append_eq_nil_iff.mp this).2 hne
  | n + 1, s, t, h => by
    unfold toks
    rcases Simple.strtok_cases sep s with ⟨e, hall⟩ | ⟨a, u, b, e, hs, ha, hu, hn, hb, _⟩
    · rw [e]
      constructor
      · intro h; cases h
      · rintro ⟨p, q, e, hne, hsep, _⟩
        obtain ⟨c, hc⟩ := List.exists_mem_of_ne_nil t hne
        have := hall c (by rw [e]; simp [hc])
        exact absurd (this ▸ hc) hsep
    · rw [e]
      dsimp only
      rw [List.mem_cons, mem_toks sep n (b.drop 1) t, hs, Simple.word_split ha hu hn hb]
      have h1 : 0 < u.length := List.length_pos_iff.mpr hu
      rw [hs] at h
      simp only [List.length_append, List.length_drop] at h ⊢
      omega

theorem mem_tokens (sep : Char) (s t : Str) : t ∈ tokens sep s ↔ WordOf sep s t := mem_toks sep _ s t (Nat.le_refl _)

theorem num_iff (s : Str) (n : Nat) : num s = some n ↔ Id s n := by
  unfold num
  obtain ⟨⟨v, e⟩, hv⟩ : ∃ t, strtoInt 10 s = t := ⟨_, rfl⟩
  rw [hv]
  dsimp only
  constructor
  · intro h
    split at h
    · cases h
    · next hc =>
      simp only [not_or, Decidable.not_not] at hc
      obtain ⟨h1, h2, h3⟩ := hc
      subst h2
      refine ⟨v, (strtoInt_base 10 (by decide) (by decide) (by decide) s v).mp ⟨hv, h1⟩, by omega, ?_⟩
      have := Option.some.inj h
      omega
  · rintro ⟨x, hx, hlt, hn⟩
    obtain ⟨e1, hne⟩ := (strtoInt_base 10 (by decide) (by decide) (by decide) s x).mpr hx
    rw [hv] at e1
    cases e1
    have hc : ¬ (s = [] ∨ ([] : Str) ≠ [] ∨ 18446744073709551615 < v.natAbs) := by
      intro h
      rcases h with h | h | h
      · exact hne h
      · exact h rfl
      · omega
    rw [if_neg hc]
    congr 1
    omega

theorem cut_colon {t lo hi : Str} (h : t = lo ++ ':' :: hi) (hn : ':' ∉ lo) :
    t.takeWhile (· ≠ ':') = lo ∧ (t.dropWhile (· ≠ ':')).drop 1 = hi := by
  subst h
  have hp : ∀ c ∈ lo, (decide (c ≠ ':')) = true := by intro c hc; simp; rintro rfl; exact hn hc
  constructor
  · rw [List.takeWhile_append_of_pos hp, List.takeWhile_cons_of_neg (by simp), List.append_nil]
  · rw [List.dropWhile_append_of_pos hp, List.dropWhile_cons_of_neg (by simp)]; rfl

theorem hits_iff (fnmatch : Str → Str → Bool) (user : Str) (uid : Nat) (t : Str) :
    hits fnmatch user uid t = true ↔ Hit fnmatch user uid t := by
  have hno : ¬ ∃ n, Id [] n := by rintro ⟨n, h⟩; have := (num_iff [] n).mpr h; cases this
  by_cases hc : ':' ∈ t
  · obtain ⟨e1, e2, e3⟩ := Simple.cut_sep ':' t
    have : ∃ lo hi, t = lo ++ ':' :: hi ∧ ':' ∉ lo := by
      rcases e3 with e3 | ⟨r, e3⟩
      · rw [e3, List.append_nil] at e1; rw [e1] at hc; exact absurd hc e2
      · exact ⟨_, r, by rw [← e3]; exact e1, e2⟩
    obtain ⟨lo, hi, rfl, hn⟩ := this
    obtain ⟨c1, c2⟩ := cut_colon rfl hn
    have hh : Hit fnmatch user uid (lo ++ ':' :: hi) ↔
        ((lo = [] ∧ Id hi uid) ∨ (hi = [] ∧ ∃ n, Id lo n ∧ n ≤ uid) ∨ (∃ n m, Id lo n ∧ Id hi m ∧ n ≤ uid ∧ uid ≤ m)) := by
      constructor
      · rintro (⟨h, _⟩ | ⟨lo', hi', e, hn', h⟩)
        · exact absurd hc h
        · have a := cut_colon e hn'
          have : lo = lo' := c1.symm.trans a.1
          have : hi = hi' := c2.symm.trans a.2
          subst lo'; subst hi'; exact h
      · intro h; exact Or.inr ⟨lo, hi, rfl, hn, h⟩
    rw [hh]
    unfold hits parseRange
    rw [if_neg (fun h => h hc)]
    dsimp only
    rw [c1, c2]
    by_cases hlo : lo = []
    · subst hlo
      rw [if_pos rfl]
      by_cases hhi : hi = []
      · subst hhi
        rw [if_pos rfl]
        constructor
        · intro h; cases h
        · rintro (⟨_, h⟩ | ⟨_, n, h, _⟩ | ⟨n, _, h, _⟩)
          · exact absurd ⟨_, h⟩ hno
          · exact absurd ⟨_, h⟩ hno
          · exact absurd ⟨_, h⟩ hno
      · rw [if_neg hhi]
        cases hnum : num hi with
        | none =>
          constructor
          · intro h; cases h
          · rintro (⟨_, h⟩ | ⟨h, _⟩ | ⟨n, _, h, _⟩)
            · rw [(num_iff _ _).mpr h] at hnum; cases hnum
            · exact absurd h hhi
            · exact absurd ⟨_, h⟩ hno
        | some b =>
          dsimp only
          rw [decide_eq_true_eq]
          constructor
          · rintro rfl; exact Or.inl ⟨rfl, (num_iff _ _).mp hnum⟩
          · rintro (⟨_, h⟩ | ⟨h, _⟩ | ⟨n, _, h, _⟩)
            · rw [(num_iff _ _).mpr h] at hnum; exact Option.some.inj hnum
            · exact absurd h hhi
            · exact absurd ⟨_, h⟩ hno
    · rw [if_neg hlo]
      cases hnum : num lo with
      | none =>
        constructor
        · intro h; cases h
        · rintro (⟨h, _⟩ | ⟨_, n, h, _⟩ | ⟨n, _, h, _⟩)
          · exact absurd h hlo
          · rw [(num_iff _ _).mpr h] at hnum; cases hnum
          · rw [(num_iff _ _).mpr h] at hnum; cases hnum
      | some a =>
        dsimp only
        by_cases hhi : hi = []
        · subst hhi
          rw [if_pos rfl]
          dsimp only
          rw [decide_eq_true_eq]
          constructor
          · intro h; exact Or.inr (Or.inl ⟨rfl, a, (num_iff _ _).mp hnum, h⟩)
          · rintro (⟨h, _⟩ | ⟨_, n, h, hle⟩ | ⟨_, m, _, h, _⟩)
            · exact absurd h hlo
            · rw [(num_iff _ _).mpr h] at hnum; cases hnum; exact hle
            · exact absurd ⟨_, h⟩ hno
        · rw [if_neg hhi]
          cases hnum2 : num hi with
          | none =>
            constructor
            · intro h; cases h
            · rintro (⟨h, _⟩ | ⟨h, _⟩ | ⟨_, m, _, h, _⟩)
              · exact absurd h hlo
              · exact absurd h hhi
              · rw [(num_iff _ _).mpr h] at hnum2; cases hnum2
          | some b =>
            dsimp only
            rw [decide_eq_true_eq]
            constructor
            · intro h; exact Or.inr (Or.inr ⟨a, b, (num_iff _ _).mp hnum, (num_iff _ _).mp hnum2, h⟩)
            · rintro (⟨h, _⟩ | ⟨h, _⟩ | ⟨n, m, h1, h2, h⟩)
              · exact absurd h hlo
              · exact absurd h hhi
              · rw [(num_iff _ _).mpr h1] at hnum; rw [(num_iff _ _).mpr h2] at hnum2; cases hnum; cases hnum2; exact h
  · unfold hits parseRange
    rw [if_pos hc]
    constructor
    · intro h; exact Or.inl ⟨hc, h⟩
    · rintro (⟨_, h⟩ | ⟨lo, hi, rfl, _⟩)
      · exact h
      · exact absurd (by simp) hc

theorem tokLoop_eq (fnmatch : Str → Str → Bool) (user : Str) (uid : Nat) (this : Bool) : ∀ (l : List Str) (c : Option Bool),
    tokLoop fnmatch user uid this c l = if ∃ t ∈ l, hits fnmatch user uid t = true then some this else c
  | [], c => by simp [tokLoop]
  | t :: r, c => by
    unfold tokLoop
    by_cases h : c = some this
    · rw [if_pos h]; split
      · exact h
      · rfl
    · rw [if_neg h]
      by_cases ht : hits fnmatch user uid t = true
      · rw [if_pos ht, tokLoop_eq]
        rw [if_pos (⟨t, List.mem_cons_self, ht⟩ : ∃ x ∈ t :: r, hits fnmatch user uid x = true)]
        split <;> rfl
      · rw [if_neg ht, tokLoop_eq]
        have : (∃ x ∈ t :: r, hits fnmatch user uid x = true) ↔ ∃ x ∈ r, hits fnmatch user uid x = true := by
          simp [ht]
        by_cases hr : ∃ x ∈ r, hits fnmatch user uid x = true
        · rw [if_pos hr, if_pos (this.mpr hr)]
        · rw [if_neg hr, if_neg (fun h => hr (this.mp h))]

theorem applies_true (w : World) (user : Str) (uid : Nat) (list : Str) (e : Bool) :
    (∃ t ∈ tokens ',' list, hits w.fnmatch user uid t = true) ↔ Applies w user uid ((if e then "enable=" else "disable=").toList ++ list) e := by
  constructor
  · rintro ⟨t, ht, hh⟩
    exact ⟨list, t, rfl, (mem_tokens _ _ _).mp ht, (hits_iff _ _ _ _).mp hh⟩
  · rintro ⟨l, t, he, ht, hh⟩
    have := List.append_cancel_left he
    subst this
    exact ⟨t, (mem_tokens _ _ _).mpr ht, (hits_iff _ _ _ _).mpr hh⟩

theorem kinds {l l' : Str} : "enable=".toList ++ l ≠ "disable=".toList ++ l' := by
  intro h; simp at h

theorem not_prefix {k a : Str} (h : skipPrefix a k = none) : ∀ l, a ≠ k ++ l := by
  rintro l rfl
  exact skipPrefix_none.mp h (List.prefix_append _ _)

open Classical in
theorem arg_command (w : World) (user : Str) (uid : Nat) (s : Asked) (a : Str) :
    (arg w.fnmatch user uid s a).command =
      if Applies w user uid a true then some true else if Applies w user uid a false then some false else s.command := by
  unfold arg
  cases h1 : skipPrefix a "enable=".toList with
  | some list =>
    have ha : a = "enable=".toList ++ list := skipPrefix_some.mp h1
    subst ha
    dsimp only
    rw [tokLoop_eq]
    have hf : ¬ Applies w user uid ("enable=".toList ++ list) false := by
      rintro ⟨l, t, he, _⟩; exact kinds he
    have ht : _ ↔ Applies w user uid ("enable=".toList ++ list) true := applies_true w user uid list true
    by_cases hh : ∃ t ∈ tokens ',' list, hits w.fnmatch user uid t = true
    · rw [if_pos hh, if_pos (ht.mp hh)]
    · rw [if_neg hh, if_neg (fun h => hh (ht.mpr h)), if_neg hf]
  | none =>
    have hf1 : ¬ Applies w user uid a true := by
      rintro ⟨l, t, he, _⟩; exact not_prefix h1 l he
    rw [if_neg hf1]
    dsimp only
    cases h2 : skipPrefix a "disable=".toList with
    | some list =>
      have ha : a = "disable=".toList ++ list := skipPrefix_some.mp h2
      subst ha
      dsimp only
      rw [tokLoop_eq]
      have ht : _ ↔ Applies w user uid ("disable=".toList ++ list) false := applies_true w user uid list false
      by_cases hh : ∃ t ∈ tokens ',' list, hits w.fnmatch user uid t = true
      · rw [if_pos hh, if_pos (ht.mp hh)]
      · rw [if_neg hh, if_neg (fun h => hh (ht.mpr h))]
    | none =>
      have hf2 : ¬ Applies w user uid a false := by
        rintro ⟨l, t, he, _⟩; exact not_prefix h2 l he
      rw [if_neg hf2]
      dsimp only
      split
      · rfl
      · split <;> rfl

theorem fold_command (w : World) (user : Str) (uid : Nat) : ∀ (argv : List Str) (s : Asked),
    (∀ e, Chosen w user uid argv e → (argv.foldl (arg w.fnmatch user uid) s).command = some e) ∧
    ((∀ x ∈ argv, ∀ e, ¬ Applies w user uid x e) → (argv.foldl (arg w.fnmatch user uid) s).command = s.command)
  | [], s => ⟨by rintro e ⟨pre, a, post, h, _⟩; simp at h, fun _ => rfl⟩
  | x :: argv, s => by
    obtain ⟨ih1, ih2⟩ := fold_command w user uid argv (arg w.fnmatch user uid s x)
    constructor
    · rintro e ⟨pre, a, post, h, ha, hp⟩
      cases pre with
      | nil =>
        rw [List.nil_append] at h
        cases h
        rw [List.foldl_cons, ih2 hp, arg_command w user uid]
        cases e with
        | true => rw [if_pos ha]
        | false =>
          rw [if_neg, if_pos ha]
          rintro ⟨l, t, he, _⟩
          obtain ⟨l', t', he', _⟩ := ha
          exact kinds (he.symm.trans he')
      | cons y pre =>
        rw [List.cons_append] at h
        cases h
        rw [List.foldl_cons]
        exact ih1 e ⟨pre, a, post, rfl, ha, hp⟩
    · intro h
      rw [List.foldl_cons, ih2 (fun y hy => h y (List.mem_cons_of_mem _ hy)), arg_command w user uid, if_neg (h x List.mem_cons_self true),
        if_neg (h x List.mem_cons_self false)]

theorem arg_flags (fnmatch : Str → Str → Bool) (user : Str) (uid : Nat) (s : Asked) (a : Str) :
    (arg fnmatch user uid s a).openOnly = (s.openOnly || decide (a = "open_only".toList)) ∧
    (arg fnmatch user uid s a).logPasswd = (s.logPasswd || decide (a = "log_passwd".toList)) := by
  have e1 : ∀ l, ("enable=".toList ++ l ≠ "open_only".toList) ∧ ("enable=".toList ++ l ≠ "log_passwd".toList) := by intro l; constructor <;> (intro h; simp at h)
  have e2 : ∀ l, ("disable=".toList ++ l ≠ "open_only".toList) ∧ ("disable=".toList ++ l ≠ "log_passwd".toList) := by intro l; constructor <;> (intro h; simp at h)
  unfold arg
  cases h1 : skipPrefix a "enable=".toList with
  | some list =>
    have ha : a = "enable=".toList ++ list := skipPrefix_some.mp h1
    rw [ha, decide_eq_false (e1 list).1, decide_eq_false (e1 list).2, Bool.or_false, Bool.or_false]
    exact ⟨rfl, rfl⟩
  | none =>
    cases h2 : skipPrefix a "disable=".toList with
    | some list =>
      have ha : a = "disable=".toList ++ list := skipPrefix_some.mp h2
      rw [ha, decide_eq_false (e2 list).1, decide_eq_false (e2 list).2, Bool.or_false, Bool.or_false]
      exact ⟨rfl, rfl⟩
    | none =>
      dsimp only
      by_cases h3 : a = "open_only".toList
      · subst h3; rw [if_pos rfl]; simp
      · rw [if_neg h3]
        by_cases h4 : a = "log_passwd".toList
        · subst h4; rw [if_pos rfl]; simp
        · rw [if_neg h4, decide_eq_false h3, decide_eq_false h4]; simp

theorem fold_flags (fnmatch : Str → Str → Bool) (user : Str) (uid : Nat) : ∀ (argv : List Str) (s : Asked),
    (argv.foldl (arg fnmatch user uid) s).openOnly = (s.openOnly || decide ("open_only".toList ∈ argv)) ∧
    (argv.foldl (arg fnmatch user uid) s).logPasswd = (s.logPasswd || decide ("log_passwd".toList ∈ argv))
  | [], s => by simp
  | a :: argv, s => by
    obtain ⟨h1, h2⟩ := fold_flags fnmatch user uid argv (arg fnmatch user uid s a)
    obtain ⟨g1, g2⟩ := arg_flags fnmatch user uid s a
    rw [List.foldl_cons, h1, h2, g1, g2]
    have key : ∀ (k : Str) (b : Bool), (b || decide (a = k) || decide (k ∈ argv)) = (b || decide (k ∈ a :: argv)) := by
      intro k b
      rw [Bool.or_assoc]
      congr 1
      rw [Bool.eq_iff_iff]
      simp only [Bool.or_eq_true, decide_eq_true_eq, List.mem_cons]
      constructor
      · rintro (h | h)
        · exact Or.inl h.symm
        · exact Or.inr h
      · rintro (h | h)
        · exact Or.inl h.symm
        · exact Or.inr h
    exact ⟨key _ _, key _ _⟩

/-- C142: the last of the arguments enable= and disable= with a pattern for the user decides: a session in which every step succeeds leaves auditing on or off as
it says, with passwords logged only if `log_passwd` is there; if none is for the user, nothing is changed.  What was is kept for the end unless `open_only` is there
or it is the same. -/
theorem C142_open (w : World) (argv : List Str) (st : State) (user : Str) (uid : Nat) (hu : w.user = some (user, uid)) :
    ((∀ x ∈ argv, ∀ e, ¬ Applies w user uid x e) → openSession w argv st = (PAM_SUCCESS, st)) ∧
    (∀ e, Chosen w user uid argv e →
      (w.socket = .ok → w.get = true → w.save = true → w.set = .ok → openSession w argv st =
        (PAM_SUCCESS, ⟨Wanted argv e, if st.kernel = Wanted argv e ∨ "open_only".toList ∈ argv then st.saved else some st.kernel⟩)) ∧
      (w.socket = .unsupported → openSession w argv st = (PAM_IGNORE, st)) ∧
      (w.socket = .failed ∨ (w.socket = .ok ∧ w.get = false) → openSession w argv st = (PAM_SESSION_ERR, st)) ∧
      (w.set ≠ .ok → w.socket = .ok → st.kernel ≠ Wanted argv e → (openSession w argv st).1 = PAM_SESSION_ERR) ∧
      (w.save = false → w.socket = .ok → st.kernel ≠ Wanted argv e → "open_only".toList ∉ argv → openSession w argv st = (PAM_SESSION_ERR, st))) := by
  unfold openSession
  rw [hu]
  dsimp only
  obtain ⟨g1, g2⟩ := fold_command w user uid argv {}
  obtain ⟨f1, f2⟩ := fold_flags w.fnmatch user uid argv {}
  constructor
  · intro h; rw [g2 h]
  · intro e he
    have hW : (⟨if e = true then 1 else 0, if (argv.foldl (arg w.fnmatch user uid) {}).logPasswd = true then 1 else 0⟩ : Status) = Wanted argv e := by
      rw [f2]; unfold Wanted
      simp only [Bool.false_or, decide_eq_true_eq]
    have f1 : (argv.foldl (arg w.fnmatch user uid) {}).openOnly = decide ("open_only".toList ∈ argv) := by rw [f1]; rfl
    rw [g1 e he]
    dsimp only
    rw [hW, f1]
    generalize Wanted argv e = W
    refine ⟨?_, ?_, ?_, ?_, ?_⟩
    · intro h1 h2 h3 h4
      rw [h1]
      dsimp only
      rw [if_neg (by rw [h2]; decide)]
      by_cases hk : st.kernel = W
      · rw [if_pos hk, if_pos (Or.inl hk), ← hk]
      · rw [if_neg hk, if_neg (fun h => by rw [h3] at h; cases h.2)]
        unfold setStatus
        rw [h4]
        by_cases ho : "open_only".toList ∈ argv
        · rw [if_pos (Or.inr ho), if_pos (decide_eq_true ho)]
        · have h1 : ¬ (st.kernel = W ∨ "open_only".toList ∈ argv) := fun h => h.elim hk ho
          rw [if_neg h1, if_neg (by rw [decide_eq_false ho]; decide)]
    · intro h; rw [h]
    · rintro (h | ⟨h, hg⟩)
      · rw [h]
      · rw [h]; dsimp only; rw [if_pos hg]
    · intro hs h hk
      rw [h]
      dsimp only
      split
      · rfl
      · split
        · rfl
        · unfold setStatus
          cases hset : w.set with
          | ok => exact absurd hset hs
          | refused => rfl
          | lost => rfl
    · intro hs h hk ho
      rw [h]
      dsimp only
      split
      · rfl
      · rw [if_pos ⟨decide_eq_false ho, hs⟩]

/-- C143: without `open_only`, a session that was opened and is closed with success, with nothing kept before, leaves the status as it was before, if nothing else
changed it meanwhile; and also if something did, when the opening had changed it.  With `open_only`, and if the opening changed nothing, the end changes nothing. -/
theorem C143_restored (w w' : World) (argv : List Str) (k : Status) (st1 st2 st3 : State) (ho : openSession w argv ⟨k, none⟩ = (PAM_SUCCESS, st1))
    (h2 : st2.saved = st1.saved) (hc : closeSession w' st2 = (PAM_SUCCESS, st3)) :
    ("open_only".toList ∉ argv → st2 = st1 → st3.kernel = k) ∧
    ("open_only".toList ∉ argv → st1.kernel ≠ k → st3.kernel = k) ∧
    ("open_only".toList ∈ argv ∨ st1.kernel = k → st3 = st2) := by
  have key : (st1.saved = none ∧ ("open_only".toList ∈ argv ∨ st1.kernel = k)) ∨ (st1.saved = some k ∧ "open_only".toList ∉ argv ∧ st1.kernel ≠ k) := by
    unfold openSession at ho
    cases hu : w.user with
    | none => rw [hu] at ho; cases ho
    | some p =>
      obtain ⟨user, uid⟩ := p
      rw [hu] at ho
      dsimp only at ho
      have f1 : (argv.foldl (arg w.fnmatch user uid) {}).openOnly = decide ("open_only".toList ∈ argv) := by rw [(fold_flags _ _ _ _ _).1]; rfl
      cases hcmd : (argv.foldl (arg w.fnmatch user uid) {}).command with
      | none => rw [hcmd] at ho; cases ho; exact Or.inl ⟨rfl, Or.inr rfl⟩
      | some c =>
        rw [hcmd] at ho
        dsimp only at ho
        cases hs : w.socket with
        | unsupported => rw [hs] at ho; cases ho
        | failed => rw [hs] at ho; cases ho
        | ok =>
          rw [hs] at ho
          dsimp only at ho
          generalize (⟨if c = true then 1 else 0, if (argv.foldl (arg w.fnmatch user uid) {}).logPasswd = true then 1 else 0⟩ : Status) = W at ho
          split at ho
          · cases ho
          · split at ho
            · cases ho; exact Or.inl ⟨rfl, Or.inr rfl⟩
            · next hne =>
              split at ho
              · cases ho
              · unfold setStatus at ho
                cases hset : w.set with
                | refused => rw [hset] at ho; cases ho
                | lost => rw [hset] at ho; cases ho
                | ok =>
                  rw [hset, f1] at ho
                  dsimp only at ho
                  by_cases hoo : "open_only".toList ∈ argv
                  · rw [if_pos (decide_eq_true hoo)] at ho
                    cases ho; exact Or.inl ⟨rfl, Or.inl hoo⟩
                  · rw [if_neg (by rw [decide_eq_false hoo]; decide)] at ho
                    cases ho
                    exact Or.inr ⟨rfl, hoo, fun h => hne h.symm⟩
  unfold closeSession at hc
  rcases key with ⟨hs, hk⟩ | ⟨hs, hn, hk⟩
  · rw [h2, hs] at hc
    have : st3 = st2 := (congrArg Prod.snd hc).symm
    subst this
    refine ⟨?_, ?_, fun _ => rfl⟩
    · rintro hn rfl; exact hk.elim (fun h => absurd h hn) id
    · intro hn hne; exact hk.elim (fun h => absurd h hn) (fun h => absurd h hne)
  · rw [h2, hs] at hc
    dsimp only at hc
    split at hc
    · cases hc
    · unfold setStatus at hc
      cases hset : w'.set with
      | refused => rw [hset] at hc; cases hc
      | lost => rw [hset] at hc; cases hc
      | ok =>
        rw [hset] at hc
        have : { st2 with kernel := k } = st3 := congrArg Prod.snd hc
        subst this
        exact ⟨fun _ _ => rfl, fun _ _ => rfl, fun h => h.elim (fun h => absurd h hn) (fun h => absurd h hk)⟩

/-! ### examples, and where more does not hold -/

def w0 : World := { user := some ("ann".toList, 1000), fnmatch := fun p s => decide (p = "*".toList ∨ p = s) }

example : Chosen w0 "ann".toList 1000 ["disable=*".toList, "enable=bob,500:2000".toList, "log_passwd".toList] true := by
  refine ⟨["disable=*".toList], _, ["log_passwd".toList], rfl, ⟨"bob,500:2000".toList, "500:2000".toList, rfl,
    ⟨"bob,".toList, [], rfl, by decide, by decide, Or.inr ⟨"bob".toList, rfl⟩, Or.inl rfl⟩, ?_⟩, ?_⟩
  · refine Or.inr ⟨"500".toList, "2000".toList, rfl, by decide, Or.inr (Or.inr ⟨500, 2000, ?_, ?_, by decide, by decide⟩)⟩
    · exact ⟨500, ⟨[], "500".toList, 500, (by intro c h; cases h), ⟨by decide, by decide, by decide⟩, Or.inl ⟨rfl, rfl⟩⟩, by decide, by decide⟩
    · exact ⟨2000, ⟨[], "2000".toList, 2000, (by intro c h; cases h), ⟨by decide, by decide, by decide⟩, Or.inl ⟨rfl, rfl⟩⟩, by decide, by decide⟩
  · rintro x hx e ⟨l, t, he, _⟩
    rw [List.mem_singleton] at hx
    subst hx
    cases e <;> simp at he

example : openSession w0 ["disable=*".toList, "enable=bob,500:2000".toList, "log_passwd".toList] ⟨⟨0, 0⟩, none⟩ = (PAM_SUCCESS, ⟨⟨1, 1⟩, some ⟨0, 0⟩⟩) ∧
    closeSession w0 ⟨⟨1, 1⟩, some ⟨0, 0⟩⟩ = (PAM_SUCCESS, ⟨⟨0, 0⟩, some ⟨0, 0⟩⟩) := by decide +kernel

/-- C142: a number beyond 2^32 is not refused: this is for everyone, and not for no one. -/
theorem C142_wrap_counterexample : openSession w0 ["enable=4294967296:".toList] ⟨⟨0, 0⟩, none⟩ = (PAM_SUCCESS, ⟨⟨1, 0⟩, some ⟨0, 0⟩⟩) := by decide +kernel

/-- C143: with the module twice in the stack, as for switching off and on again, closing all of it leaves auditing on though it was off. -/
theorem C143_twice_counterexample : ∃ a b : List Str, ∃ s1 s2 s3 s4,
    openSession w0 a ⟨⟨0, 0⟩, none⟩ = (PAM_SUCCESS, s1) ∧ openSession w0 b s1 = (PAM_SUCCESS, s2) ∧
    closeSession w0 s2 = (PAM_SUCCESS, s3) ∧ closeSession w0 s3 = (PAM_SUCCESS, s4) ∧ s4.kernel = ⟨1, 0⟩ :=
  ⟨["enable=*".toList], ["disable=ann".toList], ⟨⟨1, 0⟩, some ⟨0, 0⟩⟩, ⟨⟨0, 0⟩, some ⟨1, 0⟩⟩, ⟨⟨1, 0⟩, some ⟨1, 0⟩⟩, ⟨⟨1, 0⟩, some ⟨1, 0⟩⟩, by decide +kernel, by decide +kernel, by decide +kernel, by decide +kernel, rfl⟩

end Pam.Audit
