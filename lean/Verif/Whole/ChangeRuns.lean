import Verif.Whole.Change
import Verif.Whole.AuthCall
import Verif.Handle.AskProps
import Verif.Unix.ChProps
/-
What the password function of pam_unix does to a handle: it does what the model of the module says (Verif/Unix/Update.lean), with the answers
of the application.
-/
namespace Pam.Whole
open Pam Pam.Handle Pam.Handle.Spec

variable {W : Type}

/-- the handle but for the tokens, their kind, the delay and the data of modules -/
def Kin (i j : Inner) : Prop :=
  ∃ authtok oldauthtok authtokType authtokVerified delaySet delay data nextId cleaned,
    j = { i with authtok := authtok, oldauthtok := oldauthtok, authtokType := authtokType, authtokVerified := authtokVerified
                 delaySet := delaySet, delay := delay, data := data, nextId := nextId, cleaned := cleaned }

theorem Kin.refl (i : Inner) : Kin i i := ⟨_, _, _, _, _, _, _, _, _, rfl⟩

theorem Kin.trans {i j k : Inner} (h1 : Kin i j) (h2 : Kin j k) : Kin i k := by
  obtain ⟨a, b, c, d, e, f, g, h, l, rfl⟩ := h1
  obtain ⟨a', b', c', d', e', f', g', h', l', rfl⟩ := h2
  exact ⟨a', b', c', d', e', f', g', h', l', rfl⟩

theorem Kin.caller {i j : Inner} (h : Kin i j) : j.caller = i.caller := by
  obtain ⟨a, b, c, d, e, f, g, h, l, rfl⟩ := h
  rfl

theorem Kin.chauthtok {i j : Inner} (h : Kin i j) : j.chauthtok = i.chauthtok := by
  obtain ⟨a, b, c, d, e, f, g, h, l, rfl⟩ := h
  rfl

theorem Noted.kin {i j : Inner} (h : Noted i j) : Kin i j := by
  obtain ⟨a, b, c, rfl⟩ := h
  exact ⟨_, _, _, _, _, _, _, _, _, rfl⟩

/-- what a step leaves alone: the machine, most of the handle, and what was said before -/
structure Onward (D : Disk W) (s s' : S W) (ts : List Talk) : Prop where
  mach : D.mach s'.world = D.mach s.world
  kin : Kin s.inner s'.inner
  talk : s'.talk = s.talk ++ ts

theorem Onward.refl (D : Disk W) (s : S W) : Onward D s s [] := ⟨rfl, Kin.refl _, by simp⟩

theorem Onward.trans {D : Disk W} {s s' s'' : S W} {ts ts' : List Talk} (h : Onward D s s' ts) (h' : Onward D s' s'' ts') :
    Onward D s s'' (ts ++ ts') := ⟨h'.mach.trans h.mach, h.kin.trans h'.kin, by rw [h'.talk, h.talk, List.append_assoc]⟩

/-- the conversation leaves the machine alone -/
def Quiet (D : Disk W) (cv : Convs W) : Prop := ∀ c st msg w, D.mach (cv c st msg w).2 = D.mach w

theorem converse_on {D : Disk W} {cv : Convs W} (hq : Quiet D cv) (st : Style) (msg : Str) (s : S W) :
    ∃ q : Talk, q.style = st ∧ q.msg = msg ∧ Onward D s (converse cv st msg s).2 [q] ∧ (converse cv st msg s).2.inner = s.inner :=
  ⟨_, rfl, rfl, ⟨hq _ _ _ _, Kin.refl _, rfl⟩, rfl⟩

/-! ### asking for a token -/

theorem prompt_on {D : Disk W} {cv : Convs W} (hq : Quiet D cv) (msg : Str) (ok : Bool) (s : S W) :
    ∃ ts, Onward D s (promptFor cv msg ok s).2.2 ts := by
  unfold promptFor
  cases ok
  · exact ⟨[], Onward.refl D s⟩
  · obtain ⟨q, -, -, h, -⟩ := converse_on hq .echoOff msg s
    exact ⟨[q], h⟩

theorem error_on {D : Disk W} {cv : Convs W} (hq : Quiet D cv) (msg : Str) (s : S W) : ∃ ts, Onward D s (pamError cv msg s) ts := by
  obtain ⟨q, -, -, h, -⟩ := converse_on hq .error msg s
  exact ⟨[q], h⟩

theorem ask_on {D : Disk W} {cv : Convs W} (hq : Quiet D cv) (a b : Str) (twice ok1 ok2 : Bool) (s : S W) :
    ∃ ts, Onward D s (askToken cv a b twice ok1 ok2 s).2.2.2 ts := by
  unfold askToken
  obtain ⟨t1, h1⟩ := prompt_on hq a ok1 s
  dsimp only
  split
  · obtain ⟨t2, h2⟩ := prompt_on hq b ok2 (promptFor cv a ok1 s).2.2
    exact ⟨_, h1.trans h2⟩
  · exact ⟨t1, h1⟩

theorem store_kin {i b : Inner} (v : Value) (ok : Bool) (f : Option Str → Inner) (hb : Kin i b) (hf : ∀ x, Kin i (f x)) :
    Kin i (storeStr b v ok f).2 := by
  unfold storeStr
  repeat' split
  all_goals first | exact hb | exact hf _

theorem setToken_kin (i : Inner) {item : Int} (hi : item = PAM_AUTHTOK ∨ item = PAM_OLDAUTHTOK) (v : Value) (ok ok2 : Bool) :
    Kin i (setItem i item v ok ok2).2 := by
  rcases hi with rfl | rfl
  · show Kin i (putItem i .authtok v ok ok2).2
    unfold putItem
    dsimp only
    repeat' split
    all_goals first
      | exact ⟨_, _, _, _, _, _, _, _, _, rfl⟩
      | exact store_kin _ _ _ ⟨_, _, _, _, _, _, _, _, _, rfl⟩ (fun _ => ⟨_, _, _, _, _, _, _, _, _, rfl⟩)
  · show Kin i (putItem i .oldauthtok v ok ok2).2
    unfold putItem
    dsimp only
    repeat' split
    all_goals first
      | exact ⟨_, _, _, _, _, _, _, _, _, rfl⟩
      | exact store_kin _ _ _ ⟨_, _, _, _, _, _, _, _, _, rfl⟩ (fun _ => ⟨_, _, _, _, _, _, _, _, _, rfl⟩)

theorem mark_kin (c v : Bool) (i : Inner) : Kin i (markVerified c v i) := by
  unfold markVerified
  split
  · exact ⟨_, _, _, _, _, _, _, _, _, rfl⟩
  · exact Kin.refl _

theorem keep_on {D : Disk W} {item : Int} (hi : item = PAM_AUTHTOK ∨ item = PAM_OLDAUTHTOK) (t : Str) (ok v : Bool) (s : S W) :
    Onward D s (keepToken item t ok v s).2.2 [] := by
  unfold keepToken
  dsimp only
  split
  · exact ⟨rfl, setToken_kin _ hi _ _ _, by simp⟩
  · exact ⟨rfl, (setToken_kin _ hi _ _ _).trans (mark_kin _ _ _), by simp⟩

theorem reply_on {D : Disk W} {cv : Convs W} (hq : Quiet D cv) {item : Int} (hi : item = PAM_AUTHTOK ∨ item = PAM_OLDAUTHTOK) (ch : Nat) (ok : Bool)
    (code : Int) (r1 r2 : Option Str) (s : S W) : ∃ ts, Onward D s (tokenReply cv item ch ok code r1 r2 s).2.2 ts := by
  unfold tokenReply
  split
  · dsimp only
    split
    · exact error_on hq _ s
    · exact ⟨[], Onward.refl D s⟩
  · split
    · dsimp only
      split
      · exact error_on hq _ s
      · exact ⟨[], Onward.refl D s⟩
    · split
      · exact error_on hq _ s
      · exact ⟨[], keep_on hi _ _ _ s⟩

theorem type_kin (i : Inner) (ok : Bool) : Kin i (authtokTypeOf i ok).2 := by
  unfold authtokTypeOf
  split
  · split
    · exact Kin.refl _
    · rename_i t _
      show Kin i (putItem i .authtokType (.str t) ok true).2
      unfold putItem
      dsimp only
      repeat' split
      all_goals first
      | exact ⟨_, _, _, _, _, _, _, _, _, rfl⟩
      | exact store_kin _ _ _ ⟨_, _, _, _, _, _, _, _, _, rfl⟩ (fun _ => ⟨_, _, _, _, _, _, _, _, _, rfl⟩)
  · exact Kin.refl _

/-- pam_get_authtok changes tokens only, and leaves the machine alone -/
theorem token_on {D : Disk W} {cv : Convs W} (hq : Quiet D cv) {item : Int} (hi : item = PAM_AUTHTOK ∨ item = PAM_OLDAUTHTOK) (prompt : Option Str)
    (nv : Bool) (ok : AuthtokOk) (s : S W) : ∃ ts, Onward D s (getAuthtok cv item prompt nv ok s).2.2 ts := by
  unfold getAuthtok
  dsimp only
  have base : Onward D s ({ s with inner := (authtokTypeOf s.inner ok.type).2 } : S W) [] := ⟨rfl, type_kin _ _, by simp⟩
  split
  · exact ⟨[], base⟩
  · split
    · exact ⟨[], base⟩
    · have base2 : ∀ c, Onward D s ({ s with inner := markVerified c false (authtokTypeOf s.inner ok.type).2 } : S W) [] :=
        fun c => ⟨rfl, (type_kin _ _).trans (mark_kin _ _ _), by simp⟩
      obtain ⟨t1, h1⟩ := ask_on hq (firstPrompt prompt (chpassOf s.inner item nv) item (authtokTypeOf s.inner ok.type).1)
        (secondPrompt prompt (authtokTypeOf s.inner ok.type).1) (decide (1 < chpassOf s.inner item nv)) ok.p1 ok.p2
        ({ s with inner := markVerified (decide (prompt = none ∧ chpassOf s.inner item nv ≠ 0)) false (authtokTypeOf s.inner ok.type).2 } : S W)
      obtain ⟨t2, h2⟩ := reply_on hq hi (chpassOf s.inner item nv) ok.set _ _ _ _
      exact ⟨_, ((base2 _).trans h1).trans h2⟩

theorem oldItem (i : Inner) : getItem i PAM_OLDAUTHTOK = if i.caller = .module then (PAM_SUCCESS, .ofStr i.oldauthtok) else (PAM_BAD_ITEM, .null) := rfl

/-- the question for the current password -/
theorem current_token {D : Disk W} {cv : Convs W} (hq : Quiet D cv) {s : S W} (hc : s.inner.caller = .module) (ho : s.inner.oldauthtok = none) :
    ∃ ts c v s1, effect cv (.getAuthtok true none false {}) s = some ({ code := c, value := v }, s1) ∧ Onward D s s1 ts ∧
      s1.inner.authtok = s.inner.authtok ∧ c ≠ PAM_INCOMPLETE ∧
      (c = PAM_SUCCESS → ∃ q t kind, ts = [q] ∧ Answered q t ∧ q.msg = typedPrompt "Current".toList kind ∧ v = .str t ∧ s1.inner.oldauthtok = some t ∧
        (cv s.inner.conv .echoOff (typedPrompt "Current".toList kind) s.world).1 = (PAM_SUCCESS, some (some t))) := by
  have e1 : chpassOf s.inner PAM_OLDAUTHTOK false = 0 := by
    unfold chpassOf; rw [if_neg (fun x => absurd x.2 (by decide))]
  obtain ⟨t1, t2, t3⟩ := authtokTypeOf_tokens s.inner true
  have tk := type_kin s.inner true
  have e3 : getItem (authtokTypeOf s.inner true).2 PAM_OLDAUTHTOK = (PAM_SUCCESS, .null) := by
    rw [oldItem, if_pos (t3.trans hc), t2, ho]; rfl
  unfold effect getAuthtok
  dsimp only
  rw [if_pos rfl]
  simp only [e1, e3]
  generalize authtokTypeOf s.inner true = ty at *
  rw [if_neg (fun x => x.2 rfl)]
  split
  · rw [if_pos trivial, if_neg (by simp)]
    exact ⟨[], _, _, _, rfl, ⟨rfl, tk, by simp⟩, t1, show (PAM_AUTH_ERR : Int) ≠ PAM_INCOMPLETE by decide,
      fun h => absurd h (show ¬ (PAM_AUTH_ERR : Int) = PAM_SUCCESS by decide)⟩
  · have em : markVerified (decide (True ∧ (0 : Nat) ≠ 0)) false ty.2 = ty.2 := rfl
    rw [em]
    have ep : firstPrompt none 0 PAM_OLDAUTHTOK ty.1 = typedPrompt "Current".toList ty.1 := rfl
    rw [ep]
    generalize typedPrompt "Current".toList = P
    generalize secondPrompt none ty.1 = P2
    unfold askToken promptFor converse
    simp only [if_true, show decide (1 < 0) = false from rfl, Bool.false_eq_true, false_and, and_false, if_false]
    generalize hr : cv ty.2.conv .echoOff (P ty.1) s.world = r
    have hm : D.mach r.2 = D.mach s.world := by rw [← hr]; exact hq _ _ _ _
    unfold tokenReply
    cases ha : r.1.2.bind id with
    | none =>
      dsimp only
      rw [if_neg (by simp)]
      exact ⟨_, _, _, _, rfl, ⟨hm, tk, rfl⟩, t1, show (PAM_AUTHTOK_ERR : Int) ≠ PAM_INCOMPLETE by decide,
        fun h => absurd h (show ¬ (PAM_AUTHTOK_ERR : Int) = PAM_SUCCESS by decide)⟩
    | some t =>
      dsimp only
      by_cases hs : r.1.1 = PAM_SUCCESS
      · rw [if_neg (by rintro (h | h); exact h hs; exact absurd h.1 (by decide)), if_neg (fun h => absurd h.1 (by decide))]
        have k : ∀ s0 : S W, s0.inner = ty.2 → keepToken PAM_OLDAUTHTOK t true (decide (1 < 0)) s0 =
            (PAM_SUCCESS, some (.str t), { s0 with inner := { ty.2 with oldauthtok := some t } }) := by
          intro s0 h0
          have k1 : setItem ty.2 PAM_OLDAUTHTOK (.str t) true true = (PAM_SUCCESS, { ty.2 with oldauthtok := some t }) := by
            show putItem ty.2 .oldauthtok (.str t) true true = _
            unfold putItem
            simp only [if_pos (t3.trans hc)]
            rfl
          have k2 : getItem { ty.2 with oldauthtok := some t } PAM_OLDAUTHTOK = (PAM_SUCCESS, .str t) := by
            rw [oldItem, if_pos (show ({ ty.2 with oldauthtok := some t } : Inner).caller = .module from t3.trans hc)]; rfl
          have k3 : markVerified (decide (1 < 0)) true { ty.2 with oldauthtok := some t } = { ty.2 with oldauthtok := some t } := rfl
          unfold keepToken
          simp only [h0, k1, k3, k2]
          rw [if_neg (by simp)]
        have k' := k ⟨ty.2, r.2, s.talk ++ [⟨.echoOff, P ty.1, r.1.1, some t⟩]⟩ rfl
        rw [k']
        refine ⟨_, _, _, _, rfl, ⟨hm, tk.trans ⟨_, _, _, _, _, _, _, _, _, rfl⟩, rfl⟩, t1, show (PAM_SUCCESS : Int) ≠ PAM_INCOMPLETE by decide, fun _ => ?_⟩
        refine ⟨_, t, ty.1, rfl, ⟨rfl, hs, rfl⟩, rfl, rfl, rfl, ?_⟩
        have hcv : ty.2.conv = s.inner.conv := by
          obtain ⟨_, _, _, _, _, _, _, _, _, e⟩ := tk
          rw [e]
        rw [← hcv, hr]
        refine Prod.ext hs ?_
        cases hx : r.1.2 with
        | none => rw [hx] at ha; cases ha
        | some y => rw [hx] at ha; exact congrArg some ha
      · rw [if_pos (Or.inl hs), if_neg (by simp)]
        exact ⟨_, _, _, _, rfl, ⟨hm, tk, rfl⟩, t1, show (PAM_AUTHTOK_ERR : Int) ≠ PAM_INCOMPLETE by decide,
        fun h => absurd h (show ¬ (PAM_AUTHTOK_ERR : Int) = PAM_SUCCESS by decide)⟩

theorem setToken_code (i : Inner) (t : Str) (ok : Bool) :
    (setItem i PAM_AUTHTOK (.str t) ok true).1 = PAM_SUCCESS ∨ (setItem i PAM_AUTHTOK (.str t) ok true).1 = PAM_BUF_ERR ∨
      (setItem i PAM_AUTHTOK (.str t) ok true).1 = PAM_BAD_ITEM := by
  show (putItem i .authtok (.str t) ok true).1 = _ ∨ (putItem i .authtok (.str t) ok true).1 = _ ∨ (putItem i .authtok (.str t) ok true).1 = _
  unfold putItem
  simp only
  split
  · cases ok
    · exact Or.inr (Or.inl rfl)
    · exact Or.inl rfl
  · exact Or.inr (Or.inr rfl)

theorem getToken_code (i : Inner) : (getItem i PAM_AUTHTOK).1 = PAM_SUCCESS ∨ (getItem i PAM_AUTHTOK).1 = PAM_BAD_ITEM := by
  rw [getItem_authtok]
  split
  · exact Or.inl rfl
  · exact Or.inr rfl

theorem new_code (cv : Convs W) (s : S W) : (getAuthtok cv PAM_AUTHTOK none false {} s).1 ≠ PAM_INCOMPLETE := by
  have hg : ∀ i : Inner, (getItem i PAM_AUTHTOK).1 ≠ PAM_INCOMPLETE := by
    intro i
    rcases getToken_code i with h | h <;> rw [h] <;> decide
  unfold getAuthtok
  dsimp only
  split
  · exact show (PAM_SUCCESS : Int) ≠ PAM_INCOMPLETE by decide
  · split
    · dsimp only
      split
      · split <;> decide
      · exact hg _
    · unfold tokenReply
      split
      · exact show (PAM_AUTHTOK_ERR : Int) ≠ PAM_INCOMPLETE by decide
      · split
        · exact show (PAM_AUTHTOK_ERR : Int) ≠ PAM_INCOMPLETE by decide
        · split
          · exact show (PAM_TRY_AGAIN : Int) ≠ PAM_INCOMPLETE by decide
          · unfold keepToken
            dsimp only
            split
            · dsimp only
              rename_i t _ _ _ _
              rcases setToken_code _ t true with h | h | h <;> rw [h] <;> decide
            · exact hg _

/-- the question for a new password -/
theorem new_token {D : Disk W} {cv : Convs W} (hq : Quiet D cv) {s : S W} (hc : s.inner.caller = .module) (hch : s.inner.chauthtok = true)
    (ht : s.inner.authtok = none) :
    ∃ ts c v s1, effect cv (.getAuthtok false none false {}) s = some ({ code := c, value := v }, s1) ∧ Onward D s s1 ts ∧
      s1.inner.oldauthtok = s.inner.oldauthtok ∧ c ≠ PAM_INCOMPLETE ∧
      (c = PAM_SUCCESS → ∃ q1 q2 t kind, ts = [q1, q2] ∧ Answered q1 t ∧ Answered q2 t ∧ q1.msg = typedPrompt "New".toList kind ∧
        q2.msg = typedPrompt "Retype new".toList kind ∧ v = .str t) := by
  have hi := token_on (D := D) hq (item := PAM_AUTHTOK) (Or.inl rfl) none false {} s
  obtain ⟨ts, hts⟩ := hi
  have hn := getAuthtok_new cv none {} s hch
  refine ⟨ts, _, _, _, rfl, hts, ?_, ?_, ?_⟩
  · show (getAuthtok cv PAM_AUTHTOK none false {} s).2.2.inner.oldauthtok = _
    cases hn with
    | known t h1 => rw [ht] at h1; cases h1
    | twice _ _ _ _ _ _ _ _ _ _ h => exact h
    | differ _ _ _ _ _ _ _ _ _ _ _ _ _ h => exact h
    | failed _ _ _ _ _ _ _ h => exact h
  · show (getAuthtok cv PAM_AUTHTOK none false {} s).1 ≠ _
    cases hn with
    | known t h1 => rw [ht] at h1; cases h1
    | twice _ _ _ _ _ _ h => rw [h]; decide
    | differ _ _ _ _ _ _ _ _ h => rw [h]; decide
    | failed _ h => exact new_code cv s
  · intro hsucc
    replace hsucc : (getAuthtok cv PAM_AUTHTOK none false {} s).1 = PAM_SUCCESS := hsucc
    cases hn with
    | known t h1 => rw [ht] at h1; cases h1
    | twice q1 q2 t _ a1 a2 _ hv htalk _ _ hk =>
      obtain ⟨ty, m1, m2⟩ := hk
      refine ⟨q1, q2, t, ty, ?_, a1, a2, m1, m2, ?_⟩
      · have := hts.talk
        have h2 : (getAuthtok cv PAM_AUTHTOK none false {} s).2.2.talk = s.talk ++ ts := this
        rw [htalk] at h2
        exact (List.append_cancel_left h2).symm
      · show ((getAuthtok cv PAM_AUTHTOK none false {} s).2.1).getD .null = _
        rw [hv]; rfl
    | differ _ _ _ _ _ _ _ _ h => rw [h] at hsucc; exact absurd hsucc (by decide)
    | failed _ h => exact absurd hsucc h

end Pam.Whole
