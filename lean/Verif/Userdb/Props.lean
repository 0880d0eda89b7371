import Verif.Userdb.Model
import Verif.Util.InlineProps
/-
Property theorems about pam_userdb (C108, C109).
-/
namespace Pam.Userdb
open Pam

/-! ### vocabulary -/

/-- two passwords are equal, up to case if `icase` is set -/
def Equal (icase : Bool) (a b : Str) : Prop := if icase then a.map lower = b.map lower else a = b

/-- the passwords are stored as hashes: the value of crypt= begins with "crypt" -/
def Hashed (c : Ctrl) : Prop := ∃ m k, c.crypt = some (k ++ m) ∧ k.map lower = "crypt".toList

/-- the password that is stored for a user fits: in the key after the name, as a hash, or as it is.  What follows a NUL in the database
does not count, except in a hash. -/
def Fits (crypt : Str → Str → Option Str) (db : List (Str × Str)) (c : Ctrl) (user pass : Str) : Prop :=
  if c.keyOnly then ∃ pw d, (user ++ '-' :: pw, d) ∈ db ∧ Equal c.icase pass (cstr pw)
  else (Hashed c ∧ ∃ h, (user, h) ∈ db ∧ 13 ≤ h.length ∧ c.icase = false ∧ crypt pass (cstr h) = some h) ∨
    (¬ Hashed c ∧ ∃ pw, (user, pw) ∈ db ∧ Equal c.icase pass (cstr pw))

/-- the database knows the user -/
def Knows (db : List (Str × Str)) (c : Ctrl) (user : Str) : Prop :=
  if c.keyOnly then ∃ pw d, (user ++ '-' :: pw, d) ∈ db else ∃ d, (user, d) ∈ db

/-- the password that counts: the one that is there, if it may be used, otherwise the answer to the prompt, if there may be one -/
def given (c : Ctrl) (w : World) : Option Str :=
  if c.useFirst ∨ c.tryFirst then
    match w.authtok with
    | some p => some p
    | none => if c.tryFirst ∧ w.conv = PAM_SUCCESS then w.resp else none
  else if w.conv = PAM_SUCCESS then w.resp else none

/-! ### lemmas -/

theorem cstr_nul (s : Str) : NUL ∉ cstr s := by
  unfold cstr
  intro h
  induction s with
  | nil => cases h
  | cons c s ih =>
    rw [List.takeWhile_cons] at h
    split at h
    · rename_i hc
      rcases List.mem_cons.1 h with e | e
      · rw [← e] at hc; simp at hc
      · exact ih e
    · cases h

theorem cstr_id {s : Str} (h : NUL ∉ s) : cstr s = s := by
  unfold cstr
  induction s with
  | nil => rfl
  | cons c s ih =>
    rw [List.takeWhile_cons, if_pos (by simp; rintro rfl; exact h List.mem_cons_self), ih (fun e => h (List.mem_cons_of_mem _ e))]

instance (icase : Bool) (a b : Str) : Decidable (Equal icase a b) := by unfold Equal; exact inferInstance

theorem same_eq {icase : Bool} {pass stored : Str} (hp : NUL ∉ pass) (hs : NUL ∉ stored) : same icase pass stored = some (decide (Equal icase pass stored)) := by
  unfold same Equal
  cases icase with
  | false =>
    rw [if_neg (by simp), Util.C28_consttime_streq pass stored _ _ ⟨hp, [], rfl⟩ ⟨hs, [], rfl⟩]
    simp
  | true =>
    rw [if_pos rfl, Util.C28_consttime_strcaseeq pass stored _ _ ⟨hp, [], rfl⟩ ⟨hs, [], rfl⟩]
    simp

theorem fetch_some {db : List (Str × Str)} {k d : Str} (hnd : (db.map (·.1)).Nodup) : fetch db k = some d ↔ (k, d) ∈ db := by
  unfold fetch
  induction db with
  | nil => simp
  | cons p db ih =>
    obtain ⟨k', d'⟩ := p
    simp only [List.map_cons, List.nodup_cons] at hnd
    rw [List.find?_cons]
    by_cases hk : k' = k
    · subst hk
      simp only [decide_true, Option.map_some, Option.some.injEq, List.mem_cons, Prod.mk.injEq, true_and]
      constructor
      · intro e; exact .inl e.symm
      · rintro (e | e)
        · exact e.symm
        · exact absurd (List.mem_map_of_mem (f := (·.1)) e) hnd.1
    · simp only [hk, decide_false, List.mem_cons, Prod.mk.injEq]
      rw [ih hnd.2]
      constructor
      · exact .inr
      · rintro (⟨e, _⟩ | e)
        · exact absurd e.symm hk
        · exact e

theorem fetch_none {db : List (Str × Str)} {k : Str} : fetch db k = none ↔ ∀ d, (k, d) ∉ db := by
  unfold fetch
  rw [Option.map_eq_none_iff, List.find?_eq_none]
  constructor
  · intro h d hd; exact h (k, d) hd (by simp)
  · intro h p hp e
    simp only [decide_eq_true_eq] at e
    exact h p.2 (by rw [← e]; exact hp)

theorem key_split {k user : Str} : (k.length > user.length ∧ k[user.length]? = some '-' ∧ k.take user.length = user) ↔ ∃ pw, k = user ++ '-' :: pw := by
  constructor
  · rintro ⟨h1, h2, h3⟩
    refine ⟨k.drop (user.length + 1), ?_⟩
    rw [List.getElem?_eq_getElem h1] at h2
    have h4 : k.drop user.length = '-' :: k.drop (user.length + 1) := by
      rw [List.drop_eq_getElem_cons h1, Option.some.inj h2]
    rw [← h4]
    conv => lhs; rw [← List.take_append_drop user.length k, h3]
  · rintro ⟨pw, rfl⟩
    simp

theorem scan_eq {icase : Bool} {user pass : Str} (hp : NUL ∉ pass) : ∀ (db : List (Str × Str)) (saw : Bool),
    (scan icase user pass saw db = some 0 ∧ ∃ pw d, (user ++ '-' :: pw, d) ∈ db ∧ Equal icase pass (cstr pw)) ∨
    ((¬ ∃ pw d, (user ++ '-' :: pw, d) ∈ db ∧ Equal icase pass (cstr pw)) ∧
      ((scan icase user pass saw db = some (-1) ∧ (saw = true ∨ ∃ pw d, (user ++ '-' :: pw, d) ∈ db)) ∨
       (scan icase user pass saw db = some 1 ∧ saw = false ∧ ¬ ∃ pw d, (user ++ '-' :: pw, d) ∈ db)))
  | [], saw => by
    unfold scan
    right
    refine ⟨by simp, ?_⟩
    cases saw <;> simp
  | (k, x) :: db, saw => by
    unfold scan
    by_cases hk : k.length > user.length ∧ k[user.length]? = some '-' ∧ k.take user.length = user
    · rw [if_pos hk]
      obtain ⟨pw, rfl⟩ := key_split.1 hk
      have hd : (user ++ '-' :: pw).drop (user.length + 1) = pw := by
        rw [List.drop_append]; simp
      rw [hd, same_eq hp (cstr_nul pw)]
      by_cases he : Equal icase pass (cstr pw)
      · left
        rw [decide_eq_true he]
        exact ⟨rfl, pw, x, List.mem_cons_self, he⟩
      · rw [decide_eq_false he]
        dsimp only
        rcases scan_eq hp db true with ⟨h1, pw', d', h2, h3⟩ | ⟨h0, h1⟩
        · exact .inl ⟨h1, pw', d', List.mem_cons_of_mem _ h2, h3⟩
        · right
          refine ⟨?_, ?_⟩
          · rintro ⟨pw', d', h2, h3⟩
            rcases List.mem_cons.1 h2 with e | e
            · have := List.append_cancel_left (Prod.mk.inj e).1
              rw [(List.cons.inj this).2] at h3
              exact he h3
            · exact h0 ⟨pw', d', e, h3⟩
          · rcases h1 with ⟨h1, _⟩ | ⟨_, h1, _⟩
            · exact .inl ⟨h1, .inr ⟨pw, x, List.mem_cons_self⟩⟩
            · cases h1
    · rw [if_neg hk]
      have hne : ∀ pw d, (user ++ '-' :: pw, d) ∈ (k, x) :: db ↔ (user ++ '-' :: pw, d) ∈ db := by
        intro pw d
        constructor
        · intro h
          rcases List.mem_cons.1 h with e | e
          · exact absurd (key_split.2 ⟨pw, ((Prod.mk.inj e).1).symm⟩) hk
          · exact e
        · exact List.mem_cons_of_mem _
      simp only [hne]
      exact scan_eq hp db saw

theorem skipIcase_some {s pre v : Str} (hp : pre.map lower = pre) : skipIcase s pre = some v ↔ ∃ k, s = k ++ v ∧ k.map lower = pre := by
  unfold skipIcase ieq
  rw [hp]
  constructor
  · intro h
    split at h
    · rename_i he
      cases h
      exact ⟨s.take pre.length, (List.take_append_drop _ _).symm, by simpa using he⟩
    · cases h
  · rintro ⟨k, rfl, he⟩
    have hl : pre.length = k.length := by rw [← he, List.length_map]
    rw [hl, List.take_left, List.drop_left, if_pos (by simp [he])]

theorem isCrypt_iff {c : Ctrl} : isCrypt c = true ↔ Hashed c := by
  unfold isCrypt Hashed
  cases hc : c.crypt with
  | none => simp
  | some m =>
    rw [Option.isSome_iff_exists]
    simp only [skipIcase_some (show ("crypt".toList).map lower = "crypt".toList by decide)]
    constructor
    · rintro ⟨v, k, rfl, h⟩; exact ⟨v, k, rfl, h⟩
    · rintro ⟨v, k, e, h⟩; cases e; exact ⟨v, k, rfl, h⟩

/-- C108 (the database): the lookup never makes a bad access; it finds the password right exactly if the one that is stored for the user fits, the user
unknown exactly if the database does not know the user, and the password wrong otherwise. -/
theorem C108_lookup (crypt : Str → Str → Option Str) (db : List (Str × Str)) (c : Ctrl) (user pass : Str) (hnd : (db.map (·.1)).Nodup) (hp : NUL ∉ pass) :
    (lookup crypt (some db) c user pass = some 0 ↔ Fits crypt db c user pass) ∧
    (lookup crypt (some db) c user pass = some 1 ↔ ¬ Knows db c user) ∧
    (lookup crypt (some db) c user pass = some (-1) ↔ Knows db c user ∧ ¬ Fits crypt db c user pass) := by
  unfold lookup Fits Knows
  cases hk : c.keyOnly with
  | true =>
    simp only [if_true]
    cases hf : fetch db (user ++ '-' :: pass) with
    | some d =>
      have hm := (fetch_some hnd).1 hf
      have h1 : ∃ pw d, (user ++ '-' :: pw, d) ∈ db ∧ Equal c.icase pass (cstr pw) :=
        ⟨pass, d, hm, by rw [cstr_id hp]; unfold Equal; split <;> rfl⟩
      have h2 : ∃ pw d, (user ++ '-' :: pw, d) ∈ db := ⟨pass, d, hm⟩
      exact ⟨⟨fun _ => h1, fun _ => by simp⟩, ⟨(by intro e; simp at e), fun e => absurd h2 e⟩, ⟨(by intro e; simp at e), fun e => absurd h1 e.2⟩⟩
    | none =>
      simp only [not_true_eq_false, if_false]
      rcases scan_eq (icase := c.icase) (user := user) hp db false with ⟨h1, h2⟩ | ⟨h0, ⟨h1, h2⟩ | ⟨h1, _, h2⟩⟩
      · have h3 : ∃ pw d, (user ++ '-' :: pw, d) ∈ db := by obtain ⟨pw, d, h, _⟩ := h2; exact ⟨pw, d, h⟩
        rw [h1]
        refine ⟨⟨fun _ => h2, fun _ => rfl⟩, ⟨(by intro e; cases e), fun e => absurd h3 e⟩, ⟨(by intro e; cases e), fun e => absurd h2 e.2⟩⟩
      · have h3 := h2.resolve_left (by simp)
        rw [h1]
        exact ⟨⟨(by intro e; cases e), fun e => absurd e h0⟩, ⟨(by intro e; cases e), fun e => absurd h3 e⟩, ⟨fun _ => ⟨h3, h0⟩, fun _ => rfl⟩⟩
      · rw [h1]
        exact ⟨⟨(by intro e; cases e), fun e => absurd e h0⟩, ⟨fun _ => h2, fun _ => rfl⟩, ⟨(by intro e; cases e), fun e => absurd e.1 h2⟩⟩
  | false =>
    simp only [Bool.false_eq_true, if_false]
    cases hf : fetch db user with
    | none =>
      have hn := fetch_none.1 hf
      have h0 : ¬ ∃ d, (user, d) ∈ db := fun ⟨d, hd⟩ => hn d hd
      simp only [not_false_eq_true, if_true]
      refine ⟨⟨(by intro e; cases e), fun e => ?_⟩, ⟨fun _ => h0, fun _ => by simp⟩, ⟨(by intro e; cases e), fun e => absurd e.1 h0⟩⟩
      rcases e with ⟨_, h, hh, _⟩ | ⟨_, h, hh, _⟩ <;> exact absurd hh (hn h)
    | some d =>
      have hm := (fetch_some hnd).1 hf
      have huniq : ∀ d', (user, d') ∈ db → d' = d := fun d' h => by
        have := (fetch_some hnd).2 h
        rw [hf] at this; cases this; rfl
      have h0 : ∃ d, (user, d) ∈ db := ⟨d, hm⟩
      dsimp only
      have key : ∀ (P : Prop) (r : Int), ((r = 0 ∧ P) ∨ (r = -1 ∧ ¬ P)) → (some r = some 0 ↔ P) ∧ (some r = some 1 ↔ ¬ ∃ d, (user, d) ∈ db) ∧
          (some r = some (-1) ↔ (∃ d, (user, d) ∈ db) ∧ ¬ P) := by
        rintro P r (⟨rfl, hP⟩ | ⟨rfl, hP⟩)
        · exact ⟨⟨fun _ => hP, fun _ => rfl⟩, ⟨(by intro e; cases e), fun e => absurd h0 e⟩, ⟨(by intro e; cases e), fun e => absurd hP e.2⟩⟩
        · exact ⟨⟨(by intro e; cases e), fun e => absurd e hP⟩, ⟨(by intro e; cases e), fun e => absurd h0 e⟩, ⟨fun _ => ⟨h0, hP⟩, fun _ => rfl⟩⟩
      by_cases hc : isCrypt c = true
      · simp only [hc, isCrypt_iff.1 hc, if_true, true_and, not_true_eq_false, false_and, or_false]
        split
        · refine key _ _ (.inr ⟨rfl, ?_⟩)
          rintro ⟨h, h1, h2, _⟩
          rw [huniq h h1] at h2; omega
        · split
          · rename_i hi
            refine key _ _ (.inr ⟨rfl, ?_⟩)
            rintro ⟨h, _, _, h3, _⟩
            rw [hi] at h3; cases h3
          · rename_i hlen hi
            cases hcr : crypt pass (cstr d) with
            | none =>
              refine key _ _ (.inr ⟨rfl, ?_⟩)
              rintro ⟨h, h1, _, _, h4⟩
              rw [huniq h h1, hcr] at h4; cases h4
            | some h =>
              dsimp only
              split
              · rename_i he
                exact key _ _ (.inl ⟨rfl, d, hm, by omega, by simpa using hi, by rw [hcr, he.2]⟩)
              · rename_i he
                refine key _ _ (.inr ⟨rfl, ?_⟩)
                rintro ⟨h', h1, _, _, h4⟩
                rw [huniq h' h1, hcr] at h4
                cases h4
                exact he ⟨rfl, rfl⟩
      · have hh : ¬ Hashed c := fun e => hc (isCrypt_iff.2 e)
        simp only [hc, hh, if_false, Bool.false_eq_true, false_and, false_or, not_false_eq_true, true_and]
        rw [same_eq hp (cstr_nul d), Option.map_some]
        by_cases he : Equal c.icase pass (cstr d)
        · rw [decide_eq_true he]
          exact key _ _ (.inl ⟨rfl, d, hm, he⟩)
        · rw [decide_eq_false he]
          refine key _ _ (.inr ⟨rfl, ?_⟩)
          rintro ⟨pw, h1, h2⟩
          rw [huniq pw h1] at h2
          exact he h2

/-- the lookup in a database that is open gives 0, 1 or -1 -/
theorem lookup_cases (crypt : Str → Str → Option Str) (db : List (Str × Str)) (c : Ctrl) (user pass : Str) (hnd : (db.map (·.1)).Nodup) (hp : NUL ∉ pass) :
    lookup crypt (some db) c user pass = some 0 ∨ lookup crypt (some db) c user pass = some 1 ∨ lookup crypt (some db) c user pass = some (-1) := by
  obtain ⟨h0, h1, h2⟩ := C108_lookup crypt db c user pass hnd hp
  by_cases hk : Knows db c user
  · by_cases hf : Fits crypt db c user pass
    · exact .inl (h0.2 hf)
    · exact .inr (.inr (h2.2 ⟨hk, hf⟩))
  · exact .inr (.inl (h1.2 hk))

/-- the answers are C strings -/
structure World.Ok (w : World) : Prop where
  tok : ∀ p, w.authtok = some p → NUL ∉ p
  resp : ∀ p, w.resp = some p → NUL ∉ p

/-- what authentication does with the password that counts -/
theorem authenticate_given {crypt : Str → Str → Option Str} {open_ : Str → Option (List (Str × Str))} {argv : List Str} {w : World} {name user : Str}
    (hdb : (parse argv).db = some name) (hu : w.user = .ok user) :
    (∃ pass, given (parse argv) w = some pass ∧
      authenticate crypt open_ argv w = (lookup crypt (open_ name) (parse argv) user pass).map fun r => (authCode r, some pass)) ∨
    (given (parse argv) w = none ∧ ∃ rc tok, authenticate crypt open_ argv w = some (rc, tok) ∧ rc ≠ PAM_SUCCESS) := by
  unfold authenticate given
  simp only [hdb, hu]
  generalize parse argv = c
  by_cases hf : c.useFirst = true ∨ c.tryFirst = true
  · have hf' : ¬ (¬ c.useFirst = true ∧ ¬ c.tryFirst = true) := fun e => hf.elim e.1 e.2
    simp only [if_neg hf', if_pos hf, ne_eq, not_true_eq_false, if_false]
    cases ht : w.authtok with
    | some p => left; exact ⟨p, rfl, rfl⟩
    | none =>
      by_cases hy : c.tryFirst = true
      · simp only [hy, if_true, true_and]
        unfold obtain
        by_cases hc : w.conv = PAM_SUCCESS
        · simp only [hc, ne_eq, not_true_eq_false, if_false, if_true]
          cases hr : w.resp with
          | none => right; exact ⟨rfl, _, _, rfl, (by decide : ¬ PAM_CONV_ERR = PAM_SUCCESS)⟩
          | some r => left; exact ⟨r, rfl, by simp⟩
        · simp only [hc, ne_eq, not_false_eq_true, if_true, if_false]
          right; exact ⟨by simp, _, _, rfl, hc⟩
      · simp only [hy, if_false, false_and, Bool.false_eq_true]
        right; exact ⟨by simp, _, _, rfl, (by decide : ¬ PAM_AUTHTOK_RECOVERY_ERR = PAM_SUCCESS)⟩
  · have hf' : ¬ c.useFirst = true ∧ ¬ c.tryFirst = true := ⟨fun e => hf (.inl e), fun e => hf (.inr e)⟩
    simp only [if_pos hf', if_neg hf]
    unfold obtain
    by_cases hc : w.conv = PAM_SUCCESS
    · simp only [hc, ne_eq, not_true_eq_false, if_false, if_true]
      cases hr : w.resp with
      | none => right; exact ⟨rfl, PAM_CONV_ERR, w.authtok, rfl, by decide⟩
      | some r => left; exact ⟨r, rfl, by simp⟩
    · simp only [hc, ne_eq, not_false_eq_true, if_true, if_false]
      right; exact ⟨by simp, _, _, rfl, hc⟩

/-- C108: authentication succeeds exactly if a database is given and can be opened, the user is known to PAM, and the password that counts is
the one stored for the user. -/
theorem C108_authentication (crypt : Str → Str → Option Str) (open_ : Str → Option (List (Str × Str))) (argv : List Str) (w : World)
    (hnd : ∀ name db, open_ name = some db → (db.map (·.1)).Nodup) (hw : w.Ok) :
    (∃ tok, authenticate crypt open_ argv w = some (PAM_SUCCESS, tok)) ↔
    ∃ name db user pass, (parse argv).db = some name ∧ open_ name = some db ∧ w.user = .ok user ∧ given (parse argv) w = some pass ∧
      Fits crypt db (parse argv) user pass := by
  constructor
  · rintro ⟨tok, h⟩
    cases hdb : (parse argv).db with
    | none => unfold authenticate at h; simp only [hdb] at h; cases h
    | some name =>
      cases hu : w.user with
      | error e => unfold authenticate at h; simp only [hdb, hu] at h; cases h
      | ok user =>
        rcases authenticate_given (crypt := crypt) (open_ := open_) hdb hu with ⟨pass, hg, he⟩ | ⟨_, rc, t, he, hne⟩
        · rw [he] at h
          cases ho : open_ name with
          | none => rw [ho] at h; cases h
          | some db =>
            rw [ho] at h
            refine ⟨name, db, user, pass, rfl, ho, rfl, hg, ?_⟩
            have hp : NUL ∉ pass := by
              unfold given at hg
              split at hg
              · cases ht : w.authtok with
                | some p => rw [ht] at hg; cases hg; exact hw.tok _ ht
                | none => rw [ht] at hg; dsimp only at hg; split at hg
                          · exact hw.resp _ hg
                          · cases hg
              · split at hg
                · exact hw.resp _ hg
                · cases hg
            rcases lookup_cases crypt db (parse argv) user pass (hnd name db ho) hp with e | e | e
            · exact (C108_lookup crypt db (parse argv) user pass (hnd name db ho) hp).1.1 e
            · rw [e] at h; cases h
            · rw [e] at h; cases h
        · rw [he] at h; cases h; exact absurd rfl hne
  · rintro ⟨name, db, user, pass, hdb, ho, hu, hg, hf⟩
    rcases authenticate_given (crypt := crypt) (open_ := open_) hdb hu with ⟨pass', hg', he⟩ | ⟨hg', _⟩
    · rw [hg] at hg'; cases hg'
      have hp : NUL ∉ pass := by
        unfold given at hg
        split at hg
        · cases ht : w.authtok with
          | some p => rw [ht] at hg; cases hg; exact hw.tok _ ht
          | none => rw [ht] at hg; dsimp only at hg; split at hg
                    · exact hw.resp _ hg
                    · cases hg
        · split at hg
          · exact hw.resp _ hg
          · cases hg
      rw [he, ho, (C108_lookup crypt db (parse argv) user pass (hnd name db ho) hp).1.2 hf]
      exact ⟨_, rfl⟩
    · rw [hg] at hg'; cases hg'

/-- C109: the codes.  With an open database and a password, a user the database does not know is PAM_USER_UNKNOWN and a wrong password PAM_AUTH_ERR;
without a database, or if it cannot be opened, it is PAM_SERVICE_ERR. -/
theorem C109_codes (crypt : Str → Str → Option Str) (open_ : Str → Option (List (Str × Str))) (argv : List Str) (w : World) (user : Str)
    (hnd : ∀ name db, open_ name = some db → (db.map (·.1)).Nodup) (hu : w.user = .ok user) :
    ((parse argv).db = none → authenticate crypt open_ argv w = some (PAM_SERVICE_ERR, w.authtok)) ∧
    ∀ name pass, (parse argv).db = some name → given (parse argv) w = some pass → NUL ∉ pass →
      (open_ name = none → authenticate crypt open_ argv w = some (PAM_SERVICE_ERR, some pass)) ∧
      ∀ db, open_ name = some db →
        (¬ Knows db (parse argv) user → authenticate crypt open_ argv w = some (PAM_USER_UNKNOWN, some pass)) ∧
        (Knows db (parse argv) user → ¬ Fits crypt db (parse argv) user pass → authenticate crypt open_ argv w = some (PAM_AUTH_ERR, some pass)) := by
  refine ⟨fun hdb => by unfold authenticate; simp only [hdb], fun name pass hdb hg hp => ?_⟩
  rcases authenticate_given (crypt := crypt) (open_ := open_) hdb hu with ⟨pass', hg', he⟩ | ⟨hg', _⟩
  · rw [hg] at hg'; cases hg'
    refine ⟨fun ho => by rw [he, ho]; rfl, fun db ho => ⟨fun hk => ?_, fun hk hf => ?_⟩⟩
    · rw [he, ho, (C108_lookup crypt db (parse argv) user pass (hnd name db ho) hp).2.1.2 hk]; rfl
    · rw [he, ho, (C108_lookup crypt db (parse argv) user pass (hnd name db ho) hp).2.2.2 ⟨hk, hf⟩]; rfl
  · rw [hg] at hg'; cases hg'

/-- C109 (accounts): the account is good exactly if the database knows the user. -/
theorem C109_account (crypt : Str → Str → Option Str) (open_ : Str → Option (List (Str × Str))) (argv : List Str) (name user : Str) (db : List (Str × Str))
    (hdb : (parse argv).db = some name) (ho : open_ name = some db) (hnd : (db.map (·.1)).Nodup) :
    acct crypt open_ argv (.ok user) = some PAM_SUCCESS ∧ Knows db (parse argv) user ∨
    acct crypt open_ argv (.ok user) = some PAM_USER_UNKNOWN ∧ ¬ Knows db (parse argv) user := by
  unfold acct
  simp only [hdb, ho]
  obtain ⟨h0, h1, h2⟩ := C108_lookup crypt db (parse argv) user [] hnd (by simp)
  by_cases hk : Knows db (parse argv) user
  · left
    refine ⟨?_, hk⟩
    rcases lookup_cases crypt db (parse argv) user [] hnd (by simp) with e | e | e
    · rw [e]; rfl
    · exact absurd hk (h1.1 e)
    · rw [e]; rfl
  · right
    refine ⟨?_, hk⟩
    rw [h1.2 hk]; rfl

/-! ### the options -/

theorem take_low {a k : Str} (n : Nat) (h : a.map lower = k) : (a.take n).map lower = k.take n := by rw [List.map_take, h]

/-- the argument is the option `k`, in capitals or not -/
abbrev IsOpt (k : String) (a : Str) : Prop := a.map lower = k.toList

/-- the argument begins with `k`, in capitals or not -/
abbrev Begins (k : String) (a : Str) : Prop := (a.take k.toList.length).map lower = k.toList

theorem parseArg_eq (c : Ctrl) (a : Str) :
    parseArg c a = ⟨c.icase || decide (IsOpt "icase" a), c.keyOnly || decide (IsOpt "key_only" a), c.useFirst || decide (IsOpt "use_first_pass" a),
      c.tryFirst || decide (IsOpt "try_first_pass" a), c.unknownOk || decide (IsOpt "unknown_ok" a),
      if Begins "db=" a then (if a.drop 3 = [] then none else some (a.drop 3)) else c.db,
      if Begins "crypt=" a then some (a.drop 6) else c.crypt⟩ := by
  have key : ∀ {P : Prop} [Decidable P] (b : Bool), ¬ P → (b || decide P) = b := fun b h => by simp [h]
  have key' : ∀ {P : Prop} [Decidable P] (b : Bool), P → (b || decide P) = true := fun b h => by simp [h]
  unfold parseArg
  simp only [skipIcase, ieq, beq_iff_eq]
  rw [show "icase".toList.map lower = "icase".toList by decide, show "dump".toList.map lower = "dump".toList by decide,
    show "unknown_ok".toList.map lower = "unknown_ok".toList by decide, show "key_only".toList.map lower = "key_only".toList by decide,
    show "use_first_pass".toList.map lower = "use_first_pass".toList by decide, show "try_first_pass".toList.map lower = "try_first_pass".toList by decide,
    show "db=".toList.map lower = "db=".toList by decide, show "crypt=".toList.map lower = "crypt=".toList by decide]
  by_cases h0 : a = "debug".toList
  · subst h0; rw [if_pos rfl]
    simp only [IsOpt, Begins]
    rw [key, key, key, key, key, if_neg, if_neg] <;> decide
  rw [if_neg h0]
  simp only [IsOpt, Begins]
  have tk : ∀ k : Str, a.map lower = k → ((a.take "db=".toList.length).map lower = k.take 3) ∧ ((a.take "crypt=".toList.length).map lower = k.take 6) :=
    fun k h => ⟨take_low 3 h, take_low 6 h⟩
  by_cases h1 : a.map lower = "icase".toList
  · rw [if_pos h1, (tk _ h1).1, (tk _ h1).2, h1, key', key, key, key, key, if_neg, if_neg] <;> decide
  rw [if_neg h1]
  by_cases h2 : a.map lower = "dump".toList
  · rw [if_pos h2, (tk _ h2).1, (tk _ h2).2, h2, key, key, key, key, key, if_neg, if_neg] <;> decide
  rw [if_neg h2]
  by_cases h3 : a.map lower = "unknown_ok".toList
  · rw [if_pos h3, (tk _ h3).1, (tk _ h3).2, h3, key, key, key, key, key', if_neg, if_neg] <;> decide
  rw [if_neg h3]
  by_cases h4 : a.map lower = "key_only".toList
  · rw [if_pos h4, (tk _ h4).1, (tk _ h4).2, h4, key, key', key, key, key, if_neg, if_neg] <;> decide
  rw [if_neg h4]
  by_cases h5 : a.map lower = "use_first_pass".toList
  · rw [if_pos h5, (tk _ h5).1, (tk _ h5).2, h5, key, key, key', key, key, if_neg, if_neg] <;> decide
  rw [if_neg h5]
  by_cases h6 : a.map lower = "try_first_pass".toList
  · rw [if_pos h6, (tk _ h6).1, (tk _ h6).2, h6, key, key, key, key', key, if_neg, if_neg] <;> decide
  rw [if_neg h6, key _ h1, key _ h4, key _ h5, key _ h6, key _ h3]
  by_cases h7 : (a.take "db=".toList.length).map lower = "db=".toList
  · have h8 : ¬ (a.take "crypt=".toList.length).map lower = "crypt=".toList := by
      intro e
      have e' := congrArg (List.take 3) e
      rw [← List.map_take, List.take_take] at e'
      have : (a.take "db=".toList.length).map lower = "cry".toList := e'
      rw [this] at h7
      exact absurd h7 (by decide)
    rw [if_pos h7, if_pos h7, if_neg h8, if_neg h8]
    rfl
  · rw [if_neg h7, if_neg h7]
    by_cases h8 : (a.take "crypt=".toList.length).map lower = "crypt=".toList
    · rw [if_pos h8, if_pos h8]; rfl
    · rw [if_neg h8, if_neg h8]

/-- `v` is the value of the last argument that begins with `k`, in capitals or not -/
def LastIs (k : String) (argv : List Str) (v : Str) : Prop :=
  ∃ pre x post, argv = pre ++ (x ++ v) :: post ∧ x.map lower = k.toList ∧ ∀ y ∈ post, ¬ Begins k y

theorem parse_snoc (argv : List Str) (a : Str) : parse (argv ++ [a]) = parseArg (parse argv) a := by
  unfold parse; rw [List.foldl_append]; rfl

theorem rev_ind {α : Type} {P : List α → Prop} (h0 : P []) (h1 : ∀ l a, P l → P (l ++ [a])) (l : List α) : P l := by
  rw [← List.reverse_reverse l]
  induction l.reverse with
  | nil => exact h0
  | cons a l ih => rw [List.reverse_cons]; exact h1 _ _ ih

theorem last_snoc {k : String} {argv : List Str} {a v : Str} :
    LastIs k (argv ++ [a]) v ↔ (Begins k a ∧ v = a.drop k.toList.length) ∨ (¬ Begins k a ∧ LastIs k argv v) := by
  have hb : ∀ x v : Str, x.map lower = k.toList → Begins k (x ++ v) ∧ v = (x ++ v).drop k.toList.length := fun x v h => by
    have hl : k.toList.length = x.length := by rw [← h, List.length_map]
    simp only [Begins]
    rw [hl, List.take_left, List.drop_left]
    exact ⟨h, rfl⟩
  constructor
  · rintro ⟨pre, x, post, he, hx, hp⟩
    rcases List.eq_nil_or_concat post with rfl | ⟨post', b, rfl⟩
    · obtain ⟨e1, e2⟩ := List.append_inj' he rfl
      cases e2
      exact .inl (hb x v hx)
    · rw [List.concat_eq_append, ← List.cons_append, ← List.append_assoc] at he
      obtain ⟨e1, e2⟩ := List.append_inj' he rfl
      cases e2
      refine .inr ⟨hp a (by simp), pre, x, post', e1, hx, fun y hy => hp y (by simp [hy])⟩
  · rintro (⟨h, rfl⟩ | ⟨h, pre, x, post, rfl, hx, hp⟩)
    · exact ⟨argv, a.take k.toList.length, [], by rw [List.take_append_drop], h, by simp⟩
    · refine ⟨pre, x, post ++ [a], by simp, hx, fun y hy => ?_⟩
      rcases List.mem_append.1 hy with e | e
      · exact hp y e
      · rw [List.mem_singleton.1 e]; exact h

/-- C108 (the options): what each option does with all argument lists.  The names do not depend on case; of several databases or methods the
last one counts; an empty db= is none. -/
theorem C108_options (argv : List Str) :
    ((parse argv).icase = true ↔ ∃ a ∈ argv, IsOpt "icase" a) ∧ ((parse argv).keyOnly = true ↔ ∃ a ∈ argv, IsOpt "key_only" a) ∧
    ((parse argv).useFirst = true ↔ ∃ a ∈ argv, IsOpt "use_first_pass" a) ∧ ((parse argv).tryFirst = true ↔ ∃ a ∈ argv, IsOpt "try_first_pass" a) ∧
    (∀ v, (parse argv).db = some v ↔ v ≠ [] ∧ LastIs "db=" argv v) ∧ (∀ v, (parse argv).crypt = some v ↔ LastIs "crypt=" argv v) := by
  have hnil : ∀ k v, ¬ LastIs k [] v := by rintro k v ⟨pre, x, post, he, _⟩; cases pre <;> cases he
  induction argv using rev_ind with
  | h0 => simp [parse, Ctrl.zero, hnil]
  | h1 l a ih =>
    obtain ⟨h1, h2, h3, h4, h5, h6⟩ := ih
    rw [parse_snoc, parseArg_eq]
    simp only [Bool.or_eq_true, decide_eq_true_eq, h1, h2, h3, h4, List.mem_append, List.mem_singleton, or_and_right, exists_or, exists_eq_left, last_snoc, true_and]
    refine ⟨fun v => ?_, fun v => ?_⟩
    · by_cases hb : Begins "db=" a
      · rw [if_pos hb]
        rw [show (Begins "db=" a ∧ v = a.drop "db=".toList.length ∨ ¬ Begins "db=" a ∧ LastIs "db=" l v) ↔ v = a.drop 3 from
          ⟨fun e => e.elim (·.2) (fun e => absurd hb e.1), fun e => .inl ⟨hb, e⟩⟩]
        split
        · rename_i he; rw [he]; simp
        · rename_i he
          constructor
          · intro e; cases e; exact ⟨he, rfl⟩
          · rintro ⟨_, rfl⟩; rfl
      · rw [if_neg hb, h5]; exact ⟨fun e => ⟨e.1, .inr ⟨hb, e.2⟩⟩, fun e => ⟨e.1, e.2.elim (fun x => absurd x.1 hb) (·.2)⟩⟩
    · by_cases hb : Begins "crypt=" a
      · rw [if_pos hb]
        rw [show (Begins "crypt=" a ∧ v = a.drop "crypt=".toList.length ∨ ¬ Begins "crypt=" a ∧ LastIs "crypt=" l v) ↔ v = a.drop 6 from
          ⟨fun e => e.elim (·.2) (fun e => absurd hb e.1), fun e => .inl ⟨hb, e⟩⟩]
        constructor
        · intro e; cases e; rfl
        · rintro rfl; rfl
      · rw [if_neg hb, h6]; exact ⟨fun e => .inr ⟨hb, e⟩, fun e => e.elim (fun x => absurd x.1 hb) (·.2)⟩

/-- witness: the last database counts -/
example : (parse ["db=x".toList, "DB=/y".toList, "Crypt=crypt".toList, "key_only".toList]).db = some "/y".toList ∧
    LastIs "db=" ["db=x".toList, "DB=/y".toList, "key_only".toList] "/y".toList :=
  ⟨by decide, ["db=x".toList], "DB=".toList, ["key_only".toList], by decide, by decide, by decide⟩

/-! ### examples -/

/-- a database with plain passwords -/
def exDb : List (Str × Str) := [("ann".toList, "secret".toList), ("bob".toList, "Pass".toList)]

/-- authentication of a user with a password against `exDb` -/
def exRun (u p : String) : Option Int :=
  (authenticate (fun _ _ => none) (fun n => if n = "x".toList then some exDb else none) ["db=x".toList, "ICASE".toList]
    ⟨.ok u.toList, none, PAM_SUCCESS, some p.toList⟩).map (·.1)

/-- witness for C108 and C109: right, wrong and unknown -/
example : exRun "bob" "pass" = some PAM_SUCCESS ∧ exRun "bob" "pas" = some PAM_AUTH_ERR ∧ exRun "eve" "pass" = some PAM_USER_UNKNOWN ∧
    (exDb.map (·.1)).Nodup := by decide

/-- witness: an entry that is found by its key only -/
example : lookup (fun _ _ => none) (some [("ann-Secret".toList, [])]) { Ctrl.zero with keyOnly := true, icase := true } "ann".toList "secret".toList = some 0 := by decide

/-- witness: hashes -/
example : lookup (fun p _ => some (p ++ "0123456789ab".toList)) (some [("ann".toList, "x0123456789ab".toList)]) { Ctrl.zero with crypt := some "Crypt".toList } "ann".toList "x".toList =
    some 0 := by decide

/-- With key_only the name and the password are not told apart: the entry of a user lets in another one, whose name goes on with a part of
the password. -/
theorem C108_key_only_counterexample :
    let db := [("ann".toList ++ '-' :: "b-c".toList, [])]
    let c := { Ctrl.zero with keyOnly := true }
    Fits (fun _ _ => none) db c "ann".toList "b-c".toList ∧ lookup (fun _ _ => none) (some db) c "ann-b".toList "c".toList = some 0 := by
  refine ⟨⟨"b-c".toList, [], by simp, by unfold Equal; decide⟩, by decide⟩

/-- What follows a NUL in the database does not count: a password that is stored with one is cut there. -/
theorem C108_nul_counterexample :
    lookup (fun _ _ => none) (some [("ann".toList, "a".toList ++ NUL :: "bc".toList)]) Ctrl.zero "ann".toList "a".toList = some 0 := by decide

/-- An empty entry lets the user in without a password. -/
theorem C108_empty_counterexample : lookup (fun _ _ => none) (some [("ann".toList, [])]) Ctrl.zero "ann".toList [] = some 0 := by decide

/-- The option unknown_ok, which should make an unknown user no error, does nothing. -/
theorem C109_unknown_ok_counterexample (crypt : Str → Str → Option Str) (db : Option (List (Str × Str))) (c : Ctrl) (user pass : Str) :
    lookup crypt db { c with unknownOk := true } user pass = lookup crypt db c user pass ∧
    (authenticate (fun _ _ => none) (fun _ => some exDb) ["db=x".toList, "unknown_ok".toList] ⟨.ok "eve".toList, none, PAM_SUCCESS, some []⟩).map (·.1) =
      some PAM_USER_UNKNOWN := ⟨rfl, by decide⟩

/-- A method that is misspelt is plain text: with crypt=sha512 the hash itself is the password. -/
theorem C108_misspelt_counterexample :
    lookup (fun _ _ => none) (some [("ann".toList, "$6$abcdefghijk".toList)]) { Ctrl.zero with crypt := some "sha512".toList } "ann".toList "$6$abcdefghijk".toList = some 0 := by decide

/-- Without db= account management gives a null pointer to the database library. -/
theorem C109_no_database_counterexample : acct (fun _ _ => none) (fun _ => some exDb) [] (.ok "ann".toList) = none := by decide

end Pam.Userdb
