import Verif.Timestamp.Lemmas
/-
The decision of pam_timestamp, in terms of the specification.
-/
namespace Pam.Timestamp
open Pam Pam.Digest Spec

theorem stamp_split {key p content : Str} {thn : Int} (h : Stamp key p thn content) :
    content.length = p.length + 1 + 8 + 20 ∧ content.take p.length = p ∧
    content.drop (p.length + 1 + 8) = Digest.Spec.hmacSha1 key (content.take (p.length + 1 + 8)) ∧
    timeValue ((content.drop (p.length + 1)).take 8) = thn := by
  obtain ⟨x, t, ht, hv, rfl⟩ := h
  have hl := hmacSha1_length key (p ++ x :: t)
  generalize hm : Digest.Spec.hmacSha1 key (p ++ x :: t) = m at hl
  have e1 : (p ++ x :: t ++ m).take (p.length + 1 + 8) = p ++ x :: t := by
    rw [List.take_append_of_le_length (by simp; omega), List.take_of_length_le (by simp; omega)]
  have e2 : (p ++ x :: t ++ m).drop (p.length + 1 + 8) = m := by
    rw [List.drop_append_of_le_length (by simp; omega), List.drop_of_length_le (by simp; omega)]; rfl
  have e3 : (p ++ x :: t ++ m).drop (p.length + 1) = t ++ m := by
    rw [show p ++ x :: t ++ m = (p ++ [x]) ++ (t ++ m) by simp, List.drop_append_of_le_length (by simp), List.drop_of_length_le (by simp)]; rfl
  refine ⟨by simp; omega, by simp, by rw [e1, e2, hm], ?_⟩
  rw [e3, List.take_append_of_le_length (by omega), List.take_of_length_le (by omega)]
  exact hv

theorem stamp_join {key p content : Str} (h1 : content.length = p.length + 1 + 8 + 20) (h2 : content.take p.length = p)
    (h3 : content.drop (p.length + 1 + 8) = Digest.Spec.hmacSha1 key (content.take (p.length + 1 + 8))) :
    Stamp key p (timeValue ((content.drop (p.length + 1)).take 8)) content := by
  have hd : ∃ x q, content.drop p.length = x :: q := by
    cases h : content.drop p.length with
    | nil => have := congrArg List.length h; simp at this; omega
    | cons x q => exact ⟨x, q, rfl⟩
  obtain ⟨x, q, hq⟩ := hd
  have hc : content = p ++ x :: q := by rw [← hq]; conv => lhs; rw [← List.take_append_drop p.length content, h2]
  have hql : q.length = 28 := by rw [hc] at h1; simp at h1; omega
  have e3 : content.drop (p.length + 1) = q := by
    rw [hc, show p ++ x :: q = (p ++ [x]) ++ q by simp, List.drop_append_of_le_length (by simp), List.drop_of_length_le (by simp)]; rfl
  have e1 : content.take (p.length + 1 + 8) = p ++ x :: q.take 8 := by
    rw [hc, show p ++ x :: q = (p ++ [x]) ++ q by simp, show p.length + 1 + 8 = (p ++ [x]).length + 8 by simp, List.take_length_add_append]
    simp
  rw [e3]
  refine ⟨x, q.take 8, by simp; omega, rfl, ?_⟩
  rw [← e1, ← h3, List.take_append_drop]

theorem checkFile_iff (w : World) (argv : List Str) (p : Str) (f : TFile) (hp : p.length < 4096) (hk : ∀ b, w.key = .bytes b → b.length ≤ 2 ^ 32) :
    checkFile w argv p f = some PAM_SUCCESS ↔ f.uid = 0 ∧ f.gid = 0 ∧ f.regular = true ∧ f.readOk = true ∧
      ∃ key thn r, KeyOf w.keyIO w.key key ∧ 20 ≤ key.length ∧ Stamp key p thn f.content ∧ getRuser w.items = some r ∧
        checkLoginTime r w.utmp thn = true ∧ timestampGood thn w.now (interval argv) = some true := by
  have hne : ¬ (some PAM_AUTH_ERR : Option Int) = some PAM_SUCCESS := by decide
  have hlm : (f.content.take (p.length + 1 + 8)).length ≤ 2 ^ 32 := by simp; omega
  unfold checkFile
  by_cases c1 : f.uid ≠ 0 ∨ f.gid ≠ 0
  · rw [if_pos c1]; constructor
    · intro h; exact absurd h hne
    · rintro ⟨a, b, _⟩; omega
  rw [if_neg c1]
  by_cases c2 : ¬ f.regular = true
  · rw [if_pos c2]; constructor
    · intro h; exact absurd h hne
    · rintro ⟨_, _, h, _⟩; exact absurd h c2
  rw [if_neg c2]
  have side : ∀ {key thn}, Stamp key p thn f.content → f.content.length = p.length + 1 + 8 + 20 := fun h => (stamp_split h).1
  by_cases c3 : f.content.length = 0
  · rw [if_pos c3]; constructor
    · intro h; exact absurd h hne
    · rintro ⟨_, _, _, _, key, thn, r, _, _, h, _⟩; have := side h; omega
  rw [if_neg c3]
  by_cases c4 : f.content.length ≠ p.length + 1 + 8 + 20
  · rw [if_pos c4]; constructor
    · intro h; exact absurd h hne
    · rintro ⟨_, _, _, _, key, thn, r, _, _, h, _⟩; exact absurd (side h) c4
  rw [if_neg c4]
  by_cases c5 : ¬ f.readOk = true
  · rw [if_pos c5]; constructor
    · intro h; exact absurd h hne
    · rintro ⟨_, _, _, h, _⟩; exact absurd h c5
  rw [if_neg c5]
  have c1' : f.uid = 0 ∧ f.gid = 0 := by omega
  have c2' : f.regular = true := by simpa using c2
  have c4' : f.content.length = p.length + 1 + 8 + 20 := by omega
  have c5' : f.readOk = true := by simpa using c5
  dsimp only
  have hmac := macFile_iff w.keyIO w.key (f.content.take (p.length + 1 + 8))
  cases hm : (macFile w.keyIO w.key (f.content.take (p.length + 1 + 8))).1 with
  | none =>
    dsimp only; constructor
    · intro h; cases h
    · rintro ⟨_, _, _, _, key, thn, r, hko, h20, hst, _⟩
      have := (hmac _ hlm hk).2 ⟨key, hko, h20, rfl⟩
      rw [hm] at this; cases this
  | some o =>
  cases o with
  | none =>
    dsimp only; constructor
    · intro h; exact absurd h hne
    · rintro ⟨_, _, _, _, key, thn, r, hko, h20, hst, _⟩
      have := (hmac _ hlm hk).2 ⟨key, hko, h20, rfl⟩
      rw [hm] at this; cases this
  | some mac =>
  dsimp only
  obtain ⟨key, hko, h20, hmaceq⟩ := (hmac mac hlm hk).1 hm
  have uniq : ∀ key', KeyOf w.keyIO w.key key' → 20 ≤ key'.length → key' = key := by
    intro key' h' h20'
    have a := (keyRead_iff _ _ _ h20').2 h'
    have b := (keyRead_iff _ _ _ h20).2 hko
    rw [a] at b; exact Option.some.inj b
  by_cases c6 : f.content.take p.length ≠ p
  · rw [if_pos c6]; constructor
    · intro h; exact absurd h hne
    · rintro ⟨_, _, _, _, key', thn, r, _, _, hst, _⟩; exact absurd (stamp_split hst).2.1 c6
  rw [if_neg c6]
  have c6' : f.content.take p.length = p := by simpa using c6
  by_cases c7 : mac ≠ f.content.drop (p.length + 1 + 8)
  · rw [if_pos c7]; constructor
    · intro h; exact absurd h hne
    · rintro ⟨_, _, _, _, key', thn, r, hk', h20', hst, _⟩
      have := uniq key' hk' h20'
      subst this
      exact absurd (by rw [(stamp_split hst).2.2.1, hmaceq]) c7
  rw [if_neg c7]
  have c7' : mac = f.content.drop (p.length + 1 + 8) := by simpa using c7
  have hjoin : Stamp key p (timeValue ((f.content.drop (p.length + 1)).take 8)) f.content := stamp_join c4' c6' (by rw [← c7', hmaceq])
  have ht : (timeOf ((f.content.drop (p.length + 1)).take 8)).toInt = timeValue ((f.content.drop (p.length + 1)).take 8) :=
    timeOf_toInt (by simp; omega)
  rw [ht]
  have hthn : ∀ {key' thn}, Stamp key' p thn f.content → timeValue ((f.content.drop (p.length + 1)).take 8) = thn := fun h => (stamp_split h).2.2.2
  generalize timeValue ((f.content.drop (p.length + 1)).take 8) = T at hjoin hthn
  cases hr : getRuser w.items with
  | none =>
    dsimp only; constructor
    · intro h; exact absurd h hne
    · rintro ⟨_, _, _, _, _, _, _, _, _, _, h, _⟩; cases h
  | some r =>
  dsimp only
  by_cases c8 : checkLoginTime r w.utmp T = true
  · rw [if_neg (by simp [c8])]
    constructor
    · intro h
      refine ⟨c1'.1, c1'.2, c2', c5', key, T, r, hko, h20, hjoin, rfl, c8, ?_⟩
      cases hg : timestampGood T w.now (interval argv) with
      | none => rw [hg] at h; cases h
      | some b => cases b with
        | true => rfl
        | false => rw [hg] at h; exact absurd h hne
    · rintro ⟨_, _, _, _, key', thn, r', _, _, hst, he, _, hg⟩
      have := hthn hst; subst this
      rw [hg]
  · rw [if_pos c8]
    constructor
    · intro h; exact absurd h hne
    · rintro ⟨_, _, _, _, key', thn, r', _, _, hst, he, hc, _⟩
      have := hthn hst; subst this
      cases he
      exact absurd hc c8

/-! ### nothing undefined -/

theorem dirLoop_defined (lstat : Str → LRes) : ∀ (rest done : Str) (s : Stat), done.length + rest.length < 4096 → dirLoop lstat done (some s) rest ≠ .bad := by
  intro rest
  induction rest with
  | nil => intro done s _; unfold dirLoop; simp
  | cons c q ih =>
    intro done s hl
    have hl' : (done ++ [c]).length + q.length < 4096 := by simp at hl ⊢; omega
    have hs : ¬ (done ++ [c]).length = 4096 := by simp at hl ⊢; omega
    have hd : ¬ done.length ≥ 4096 := by simp at hl; omega
    unfold dirLoop
    rw [if_neg hd]
    dsimp only
    by_cases hc : c = slash ∨ q = []
    · rw [if_pos hc, if_neg hs]
      cases lstat (done ++ [c]) with
      | error => simp
      | noent =>
        dsimp only
        cases h : checkStat (some s) with
        | bad => exact absurd h (checkStat_some_bad s)
        | fail => simp
        | good => exact ih _ _ hl'
      | ok st =>
        dsimp only
        cases h : checkStat (some st) with
        | bad => exact absurd h (checkStat_some_bad st)
        | fail => simp
        | good => exact ih _ _ hl'
    · rw [if_neg hc]; exact ih _ _ hl'

theorem checkDir_defined {lstat : Str → LRes} {dir : Str} (hl : dir.length < 4096) (habs : dir.head? = some slash)
    (hroot : ∃ st, lstat [slash] = .ok st) : checkDirPerms lstat dir ≠ .bad := by
  obtain ⟨st, hst⟩ := hroot
  cases dir with
  | nil => simp at habs
  | cons c q =>
  have hc : c = slash := by simpa using habs
  subst hc
  unfold checkDirPerms
  rw [if_neg (by simp)]
  unfold dirLoop
  rw [if_neg (by simp)]
  dsimp only
  rw [if_pos (.inl rfl), if_neg (by simp), show ([] : Str) ++ [slash] = [slash] from rfl, hst]
  dsimp only
  cases h : checkStat (some st) with
  | bad => exact absurd h (checkStat_some_bad st)
  | fail => simp
  | good => exact dirLoop_defined _ _ _ _ (by simp at hl ⊢; omega)

theorem getName_defined {lstat : Str → LRes} {it : Items} {argv : List Str} (hdir : ∀ d, DirOf argv d → d.head? = some slash ∧ d.length < 4096)
    (hroot : ∃ st, lstat [slash] = .ok st) : getName lstat it argv ≠ .bad := by
  have hd := hdir _ ((timestampDir_iff argv _).1 rfl)
  have := checkDir_defined hd.2 hd.1 hroot
  unfold getName
  dsimp only
  cases h : checkDirPerms lstat (timestampDir argv) with
  | bad => exact absurd h this
  | fail => simp
  | good =>
    dsimp only
    cases it.user with
    | none => simp
    | some u =>
    dsimp only
    by_cases hu : u.length = 0
    · rw [if_pos hu]; simp
    rw [if_neg hu]
    cases getRuser it with
    | none => simp
    | some r =>
    dsimp only
    by_cases hr : r.length = 0
    · rw [if_pos hr]; simp
    rw [if_neg hr]
    cases checkTty (ttyOf it) with
    | none => simp
    | some t =>
    dsimp only
    cases formatName (timestampDir argv) t r u with
    | none => simp
    | some p => simp

theorem keyRead_length (io : KeyIO) (f : KeyFile) (key : Str) (h : (keyRead io f).1 = some key) (hk : ∀ b, f = .bytes b → b.length ≤ 2 ^ 32) : key.length ≤ 2 ^ 32 := by
  by_cases h20 : 20 ≤ key.length
  · rcases ((keyRead_iff io f key h20).1 h).2.2 with h | ⟨_, _, _, _, r, _, _, rfl⟩
    · exact hk _ h
    · simp; omega
  · omega

theorem macFile_defined (io : KeyIO) (f : KeyFile) (text : Str) (ht : text.length ≤ 2 ^ 32) (hk : ∀ b, f = .bytes b → b.length ≤ 2 ^ 32) :
    (macFile io f text).1 ≠ none := by
  have hlen := keyRead_length io f
  unfold macFile
  obtain ⟨⟨a, b⟩, h⟩ : ∃ t, keyRead io f = t := ⟨_, rfl⟩
  rw [h] at hlen ⊢
  cases a with
  | none => simp
  | some k =>
    dsimp only
    by_cases h20 : 20 ≤ k.length
    · rw [Sha1.hmac_eq k text h20 (hlen k rfl hk) ht]; simp
    · have : Sha1.hmac k text = some none := by unfold Sha1.hmac; rw [if_pos (by omega)]
      rw [this]; simp

theorem timestampGood_defined {thn now iv : Int} (h0 : 0 ≤ thn) (h1 : thn < 2 ^ 63) (hnow : 0 ≤ now ∧ now < 2 ^ 63) (hiv : -(2 ^ 62) ≤ iv ∧ iv < 2 ^ 62) :
    timestampGood thn now iv ≠ none := by
  unfold timestampGood inTime
  by_cases h : now ≥ thn
  · rw [if_pos h, if_pos (by simp; omega)]; simp
  · rw [if_neg h, if_pos (by simp; omega)]; simp

theorem timeValue_lt {b : Str} (h : b.length = 8) : -(2 ^ 63) ≤ timeValue b ∧ timeValue b < 2 ^ 63 := by
  have := foldr_lt b
  rw [h] at this
  unfold timeValue
  dsimp only
  generalize b.foldr (fun x (acc : Nat) => acc * 256 + x.toNat) 0 = n at this
  split <;> omega

theorem checkFile_cases (w : World) (argv : List Str) (p : Str) (f : TFile) (hp : p.length < 4096) (hk : ∀ b, w.key = .bytes b → b.length ≤ 2 ^ 32)
    (hs : SaneLogins w.utmp) (hnow : 0 ≤ w.now ∧ w.now < 2 ^ 63) (hiv : -(2 ^ 62) ≤ interval argv ∧ interval argv < 2 ^ 62) :
    checkFile w argv p f = some PAM_SUCCESS ∨ checkFile w argv p f = some PAM_AUTH_ERR := by
  unfold checkFile
  by_cases c1 : f.uid ≠ 0 ∨ f.gid ≠ 0
  · rw [if_pos c1]; exact .inr rfl
  rw [if_neg c1]
  by_cases c2 : ¬ f.regular = true
  · rw [if_pos c2]; exact .inr rfl
  rw [if_neg c2]
  by_cases c3 : f.content.length = 0
  · rw [if_pos c3]; exact .inr rfl
  rw [if_neg c3]
  by_cases c4 : f.content.length ≠ p.length + 1 + 8 + 20
  · rw [if_pos c4]; exact .inr rfl
  rw [if_neg c4]
  by_cases c5 : ¬ f.readOk = true
  · rw [if_pos c5]; exact .inr rfl
  rw [if_neg c5]
  dsimp only
  cases hm : (macFile w.keyIO w.key (f.content.take (p.length + 1 + 8))).1 with
  | none => exact absurd hm (macFile_defined _ _ _ (by simp; omega) hk)
  | some o =>
  cases o with
  | none => exact .inr rfl
  | some mac =>
  dsimp only
  by_cases c6 : f.content.take p.length ≠ p
  · rw [if_pos c6]; exact .inr rfl
  rw [if_neg c6]
  by_cases c7 : mac ≠ f.content.drop (p.length + 1 + 8)
  · rw [if_pos c7]; exact .inr rfl
  rw [if_neg c7]
  have h8 : ((f.content.drop (p.length + 1)).take 8).length = 8 := by simp; omega
  rw [timeOf_toInt h8]
  have hb := timeValue_lt h8
  generalize timeValue ((f.content.drop (p.length + 1)).take 8) = T at hb
  cases getRuser w.items with
  | none => exact .inr rfl
  | some r =>
  dsimp only
  by_cases c8 : checkLoginTime r w.utmp T = true
  · rw [if_neg (by simp [c8])]
    obtain ⟨u, hu, a, b, c⟩ := (checkLoginTime_iff r w.utmp T hs).1 c8
    have := (hs u hu a).1
    cases hg : timestampGood T w.now (interval argv) with
    | none => exact absurd hg (timestampGood_defined (by omega) hb.2 hnow hiv)
    | some b => cases b
                · exact .inr rfl
                · exact .inl rfl
  · rw [if_pos c8]; exact .inr rfl

theorem fileOf_short {lstat : Str → LRes} {it : Items} {argv : List Str} {p : Str} (h : FileOf lstat it argv p) :
    p.length < 4096 ∧ ∃ r, Requester it r ∧ r.length < 4096 := by
  obtain ⟨dir, u, r, full, t, _, _, _, _, hr, _, _, hp, hl⟩ := h
  have := fileFor_length dir r t u
  rw [← hp] at this
  exact ⟨hl, r, hr, by omega⟩

theorem requester_unique {it : Items} {r r' : Str} (hr : Requester it r) (hr' : Requester it r') : r = r' := by
  rcases hr with ⟨_, ⟨h, hp⟩ | ⟨h, h2⟩⟩ <;> rcases hr' with ⟨_, ⟨h', hp'⟩ | ⟨h', h2'⟩⟩
  · rw [h] at h'; exact Option.some.inj h'
  · rcases h' with h' | h' <;> rw [h] at h'
    · cases h'
    · exact absurd (Option.some.inj h') hp.1
  · rcases h with h | h <;> rw [h] at h'
    · cases h'
    · exact absurd (Option.some.inj h').symm hp'.1
  · rw [h2] at h2'; exact Option.some.inj h2'

end Pam.Timestamp
