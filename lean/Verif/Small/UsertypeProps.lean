import Verif.Small.WheelProps
import Verif.Util.FilesProps
/-
Property theorem C88: pam_usertype, pam_rootok and pam_localuser.
-/
namespace Pam.Small
open Pam

/-! ### vocabulary -/

/-- the text is the number of a user id: a number in decimal, which may have blanks around it and a sign; `strtoul` takes negative ones modulo 2^64.
4294967295 is no user id. -/
def IdText (v : Str) (n : Nat) : Prop :=
  ∃ body blanks x, v = body ++ blanks ∧ (∀ c ∈ blanks, isSpace c) ∧ Signed (Digits 10) body x ∧ x.natAbs ≤ 18446744073709551615 ∧
    x % 18446744073709551616 = n ∧ n < 4294967295

/-- the value of a setting of /etc/login.defs, `d` if it is not there or not such a number -/
def Setting (defs : Str → Option Str) (key : String) (d n : Nat) : Prop :=
  (∃ v, defs key.toList = some v ∧ IdText v n) ∨ ((∀ v, defs key.toList = some v → ∀ m, ¬ IdText v m) ∧ n = d)

/-- a system account: the id of nobody, or one below UID_MIN that is at most SYS_UID_MAX (without that setting, any below UID_MIN) -/
def SystemId (b : Build) (defs : Str → Option Str) (uid : Nat) : Prop :=
  uid = b.overflow ∨ ∃ lo, Setting defs "UID_MIN" b.uidMin lo ∧ uid < lo ∧ ∃ hi, Setting defs "SYS_UID_MAX" (lo - 1) hi ∧ uid ≤ hi

/-- the account looked at: that of the real user id with `use_uid`, that of the user otherwise -/
def Examined (a : Accounts) (c : TypeCall) (argv : List Str) (u : User) : Prop :=
  if "use_uid".toList ∈ argv then a.pwuid c.uid = some u else c.user.1 = PAM_SUCCESS ∧ a.pwnam c.user.2 = some u

/-- the question asked last -/
def Asked (argv : List Str) (system : Bool) : Prop :=
  ∃ pre post, argv = pre ++ (if system then "issystem".toList else "isregular".toList) :: post ∧ "issystem".toList ∉ post ∧ "isregular".toList ∉ post

/-! ### helper lemmas -/

theorem trim_spec (v : Str) : ∃ blanks, v = (v.reverse.dropWhile isSpace).reverse ++ blanks ∧ (∀ c ∈ blanks, isSpace c) := by
  obtain ⟨ws, hw, e⟩ := split_blanks v.reverse
  refine ⟨ws.reverse, ?_, fun c hc => hw c (List.mem_reverse.mp hc)⟩
  have := congrArg List.reverse e
  rw [List.reverse_reverse, List.reverse_append] at this
  exact this

theorem signed_last {body : Str} {x : Int} (h : Signed (Digits 10) body x) : ∀ c, body.reverse.head? = some c → isSpace c = false := by
  obtain ⟨ws, u, n, -, ⟨hne, hd, -⟩, h⟩ := h
  have hlast : ∀ pre : Str, ∀ c, (pre ++ u).reverse.head? = some c → isSpace c = false := by
    intro pre c hc
    rw [List.reverse_append] at hc
    cases hu : u.reverse with
    | nil => exact absurd (List.reverse_eq_nil_iff.mp hu) hne
    | cons y t =>
      rw [hu] at hc
      cases hc
      exact (digit_not_space (by decide) (hd c (List.mem_reverse.mp (by rw [hu]; exact List.mem_cons_self)))).1
  rcases h with ⟨rfl, -⟩ | ⟨rfl, -⟩ | ⟨rfl, -⟩
  · exact hlast ws
  · have := hlast (ws ++ ['+'])
    rwa [List.append_assoc] at this
  · have := hlast (ws ++ ['-'])
    rwa [List.append_assoc] at this

theorem trim_body {body blanks : Str} {x : Int} (h : Signed (Digits 10) body x) (hb : ∀ c ∈ blanks, isSpace c) :
    ((body ++ blanks).reverse.dropWhile isSpace).reverse = body := by
  rw [List.reverse_append, dropWhile_blanks (fun c hc => hb c (List.mem_reverse.mp hc)) (signed_last h), List.reverse_reverse]

theorem strtoul10_some {t : Str} {x : Int} (h : Signed (Digits 10) t x) :
    t ≠ [] ∧ strtoul10 t = (if 18446744073709551615 < x.natAbs then 18446744073709551615 else (x % 18446744073709551616).toNat, []) := by
  obtain ⟨h, hne⟩ := (strtoInt_base 10 (by decide) (by decide) (by decide) t x).mpr h
  refine ⟨hne, ?_⟩
  unfold strtoul10
  rw [h]
  dsimp only
  split <;> rfl

theorem strtoul10_end {t : Str} (h : (strtoul10 t).2 = []) (hne : t ≠ []) : ∃ x, Signed (Digits 10) t x := by
  refine ⟨(strtoInt 10 t).1, (strtoInt_base 10 (by decide) (by decide) (by decide) t _).mp ⟨?_, hne⟩⟩
  obtain ⟨⟨x, e⟩, hxe⟩ : ∃ t', strtoInt 10 t = t' := ⟨_, rfl⟩
  unfold strtoul10 at h
  rw [hxe] at h ⊢
  dsimp only at h ⊢
  have : e = [] := by
    split at h
    · exact h
    · exact h
  rw [this]

theorem getId_some (v : Str) (d : Nat) : (∀ n, IdText v n → getId (some v) d = n) ∧ ((∀ m, ¬ IdText v m) → getId (some v) d = d) := by
  refine ⟨?_, ?_⟩
  · rintro n ⟨body, blanks, x, rfl, hb, hs, hx, hn, hlt⟩
    obtain ⟨hne, e⟩ := strtoul10_some hs
    unfold getId
    dsimp only
    rw [trim_body hs hb, e]
    dsimp only
    have hn' : (x % 18446744073709551616).toNat = n := by omega
    rw [if_neg (show ¬ 18446744073709551615 < x.natAbs by omega), hn', if_neg (by
      rintro (h | h | h | h)
      · omega
      · omega
      · exact hne h
      · exact h rfl)]
    omega
  · intro hno
    unfold getId
    dsimp only
    obtain ⟨blanks, hv, hb⟩ := trim_spec v
    generalize (v.reverse.dropWhile isSpace).reverse = t at hv ⊢
    split
    · rfl
    · next h =>
      simp only [not_or] at h
      obtain ⟨h1, h2, h3, h4⟩ := h
      have h4 := Classical.not_not.mp h4
      obtain ⟨x, hs⟩ := strtoul10_end h4 (fun e => h3 (by rw [h4, e]))
      obtain ⟨-, e⟩ := strtoul10_some hs
      rw [e] at h1 h2
      dsimp only at h1 h2
      by_cases hx : 18446744073709551615 < x.natAbs
      · rw [if_pos hx] at h1; omega
      · rw [if_neg hx] at h1 h2
        exact absurd ⟨t, blanks, x, hv, hb, hs, by omega, by omega, by omega⟩ (hno (x % 18446744073709551616).toNat)

theorem setting_iff (defs : Str → Option Str) (key : String) (d n : Nat) : Setting defs key d n ↔ n = getId (defs key.toList) d := by
  unfold Setting
  cases h : defs key.toList with
  | none =>
    constructor
    · rintro (⟨v, h, -⟩ | ⟨-, h⟩)
      · cases h
      · exact h
    · exact fun h => Or.inr ⟨nofun, h⟩
  | some v =>
    obtain ⟨h1, h2⟩ := getId_some v d
    constructor
    · rintro (⟨w, h, hw⟩ | ⟨hno, h⟩)
      · cases h; exact (h1 n hw).symm
      · rw [h, h2 (hno v rfl)]
    · intro h
      by_cases hex : ∃ m, IdText v m
      · obtain ⟨m, hm⟩ := hex
        rw [h1 m hm] at h
        exact Or.inl ⟨v, rfl, h ▸ hm⟩
      · rw [h2 (fun m hm => hex ⟨m, hm⟩)] at h
        exact Or.inr ⟨fun w e m hm => by cases e; exact hex ⟨m, hm⟩, h⟩

theorem getId_lt (value : Option Str) (d : Nat) (hd : d < 4294967296) : getId value d < 4294967296 := by
  unfold getId
  split
  · exact hd
  · dsimp only
    split
    · exact hd
    · exact Nat.mod_lt _ (by decide)

theorem isSystem_iff (b : Build) (hb : b.uidMin < 4294967296) (defs : Str → Option Str) (uid : Nat) (hu : uid ≠ 4294967295) :
    (SystemId b defs uid → isSystem b defs uid = PAM_SUCCESS) ∧ (¬ SystemId b defs uid → isSystem b defs uid = PAM_AUTH_ERR) := by
  have key : (uid = b.overflow ∨ (uid ≤ getId (defs "SYS_UID_MAX".toList) ((getId (defs "UID_MIN".toList) b.uidMin + 4294967295) % 4294967296) ∧
      uid < getId (defs "UID_MIN".toList) b.uidMin)) ↔ SystemId b defs uid := by
    unfold SystemId
    have hlt := getId_lt (defs "UID_MIN".toList) b.uidMin hb
    refine or_congr Iff.rfl ?_
    constructor
    · rintro ⟨h1, h2⟩
      refine ⟨_, (setting_iff ..).mpr rfl, h2, _, (setting_iff ..).mpr rfl, ?_⟩
      have : (getId (defs "UID_MIN".toList) b.uidMin + 4294967295) % 4294967296 = getId (defs "UID_MIN".toList) b.uidMin - 1 := by omega
      rw [this] at h1; exact h1
    · rintro ⟨lo, hlo, h2, hi, hhi, h1⟩
      rw [setting_iff] at hlo hhi
      rw [← hlo] at hlt ⊢
      have : (lo + 4294967295) % 4294967296 = lo - 1 := by omega
      rw [this, ← hhi]
      exact ⟨h1, h2⟩
  unfold isSystem
  rw [if_neg hu]
  dsimp only
  refine ⟨fun h => ?_, fun h => ?_⟩
  · rcases key.mpr h with h | h
    · rw [if_pos h]
    · rw [if_pos h]; split <;> rfl
  · rw [← key, not_or] at h
    rw [if_neg h.1, if_neg h.2]

theorem type_useUid (argv : List Str) : (argv.foldl typeArg {}).useUid = argv.contains "use_uid".toList := by
  rw [flag_fold typeArg TypeOpts.useUid "use_uid".toList (fun _ => rfl), Bool.false_or]
  intro s x hx
  unfold typeArg
  rw [if_neg hx]
  split
  · rfl
  split
  · rfl
  split <;> rfl

theorem type_other (s : TypeOpts) (x : Str) (h1 : x ≠ "issystem".toList) (h2 : x ≠ "isregular".toList) : (typeArg s x).system = s.system := by
  unfold typeArg
  split
  · rfl
  split
  · rfl
  first | rfl | rw [if_neg h1, if_neg h2]

theorem type_none : ∀ (argv : List Str) (s : TypeOpts), "issystem".toList ∉ argv → "isregular".toList ∉ argv → (argv.foldl typeArg s).system = s.system
  | [], _, _, _ => rfl
  | x :: argv, s, h1, h2 => by
    rw [List.mem_cons, not_or] at h1 h2
    rw [List.foldl_cons, type_none argv _ h1.2 h2.2, type_other s x (fun e => h1.1 e.symm) (fun e => h2.1 e.symm)]

theorem type_asked {argv : List Str} {sys : Bool} (h : Asked argv sys) : (argv.foldl typeArg {}).system = some sys := by
  obtain ⟨pre, post, rfl, h1, h2⟩ := h
  rw [List.foldl_append, List.foldl_cons, type_none post _ h1 h2]
  cases sys <;> rfl

/-! ### the theorems -/

/-- **C88**: pam_usertype tells system accounts from others, for every id and every /etc/login.defs -/
theorem C88_usertype (b : Build) (hb : b.uidMin < 4294967296) (a : Accounts) (defs : Str → Option Str) (c : TypeCall) (argv : List Str) :
    ("issystem".toList ∉ argv → "isregular".toList ∉ argv → usertype b a defs c argv = PAM_SERVICE_ERR) ∧
    (∀ sys, Asked argv sys →
      ("use_uid".toList ∉ argv → c.user.1 ≠ PAM_SUCCESS → usertype b a defs c argv = if c.user.1 = PAM_CONV_AGAIN then PAM_INCOMPLETE else c.user.1) ∧
      ((¬ ∃ u, Examined a c argv u) → ("use_uid".toList ∈ argv ∨ c.user.1 = PAM_SUCCESS) → usertype b a defs c argv = PAM_USER_UNKNOWN) ∧
      (∀ u, Examined a c argv u →
        (u.uid = 4294967295 → usertype b a defs c argv = PAM_USER_UNKNOWN) ∧
        (u.uid ≠ 4294967295 → (SystemId b defs u.uid ↔ sys = true) → usertype b a defs c argv = PAM_SUCCESS) ∧
        (u.uid ≠ 4294967295 → ¬ (SystemId b defs u.uid ↔ sys = true) → usertype b a defs c argv = PAM_AUTH_ERR))) := by
  unfold usertype
  dsimp only
  refine ⟨fun h1 h2 => by rw [type_none argv {} h1 h2], fun sys hs => ?_⟩
  rw [type_asked hs]
  dsimp only
  rw [type_useUid]
  unfold Examined
  have ev : ∀ uid : Nat, (uid = 4294967295 → (if sys = true then isSystem b defs uid else isRegular b defs uid) = PAM_USER_UNKNOWN) ∧
      (uid ≠ 4294967295 → (SystemId b defs uid ↔ sys = true) → (if sys = true then isSystem b defs uid else isRegular b defs uid) = PAM_SUCCESS) ∧
      (uid ≠ 4294967295 → ¬ (SystemId b defs uid ↔ sys = true) → (if sys = true then isSystem b defs uid else isRegular b defs uid) = PAM_AUTH_ERR) := by
    intro uid
    refine ⟨fun h => ?_, fun h hsys => ?_, fun h hsys => ?_⟩
    · have : isSystem b defs uid = PAM_USER_UNKNOWN := by unfold isSystem; rw [if_pos h]
      unfold isRegular
      rw [this]
      cases sys <;> rfl
    · obtain ⟨k1, k2⟩ := isSystem_iff b hb defs uid h
      cases sys with
      | true => rw [if_pos rfl]; exact k1 (hsys.mpr rfl)
      | false =>
        rw [if_neg (by decide)]
        unfold isRegular
        rw [k2 (fun hh => nomatch hsys.mp hh)]; rfl
    · obtain ⟨k1, k2⟩ := isSystem_iff b hb defs uid h
      cases sys with
      | true => rw [if_pos rfl]; exact k2 (fun hh => hsys ⟨fun _ => rfl, fun _ => hh⟩)
      | false =>
        rw [if_neg (by decide)]
        unfold isRegular
        have : SystemId b defs uid := Classical.byContradiction (fun hh => hsys ⟨fun h => absurd h hh, nofun⟩)
        rw [k1 this]; rfl
  unfold typeUid
  rw [List.contains_eq_mem]
  by_cases hu : "use_uid".toList ∈ argv
  · rw [if_pos (decide_eq_true hu)]
    refine ⟨fun h => absurd hu h, fun hno _ => ?_, fun u h => ?_⟩
    · cases hp : a.pwuid c.uid with
      | none => rfl
      | some u => exact absurd ⟨u, by rw [if_pos hu]; exact hp⟩ hno
    · rw [if_pos hu] at h
      rw [h]; exact ev u.uid
  · rw [if_neg (fun h => hu (of_decide_eq_true h))]
    refine ⟨fun _ h => ?_, fun hno h => ?_, fun u h => ?_⟩
    · rw [if_pos h]
      dsimp only
      rw [if_pos]
      split
      · decide
      · exact h
    · have h := h.resolve_left hu
      rw [if_neg (show ¬ c.user.1 ≠ PAM_SUCCESS from fun hh => hh h)]
      cases hp : a.pwnam c.user.2 with
      | none => rfl
      | some u => exact absurd ⟨u, by rw [if_neg hu]; exact ⟨h, hp⟩⟩ hno
    · rw [if_neg hu] at h
      rw [if_neg (show ¬ c.user.1 ≠ PAM_SUCCESS from fun hh => hh h.1), h.2]; exact ev u.uid

/-- **C88**: pam_rootok succeeds only for processes whose real user id is root's (and not always, with SELinux) -/
theorem C88_rootok (uid : Nat) (selinux : Option Bool) :
    (rootok uid selinux = PAM_SUCCESS ↔ uid = 0 ∧ selinux ≠ some false) ∧ (rootok uid selinux = PAM_SUCCESS ∨ rootok uid selinux = PAM_AUTH_ERR) := by
  unfold rootok
  by_cases h : uid = 0
  · rw [if_pos h]
    rcases selinux with - | (- | -) <;> simp [h] <;> decide
  · rw [if_neg h]
    simp [h]; decide

/-- the file pam_localuser looks at -/
def PasswdFile (argv : List Str) (f : Str) : Prop := Last "file=" argv f ∨ (Without "file=" argv ∧ f = "/etc/passwd".toList)

/-- **C88**: pam_localuser succeeds exactly if a line of the file begins with the user's name and a colon -/
theorem C88_localuser (user : Int × Str) (read : Str → Option Str) (argv : List Str) (f : Str) (hf : PasswdFile argv f) :
    (localuser user read argv = PAM_SUCCESS ↔ user.1 = PAM_SUCCESS ∧ user.2 ≠ [] ∧ ':' ∉ user.2 ∧ ∃ content, read f = some content ∧
      ∃ l ∈ Util.Spec.lines content, (user.2 ++ [':']) <+: l) := by
  have h := foldl_last (fun f arg => if arg = "debug".toList then f else match skipPrefix arg "file=".toList with
    | some v => some v
    | none => f) id "file=" (by
      intro s x hx
      split
      · rfl
      rw [skipPrefix_none.mpr hx]) argv none
  have hfile : (argv.foldl (fun f arg => if arg = "debug".toList then f else match skipPrefix arg "file=".toList with
    | some v => some v
    | none => f) none).getD "/etc/passwd".toList = f := by
    rcases hf with hf | ⟨hf, rfl⟩
    · obtain ⟨p, -, e⟩ := h.2 f hf
      have e : (argv.foldl _ none) = _ := e
      rw [e]
      dsimp only [id]
      rw [if_neg (by simp)]
      rfl
    · have e : (argv.foldl _ none) = _ := h.1 hf
      rw [e]; rfl
  unfold localuser
  dsimp only
  by_cases hu : user.1 = PAM_SUCCESS
  · rw [if_neg (fun h => h hu)]
    have e2 : ∀ o, o = f → (Util.checkUser user.2 (read o) = PAM_SUCCESS ↔ user.1 = PAM_SUCCESS ∧ user.2 ≠ [] ∧ ':' ∉ user.2 ∧ ∃ content, read f = some content ∧
      ∃ l ∈ Util.Spec.lines content, (user.2 ++ [':']) <+: l) := by
      rintro o rfl
      cases hr : read o with
      | none =>
        constructor
        · intro h
          unfold Util.checkUser at h
          split at h
          · cases h
          split at h <;> cases h
        · rintro ⟨-, -, -, _, h, -⟩; cases h
      | some content =>
        rw [Util.C31_user_lookup_exact]
        constructor
        · rintro ⟨h1, h2, h3⟩; exact ⟨hu, h1, h2, content, rfl, h3⟩
        · rintro ⟨-, h1, h2, _, e, h3⟩; cases e; exact ⟨h1, h2, h3⟩
    exact e2 _ hfile
  · rw [if_pos hu]
    constructor
    · intro h
      split at h
      · cases h
      · exact absurd h hu
    · exact fun h => absurd h.1 hu

/-! ### concrete cases -/

/-- the usual settings -/
def usual : Build := ⟨1000, 65534⟩

def demoDefs (k : Str) : Option Str := if k = "UID_MIN".toList then some "500 ".toList else if k = "SYS_UID_MAX".toList then some "199".toList else none

example : usertype usual wheelAccounts (fun _ => none) ⟨(PAM_SUCCESS, "ann".toList), 0⟩ ["isregular".toList] = PAM_SUCCESS := by decide +kernel
example : usertype usual wheelAccounts demoDefs ⟨(PAM_SUCCESS, "root".toList), 1000⟩ ["issystem".toList] = PAM_SUCCESS := by decide +kernel
example : usertype usual wheelAccounts demoDefs ⟨(PAM_SUCCESS, "root".toList), 1000⟩ ["issystem".toList, "use_uid".toList] = PAM_AUTH_ERR := by decide +kernel
example : isSystem usual demoDefs 199 = PAM_SUCCESS ∧ isSystem usual demoDefs 200 = PAM_AUTH_ERR ∧ isSystem usual demoDefs 65534 = PAM_SUCCESS := by decide +kernel
example : IdText "500 ".toList 500 :=
  ⟨"500".toList, " ".toList, 500, rfl, by decide, ⟨[], "500".toList, 500, nofun, by unfold Digits; decide, Or.inl ⟨rfl, rfl⟩⟩, by decide, by decide, by decide⟩
example : Asked ["isregular".toList, "issystem".toList, "audit".toList] true := ⟨["isregular".toList], ["audit".toList], rfl, by decide, by decide⟩
example : Examined wheelAccounts ⟨(PAM_SUCCESS, "ann".toList), 0⟩ [] ⟨"ann".toList, 1000, 100, []⟩ := by
  unfold Examined; rw [if_neg (by decide)]; exact ⟨rfl, rfl⟩
example : localuser (PAM_SUCCESS, "ann".toList) (fun _ => some "root:x\nann:x\n".toList) [] = PAM_SUCCESS := by decide +kernel
example : PasswdFile ["file=/a".toList, "debug".toList] "/a".toList := Or.inl ⟨[], _, rfl, by decide⟩

end Pam.Small
