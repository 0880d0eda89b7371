import Verif.Small.WheelProps
/-
Property theorems C85 (pam_nologin) and C86 (pam_shells).
-/
namespace Pam.Small
open Pam

/-! ### vocabulary -/

/-- the file that says no: the one the last `file=` names, or one of the two usual ones, that can be opened -/
def NologinFile (c : NologinCall) (argv : List Str) (f : Opened) : Prop :=
  (∃ p, Last "file=" argv p ∧ c.open_ p = some f) ∨
  (Without "file=" argv ∧ (c.open_ "/var/run/nologin".toList = some f ∨ (c.open_ "/var/run/nologin".toList = none ∧ c.open_ "/etc/nologin".toList = some f)))

/-- the answer if there is no such file, and for root -/
def quietAnswer (argv : List Str) : Int := if "successok".toList ∈ argv then PAM_SUCCESS else PAM_IGNORE

/-- the file can be read as a text -/
def Readable (f : Opened) (t : Str) : Prop := f.stat = some (false, t.length) ∧ t.length ≤ 2147483647 ∧ f.memory = true ∧ f.text = some t

/-! ### helper lemmas -/

theorem nologin_nofile (argv : List Str) : (argv.foldl nologinArg {}).nofile = quietAnswer argv := by
  suffices h : ∀ (argv : List Str) (o : NologinOpts), (argv.foldl nologinArg o).nofile = if "successok".toList ∈ argv then PAM_SUCCESS else o.nofile by
    rw [h]; rfl
  intro argv
  induction argv with
  | nil => intro o; rfl
  | cons x argv ih =>
    intro o
    rw [List.foldl_cons, ih]
    by_cases hx : x = "successok".toList
    · have : (nologinArg o x).nofile = PAM_SUCCESS := by unfold nologinArg; rw [if_pos hx]
      rw [this, ite_self, if_pos (by rw [hx]; exact List.mem_cons_self)]
    · have e : (nologinArg o x).nofile = o.nofile := by
        unfold nologinArg
        rw [if_neg hx]
        split <;> rfl
      rw [e]
      have : "successok".toList ∈ x :: argv ↔ "successok".toList ∈ argv := by
        rw [List.mem_cons]
        exact ⟨fun h => h.resolve_left (fun e => hx e.symm), Or.inr⟩
      simp only [this]

theorem nologin_file (argv : List Str) : (Without "file=" argv → (argv.foldl nologinArg {}).file = none) ∧
    (∀ v, Last "file=" argv v → (argv.foldl nologinArg {}).file = some v) := by
  have h := foldl_last nologinArg NologinOpts.file "file=" (by
    intro s x hx
    unfold nologinArg
    split
    · rfl
    rw [skipPrefix_none.mpr hx]) argv {}
  refine ⟨h.1, fun v hv => ?_⟩
  obtain ⟨p, -, e⟩ := h.2 v hv
  rw [e]
  unfold nologinArg
  rw [if_neg (by simp)]
  rfl

theorem nologin_eq (a : Accounts) (c : NologinCall) (argv : List Str) (hu : c.user.1 = PAM_SUCCESS) :
    ((¬ ∃ f, NologinFile c argv f) → nologin a c argv = (quietAnswer argv, none)) ∧
    (∀ f, NologinFile c argv f → ∀ retval style, (retval, style) = (match a.pwnam c.user.2 with
        | none => (PAM_USER_UNKNOWN, Style.error)
        | some u => if u.uid ≠ 0 then (PAM_AUTH_ERR, Style.error) else (quietAnswer argv, Style.info)) →
      nologin a c argv = match f.stat with
        | none => (retval, none)
        | some (dir, size) =>
          if dir then (PAM_SYSTEM_ERR, none)
          else if 0 < size then
            if 2147483647 < size then (PAM_SYSTEM_ERR, none)
            else if !f.memory then (PAM_BUF_ERR, none)
            else match f.text with
              | none => (PAM_SYSTEM_ERR, none)
              | some t => if (t.take size).length = size then (retval, some (style, cstr (t.take size))) else (PAM_SYSTEM_ERR, none)
          else (retval, none)) := by
  obtain ⟨h1, h2⟩ := nologin_file argv
  unfold nologin nologinCheck
  rw [if_neg (fun h => h hu), nologin_nofile]
  have key : ∀ fd, fd = (match (argv.foldl nologinArg {}).file with
      | none => (match c.open_ "/var/run/nologin".toList with
        | some f => some f
        | none => c.open_ "/etc/nologin".toList)
      | some p => c.open_ p) → ∀ f, fd = some f ↔ NologinFile c argv f := by
    rintro fd rfl f
    unfold NologinFile
    rcases last_or_without "file=" argv with hw | ⟨v, hv⟩
    · rw [h1 hw]
      dsimp only
      constructor
      · intro h
        refine Or.inr ⟨hw, ?_⟩
        split at h
        · next g hg => cases h; exact Or.inl hg
        · next hg => exact Or.inr ⟨hg, h⟩
      · rintro (⟨p, hp, -⟩ | ⟨-, h | ⟨h, h'⟩⟩)
        · exact absurd hp (without_last hw)
        · rw [h]
        · rw [h]; exact h'
    · rw [h2 v hv]
      dsimp only
      constructor
      · exact fun h => Or.inl ⟨v, hv, h⟩
      · rintro (⟨p, hp, h⟩ | ⟨hw, -⟩)
        · rw [last_unique hv hp]; exact h
        · exact absurd hv (without_last hw)
  have key := key _ rfl
  dsimp only
  refine ⟨fun hno => ?_, fun f hf retval style hrs => ?_⟩
  · split
    · rfl
    · next f hf => exact absurd ⟨f, (key f).mp hf⟩ hno
  · split
    · next hn => exact absurd (hn.symm.trans ((key f).mpr hf)) nofun
    · next g hg =>
      have : g = f := by have := hg.symm.trans ((key f).mpr hf); cases this; rfl
      subst this
      cases hp : a.pwnam c.user.2 with
      | none => rw [hp] at hrs; cases hrs; rfl
      | some u =>
        rw [hp] at hrs
        dsimp only at hrs ⊢
        rw [← hrs]
        rfl

/-! ### the theorems -/

/-- **C85**: while the file exists nobody but root gets in, whatever is wrong with it -/
theorem C85_closed (a : Accounts) (c : NologinCall) (argv : List Str) (f : Opened) (hf : NologinFile c argv f)
    (hnot : ∀ u, a.pwnam c.user.2 = some u → u.uid ≠ 0) :
    (nologin a c argv).1 ≠ PAM_SUCCESS ∧ (nologin a c argv).1 ≠ PAM_IGNORE ∧
    (∀ t, c.user.1 = PAM_SUCCESS → Readable f t → nologin a c argv = (if a.pwnam c.user.2 = none then PAM_USER_UNKNOWN else PAM_AUTH_ERR,
      if t = [] then none else some (.error, t.takeWhile (· ≠ NUL)))) := by
  by_cases hu : c.user.1 = PAM_SUCCESS
  · obtain ⟨r, hr, hr'⟩ : ∃ r, (r = PAM_USER_UNKNOWN ∨ r = PAM_AUTH_ERR) ∧ (r, Style.error) = (match a.pwnam c.user.2 with
        | none => (PAM_USER_UNKNOWN, Style.error)
        | some u => if u.uid ≠ 0 then (PAM_AUTH_ERR, Style.error) else (quietAnswer argv, Style.info)) := by
      cases hp : a.pwnam c.user.2 with
      | none => exact ⟨_, Or.inl rfl, rfl⟩
      | some u => exact ⟨_, Or.inr rfl, by dsimp only; rw [if_pos (hnot u hp)]⟩
    have e := (nologin_eq a c argv hu).2 f hf r .error hr'
    have hr2 : r = if a.pwnam c.user.2 = none then PAM_USER_UNKNOWN else PAM_AUTH_ERR := by
      cases hp : a.pwnam c.user.2 with
      | none => rw [hp] at hr'; cases hr'; rfl
      | some u => rw [hp] at hr'; dsimp only at hr'; rw [if_pos (hnot u hp)] at hr'; cases hr'; rfl
    have n1 : r ≠ PAM_SUCCESS := by rcases hr with rfl | rfl <;> decide
    have n2 : r ≠ PAM_IGNORE := by rcases hr with rfl | rfl <;> decide
    rw [e]
    refine ⟨?_, ?_, ?_⟩
    · repeat' (first | exact n1 | (show PAM_SYSTEM_ERR ≠ PAM_SUCCESS; decide) | (show PAM_BUF_ERR ≠ PAM_SUCCESS; decide) | split)
    · repeat' (first | exact n2 | (show PAM_SYSTEM_ERR ≠ PAM_IGNORE; decide) | (show PAM_BUF_ERR ≠ PAM_IGNORE; decide) | split)
    · rintro t - ⟨h1, h2, h3, h4⟩
      rw [h1]
      dsimp only
      rw [if_neg (by decide), h3, h4, hr2]
      by_cases ht : t = []
      · rw [if_pos ht, ht]; rfl
      · have : 0 < t.length := by cases t with
          | nil => exact absurd rfl ht
          | cons => simp
        rw [if_pos this, if_neg (by omega), if_neg (by decide), if_neg ht]
        dsimp only
        rw [List.take_length]
        rw [if_pos rfl]
        rfl
  · have : nologin a c argv = (PAM_USER_UNKNOWN, none) := by unfold nologin nologinCheck; rw [if_pos hu]
    rw [this]
    exact ⟨by show PAM_USER_UNKNOWN ≠ PAM_SUCCESS; decide, by show PAM_USER_UNKNOWN ≠ PAM_IGNORE; decide, fun _ h => absurd h hu⟩

/-- **C85**: without the file everybody is let on, and root is even with it, who then sees its text -/
theorem C85_open (a : Accounts) (c : NologinCall) (argv : List Str) (hu : c.user.1 = PAM_SUCCESS) :
    ((¬ ∃ f, NologinFile c argv f) → nologin a c argv = (quietAnswer argv, none)) ∧
    (∀ f t u, NologinFile c argv f → Readable f t → a.pwnam c.user.2 = some u → u.uid = 0 →
      nologin a c argv = (quietAnswer argv, if t = [] then none else some (.info, t.takeWhile (· ≠ NUL)))) ∧
    nologinSetcred argv = quietAnswer argv := by
  refine ⟨(nologin_eq a c argv hu).1, ?_, nologin_nofile argv⟩
  rintro f t u hf ⟨h1, h2, h3, h4⟩ hp h0
  rw [(nologin_eq a c argv hu).2 f hf (quietAnswer argv) .info (by rw [hp]; dsimp only; rw [if_neg (fun h => h h0)]), h1]
  dsimp only
  rw [if_neg (by decide), h3, h4]
  by_cases ht : t = []
  · rw [if_pos ht, ht]; rfl
  · have : 0 < t.length := by cases t with
      | nil => exact absurd rfl ht
      | cons => simp
    rw [if_pos this, if_neg (by omega), if_neg (by decide), if_neg ht]
    dsimp only
    rw [List.take_length]
    rw [if_pos rfl]
    rfl

/-- a line of a text file up to a NUL, if there is one -/
def FileLine (content l : Str) : Prop := ∃ x, TextLine content x ∧ l = x.takeWhile (· ≠ NUL)

theorem takeWhile_comm {α : Type} (p q : α → Bool) : ∀ l : List α, (l.takeWhile p).takeWhile q = (l.takeWhile q).takeWhile p
  | [] => rfl
  | x :: l => by
    cases hp : p x <;> cases hq : q x <;> simp [List.takeWhile_cons, hp, hq, takeWhile_comm p q l]

theorem any_fileLine (content : Str) (p : Str → Bool) :
    (Config.physLines content).any (fun l => p ((cstr l).takeWhile (· ≠ '\n'))) = true ↔ ∃ l, FileLine content l ∧ p l = true := by
  rw [List.any_eq_true]
  unfold cstr
  constructor
  · rintro ⟨x, hx, h⟩
    refine ⟨_, ⟨_, (physLines_iff content _).mp ⟨x, hx, rfl⟩, rfl⟩, ?_⟩
    rw [takeWhile_comm]; exact h
  · rintro ⟨l, ⟨y, hy, rfl⟩, h⟩
    obtain ⟨x, hx, rfl⟩ := (physLines_iff content y).mpr hy
    exact ⟨x, hx, by rw [takeWhile_comm]; exact h⟩

theorem trusted_of {ww reg : Bool} (h : ¬ (ww || !reg) = true) : ww = false ∧ reg = true := by
  revert h
  cases ww <;> cases reg <;> simp

/-- **C86**: pam_shells succeeds exactly for known users whose shell (/bin/sh if none is given) is a line of /etc/shells that begins with a slash, if
only the administrator can have written it -/
theorem C86_answer (a : Accounts) (c : ShellsCall) :
    shells a c = PAM_SUCCESS ↔ c.user.1 = PAM_SUCCESS ∧ ∃ u content, a.pwnam c.user.2 = some u ∧ c.stat = some (false, true) ∧ c.open_ = some content ∧
      ∃ l, FileLine content l ∧ l.head? = some '/' ∧ (l = u.shell ∨ (u.shell = [] ∧ l = "/bin/sh".toList)) := by
  unfold shells
  by_cases hu : c.user.1 = PAM_SUCCESS
  · rw [if_neg (fun h => h hu)]
    cases hp : a.pwnam c.user.2 with
    | none =>
      constructor
      · intro h; cases h
      · rintro ⟨-, u, _, h, -⟩; cases h
    | some u =>
      dsimp only
      cases hs : c.stat with
      | none =>
        constructor
        · intro h; cases h
        · rintro ⟨-, _, _, -, h, -⟩; cases h
      | some p =>
        obtain ⟨ww, reg⟩ := p
        dsimp only
        by_cases hw : (ww || !reg) = true
        · rw [if_pos hw]
          constructor
          · intro h; cases h
          · rintro ⟨-, _, _, -, h, -⟩; cases h; cases hw
        · rw [if_neg hw]
          have hwr := trusted_of hw
          obtain ⟨rfl, rfl⟩ := hwr
          cases ho : c.open_ with
          | none =>
            constructor
            · intro h; cases h
            · rintro ⟨-, _, _, -, -, h, -⟩; cases h
          | some content =>
            dsimp only
            obtain ⟨sh, hsh⟩ : ∃ sh, sh = if u.shell = [] then "/bin/sh".toList else u.shell := ⟨_, rfl⟩
            rw [← hsh]
            have key := any_fileLine content (fun p => if p.head? ≠ some '/' then false else p = sh)
            split
            · next h =>
              obtain ⟨l, hl, h⟩ := key.mp h
              refine ⟨fun _ => ⟨hu, u, content, rfl, rfl, rfl, l, hl, ?_⟩, fun _ => rfl⟩
              split at h
              · cases h
              · next hh =>
                refine ⟨Classical.not_not.mp hh, ?_⟩
                have h := (of_decide_eq_true h).trans hsh
                split at h
                · next he => exact Or.inr ⟨he, h⟩
                · exact Or.inl h
            · next h =>
              constructor
              · intro e; cases e
              · rintro ⟨-, u', content', e1, -, e3, l, hl, hh, hl2⟩
                cases e1; cases e3
                refine absurd (key.mpr ⟨l, hl, ?_⟩) h
                rw [if_neg (fun h => h hh)]
                apply decide_eq_true
                rw [hsh]
                rcases hl2 with rfl | ⟨he, rfl⟩
                · rw [if_neg]; intro he; rw [he] at hh; cases hh
                · rw [if_pos he]
  · rw [if_pos hu]
    constructor
    · intro h; cases h
    · rintro ⟨h, -⟩; exact absurd h hu

/-- **C86**: the answers otherwise -/
theorem C86_codes (a : Accounts) (c : ShellsCall) (h : shells a c ≠ PAM_SUCCESS) :
    (c.user.1 ≠ PAM_SUCCESS ∧ shells a c = PAM_SERVICE_ERR) ∨ (c.user.1 = PAM_SUCCESS ∧ a.pwnam c.user.2 = none ∧ shells a c = PAM_USER_UNKNOWN) ∨
    (c.user.1 = PAM_SUCCESS ∧ a.pwnam c.user.2 ≠ none ∧ c.stat = some (false, true) ∧ c.open_ = none ∧ shells a c = PAM_SERVICE_ERR) ∨
    (c.user.1 = PAM_SUCCESS ∧ a.pwnam c.user.2 ≠ none ∧ shells a c = PAM_AUTH_ERR) := by
  unfold shells at *
  split at h
  · next hu => rw [if_pos hu]; exact Or.inl ⟨hu, rfl⟩
  · next hu =>
    rw [if_neg hu]
    have hu := Classical.not_not.mp hu
    cases hp : a.pwnam c.user.2 with
    | none => exact Or.inr (Or.inl ⟨hu, rfl, rfl⟩)
    | some u =>
      rw [hp] at h
      dsimp only at h ⊢
      cases hs : c.stat with
      | none => exact Or.inr (Or.inr (Or.inr ⟨hu, nofun, rfl⟩))
      | some p =>
        obtain ⟨ww, reg⟩ := p
        rw [hs] at h
        dsimp only at h ⊢
        by_cases hw : (ww || !reg) = true
        · rw [if_pos hw]; exact Or.inr (Or.inr (Or.inr ⟨hu, nofun, rfl⟩))
        · rw [if_neg hw] at h ⊢
          have hwr := trusted_of hw
          obtain ⟨rfl, rfl⟩ := hwr
          cases ho : c.open_ with
          | none => exact Or.inr (Or.inr (Or.inl ⟨hu, nofun, rfl, rfl, rfl⟩))
          | some content =>
            rw [ho] at h
            dsimp only at h ⊢
            generalize (Config.physLines content).any _ = found at h ⊢
            split at h
            · exact absurd rfl h
            · next hn => rw [if_neg hn]; exact Or.inr (Or.inr (Or.inr ⟨hu, nofun, rfl⟩))

/-! ### concrete cases -/

def nologinCall (who : String) : NologinCall :=
  ⟨(PAM_SUCCESS, who.toList), fun p => if p = "/etc/nologin".toList then some ⟨some (false, 5), true, some "down\n".toList⟩ else none⟩

example : nologin wheelAccounts (nologinCall "ann") [] = (PAM_AUTH_ERR, some (.error, "down\n".toList)) := by decide +kernel
example : nologin wheelAccounts (nologinCall "root") ["successok".toList] = (PAM_SUCCESS, some (.info, "down\n".toList)) := by decide +kernel
example : nologin wheelAccounts (nologinCall "ann") ["file=/none".toList] = (PAM_IGNORE, none) := by decide +kernel
example : NologinFile (nologinCall "ann") [] ⟨some (false, 5), true, some "down\n".toList⟩ := Or.inr ⟨nofun, Or.inr ⟨rfl, rfl⟩⟩
example : Readable ⟨some (false, 5), true, some "down\n".toList⟩ "down\n".toList := ⟨rfl, by decide, rfl, rfl⟩

/-- ann with /bin/sh -/
def demoAccounts' : Accounts := { wheelAccounts with pwnam := fun n => if n = "ann".toList then some ⟨n, 1000, 100, "/bin/sh".toList⟩ else none }

def shellsCall (content : String) : ShellsCall := ⟨(PAM_SUCCESS, "ann".toList), some (false, true), some content.toList⟩

example : shells demoAccounts' (shellsCall "# shells\n/bin/ash\n/bin/sh\n") = PAM_SUCCESS := by decide +kernel
example : shells demoAccounts' (shellsCall "# shells\n/bin/ash\n/bin/sh2\n") = PAM_AUTH_ERR := by decide +kernel
example : shells wheelAccounts (shellsCall "/bin/sh") = PAM_SUCCESS := by decide +kernel

end Pam.Small
