import Verif.Namespace.Open
/-
C190: who opens a session of pam_namespace; C191: a shared root; C192: the current directory.
-/
namespace Pam.Namespace
open Pam

namespace Spec

/-- the buffer holds this C string -/
def Holds (buf s : Str) : Prop := ∃ rest, buf = s ++ nul :: rest

/-- whose account asks for the session: the one named by PAM_RUSER, or if there is none, that of the process -/
def Asks (byName : Str → Option Pwd) (byUid : Nat → Option Pwd) (me : Nat) (ruser : Option Str) (q : Option Pwd) : Prop :=
  (∃ r, r ≠ [] ∧ ruser = some r ∧ q = byName r) ∨ ((ruser = none ∨ ruser = some []) ∧ q = byUid me)

/-- a mount as /proc/self/mountinfo shows it -/
structure Mount where
  id : Str
  parent : Str
  dev : Str
  root : Str
  point : Str
  opts : Str
  /-- the optional fields, such as shared:1 and master:2 -/
  tags : List Str
  /-- the type, the source and the options of the file system -/
  rest : Str

/-- a word -/
def MountField (f : Str) : Prop := f ≠ [] ∧ ' ' ∉ f ∧ '\n' ∉ f

/-- shared:… -/
def SharedTag (t : Str) : Prop := ∃ n, t = ['s', 'h', 'a', 'r', 'e', 'd', ':'] ++ n

/-- the kernel escapes spaces and newlines; of the optional fields it writes shared:… first -/
def Proper (m : Mount) : Prop :=
  MountField m.id ∧ MountField m.parent ∧ MountField m.dev ∧ MountField m.root ∧ MountField m.point ∧ MountField m.opts ∧ (∀ t ∈ m.tags, MountField t) ∧ '\n' ∉ m.rest ∧
  ∀ t ∈ m.tags.tail, ¬ SharedTag t

/-- the line of a mount -/
def line (m : Mount) : Str :=
  m.id ++ ' ' :: (m.parent ++ ' ' :: (m.dev ++ ' ' :: (m.root ++ ' ' :: (m.point ++ ' ' :: (m.opts ++ ' ' :: (m.tags.flatMap (· ++ [' ']) ++ '-' :: ' ' :: m.rest))))))

/-- /proc/self/mountinfo -/
def mountinfo (ms : List Mount) : Str := ms.flatMap (fun m => line m ++ ['\n'])

/-- the root of the process, which is the last mount at /, is shared -/
def RootShared (ms : List Mount) : Prop :=
  ∃ a m b, ms = a ++ m :: b ∧ m.point = ['/'] ∧ (∃ t ∈ m.tags, SharedTag t) ∧ ∀ x ∈ b, x.point ≠ ['/']

/-- a path is a directory or something in it -/
def Inside (path dir : Str) : Prop := path = dir ∨ ∃ r, path = dir ++ '/' :: r

/-- `dir` is called `name` in the directory `up` -/
def In (up name dir : Str) : Prop := name ≠ [] ∧ '/' ∉ name ∧ ((up = ['/'] ∧ dir = '/' :: name) ∨ (up ≠ [] ∧ up ≠ ['/'] ∧ up.head? = some '/' ∧ dir = up ++ '/' :: name))

end Spec
open Spec

/-! ### C190 -/

theorem takeWhile_stop {p : Char → Bool} {c : Char} : ∀ (g rest : Str), (∀ x ∈ g, p x = true) → p c = false → (g ++ c :: rest).takeWhile p = g
  | [], rest, _, hc => by simp [hc]
  | x :: g, rest, hg, hc => by
    rw [List.cons_append, List.takeWhile_cons, if_pos (hg x (by simp)), takeWhile_stop g rest (fun y hy => hg y (by simp [hy])) hc]

theorem takeWhile_all {p : Char → Bool} : ∀ (g : Str), (∀ x ∈ g, p x = true) → g.takeWhile p = g
  | [], _ => rfl
  | x :: g, hg => by rw [List.takeWhile_cons, if_pos (hg x (by simp)), takeWhile_all g (fun y hy => hg y (by simp [hy]))]

theorem dropWhile_stop {p : Char → Bool} {c : Char} : ∀ (g rest : Str), (∀ x ∈ g, p x = true) → p c = false → (g ++ c :: rest).dropWhile p = c :: rest
  | [], rest, _, hc => by simp [hc]
  | x :: g, rest, hg, hc => by
    rw [List.cons_append, List.dropWhile_cons, if_pos (hg x (by simp)), dropWhile_stop g rest (fun y hy => hg y (by simp [hy])) hc]

theorem strncat_fits {n : Nat} {g rest src : Str} (hg : nul ∉ g) (h : g.length + (src.take n).length ≤ g.length + rest.length) :
    ∃ rest', strncat n (g ++ nul :: rest) src = some (g ++ src.take n ++ nul :: rest') ∧
      (g ++ src.take n ++ nul :: rest').length = (g ++ nul :: rest).length := by
  have ht : (g ++ nul :: rest).takeWhile (· ≠ nul) = g :=
    takeWhile_stop g rest (fun x hx => by simpa using fun (e : x = nul) => hg (e ▸ hx)) (by simp)
  unfold strncat
  dsimp only
  rw [ht, if_pos (by simp only [List.length_append, List.length_cons]; omega), show (g ++ nul :: rest).take g.length = g by simp]
  refine ⟨_, rfl, ?_⟩
  simp only [List.length_append, List.length_cons, List.length_drop]
  omega

theorem clear_fits {buf src : Str} (hb : buf.length = 256) : ∃ rest, strncat (loginNameMax - 1) (clear buf) src = some (src.take 255 ++ nul :: rest) ∧
    (src.take 255 ++ nul :: rest).length = 256 := by
  obtain ⟨rest, h1, h2⟩ := strncat_fits (n := loginNameMax - 1) (g := []) (rest := buf.drop 1) (src := src) (by simp) (by
    have : (src.take (loginNameMax - 1)).length ≤ 255 := by rw [List.length_take]; exact Nat.min_le_left _ _
    simp only [List.length_nil, List.length_drop, hb]
    omega)
  refine ⟨rest, h1, ?_⟩
  rw [List.nil_append] at h2
  refine h2.trans ?_
  simp [hb]

/-- C190: whatever is on the stack, if PAM_RUSER is not set, or if the bytes where its name is put first have a NUL early enough, `get_user_data` touches nothing but its
structure; it gives PAM_SESSION_ERR without a user, PAM_USER_UNKNOWN if one of the accounts does not exist, and otherwise the numbers of the user and of the
account that asks, and their names, cut after 255 bytes.  The full claim has no condition on the stack: `C190_stack_counterexample`. -/
theorem C190_who_partial (byName : Str → Option Pwd) (byUid : Nat → Option Pwd) (me : Nat) (user ruser : Option Str) (m : Idata)
    (hu : m.user.length = 256) (hr : m.ruser.length = 256)
    (hstack : ∀ r, ruser = some r → r ≠ [] → ∃ g rest, m.ruser = g ++ nul :: rest ∧ nul ∉ g ∧ (r.take 255).length ≤ rest.length) :
    ∃ code m', getUserData byName byUid me user ruser m = some (code, m') ∧
      (user = none → code = PAM_SESSION_ERR) ∧
      ∀ u, user = some u →
        (byName u = none → code = PAM_USER_UNKNOWN) ∧
        ∀ p, byName u = some p → ∀ q, Asks byName byUid me ruser q →
          (q = none → code = PAM_USER_UNKNOWN) ∧
          ∀ a, q = some a → code = PAM_SUCCESS ∧ m'.uid = p.uid ∧ m'.gid = p.gid ∧ m'.ruid = a.uid ∧ Holds m'.user (u.take 255) ∧ Holds m'.ruser (a.name.take 255) := by
  unfold getUserData
  cases user with
  | none => exact ⟨_, _, rfl, fun _ => rfl, fun u e => by cases e⟩
  | some u =>
    dsimp only
    cases hp : byName u with
    | none =>
      refine ⟨_, _, rfl, (fun e => by cases e), fun u' e => ?_⟩
      cases e
      exact ⟨fun _ => rfl, fun p e => by rw [hp] at e; cases e⟩
    | some p =>
      dsimp only
      obtain ⟨rest, e1, -⟩ := clear_fits (src := u) hu
      rw [e1]
      dsimp only
      have fin : ∀ (q : Option Pwd) (m2 : Idata), m2.ruser.length = 256 → m2.uid = p.uid → m2.gid = p.gid → Holds m2.user (u.take 255) →
          (∀ q', Asks byName byUid me ruser q' → q' = q) →
          ∃ code m', ruserData q m2 = some (code, m') ∧
            (some u = none → code = PAM_SESSION_ERR) ∧
            ∀ u', some u = some u' →
              (byName u' = none → code = PAM_USER_UNKNOWN) ∧
              ∀ p, byName u' = some p → ∀ q, Asks byName byUid me ruser q →
                (q = none → code = PAM_USER_UNKNOWN) ∧
                ∀ a, q = some a → code = PAM_SUCCESS ∧ m'.uid = p.uid ∧ m'.gid = p.gid ∧ m'.ruid = a.uid ∧ Holds m'.user (u'.take 255) ∧ Holds m'.ruser (a.name.take 255) := by
        intro q m2 h1 h2 h3 h4 h5
        unfold ruserData
        cases q with
        | none =>
          refine ⟨_, _, rfl, (fun e => by cases e), fun u' e => ?_⟩
          cases e
          refine ⟨(fun e => by simp [hp] at e), fun p' _ q' hq' => ⟨fun _ => rfl, fun a ha => ?_⟩⟩
          rw [h5 q' hq'] at ha
          cases ha
        | some a =>
          dsimp only
          obtain ⟨rest', e2, -⟩ := clear_fits (src := a.name) h1
          rw [e2]
          refine ⟨_, _, rfl, (fun e => by cases e), fun u' e => ?_⟩
          cases e
          refine ⟨(fun e => by rw [hp] at e; cases e), fun p' hp' q' hq' => ⟨fun e => ?_, fun a' ha => ?_⟩⟩
          · rw [h5 q' hq'] at e
            cases e
          · rw [h5 q' hq'] at ha
            cases ha
            rw [hp] at hp'
            cases hp'
            exact ⟨rfl, h2, h3, rfl, h4, ⟨rest', rfl⟩⟩
      have none_case : (ruser = none ∨ ruser = some []) → ∀ q', Asks byName byUid me ruser q' → q' = byUid me := by
        intro h q' hq
        rcases hq with ⟨r, hr0, hr1, -⟩ | ⟨-, h⟩
        · rcases h with h | h
          · rw [h] at hr1; cases hr1
          · rw [h] at hr1; cases hr1; exact absurd rfl hr0
        · exact h
      cases ruser with
      | none => exact fin (byUid me) _ hr rfl rfl ⟨rest, rfl⟩ (none_case (Or.inl rfl))
      | some r =>
        cases r with
        | nil => exact fin (byUid me) _ hr rfl rfl ⟨rest, rfl⟩ (none_case (Or.inr rfl))
        | cons c r =>
          dsimp only
          obtain ⟨g, rest2, hm, hg, hl⟩ := hstack (c :: r) rfl (by simp)
          obtain ⟨rest3, e3, h3⟩ := strncat_fits (n := loginNameMax - 1) (g := g) (rest := rest2) (src := c :: r) hg (by
            have : (c :: r).take (loginNameMax - 1) = (c :: r).take 255 := rfl
            rw [this]
            omega)
          rw [hm, e3]
          refine fin (byName (c :: r)) _ (by rw [h3, ← hm, hr]) rfl rfl ⟨rest, rfl⟩ ?_
          intro q' hq
          rcases hq with ⟨r', -, hr1, hq⟩ | ⟨h, -⟩
          · cases hr1; exact hq
          · rcases h with h | h <;> cases h

/-- C190 is not true of every stack: with PAM_RUSER set, and no NUL in the 256 bytes that happen to be where the structure is, memory behind them is read and written. -/
theorem C190_stack_counterexample (byName : Str → Option Pwd) (byUid : Nat → Option Pwd) (me : Nat) (u : Str) (p : Pwd) (hp : byName u = some p) (r : Str) (hr : r ≠ [])
    (m : Idata) (hu : m.user.length = 256) (hm : nul ∉ m.ruser) : getUserData byName byUid me (some u) (some r) m = none := by
  unfold getUserData
  dsimp only
  rw [hp]
  dsimp only
  obtain ⟨rest, e1, -⟩ := clear_fits (src := u) hu
  rw [e1]
  dsimp only
  have : strncat (loginNameMax - 1) m.ruser r = none := by
    unfold strncat
    dsimp only
    rw [show m.ruser.takeWhile (· ≠ nul) = m.ruser by
      exact takeWhile_all _ (fun x hx => by simpa using fun (e : x = nul) => hm (e ▸ hx))]
    rw [if_neg (by omega)]
  cases r with
  | nil => exact absurd rfl hr
  | cons c r =>
    dsimp only
    rw [this]

/-- witnesses for C190: a stack of zeros, and one of letters -/
example : (⟨List.replicate 256 nul, List.replicate 256 nul, 0, 0, 0⟩ : Idata).user.length = 256 ∧
    (∀ r, some "bob".toList = some r → r ≠ [] → ∃ g rest, (List.replicate 256 nul) = g ++ nul :: rest ∧ nul ∉ g ∧ (r.take 255).length ≤ rest.length) ∧
    nul ∉ List.replicate 256 'x' := by
  refine ⟨List.length_replicate, fun r e _ => ?_, by decide +kernel⟩
  cases e
  exact ⟨[], List.replicate 255 nul, by decide +kernel, by simp, by decide +kernel⟩

/-! ### C191 -/

theorem word_first {w s : Str} (hw : w ≠ []) (hs : ' ' ∉ w) : word (w ++ ' ' :: s) = some (w, s) := by
  have hd : (w ++ ' ' :: s).dropWhile (· = ' ') = w ++ ' ' :: s := by
    cases w with
    | nil => exact absurd rfl hw
    | cons c w =>
      rw [List.cons_append, List.dropWhile_cons, if_neg]
      simpa using fun (e : c = ' ') => hs (by simp [e])
  have hp : ∀ x ∈ w, (decide (x ≠ ' ')) = true := fun x hx => by simpa using fun (e : x = ' ') => hs (e ▸ hx)
  unfold word
  dsimp only
  rw [hd, if_neg (by simp), takeWhile_stop w s hp (by simp), dropWhile_stop w s hp (by simp)]
  rfl

theorem rootLine_word {i n : Nat} {rv : Bool} {w s : Str} (h : MountField w) :
    rootLine i (n + 1) rv (w ++ ' ' :: s) =
      if i = 4 ∧ w ≠ ['/'] then rv else rootLine (i + 1) n (if i = 6 then ['s', 'h', 'a', 'r', 'e', 'd', ':'].isPrefixOf w else rv) s := by
  rw [rootLine, word_first h.1 h.2.1]
  rfl

theorem sharedTag_iff (t : Str) : ['s', 'h', 'a', 'r', 'e', 'd', ':'].isPrefixOf t = true ↔ SharedTag t := by
  rw [List.isPrefixOf_iff_prefix]
  constructor
  · rintro ⟨n, e⟩; exact ⟨n, e.symm⟩
  · rintro ⟨n, e⟩; exact ⟨n, e.symm⟩

/-- what one line does -/
theorem rootLine_line (m : Mount) (h : Proper m) (rv : Bool) : ∃ sh : Bool, (sh = true ↔ ∃ t ∈ m.tags, SharedTag t) ∧
    rootLine 0 7 rv (line m ++ ['\n']) = if m.point = ['/'] then sh else rv := by
  obtain ⟨h1, h2, h3, h4, h5, h6, h7, h8, h9⟩ := h
  have hl : ∃ t s, MountField t ∧ line m ++ ['\n'] =
      m.id ++ ' ' :: (m.parent ++ ' ' :: (m.dev ++ ' ' :: (m.root ++ ' ' :: (m.point ++ ' ' :: (m.opts ++ ' ' :: (t ++ ' ' :: s)))))) ∧
      (['s', 'h', 'a', 'r', 'e', 'd', ':'].isPrefixOf t = true ↔ ∃ t ∈ m.tags, SharedTag t) := by
    cases ht : m.tags with
    | nil =>
      refine ⟨['-'], m.rest ++ ['\n'], ⟨by simp, by decide, by decide⟩, ?_, ?_⟩
      · unfold line
        rw [ht]
        simp
      · simp
    | cons t ts =>
      refine ⟨t, ts.flatMap (· ++ [' ']) ++ '-' :: ' ' :: (m.rest ++ ['\n']), h7 t (by rw [ht]; simp), ?_, ?_⟩
      · unfold line
        rw [ht]
        simp
      · rw [sharedTag_iff]
        constructor
        · intro e; exact ⟨t, by simp, e⟩
        · rintro ⟨t', ht', e⟩
          rcases List.mem_cons.mp ht' with x | x
          · exact x ▸ e
          · exact absurd e (h9 t' (by rw [ht]; exact x))
  obtain ⟨t, s, hf, he, hs⟩ := hl
  refine ⟨_, hs, ?_⟩
  rw [he, rootLine_word h1, if_neg (by simp), if_neg (by simp), rootLine_word h2, if_neg (by simp), if_neg (by simp), rootLine_word h3, if_neg (by simp), if_neg (by simp),
    rootLine_word h4, if_neg (by simp), if_neg (by simp), rootLine_word h5]
  by_cases hp : m.point = ['/']
  · rw [if_neg (by simp [hp]), if_pos hp, if_neg (by simp), rootLine_word h6, if_neg (by simp), if_neg (by simp), rootLine_word hf, if_neg (by simp), if_pos (by simp)]
    rfl
  · rw [if_pos ⟨rfl, hp⟩, if_neg hp]

theorem readLines_line : ∀ (l s : Str), '\n' ∉ l → readLines (l ++ '\n' :: s) = (l ++ ['\n']) :: readLines s
  | [], s, _ => by simp [readLines]
  | c :: l, s, h => by
    rw [List.cons_append, readLines, if_neg (fun e => h (by simp [e])), readLines_line l s (fun e => h (by simp [e]))]
    rfl

theorem line_newline {m : Mount} (h : Proper m) : '\n' ∉ line m := by
  obtain ⟨h1, h2, h3, h4, h5, h6, h7, h8, -⟩ := h
  unfold line
  simp only [List.mem_append, List.mem_cons, List.mem_flatMap, not_or]
  refine ⟨h1.2.2, by decide, h2.2.2, by decide, h3.2.2, by decide, h4.2.2, by decide, h5.2.2, by decide, h6.2.2, by decide, ?_, by decide, by decide, h8⟩
  rintro ⟨t, ht, e | e | e⟩
  · exact (h7 t ht).2.2 e
  · revert e; decide
  · cases e

theorem readLines_mountinfo : ∀ (ms : List Mount), (∀ m ∈ ms, Proper m) → readLines (mountinfo ms) = ms.map (fun m => line m ++ ['\n'])
  | [], _ => rfl
  | m :: ms, h => by
    have : mountinfo (m :: ms) = line m ++ '\n' :: mountinfo ms := by unfold mountinfo; simp
    rw [this, readLines_line _ _ (line_newline (h m (by simp))), readLines_mountinfo ms (fun x hx => h x (by simp [hx]))]
    rfl

/-- C191: for every list of mounts, as the kernel writes it: the root counts as shared just if the last mount at / is shared, whatever else is mounted. -/
theorem C191_root (ms : List Mount) (h : ∀ m ∈ ms, Proper m) : rootShared (some (mountinfo ms)) = true ↔ RootShared ms := by
  have key : ∀ (ms : List Mount) (rv : Bool), (∀ m ∈ ms, Proper m) →
      ((ms.map (fun m => line m ++ ['\n'])).foldl (fun rv l => rootLine 0 7 rv l) rv = true ↔ RootShared ms ∨ (rv = true ∧ ∀ x ∈ ms, x.point ≠ ['/'])) := by
    intro ms
    induction ms with
    | nil =>
      intro rv _
      constructor
      · intro e; exact Or.inr ⟨e, by simp⟩
      · rintro (⟨a, m, b, e, -⟩ | ⟨e, -⟩)
        · simp at e
        · exact e
    | cons m ms ih =>
      intro rv h
      obtain ⟨sh, h1, h2⟩ := rootLine_line m (h m (by simp)) rv
      rw [List.map_cons, List.foldl_cons, h2, ih _ (fun x hx => h x (by simp [hx]))]
      have up : RootShared ms → RootShared (m :: ms) := by
        rintro ⟨a, x, b, e, k⟩
        exact ⟨m :: a, x, b, by rw [e]; rfl, k⟩
      by_cases hp : m.point = ['/']
      · rw [if_pos hp]
        constructor
        · rintro (e | ⟨e, k⟩)
          · exact Or.inl (up e)
          · exact Or.inl ⟨[], m, ms, rfl, hp, h1.mp e, k⟩
        · rintro (⟨a, x, b, e, k1, k2, k3⟩ | ⟨-, k⟩)
          · cases a with
            | nil =>
              injection e with e1 e2
              subst e1 e2
              exact Or.inr ⟨h1.mpr k2, k3⟩
            | cons y a =>
              injection e with e1 e2
              exact Or.inl ⟨a, x, b, e2, k1, k2, k3⟩
          · exact absurd hp (k m (by simp))
      · rw [if_neg hp]
        constructor
        · rintro (e | ⟨e, k⟩)
          · exact Or.inl (up e)
          · exact Or.inr ⟨e, fun x hx => (List.mem_cons.mp hx).elim (fun e => e ▸ hp) (k x)⟩
        · rintro (⟨a, x, b, e, k1, k2, k3⟩ | ⟨e, k⟩)
          · cases a with
            | nil =>
              injection e with e1 e2
              subst e1
              exact absurd k1 hp
            | cons y a =>
              injection e with e1 e2
              exact Or.inl ⟨a, x, b, e2, k1, k2, k3⟩
          · exact Or.inr ⟨e, fun x hx => k x (by simp [hx])⟩
  unfold rootShared
  dsimp only
  rw [readLines_mountinfo ms h, key ms false h]
  constructor
  · rintro (e | ⟨e, -⟩)
    · exact e
    · cases e
  · exact Or.inl

/-- C191: with mount_private, or if the root is shared, nothing is unmounted or set up before the process has left the common namespace and has made its mounts private;
and if that fails, nothing at all is. -/
theorem C191_private_partial (argv : List Str) (ms : List Mount) (h : ∀ m ∈ ms, Proper m) (hp : "mount_private".toList ∈ argv ∨ RootShared ms)
    (res : List Op → Op → Int) (u : Unmnt) (uid ruid : Nat) (ps : List Poly) :
    (setupNamespace res (mountPrivate argv (some (mountinfo ms))) u uid ruid ps).2 = [] ∨
    ((setupNamespace res (mountPrivate argv (some (mountinfo ms))) u uid ruid ps).1 ≠ PAM_SUCCESS ∧
      ((setupNamespace res (mountPrivate argv (some (mountinfo ms))) u uid ruid ps).2 = [.unshare] ∨
       (setupNamespace res (mountPrivate argv (some (mountinfo ms))) u uid ruid ps).2 = [.unshare, .slave])) ∨
    (res [] .unshare = 0 ∧ res [.unshare] .slave = 0 ∧
      ∃ r, (setupNamespace res (mountPrivate argv (some (mountinfo ms))) u uid ruid ps).2 = .unshare :: .slave :: r) := by
  have hpr : mountPrivate argv (some (mountinfo ms)) = true := by
    unfold mountPrivate
    rcases hp with hp | hp
    · rw [show argv.any (· = "mount_private".toList) = true from List.any_eq_true.mpr ⟨_, hp, by simp⟩]; rfl
    · rw [(C191_root ms h).mpr hp, Bool.or_true]
  rw [hpr]
  have grow : ∀ (ps : List Poly) (tr : List Op), ∃ r, (setupLoop res u uid ruid tr ps).2 = tr ++ r := by
    intro ps
    induction ps with
    | nil => intro tr; exact ⟨[], by simp [setupLoop]⟩
    | cons p ps ih =>
      intro tr
      have one : ∃ r, (setupDir res u uid ruid tr p).2 = tr ++ r := by
        unfold setupDir
        dsimp only
        generalize (if nsOverride p ruid = true then Unmnt.no else u) = du0
        by_cases hc : nsOverride p uid = true ∧ du0 = Unmnt.no
        · rw [if_pos hc]
          exact ⟨[], (List.append_nil _).symm⟩
        · rw [if_neg hc]
          generalize (if nsOverride p uid = true then Unmnt.only else du0) = du
          have : ∃ r, (if du = .no then tr else tr ++ [Op.umount p.rdir]) = tr ++ r := by
            split
            · exact ⟨[], by simp⟩
            · exact ⟨_, rfl⟩
          obtain ⟨r, e⟩ := this
          rw [e]
          generalize (if du = Unmnt.no then 0 else res tr (Op.umount p.rdir)) = rr
          split
          · exact ⟨r, rfl⟩
          · split
            · exact ⟨r, rfl⟩
            · split
              · exact ⟨r ++ [.setup p], by simp⟩
              · exact ⟨r ++ [.setup p], by simp⟩
      obtain ⟨r, e⟩ := one
      unfold setupLoop
      split
      · exact ⟨r ++ [.cleanup], by rw [e]; simp⟩
      · obtain ⟨r2, e2⟩ := ih (setupDir res u uid ruid tr p).2
        exact ⟨r ++ r2, by rw [e2, e]; simp⟩
  unfold setupNamespace
  split
  · exact Or.inl rfl
  · split
    · exact Or.inr (Or.inl ⟨by decide, Or.inl rfl⟩)
    · rename_i h1
      rw [if_pos rfl]
      split
      · exact Or.inr (Or.inl ⟨by decide, Or.inr rfl⟩)
      · rename_i h2
        obtain ⟨r, e⟩ := grow ps [.unshare, .slave]
        exact Or.inr (Or.inr ⟨Decidable.not_not.mp h1, Decidable.not_not.mp h2, r, by rw [e]; rfl⟩)

/-- C191 is not true if the list of mounts cannot be opened: a root is then never shared. -/
theorem C191_unreadable_counterexample : mountPrivate [] none = false := rfl

instance (f : Str) : Decidable (MountField f) := inferInstanceAs (Decidable (f ≠ [] ∧ ' ' ∉ f ∧ '\n' ∉ f))

def exMounts : List Mount :=
  [⟨"1".toList, "0".toList, "0:1".toList, "/".toList, "/".toList, "rw".toList, [], "rootfs rootfs rw".toList⟩,
   ⟨"22".toList, "1".toList, "8:1".toList, "/".toList, "/".toList, "rw,relatime".toList, ["shared:1".toList, "master:2".toList], "ext4 /dev/sda1 rw".toList⟩,
   ⟨"23".toList, "22".toList, "0:5".toList, "/".toList, "/proc".toList, "rw".toList, [], "proc proc rw".toList⟩]

/-- witness for C191 -/
example : (∀ m ∈ exMounts, Proper m) ∧ RootShared exMounts ∧ rootShared (some (mountinfo exMounts)) = true := by
  have hP : ∀ m ∈ exMounts, Proper m := by
    intro m hm
    have noShared : ¬ SharedTag "master:2".toList := by
      intro h
      have := (sharedTag_iff _).mpr h
      revert this
      decide +kernel
    rcases List.mem_cons.mp hm with e | hm
    · subst e; exact ⟨by decide +kernel, by decide +kernel, by decide +kernel, by decide +kernel, by decide +kernel, by decide +kernel, by simp, by decide +kernel, by simp⟩
    · rcases List.mem_cons.mp hm with e | hm
      · subst e
        refine ⟨by decide +kernel, by decide +kernel, by decide +kernel, by decide +kernel, by decide +kernel, by decide +kernel, ?_, by decide +kernel, ?_⟩
        · intro t ht
          rcases List.mem_cons.mp ht with e | ht
          · subst e; decide +kernel
          · rcases List.mem_cons.mp ht with e | ht
            · subst e; decide +kernel
            · cases ht
        · intro t ht
          rcases List.mem_cons.mp ht with e | ht
          · subst e; exact noShared
          · cases ht
      · rcases List.mem_cons.mp hm with e | hm
        · subst e; exact ⟨by decide +kernel, by decide +kernel, by decide +kernel, by decide +kernel, by decide +kernel, by decide +kernel, by simp, by decide +kernel, by simp⟩
        · cases hm
  have hR : RootShared exMounts := by
    refine ⟨exMounts.take 1, _, exMounts.drop 2, rfl, by decide +kernel, ⟨"shared:1".toList, by simp, "1".toList, by decide +kernel⟩, ?_⟩
    intro x hx
    rcases List.mem_cons.mp hx with e | hx
    · subst e; decide +kernel
    · cases hx
  exact ⟨hP, hR, (C191_root _ hP).mpr hR⟩

/-! ### C192 -/

theorem polyParent_in {up name dir : Str} (h : In up name dir) : polyParent dir = up := by
  obtain ⟨h1, h2, h3⟩ := h
  have hr : ∀ x ∈ name.reverse, (decide (x ≠ '/')) = true := fun x hx => by
    simpa using fun (e : x = '/') => h2 (by rw [← e]; simpa using hx)
  unfold polyParent
  rcases h3 with ⟨rfl, rfl⟩ | ⟨k1, k2, k3, rfl⟩
  · rw [if_pos (by simp), if_pos]
    · rfl
    · rw [List.reverse_cons, takeWhile_stop name.reverse [] hr (by simp)]
      simp
      omega
  · cases up with
    | nil => exact absurd rfl k1
    | cons c up =>
      have hc : c = '/' := by simpa using k3
      subst hc
      have hup : up ≠ [] := fun e => k2 (by rw [e])
      have hpos := List.length_pos_iff.mpr hup
      rw [if_pos (by simp)]
      have hrev : (('/' :: up) ++ '/' :: name).reverse = name.reverse ++ '/' :: (up.reverse ++ ['/']) := by simp
      rw [hrev, takeWhile_stop name.reverse _ hr (by simp), dropWhile_stop name.reverse _ hr (by simp), if_neg]
      · simp
      · simp
        omega

/-- C192: a process whose current directory is the one to be unmounted, or in it, goes to the directory above, which is not in it. -/
theorem C192_leaves {up name dir cwd : Str} (h : In up name dir) (hc : Inside cwd dir) (chdir : Str → Bool) (hd : chdir up = true) :
    leaveDir chdir (some cwd) dir = .ok up ∧ ¬ Inside up dir := by
  have hpre : dir.isPrefixOf cwd = true := by
    rw [List.isPrefixOf_iff_prefix]
    rcases hc with rfl | ⟨r, rfl⟩
    · exact List.prefix_refl _
    · exact List.prefix_append _ _
  refine ⟨?_, ?_⟩
  · unfold leaveDir
    dsimp only
    rw [if_pos hpre, polyParent_in h, if_pos hd]
  · obtain ⟨h1, -, h3⟩ := h
    have hn := List.length_pos_iff.mpr h1
    have hl : up.length < dir.length := by
      rcases h3 with ⟨rfl, rfl⟩ | ⟨-, -, -, rfl⟩
      · simp; omega
      · simp only [List.length_append, List.length_cons]; omega
    rintro (e | ⟨r, e⟩)
    · rw [e] at hl; omega
    · rw [e] at hl; simp at hl; omega

/-- C192: a process that is elsewhere stays there; the full claim is for all paths that are not inside, not only for those that do not begin alike. -/
theorem C192_stays_partial {cwd dir : Str} (h : ¬ ∃ r, cwd = dir ++ r) (chdir : Str → Bool) : leaveDir chdir (some cwd) dir = .ok cwd := by
  unfold leaveDir
  dsimp only
  rw [if_neg]
  rw [List.isPrefixOf_iff_prefix]
  rintro ⟨r, e⟩
  exact h ⟨r, e.symm⟩

/-- C192: without a current directory the session fails. -/
theorem C192_unknown (chdir : Str → Bool) (dir : Str) : leaveDir chdir none dir = .error PAM_SESSION_ERR := rfl

/-- C192 is not true of directories whose names begin alike: a process in /tmpfiles goes to / when /tmp is unmounted. -/
theorem C192_alike_counterexample : ¬ Inside "/tmpfiles".toList "/tmp".toList ∧ leaveDir (fun _ => true) (some "/tmpfiles".toList) "/tmp".toList = .ok "/".toList := by
  refine ⟨?_, rfl⟩
  rintro (e | ⟨r, e⟩)
  · revert e; decide +kernel
  · rw [show "/tmpfiles".toList = "/tmp".toList ++ "files".toList by decide +kernel] at e
    have := List.append_cancel_left e
    rw [show "files".toList = 'f' :: "iles".toList by decide +kernel] at this
    injection this with e1
    revert e1
    decide

/-- C192 is not true if the directory above cannot be opened: the process stays in what is unmounted, and the session goes on. -/
theorem C192_ignored_counterexample : Inside "/tmp/x".toList "/tmp".toList ∧ leaveDir (fun _ => false) (some "/tmp/x".toList) "/tmp".toList = .ok "/tmp/x".toList := by
  refine ⟨Or.inr ⟨"x".toList, by decide +kernel⟩, rfl⟩

/-- witness for C192_leaves -/
example : In "/home/ann".toList "tmp".toList "/home/ann/tmp".toList ∧ Inside "/home/ann/tmp/x".toList "/home/ann/tmp".toList ∧ In ['/'] "tmp".toList "/tmp".toList := by
  refine ⟨⟨by decide +kernel, by decide +kernel, Or.inr ⟨by decide +kernel, by decide +kernel, by decide +kernel, by decide +kernel⟩⟩, Or.inr ⟨"x".toList, by decide +kernel⟩,
    ⟨by decide +kernel, by decide +kernel, Or.inl ⟨rfl, by decide +kernel⟩⟩⟩

end Pam.Namespace
