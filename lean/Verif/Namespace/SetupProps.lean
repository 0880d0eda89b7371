import Verif.Namespace.ScriptProps
import Verif.Namespace.SessionProps
/-
C170: the set-up of one directory.
-/
namespace Pam.Namespace.Spec
open Pam

/-- the directory with the instances is root's, and closed to everybody, unless that is not to be looked at -/
def ClosedParent (ignore : Bool) (a : Option Attr) : Prop := ignore = true ∨ ∃ b, a = some b ∧ b.uid = 0 ∧ ∀ i, i < 9 → b.mode.testBit i = false

/-- the directory that is to be polyinstantiated, once it is open: it was there, or it was made as the entry says: with the owner and group of the entry or else of the
user, and the mode of the entry -/
def TheDir (y : SetupSys) (e : Sess) (p : Poly) (made : Bool) (a : Attr) : Prop :=
  (made = false ∧ y.openDir = .ok a) ∨
  (made = true ∧ y.openDir = .error true ∧ p.flags.create = true ∧ y.make.make = true ∧ y.make.chown = true ∧
    a.uid = (if p.owner = 2 ^ 32 - 1 then e.uid else p.owner) ∧ a.gid = (if p.group = 2 ^ 32 - 1 then e.gid else p.group) ∧
    (p.mode ≠ 2 ^ 32 - 1 → y.make.chmod = true ∧ a.mode = p.mode % 4096) ∧
    (p.mode = 2 ^ 32 - 1 → a.mode = 511 &&& (4095 ^^^ (y.make.umask &&& 4095))))

end Pam.Namespace.Spec

namespace Pam.Namespace
open Pam

theorem checkParent_iff (ignore : Bool) (a : Option Attr) : checkParent ignore a = 0 ↔ Spec.ClosedParent ignore a := by
  unfold checkParent Spec.ClosedParent
  cases ignore with
  | true => simp [PAM_SUCCESS]
  | false =>
    cases a with
    | none => simp [PAM_SESSION_ERR]
    | some b =>
      have key : b.mode % 512 = 0 ↔ ∀ i, i < 9 → b.mode.testBit i = false := by
        constructor
        · intro h i hi
          have := congrArg (·.testBit i) h
          simp only [show (512 : Nat) = 2 ^ 9 from rfl, Nat.testBit_mod_two_pow, hi, decide_true, Bool.true_and, Nat.zero_testBit] at this
          exact this
        · intro h
          apply Nat.eq_of_testBit_eq
          intro i
          rw [show (512 : Nat) = 2 ^ 9 from rfl, Nat.testBit_mod_two_pow, Nat.zero_testBit]
          by_cases hi : i < 9
          · rw [h i hi, Bool.and_false]
          · simp [hi]
      by_cases hm : b.mode % 512 = 0
      · by_cases hu : b.uid = 0
        · simp [hm, hu, PAM_SUCCESS]; exact key.1 hm
        · simp [hu, PAM_SESSION_ERR]
      · simp only [Bool.false_eq_true, if_false, ne_eq, hm, not_false_eq_true, true_or, if_true, PAM_SESSION_ERR]
        constructor
        · intro h; exact absurd h (by decide)
        · rintro (h | ⟨c, h, _, hc⟩)
          · cases h
          · cases h; exact absurd (key.2 hc) hm

theorem initStep_keeps (y : SetupSys) (e : Sess) (p : Poly) (ipath : Str) (newdir : Bool) (h : Nat) (o : Out) (hh : o.sigchld = h) :
    (initStep y e p ipath newdir h o).fds = o.fds ∧ (initStep y e p ipath newdir h o).place = o.place ∧ (initStep y e p ipath newdir h o).inst = o.inst ∧
    (initStep y e p ipath newdir h o).sigchld = h := by
  unfold initStep
  split
  · exact ⟨rfl, rfl, rfl, hh⟩
  · exact ⟨rfl, rfl, rfl, C169_signals ..⟩

/-- the script's part in the outcome: not wanted, or what `inst_init` makes of it -/
structure Inits (y : SetupSys) (e : Sess) (p : Poly) (ipath : Str) (newdir : Bool) (h : Nat) (m : Act) (o : Out) : Prop where
  without : p.flags.noinit = true → o.acts = [m] ∧ o.code = PAM_SUCCESS
  script : p.flags.noinit = false → o.code = (instInit y.script y.lstat y.stat p ipath (e.user.take 255) newdir h).1 ∧
    o.acts = m :: ((instInit y.script y.lstat y.stat p ipath (e.user.take 255) newdir h).2.1.toList.map .run)

theorem initStep_inits (y : SetupSys) (e : Sess) (p : Poly) (ipath : Str) (newdir : Bool) (h : Nat) (m : Act) (o : Out) (ho : o.acts = [m]) :
    Inits y e p ipath newdir h m (initStep y e p ipath newdir h o) := by
  unfold initStep
  cases hn : p.flags.noinit with
  | true => exact ⟨fun _ => ⟨ho, rfl⟩, fun hf => by rw [hn] at hf; cases hf⟩
  | false => exact ⟨fun hf => by rw [hn] at hf; (cases hf), fun _ => ⟨rfl, by simp [ho]⟩⟩

/-- the instance: made with the attributes of the directory, or there before; how it is called -/
structure Instance (y : SetupSys) (p : Poly) (a : Attr) (name0 name : Str) (newdir : Bool) (pl : Place) (par : Str) (i : Option Attr) : Prop where
  place : pl = ⟨decide (p.method = .tmpdir), some (par, name)⟩
  tmp : p.method = .tmpdir → y.mkdtemp = some name ∧ newdir = true
  named : p.method ≠ .tmpdir → name = name0
  fresh : newdir = true → i = some ⟨a.uid, a.gid, a.mode % 4096⟩ ∧ (p.method ≠ .tmpdir → y.instance_ = none)
  old : newdir = false → i = y.instance_ ∧ y.instance_.isSome = true

theorem fillTmp_cases (ok : Call → Bool) (gid0 : Nat) (a : Attr) :
    fillTmp ok gid0 a = (PAM_SUCCESS, some ⟨a.uid, a.gid, a.mode % 4096⟩) ∨ fillTmp ok gid0 a = (PAM_SESSION_ERR, none) := by
  unfold fillTmp
  split
  · exact .inr rfl
  split
  · exact .inr rfl
  split
  · exact .inr rfl
  exact .inl rfl

theorem createInstance_cases (ok : Call → Bool) (gid0 : Nat) (a : Attr) (d : Option Attr) :
    (d = none ∧ (createInstance ok gid0 a d).1 = PAM_SUCCESS ∧ (createInstance ok gid0 a d).2.head?.join = some ⟨a.uid, a.gid, a.mode % 4096⟩) ∨
    (d = none ∧ (createInstance ok gid0 a d).1 = PAM_SESSION_ERR ∧ (createInstance ok gid0 a d).2.head?.join = none) ∨
    (d.isSome = true ∧ (createInstance ok gid0 a d).1 = PAM_IGNORE ∧ (createInstance ok gid0 a d).2.head?.join = d) := by
  have hs := C115_created_partial ok gid0 a d
  cases d with
  | some b => exact .inr (.inr ⟨rfl, rfl, rfl⟩)
  | none =>
    have hc : (createInstance ok gid0 a none).1 = PAM_SUCCESS ∨ (createInstance ok gid0 a none).1 = PAM_SESSION_ERR := by
      unfold createInstance
      dsimp only
      split
      · exact .inr rfl
      split
      · exact .inr rfl
      split
      · split
        · exact .inr rfl
        split
        · exact .inr rfl
        exact .inl rfl
      split
      · exact .inr rfl
      exact .inl rfl
    rcases hc with hc | hc
    · exact .inl ⟨rfl, hc, by rw [(hs.1 hc).2]; rfl⟩
    · exact .inr (.inl ⟨rfl, hc, by rw [(hs.2.1 hc).2]; rfl⟩)

theorem makeInstance_cases (y : SetupSys) (p : Poly) (a : Attr) (par name0 : Str) :
    let m := makeInstance y p a par name0
    (m.1 = PAM_SESSION_ERR ∧ m.2.2.2 = none) ∨
    ((m.1 = PAM_SUCCESS ∨ m.1 = PAM_IGNORE) ∧ Instance y p a name0 m.2.2.1 (decide (m.1 ≠ PAM_IGNORE)) m.2.1 par m.2.2.2) := by
  unfold makeInstance
  by_cases ht : p.method = .tmpdir
  · rw [if_pos ht]
    cases hm : y.mkdtemp with
    | none => exact .inl ⟨rfl, rfl⟩
    | some n =>
      rcases fillTmp_cases y.call y.gid0 a with h | h
      · right
        dsimp only
        rw [h]
        have t : decide (PAM_SUCCESS ≠ PAM_IGNORE) = true := by decide
        exact ⟨.inl rfl, ⟨by simp [ht], fun _ => ⟨hm, t⟩, fun hn => absurd ht hn, fun _ => ⟨rfl, fun hn => absurd ht hn⟩, fun hf => Bool.noConfusion (t.symm.trans hf)⟩⟩
      · left
        dsimp only
        rw [h]
        exact ⟨rfl, rfl⟩
  · rw [if_neg ht]
    dsimp only
    rcases createInstance_cases y.call y.gid0 a y.instance_ with ⟨hd, hc, hi⟩ | ⟨_, hc, hi⟩ | ⟨hd, hc, hi⟩
    · right
      refine ⟨.inl hc, ⟨by simp [ht], fun h => absurd h ht, fun _ => rfl, fun _ => ⟨hi, fun _ => hd⟩, fun hf => ?_⟩⟩
      rw [hc] at hf; exact absurd hf (by decide)
    · exact .inl ⟨hc, hi⟩
    · right
      refine ⟨.inr hc, ⟨by simp [ht], fun h => absurd h ht, fun _ => rfl, fun hf => ?_, fun _ => ⟨hi, hd⟩⟩⟩
      rw [hc] at hf; exact absurd hf (by decide)

/-- the outcomes once the directory is open -/
theorem setupOpen_cases (y : SetupSys) (e : Sess) (p : Poly) (h : Nat) (a : Attr) :
    let o := setupOpen y e p h a
    o.sigchld = h ∧
    ((o.code = PAM_SESSION_ERR ∧ o.acts = []) ∨
     (o.code = PAM_IGNORE ∧ o.acts = [] ∧ p.method ≠ .tmpfs ∧ polyName e.md5 e.gen e.ctx e.user p = .error PAM_IGNORE) ∨
     (p.method = .tmpfs ∧ y.mount = true ∧ Inits y e p "tmpfs".toList true h (.tmpfs p.mountFlags p.mountOpts) o) ∨
     (p.method ≠ .tmpfs ∧ y.mount = true ∧ ∃ par name0 name newdir, polyName e.md5 e.gen e.ctx e.user p = .ok (par, name0) ∧ Spec.ClosedParent e.ignore y.parent ∧
       Instance y p a name0 name newdir o.place par o.inst ∧ Inits y e p (par ++ name) newdir h (.bind par name) o)) := by
  unfold setupOpen
  generalize "tmpfs".toList = T
  dsimp only
  by_cases ht : p.method = .tmpfs
  · rw [if_pos ht]
    by_cases hm : y.mount = true
    · rw [if_neg (by simpa using hm)]
      exact ⟨(initStep_keeps y e p T true h _ rfl).2.2.2, .inr (.inr (.inl ⟨ht, hm, initStep_inits y e p T true h _ _ rfl⟩))⟩
    · rw [if_pos hm]
      exact ⟨rfl, .inl ⟨rfl, rfl⟩⟩
  · rw [if_neg ht]
    split
    · exact ⟨rfl, .inl ⟨rfl, rfl⟩⟩
    · cases hp : polyName e.md5 e.gen e.ctx e.user p with
      | error c =>
        dsimp only
        by_cases hc : c = PAM_IGNORE
        · rw [if_neg (by simpa using hc)]
          exact ⟨rfl, .inr (.inl ⟨hc, rfl, ht, by rw [hc]⟩)⟩
        · rw [if_pos hc]
          exact ⟨rfl, .inl ⟨rfl, rfl⟩⟩
      | ok pn =>
        obtain ⟨par, name0⟩ := pn
        dsimp only
        split
        · exact ⟨rfl, .inl ⟨rfl, rfl⟩⟩
        · by_cases hcp : checkParent e.ignore y.parent = 0
          · rw [if_neg (by simpa using hcp)]
            have hi := makeInstance_cases y p a par name0
            generalize hm : makeInstance y p a par name0 = m at hi
            dsimp only at hi
            rcases hi with ⟨hi, _⟩ | ⟨hi, hinst⟩
            · rw [if_pos (by rw [hi]; decide)]
              exact ⟨rfl, .inl ⟨rfl, rfl⟩⟩
            · rw [if_neg (by rcases hi with hi | hi <;> rw [hi] <;> decide)]
              split
              · exact ⟨rfl, .inl ⟨rfl, rfl⟩⟩
              · by_cases hmt : y.mount = true
                · rw [if_neg (by simpa using hmt)]
                  have hk := initStep_keeps y e p (par ++ m.2.2.1) (decide (m.1 ≠ PAM_IGNORE)) h
                    ⟨PAM_SUCCESS, [.bind par m.2.2.1], m.2.1, m.2.2.2, [.dir, .parent, .inst], h⟩ rfl
                  refine ⟨hk.2.2.2, .inr (.inr (.inr ⟨ht, hmt, par, name0, m.2.2.1, decide (m.1 ≠ PAM_IGNORE), rfl, (checkParent_iff _ _).1 hcp, ?_,
                    initStep_inits y e p _ _ h _ _ rfl⟩))⟩
                  rw [hk.2.1, hk.2.2.1]
                  exact hinst
                · rw [if_pos hmt]
                  exact ⟨rfl, .inl ⟨rfl, rfl⟩⟩
          · rw [if_pos hcp]
            exact ⟨rfl, .inl ⟨rfl, rfl⟩⟩

theorem createPolydir_some (y : MakeSys) (p : Poly) (uid gid : Nat) (con : Option Str) (a : Attr) (c : Option Str) (b : Bool)
    (h : createPolydir y p uid gid con = (some a, c, b)) :
    y.make = true ∧ y.chown = true ∧ c = con ∧ a.uid = (if p.owner = 2 ^ 32 - 1 then uid else p.owner) ∧ a.gid = (if p.group = 2 ^ 32 - 1 then gid else p.group) ∧
    (p.mode ≠ 2 ^ 32 - 1 → y.chmod = true ∧ a.mode = p.mode % 4096) ∧ (p.mode = 2 ^ 32 - 1 → a.mode = 511 &&& (4095 ^^^ (y.umask &&& 4095))) := by
  unfold createPolydir at h
  dsimp only at h
  by_cases h1 : y.make = true
  · rw [if_neg (by simpa using h1)] at h
    split at h
    · cases congrArg Prod.fst h
    · rename_i h2
      by_cases h3 : y.chown = true
      · rw [if_neg (by simpa using h3)] at h
        have ea := Option.some.inj (congrArg Prod.fst h)
        have ec : _ = c := congrArg (·.2.1) h
        refine ⟨h1, h3, ?_, ?_, ?_, ?_, ?_⟩
        · rw [← ec]
          cases y.selinux <;> simp
        · rw [← ea]; show (if p.owner ≠ unset then p.owner else uid) = _
          by_cases ho : p.owner = 2 ^ 32 - 1 <;> simp [ho, unset]
        · rw [← ea]; show (if p.group ≠ unset then p.group else gid) = _
          by_cases ho : p.group = 2 ^ 32 - 1 <;> simp [ho, unset]
        · intro hm
          have hm' : p.mode ≠ unset := hm
          refine ⟨Classical.byContradiction fun hc => h2 ⟨hm', hc⟩, ?_⟩
          rw [← ea, if_pos hm', if_pos hm']
        · intro hm
          have hm' : ¬ p.mode ≠ unset := fun hx => hx hm
          rw [← ea, if_neg hm', if_neg hm']
      · rw [if_pos h3] at h
        cases congrArg Prod.fst h
  · rw [if_pos h1] at h
    cases congrArg Prod.fst h

/-- an outcome with the directory open, or none -/
theorem nsSetup_cases (y : SetupSys) (e : Sess) (p : Poly) (h : Nat) (con : Option Str) :
    let o := nsSetup y e p h con
    (o.1 = ⟨PAM_SESSION_ERR, [], ⟨decide (p.method = .tmpdir), none⟩, none, [], h⟩ ∧ o.2.2 = false) ∨
    (∃ a, o.1 = closing (setupOpen y e p h a) ∧ Spec.TheDir y e p o.2.2 a ∧ o.2.1 = con) := by
  unfold nsSetup
  dsimp only
  cases ho : y.openDir with
  | ok a => exact .inr ⟨a, rfl, .inl ⟨rfl, ho⟩, rfl⟩
  | error noent =>
    dsimp only
    by_cases hc : ¬ (noent = true) ∨ ¬ (p.flags.create = true)
    · rw [if_pos hc]
      exact .inl ⟨rfl, rfl⟩
    · rw [if_neg hc]
      rcases hcp : createPolydir y.make p e.uid e.gid con with ⟨a, c, b⟩
      cases a with
      | none => exact .inl ⟨rfl, rfl⟩
      | some a =>
        obtain ⟨k1, k2, k3, k4, k5, k6, k7⟩ := createPolydir_some _ _ _ _ _ _ _ _ hcp
        have hn : noent = true := Classical.byContradiction fun hx => hc (.inl hx)
        have hf : p.flags.create = true := Classical.byContradiction fun hx => hc (.inr hx)
        exact .inr ⟨a, rfl, .inr ⟨rfl, by rw [ho, hn], hf, k1, k2, k4, k5, k6, k7⟩, k3⟩

/-- C170: success of an instance method means that the instance, from a directory that only root can enter (unless that is not to be checked), was mounted on the directory; the
instance was there before, or is new and has owner, group and mode of the directory. -/
theorem C170_success (y : SetupSys) (e : Sess) (p : Poly) (h : Nat) (con : Option Str) (hm : p.method ≠ .tmpfs) (hs : (nsSetup y e p h con).1.code = PAM_SUCCESS) :
    ∃ a par name0 name newdir, Spec.TheDir y e p (nsSetup y e p h con).2.2 a ∧ polyName e.md5 e.gen e.ctx e.user p = .ok (par, name0) ∧
      Spec.ClosedParent e.ignore y.parent ∧ (nsSetup y e p h con).1.acts.head? = some (.bind par name) ∧
      (if p.method = .tmpdir then y.mkdtemp = some name else name = name0) ∧
      (newdir = true → (nsSetup y e p h con).1.inst = some ⟨a.uid, a.gid, a.mode % 4096⟩) ∧
      (newdir = false → p.method ≠ .tmpdir ∧ y.instance_.isSome = true ∧ (nsSetup y e p h con).1.inst = y.instance_) ∧
      (p.flags.noinit = true → (nsSetup y e p h con).1.acts = [.bind par name]) ∧
      (p.flags.noinit = false → (instInit y.script y.lstat y.stat p (par ++ name) (e.user.take 255) newdir h).1 = PAM_SUCCESS ∧
        (nsSetup y e p h con).1.acts = .bind par name :: ((instInit y.script y.lstat y.stat p (par ++ name) (e.user.take 255) newdir h).2.1.toList.map .run)) := by
  rcases nsSetup_cases y e p h con with ⟨e1, _⟩ | ⟨a, e1, hd, _⟩
  · rw [e1] at hs
    have hs' : PAM_SESSION_ERR = PAM_SUCCESS := hs
    exact absurd hs' (by decide)
  · rw [e1] at hs ⊢
    have hs' : (setupOpen y e p h a).code = PAM_SUCCESS := hs
    rcases (setupOpen_cases y e p h a).2 with ⟨hc, _⟩ | ⟨hc, _⟩ | ⟨ht, _⟩ | ⟨_, _, par, name0, name, newdir, hp, hcp, hi, hin⟩
    · exact absurd (hs'.symm.trans hc) (by decide)
    · exact absurd (hs'.symm.trans hc) (by decide)
    · exact absurd ht hm
    · refine ⟨a, par, name0, name, newdir, hd, hp, hcp, ?_, ?_, fun hn => (hi.fresh hn).1, fun hn => ⟨fun ht => ?_, (hi.old hn).2, (hi.old hn).1⟩, fun hn => (hin.without hn).1,
        fun hn => ⟨(hin.script hn).1.symm.trans hs', (hin.script hn).2⟩⟩
      · show (setupOpen y e p h a).acts.head? = _
        cases hn : p.flags.noinit with
        | true => rw [(hin.without hn).1]; rfl
        | false => rw [(hin.script hn).2]; rfl
      · by_cases ht : p.method = .tmpdir
        · rw [if_pos ht]; exact (hi.tmp ht).1
        · rw [if_neg ht]; exact hi.named ht
      · rw [(hi.tmp ht).2] at hn; cases hn

/-- C170: success of the method tmpfs means that a new file system was mounted on the directory, with the flags and options of the entry. -/
theorem C170_tmpfs (y : SetupSys) (e : Sess) (p : Poly) (h : Nat) (con : Option Str) (hm : p.method = .tmpfs) (hs : (nsSetup y e p h con).1.code = PAM_SUCCESS) :
    ∃ a, Spec.TheDir y e p (nsSetup y e p h con).2.2 a ∧ (nsSetup y e p h con).1.acts.head? = some (.tmpfs p.mountFlags p.mountOpts) ∧
      (p.flags.noinit = true → (nsSetup y e p h con).1.acts = [.tmpfs p.mountFlags p.mountOpts]) ∧
      (p.flags.noinit = false → (instInit y.script y.lstat y.stat p "tmpfs".toList (e.user.take 255) true h).1 = PAM_SUCCESS ∧
        (nsSetup y e p h con).1.acts = .tmpfs p.mountFlags p.mountOpts ::
          ((instInit y.script y.lstat y.stat p "tmpfs".toList (e.user.take 255) true h).2.1.toList.map .run)) := by
  rcases nsSetup_cases y e p h con with ⟨e1, _⟩ | ⟨a, e1, hd, _⟩
  · rw [e1] at hs
    have hs' : PAM_SESSION_ERR = PAM_SUCCESS := hs
    exact absurd hs' (by decide)
  · rw [e1] at hs ⊢
    have hs' : (setupOpen y e p h a).code = PAM_SUCCESS := hs
    have k := (setupOpen_cases y e p h a).2
    generalize "tmpfs".toList = T at k ⊢
    rcases k with ⟨hc, _⟩ | ⟨hc, _⟩ | ⟨_, _, hin⟩ | ⟨ht, _⟩
    · exact absurd (hs'.symm.trans hc) (by decide)
    · exact absurd (hs'.symm.trans hc) (by decide)
    · refine ⟨a, hd, ?_, fun hn => (hin.without hn).1, fun hn => ⟨(hin.script hn).1.symm.trans hs', (hin.script hn).2⟩⟩
      show (setupOpen y e p h a).acts.head? = _
      cases hn : p.flags.noinit with
      | true => rw [(hin.without hn).1]; rfl
      | false => rw [(hin.script hn).2]; rfl
    · exact absurd hm ht

/-- C170: anything else is PAM_SESSION_ERR, or PAM_IGNORE for a shared directory without a security context, with nothing mounted.  With PAM_SESSION_ERR nothing is mounted
either, unless it was the script that failed. -/
theorem C170_failure (y : SetupSys) (e : Sess) (p : Poly) (h : Nat) (con : Option Str) (hs : (nsSetup y e p h con).1.code ≠ PAM_SUCCESS) :
    ((nsSetup y e p h con).1.code = PAM_IGNORE ∧ (nsSetup y e p h con).1.acts = [] ∧ p.flags.shared = true ∧ e.ctx = none ∧ (p.method = .level ∨ p.method = .context)) ∨
    ((nsSetup y e p h con).1.code = PAM_SESSION_ERR ∧ ((nsSetup y e p h con).1.acts = [] ∨
      (p.flags.noinit = false ∧ ∃ ipath newdir, (instInit y.script y.lstat y.stat p ipath (e.user.take 255) newdir h).1 = PAM_SESSION_ERR))) := by
  rcases nsSetup_cases y e p h con with ⟨e1, _⟩ | ⟨a, e1, hd, _⟩
  · rw [e1]; exact .inr ⟨rfl, .inl rfl⟩
  · rw [e1] at hs ⊢
    have hs' : (setupOpen y e p h a).code ≠ PAM_SUCCESS := hs
    show ((setupOpen y e p h a).code = _ ∧ (setupOpen y e p h a).acts = _ ∧ _) ∨ ((setupOpen y e p h a).code = _ ∧ ((setupOpen y e p h a).acts = _ ∨ _))
    have bad : ∀ ipath newdir m, Inits y e p ipath newdir h m (setupOpen y e p h a) → (setupOpen y e p h a).code = PAM_SESSION_ERR ∧ p.flags.noinit = false ∧
        (instInit y.script y.lstat y.stat p ipath (e.user.take 255) newdir h).1 = PAM_SESSION_ERR := by
      intro ipath newdir m hin
      cases hn : p.flags.noinit with
      | true => exact absurd (hin.without hn).2 hs'
      | false =>
        have hc := (hin.script hn).1
        have := (C169_failure y.script y.lstat y.stat p ipath (e.user.take 255) newdir h _ (chosen y.script p) (by rw [← hc]; exact hs')).1
        exact ⟨hc.trans this, rfl, this⟩
    rcases (setupOpen_cases y e p h a).2 with ⟨hc, ha⟩ | ⟨hc, ha, ht, hp⟩ | ⟨_, _, hin⟩ | ⟨_, _, par, name0, name, newdir, _, _, _, hin⟩
    · exact .inr ⟨hc, .inl ha⟩
    · refine .inl ⟨hc, ha, ?_⟩
      unfold polyName at hp
      cases hd : instDiff e.ctx (e.user.take 255) p with
      | some d =>
        rw [hd] at hp
        dsimp only at hp
        generalize (p.pre ++ if d.2 = true then hashed e.md5 e.gen d.1 else d.1) = abs at hp
        split at hp
        · exact absurd (Except.error.inj hp) (by decide)
        · cases hp
      | none =>
        unfold instDiff at hd
        revert hd
        generalize "XXXXXX".toList = X
        intro hd
        cases hmm : p.method <;> rw [hmm] at hd <;> cases hx : e.ctx <;> rw [hx] at hd <;> simp at hd
        · exact ⟨hd, rfl, .inr rfl⟩
        · exact ⟨hd, rfl, .inl rfl⟩
    · have := bad _ _ _ hin
      exact .inr ⟨this.1, .inr ⟨this.2.1, _, _, this.2.2⟩⟩
    · have := bad _ _ _ hin
      exact .inr ⟨this.1, .inr ⟨this.2.1, _, _, this.2.2⟩⟩

/-- C170: no descriptor stays open, and SIGCHLD is handled as before, whatever happens. -/
theorem C170_clean (y : SetupSys) (e : Sess) (p : Poly) (h : Nat) (con : Option Str) :
    (nsSetup y e p h con).1.fds = [] ∧ (nsSetup y e p h con).1.sigchld = h := by
  rcases nsSetup_cases y e p h con with ⟨e1, _⟩ | ⟨a, e1, _⟩
  · rw [e1]; exact ⟨rfl, rfl⟩
  · rw [e1]
    refine ⟨?_, (setupOpen_cases y e p h a).1⟩
    show (setupOpen y e p h a).fds.filter _ = []
    rw [List.filter_eq_nil_iff]
    intro f _
    cases f <;> decide

/-- C170: a directory is made only if it is missing and the entry says so; without that there is an error. -/
theorem C170_missing (y : SetupSys) (e : Sess) (p : Poly) (h : Nat) (con : Option Str) :
    ((nsSetup y e p h con).2.2 = true → y.openDir = .error true ∧ p.flags.create = true) ∧
    (∀ b, y.openDir = .error b → (b = false ∨ p.flags.create = false) → (nsSetup y e p h con).1.code = PAM_SESSION_ERR ∧ (nsSetup y e p h con).1.acts = []) := by
  constructor
  · intro hm
    rcases nsSetup_cases y e p h con with ⟨_, e2⟩ | ⟨a, _, hd, _⟩
    · rw [e2] at hm; cases hm
    · rcases hd with ⟨hd, _⟩ | ⟨_, h1, h2, _⟩
      · rw [hd] at hm; cases hm
      · exact ⟨h1, h2⟩
  · intro b hb hc
    rcases nsSetup_cases y e p h con with ⟨e1, _⟩ | ⟨a, _, hd, _⟩
    · rw [e1]; exact ⟨rfl, rfl⟩
    · rcases hd with ⟨_, h1⟩ | ⟨_, h1, h2, _⟩
      · rw [hb] at h1; cases h1
      · rw [hb] at h1
        cases h1
        rcases hc with hc | hc
        · cases hc
        · rw [h2] at hc; cases hc

/-- C170: when the directory is there, all calls work, the directory with the instances is closed and the script, if it is wanted, does its part, the instance is set up. -/
theorem C170_works (y : SetupSys) (e : Sess) (p : Poly) (h : Nat) (con : Option Str) (a : Attr) (par name : Str) (hm : p.method = .user ∨ p.method = .context ∨ p.method = .level)
    (hd : y.openDir = .ok a) (h1 : y.fstat = true) (hn : polyName e.md5 e.gen e.ctx e.user p = .ok (par, name)) (h2 : y.openParent = true)
    (hp : Spec.ClosedParent e.ignore y.parent) (h3 : ∀ c, y.call c = true) (h4 : y.openInst = true) (h5 : y.mount = true)
    (hi : p.flags.noinit = true ∨ (instInit y.script y.lstat y.stat p (par ++ name) (e.user.take 255) y.instance_.isNone h).1 = PAM_SUCCESS) :
    (nsSetup y e p h con).1.code = PAM_SUCCESS ∧ (nsSetup y e p h con).1.acts.head? = some (.bind par name) ∧
    (nsSetup y e p h con).1.inst = some (y.instance_.getD ⟨a.uid, a.gid, a.mode % 4096⟩) := by
  have ht : p.method ≠ .tmpfs := by rcases hm with hm | hm | hm <;> rw [hm] <;> decide
  have ht' : p.method ≠ .tmpdir := by rcases hm with hm | hm | hm <;> rw [hm] <;> decide
  have hcp := (checkParent_iff _ _).2 hp
  have hmk : ∃ c, makeInstance y p a par name = (c, ⟨false, some (par, name)⟩, name, some (y.instance_.getD ⟨a.uid, a.gid, a.mode % 4096⟩)) ∧
      c = (if y.instance_.isNone then PAM_SUCCESS else PAM_IGNORE) := by
    unfold makeInstance
    rw [if_neg ht']
    dsimp only
    cases hx : y.instance_ with
    | some b => exact ⟨_, rfl, rfl⟩
    | none =>
      unfold createInstance
      by_cases ho : (0 : Nat) ≠ a.uid ∨ y.gid0 ≠ a.gid
      · refine ⟨PAM_SUCCESS, ?_, rfl⟩
        simp [h3, ho]
      · refine ⟨PAM_SUCCESS, ?_, rfl⟩
        simp only [not_or, ne_eq, Decidable.not_not] at ho
        simp [h3, ← ho.1, ← ho.2]
  obtain ⟨c, hmk, hc⟩ := hmk
  have hnd : decide (c ≠ PAM_IGNORE) = y.instance_.isNone := by
    rw [hc]; generalize y.instance_.isNone = b; cases b <;> decide
  have hok : ¬ (c ≠ PAM_IGNORE ∧ c ≠ PAM_SUCCESS) := by
    rw [hc]; generalize y.instance_.isNone = b; cases b <;> decide
  have key : (nsSetup y e p h con).1 = closing (initStep y e p (par ++ name) y.instance_.isNone h
      ⟨PAM_SUCCESS, [.bind par name], ⟨false, some (par, name)⟩, some (y.instance_.getD ⟨a.uid, a.gid, a.mode % 4096⟩), [.dir, .parent, .inst], h⟩) := by
    unfold nsSetup
    dsimp only
    rw [hd]
    dsimp only
    congr 1
    unfold setupOpen
    generalize "tmpfs".toList = T
    dsimp only
    rw [if_neg ht, if_neg (by simpa using h1), hn]
    dsimp only
    rw [if_neg (by simpa using h2), if_neg (by simpa using hcp), hmk]
    dsimp only
    rw [if_neg hok, if_neg (by simpa using h4), if_neg (by simpa using h5), hnd]
  rw [key]
  unfold initStep
  by_cases hni : p.flags.noinit = true
  · rw [if_pos hni]; exact ⟨rfl, rfl, rfl⟩
  · rw [if_neg hni]
    refine ⟨?_, rfl, rfl⟩
    rcases hi with hi | hi
    · exact absurd hi hni
    · exact hi

/-- a system in which everything works: /tmp is there, the directory for instances too; the instance is as given, the script ends with `s` -/
def demoSys (i : Option Attr) (s : Option End) : SetupSys :=
  { openDir := .ok ⟨0, 0, 0o1777⟩, make := ⟨true, some "tmp_t".toList, true, 0o22, 0, true, true⟩, fstat := true, openParent := true, parent := some ⟨0, 0, 0⟩,
    instance_ := i, call := fun _ => true, gid0 := 0, mkdtemp := some "Q3kz9A".toList, openInst := true, mount := true, script := demoScript s, lstat := demoLstat,
    stat := demoStat }

def demoSess : Sess := ⟨fun s => s, false, none, "ann".toList, false, 1000, 100⟩

example : (nsSetup (demoSys none (some (.exited 0))) demoSess demoTmp 7 none).1 =
    ⟨PAM_SUCCESS, [.bind "/tmp-inst/".toList "ann".toList,
      .run ⟨["/etc/security/namespace.init".toList, "/tmp".toList, "/tmp-inst/ann".toList, "1".toList, "ann".toList, "1".toList, "0".toList], [], 0⟩],
      ⟨false, some ("/tmp-inst/".toList, "ann".toList)⟩, some ⟨0, 0, 0o1777⟩, [], 7⟩ := by decide +kernel

/-- an instance that users can enter stays closed to the module -/
example : (nsSetup { demoSys none none with parent := some ⟨0, 0, 0o755⟩ } demoSess demoTmp 7 none).1.code = PAM_SESSION_ERR := by decide +kernel

/-- a home directory that is made -/
example : (nsSetup { demoSys none none with openDir := .error true } demoSess
    { demoTmp with method := .tmpfs, flags := ⟨false, true, true, false, false, false⟩, mode := 0o700 } 7 none) =
    (⟨PAM_SUCCESS, [.tmpfs ⟨false, false, false⟩ none], ⟨false, none⟩, none, [], 7⟩, none, true) := by decide +kernel

/-- The full claim (a set-up that fails changes nothing in the session) is false in two ways.  When the script fails, the instance stays mounted.  When the directory cannot be
made, new files of the process get the label that was meant for it. -/
theorem C170_leftover_counterexample :
    (nsSetup (demoSys none (some .killed)) demoSess demoTmp 7 none).1.code = PAM_SESSION_ERR ∧
    (nsSetup (demoSys none (some .killed)) demoSess demoTmp 7 none).1.acts.head? = some (.bind "/tmp-inst/".toList "ann".toList) ∧
    (nsSetup { demoSys none none with openDir := .error true, make := ⟨true, some "tmp_t".toList, false, 0o22, 0, true, true⟩ } demoSess
      { demoTmp with flags := ⟨true, true, true, false, false, false⟩ } 7 none) =
      (⟨PAM_SESSION_ERR, [], ⟨false, none⟩, none, [], 7⟩, some "tmp_t".toList, false) := by
  refine ⟨?_, ?_, ?_⟩ <;> decide +kernel

end Pam.Namespace
