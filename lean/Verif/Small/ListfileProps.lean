import Verif.Small.Listfile
/-
Property theorem C83: pam_listfile.
-/
namespace Pam.Small
open Pam

/-! ### vocabulary -/

/-- what a list can be about -/
inductive Kind where
  | user | tty | rhost | ruser | group | shell
deriving DecidableEq, Repr

/-- as written after `item=` -/
def Kind.text : Kind → Str
  | .user => "user".toList
  | .tty => "tty".toList
  | .rhost => "rhost".toList
  | .ruser => "ruser".toList
  | .group => "group".toList
  | .shell => "shell".toList

/-- the PAM item it is derived from -/
def Kind.item : Kind → Item
  | .tty => .tty
  | .rhost => .rhost
  | .ruser => .ruser
  | _ => .user

/-- an argument that is understood, or has no `=` and is ignored -/
def Proper (arg : Str) : Prop :=
  '=' ∉ arg ∨ arg = "onerr=succeed".toList ∨ arg = "onerr=fail".toList ∨ arg = "sense=allow".toList ∨ arg = "sense=deny".toList ∨
  "file=".toList <+: arg ∨ "item=".toList <+: arg ∨ "apply=".toList <+: arg

/-- the list is about `k`: that is the last `item=`, and no other one names a group or a shell -/
def About (argv : List Str) (k : Kind) : Prop :=
  Last "item=" argv k.text ∧ ("item=group".toList ∈ argv → k = .group) ∧ ("item=shell".toList ∈ argv → k = .shell)

/-- the text of `sense=` -/
def senseText (deny : Bool) : Str := if deny then "deny".toList else "allow".toList

/-- the answer for errors -/
def ErrorCode (argv : List Str) (r : Int) : Prop :=
  (Last "onerr=" argv "succeed".toList ∧ r = PAM_SUCCESS) ∨ (¬ Last "onerr=" argv "succeed".toList ∧ r = PAM_SERVICE_ERR)

/-- `apply=` names somebody -/
def ApplyGiven (argv : List Str) (v : Str) : Prop := Last "apply=" argv v ∧ v ≠ [] ∧ v ≠ ['@']

/-- the user is not among those `apply=` names; that is asked for terminals and hosts only -/
def NotConcerned (a : Accounts) (c : LCall) (argv : List Str) (k : Kind) : Prop :=
  (k = .tty ∨ k = .rhost) ∧ c.user.1 = PAM_SUCCESS ∧ c.user.2 ≠ [] ∧
  ((∃ n, ApplyGiven argv n ∧ n.head? ≠ some '@' ∧ n ≠ c.user.2) ∨
   (∃ g, ApplyGiven argv ('@' :: g) ∧ ¬ ∃ u gr, a.pwnam c.user.2 = some u ∧ a.grnam g = some gr ∧ Belongs a u gr))

/-- the terminal without /dev/ -/
def Terminal (t v : Str) : Prop := t = "/dev/".toList ++ v ∨ (t = v ∧ ¬ "/dev/".toList <+: t)

/-- who or what is looked up; nothing counts as empty -/
def Subject (c : LCall) (k : Kind) (v : Str) : Prop :=
  match k with
  | .tty => Terminal ((c.item .tty).2.getD []) v
  | .rhost => (c.item .rhost).2.getD [] = v
  | .ruser => (c.item .ruser).2.getD [] = v
  | _ => (c.item .user).2 = some v ∨ ((c.item .user).2 = none ∧ c.user = (PAM_SUCCESS, v))

/-- an entry of a list: a line up to a carriage return (or NUL), if there is something -/
def Entry (content e : Str) : Prop := e ≠ [] ∧ ∃ l, TextLine content l ∧ e = l.takeWhile (fun c => c ≠ '\r' ∧ c ≠ NUL)

/-- the subject is on the list -/
def Listed (a : Accounts) (k : Kind) (v content : Str) : Prop :=
  match k with
  | .group => ∃ e u g, Entry content e ∧ a.pwnam v = some u ∧ a.grnam e = some g ∧ Belongs a u g
  | .shell => ∃ u, a.pwnam v = some u ∧ Entry content u.shell
  | .tty => ∃ e, Entry content e ∧ Terminal e v
  | _ => Entry content v

/-! ### helper lemmas -/

def Kind.ext : Kind → Option Ext
  | .group => some .group
  | .shell => some .shell
  | _ => none

theorem entryOf_eq (x : Str) : entryOf x = (x.takeWhile (· ≠ '\n')).takeWhile (fun c => c ≠ '\r' ∧ c ≠ NUL) := by
  unfold entryOf cstr
  induction x with
  | nil => rfl
  | cons c t ih =>
    simp only [List.takeWhile_cons]
    have n1 : NUL ≠ '\n' := by decide
    have n2 : '\r' ≠ NUL := by decide
    have n3 : '\n' ≠ NUL := by decide
    by_cases h1 : c = NUL
    · subst h1; simp [n1]
    · by_cases h2 : c = '\n'
      · subst h2; simp [n3]
      · by_cases h3 : c = '\r'
        · subst h3; simp [n2]
        · simp only [ne_eq, h1, h2, h3, not_false_eq_true, decide_true, if_true, and_self, List.takeWhile_cons]
          rw [ih]

theorem any_entry (content : Str) (p : Str → Bool) (hp : p [] = false) :
    (Config.physLines content).any (fun l => p (entryOf l)) = true ↔ ∃ e, Entry content e ∧ p e = true := by
  rw [List.any_eq_true]
  constructor
  · rintro ⟨x, hx, h⟩
    refine ⟨entryOf x, ⟨fun e => ?_, _, (physLines_iff content _).mp ⟨x, hx, rfl⟩, entryOf_eq x⟩, h⟩
    rw [e, hp] at h
    cases h
  · rintro ⟨e, ⟨-, l, hl, rfl⟩, h⟩
    obtain ⟨x, hx, rfl⟩ := (physLines_iff content l).mpr hl
    exact ⟨x, hx, by rw [entryOf_eq]; exact h⟩

theorem terminal_iff (t v : Str) : Terminal t v ↔ (skipPrefix t "/dev/".toList).getD t = v := by
  unfold Terminal
  generalize "/dev/".toList = d
  cases h : skipPrefix t d with
  | none =>
    have h := skipPrefix_none.mp h
    simp only [Option.getD_none]
    constructor
    · rintro (rfl | ⟨rfl, -⟩)
      · exact absurd ⟨v, rfl⟩ h
      · rfl
    · rintro rfl; exact Or.inr ⟨rfl, h⟩
  | some r =>
    have h := skipPrefix_some.mp h
    simp only [Option.getD_some]
    constructor
    · rintro (h2 | ⟨-, h2⟩)
      · rw [h] at h2; exact List.append_cancel_left h2
      · exact absurd ⟨r, h.symm⟩ h2
    · rintro rfl; exact Or.inl h

theorem onList_iff (a : Accounts) (k : Kind) (hk : k ≠ .shell) (v content : Str) :
    onList a k.item k.ext v content = true ↔ Listed a k v content := by
  have key := any_entry content (fun e => if e = [] then false
    else (if k.ext = some .group then inGroupNamNam a v e else (if k.item = .tty then (skipPrefix e "/dev/".toList).getD e else e) = v)) rfl
  have : onList a k.item k.ext v content = (Config.physLines content).any (fun l => (fun e => if e = [] then false
    else (if k.ext = some .group then inGroupNamNam a v e else (if k.item = .tty then (skipPrefix e "/dev/".toList).getD e else e) = v)) (entryOf l)) := by
    unfold onList
    congr 1
  rw [this, key]
  have hne : ∀ e, Entry content e → e ≠ [] := fun e h => h.1
  cases k with
  | shell => exact absurd rfl hk
  | group =>
    simp only [Kind.ext, Listed, if_true]
    constructor
    · rintro ⟨e, he, h⟩
      rw [if_neg (hne e he)] at h
      obtain ⟨u, g, h1, h2, h3⟩ := (inGroup_iff ..).mp h
      exact ⟨e, u, g, he, h1, h2, h3⟩
    · rintro ⟨e, u, g, he, h1, h2, h3⟩
      exact ⟨e, he, by rw [if_neg (hne e he)]; exact (inGroup_iff ..).mpr ⟨u, g, h1, h2, h3⟩⟩
  | tty =>
    simp only [Kind.ext, Kind.item, Listed, if_true, reduceCtorEq, if_false]
    constructor
    · rintro ⟨e, he, h⟩
      rw [if_neg (hne e he)] at h
      exact ⟨e, he, (terminal_iff e v).mpr (of_decide_eq_true h)⟩
    · rintro ⟨e, he, h⟩
      exact ⟨e, he, by rw [if_neg (hne e he)]; exact decide_eq_true ((terminal_iff e v).mp h)⟩
  | _ =>
    simp only [Kind.ext, Kind.item, Listed, reduceCtorEq, if_false]
    constructor
    · rintro ⟨e, he, h⟩
      rw [if_neg (hne e he)] at h
      rw [← of_decide_eq_true h]; exact he
    · intro he
      exact ⟨v, he, by rw [if_neg (hne v he)]; exact decide_eq_true rfl⟩

theorem fail_fields (s : LState) (r : Int) : (s.fail r).onerr = s.onerr ∧ (s.fail r).citem = s.citem ∧ (s.fail r).ext = s.ext ∧ (s.fail r).deny = s.deny ∧
    (s.fail r).file = s.file ∧ (s.fail r).apply = s.apply := by
  unfold LState.fail
  split <;> exact ⟨rfl, rfl, rfl, rfl, rfl, rfl⟩

/-- what an argument does not change -/
theorem arg_other (s : LState) (a : Str) :
    (¬ "onerr=".toList <+: a → (argStep s a).onerr = s.onerr) ∧ (¬ "sense=".toList <+: a → (argStep s a).deny = s.deny) ∧
    (¬ "file=".toList <+: a → (argStep s a).file = s.file) ∧ (¬ "item=".toList <+: a → (argStep s a).citem = s.citem) ∧
    (a ≠ "item=group".toList → a ≠ "item=shell".toList → (argStep s a).ext = s.ext) ∧ (¬ "apply=".toList <+: a → (argStep s a).apply = s.apply) := by
  have hf := fail_fields s
  unfold argStep
  split
  · exact ⟨fun _ => rfl, fun _ => rfl, fun _ => rfl, fun _ => rfl, fun _ _ => rfl, fun _ => rfl⟩
  split
  · exact ⟨fun _ => rfl, fun _ => rfl, fun _ => rfl, fun _ => rfl, fun _ _ => rfl, fun _ => rfl⟩
  split
  · next v hv =>
    have hv := skipPrefix_some.mp hv
    refine ⟨fun h => absurd ⟨v, hv.symm⟩ h, ?_, ?_, ?_, ?_, ?_⟩ <;> (try intro) <;> (try intro) <;> (repeat' split) <;> first | rfl | simp only [hf]
  split
  · next v hv =>
    have hv := skipPrefix_some.mp hv
    refine ⟨?_, fun h => absurd ⟨v, hv.symm⟩ h, ?_, ?_, ?_, ?_⟩ <;> (try intro) <;> (try intro) <;> (repeat' split) <;> first | rfl | simp only [hf]
  split
  · next v hv =>
    have hv := skipPrefix_some.mp hv
    exact ⟨fun _ => rfl, fun _ => rfl, fun h => absurd ⟨v, hv.symm⟩ h, fun _ => rfl, fun _ _ => rfl, fun _ => rfl⟩
  split
  · next v hv =>
    have hv := skipPrefix_some.mp hv
    refine ⟨?_, ?_, ?_, fun h => absurd ⟨v, hv.symm⟩ h, fun h1 h2 => ?_, ?_⟩
    · intro; (repeat' split) <;> rfl
    · intro; (repeat' split) <;> rfl
    · intro; (repeat' split) <;> rfl
    · split
      · rfl
      split
      · rfl
      split
      · rfl
      split
      · rfl
      split
      · next h => rw [h] at hv; exact absurd hv h1
      split
      · next h => rw [h] at hv; exact absurd hv h2
      · rfl
    · intro; (repeat' split) <;> rfl
  split
  · next v hv =>
    have hv := skipPrefix_some.mp hv
    exact ⟨fun _ => rfl, fun _ => rfl, fun _ => rfl, fun _ => rfl, fun _ _ => rfl, fun h => absurd ⟨v, hv.symm⟩ h⟩
  · exact ⟨fun _ => (hf _).1, fun _ => (hf _).2.2.2.1, fun _ => (hf _).2.2.2.2.1, fun _ => (hf _).2.1, fun _ _ => (hf _).2.2.1, fun _ => (hf _).2.2.2.2.2⟩

theorem arg_onerr (s : LState) : (argStep s ("onerr=".toList ++ "succeed".toList)) = { s with onerr := PAM_SUCCESS } ∧
    (argStep s ("onerr=".toList ++ "fail".toList)) = { s with onerr := PAM_SERVICE_ERR } := ⟨rfl, rfl⟩

theorem arg_sense (s : LState) (d : Bool) : argStep s ("sense=".toList ++ senseText d) = { s with deny := some d } := by cases d <;> rfl

theorem arg_item (s : LState) (k : Kind) : argStep s ("item=".toList ++ k.text) = { s with citem := some k.item, ext := k.ext.or s.ext } := by
  cases k <;> rfl

theorem arg_item_unknown (s : LState) {v : Str} (hv : ∀ k : Kind, v ≠ k.text) : (argStep s ("item=".toList ++ v)).citem = none := by
  unfold argStep
  rw [if_neg (by simp), if_neg (by simp)]
  show (if v = Kind.user.text then { s with citem := some .user }
    else if v = Kind.tty.text then { s with citem := some .tty }
    else if v = Kind.rhost.text then { s with citem := some .rhost }
    else if v = Kind.ruser.text then { s with citem := some .ruser }
    else if v = Kind.group.text then { s with citem := some .user, ext := some .group }
    else if v = Kind.shell.text then { s with citem := some .user, ext := some .shell }
    else { s with citem := none } : LState).citem = none
  rw [if_neg (hv _), if_neg (hv _), if_neg (hv _), if_neg (hv _), if_neg (hv _), if_neg (hv _)]

theorem arg_file (s : LState) (v : Str) : argStep s ("file=".toList ++ v) = { s with file := some v } := by
  unfold argStep
  rw [if_neg (by simp), if_neg (by simp)]
  rfl

theorem arg_apply (s : LState) (v : Str) : argStep s ("apply=".toList ++ v) = { s with apply := some (match v with
    | '@' :: g => .group g
    | v => .user v) } := by
  unfold argStep
  rw [if_neg (by simp), if_neg (by simp)]
  rfl

theorem fold_ext : ∀ (post : List Str) (s : LState), (∀ x ∈ post, x ≠ "item=group".toList ∧ x ≠ "item=shell".toList) → (post.foldl argStep s).ext = s.ext
  | [], _, _ => rfl
  | b :: post, s, h => by
    rw [List.foldl_cons, fold_ext post _ (fun c hc => h c (by simp [hc])), (arg_other s b).2.2.2.2.1 (h b (by simp)).1 (h b (by simp)).2]

/-- proper arguments are no error -/
theorem proper_retval {a : Str} (h : Proper a) (s : LState) : (argStep s a).retval = s.retval := by
  rcases h with h | rfl | rfl | rfl | rfl | ⟨v, rfl⟩ | ⟨v, rfl⟩ | ⟨v, rfl⟩
  · unfold argStep
    split
    · rfl
    · rfl
  · rfl
  · rfl
  · rfl
  · rfl
  · rw [arg_file]
  · unfold argStep
    rw [if_neg (by simp), if_neg (by simp)]
    rw [show skipPrefix ("item=".toList ++ v) "onerr=".toList = none from rfl, show skipPrefix ("item=".toList ++ v) "sense=".toList = none from rfl,
      show skipPrefix ("item=".toList ++ v) "file=".toList = none from rfl, show skipPrefix ("item=".toList ++ v) "item=".toList = some v from rfl]
    dsimp only
    (repeat' split) <;> rfl
  · rw [arg_apply]

theorem proper_fold : ∀ (argv : List Str) (s : LState), (∀ x ∈ argv, Proper x) → (argv.foldl argStep s).retval = s.retval
  | [], _, _ => rfl
  | b :: argv, s, h => by rw [List.foldl_cons, proper_fold argv _ (fun c hc => h c (by simp [hc])), proper_retval (h b (by simp))]

/-- what `apply=` says -/
def applyOf (v : Str) : Apply := match v with
  | '@' :: g => .group g
  | v => .user v

theorem fold_onerr : ∀ {argv : List Str} (_ : ∀ x ∈ argv, Proper x) (s : LState),
    (Last "onerr=" argv "succeed".toList ∧ (argv.foldl argStep s).onerr = PAM_SUCCESS) ∨
    (Last "onerr=" argv "fail".toList ∧ (argv.foldl argStep s).onerr = PAM_SERVICE_ERR) ∨ (Without "onerr=" argv ∧ (argv.foldl argStep s).onerr = s.onerr)
  | [], _, s => Or.inr (Or.inr ⟨nofun, rfl⟩)
  | x :: argv, hp, s => by
    rcases fold_onerr (fun y hy => hp y (List.mem_cons_of_mem _ hy)) (argStep s x) with ⟨h1, h2⟩ | ⟨h1, h2⟩ | ⟨h1, h2⟩
    · exact Or.inl ⟨last_cons.mpr (Or.inl h1), h2⟩
    · exact Or.inr (Or.inl ⟨last_cons.mpr (Or.inl h1), h2⟩)
    · rw [List.foldl_cons, h2]
      by_cases hx : "onerr=".toList <+: x
      · have hx2 : x = "onerr=succeed".toList ∨ x = "onerr=fail".toList := by
          obtain ⟨v, rfl⟩ := hx
          rcases hp _ List.mem_cons_self with h | h | h | h | h | ⟨w, h⟩ | ⟨w, h⟩ | ⟨w, h⟩
          · exact absurd (by simp) h
          · exact Or.inl h
          · exact Or.inr h
          · cases h
          · cases h
          · cases h
          · cases h
          · cases h
        rcases hx2 with rfl | rfl
        · exact Or.inl ⟨last_cons.mpr (Or.inr ⟨h1, rfl⟩), rfl⟩
        · exact Or.inr (Or.inl ⟨last_cons.mpr (Or.inr ⟨h1, rfl⟩), rfl⟩)
      · refine Or.inr (Or.inr ⟨fun y hy => ?_, (arg_other s x).1 hx⟩)
        rcases List.mem_cons.mp hy with rfl | hy
        · exact hx
        · exact h1 y hy

theorem fold_code {argv : List Str} (hp : ∀ x ∈ argv, Proper x) : ErrorCode argv (argv.foldl argStep {}).onerr := by
  rcases fold_onerr hp {} with ⟨h1, h2⟩ | ⟨h1, h2⟩ | ⟨h1, h2⟩
  · exact Or.inl ⟨h1, h2⟩
  · exact Or.inr ⟨fun h => absurd (last_unique h h1) (by decide), h2⟩
  · exact Or.inr ⟨without_last h1, h2⟩

/-- the options that are in force -/
theorem options {argv : List Str} (hp : ∀ x ∈ argv, Proper x) {k : Kind} (hk : About argv k) {deny : Bool} (hs : Last "sense=" argv (senseText deny)) {file : Str}
    (hf : Last "file=" argv file) (happ : Without "apply=" argv ∨ ∃ v, ApplyGiven argv v) : ∃ onerr ap, ErrorCode argv onerr ∧
      complete (argv.foldl argStep {}) = ⟨none, onerr, some k.item, k.ext, some deny, some file, ap⟩ ∧
      (Without "apply=" argv → ap = none) ∧ (∀ v, ApplyGiven argv v → ap = some (applyOf v)) := by
  have h1 := fold_code hp
  have h2 := proper_fold argv {} hp
  obtain ⟨p3, -, h3⟩ := (foldl_last argStep LState.citem "item=" (fun s a => (arg_other s a).2.2.2.1) argv {}).2 _ hk.1
  rw [arg_item] at h3
  obtain ⟨p4, -, h4⟩ := (foldl_last argStep LState.deny "sense=" (fun s a => (arg_other s a).2.1) argv {}).2 _ hs
  rw [arg_sense] at h4
  obtain ⟨p5, -, h5⟩ := (foldl_last argStep LState.file "file=" (fun s a => (arg_other s a).2.2.1) argv {}).2 _ hf
  rw [arg_file] at h5
  have h6 : (argv.foldl argStep {}).ext = k.ext := by
    obtain ⟨⟨pre, post, hargv, hpost⟩, hg, hsh⟩ := hk
    have hpost' : ∀ x ∈ post, x ≠ "item=group".toList ∧ x ≠ "item=shell".toList :=
      fun x hx => ⟨fun e => hpost x hx ⟨"group".toList, e.symm⟩, fun e => hpost x hx ⟨"shell".toList, e.symm⟩⟩
    by_cases hkind : k = .group ∨ k = .shell
    · rw [hargv, List.foldl_append, List.foldl_cons, fold_ext post _ hpost', arg_item]
      rcases hkind with rfl | rfl <;> rfl
    · rw [not_or] at hkind
      rw [fold_ext argv _ (fun x hx => ⟨fun e => hkind.1 (hg (e ▸ hx)), fun e => hkind.2 (hsh (e ▸ hx))⟩)]
      cases k <;> first | rfl | exact absurd rfl hkind.1 | exact absurd rfl hkind.2
  have h7 := foldl_last argStep LState.apply "apply=" (fun s a => (arg_other s a).2.2.2.2.2) argv {}
  generalize hst : argv.foldl argStep {} = st at h1 h2 h3 h4 h5 h6 h7
  refine ⟨st.onerr, st.apply, h1, ?_, fun hw => h7.1 hw, fun v hv => ?_⟩
  · obtain ⟨r, o, ci, ex, de, fi, ap⟩ := st
    dsimp only at h2 h3 h4 h5 h6 h7
    subst h2 h3 h4 h5 h6
    have hany : ap.any (fun a => decide (a.val = [])) = false := by
      rcases happ with hw | ⟨v, hl, hv1, hv2⟩
      · rw [h7.1 hw]; rfl
      · obtain ⟨p, -, h⟩ := h7.2 v hl
        rw [arg_apply] at h
        rw [h]
        dsimp only
        rw [Option.any_some]
        split
        · next g => exact decide_eq_false (fun (h : g = []) => hv2 (by rw [h]))
        · exact decide_eq_false (fun h => hv1 h)
    unfold complete
    simp only [reduceCtorEq, if_false]
    rw [if_neg (by rw [hany]; decide)]
  · obtain ⟨p, -, h⟩ := h7.2 v hv.1
    rw [arg_apply] at h
    exact h

theorem inGroupNamNam_iff (a : Accounts) (n g : Str) :
    inGroupNamNam a n g = true ↔ ∃ u gr, a.pwnam n = some u ∧ a.grnam g = some gr ∧ Belongs a u gr := inGroup_iff a _ _

theorem applies_iff (a : Accounts) (c : LCall) {argv : List Str} (k : Kind) {ap : Option Apply} (happ : Without "apply=" argv ∨ ∃ v, ApplyGiven argv v)
    (h1 : Without "apply=" argv → ap = none) (h2 : ∀ v, ApplyGiven argv v → ap = some (applyOf v)) :
    applies a c k.item k.ext ap = false ↔ NotConcerned a c argv k := by
  have hk : (k.item = .user ∨ k.item = .ruser ∨ k.ext = some .group) ↔ ¬ (k = .tty ∨ k = .rhost) := by
    cases k <;> decide
  unfold applies NotConcerned
  dsimp only
  by_cases hkk : k = .tty ∨ k = .rhost
  · rw [if_neg (fun h => hk.mp h hkk)]
    by_cases hu : c.user.1 = PAM_SUCCESS ∧ c.user.2 ≠ []
    · rw [if_pos hu]
      simp only [hkk, hu.1, true_and]
      rw [and_iff_right hu.2]
      rcases happ with hw | ⟨v, hv⟩
      · rw [h1 hw]
        constructor
        · intro h; cases h
        · rintro (⟨n, hn, -⟩ | ⟨g, hg, -⟩)
          · exact absurd hn.1 (without_last hw)
          · exact absurd hg.1 (without_last hw)
      · rw [h2 v hv]
        have hone : ∀ w, ApplyGiven argv w → w = v := fun w hw => last_unique hw.1 hv.1
        by_cases hat : ∃ g, v = '@' :: g
        · obtain ⟨g, rfl⟩ := hat
          have e : applyOf ('@' :: g) = .group g := rfl
          rw [e]
          dsimp only
          rw [Bool.eq_false_iff, Ne, inGroupNamNam_iff]
          constructor
          · exact fun h => Or.inr ⟨g, hv, h⟩
          · rintro (⟨n, hn, hne, -⟩ | ⟨g', hg, h⟩)
            · rw [hone n hn] at hne; exact absurd rfl hne
            · have := hone _ hg
              rw [List.cons.injEq] at this
              rw [← this.2]; exact h
        · have hne : v.head? ≠ some '@' := by
            cases v with
            | nil => simp
            | cons x t => simp only [List.head?_cons, Ne, Option.some.injEq]; rintro rfl; exact hat ⟨t, rfl⟩
          have e : applyOf v = .user v := by
            unfold applyOf
            split
            · next g => exact absurd ⟨g, rfl⟩ hat
            · rfl
          rw [e]
          dsimp only
          rw [decide_eq_false_iff_not]
          constructor
          · exact fun h => Or.inl ⟨v, hv, hne, fun e => h e.symm⟩
          · rintro (⟨n, hn, -, h⟩ | ⟨g', hg, -⟩)
            · rw [hone n hn] at h; exact fun e => h e.symm
            · exact absurd ⟨g', (hone _ hg).symm⟩ hat
    · rw [if_neg hu]
      constructor
      · intro h; cases h
      · rintro ⟨-, h3, h4, -⟩; exact absurd ⟨h3, h4⟩ hu
  · rw [if_pos (hk.mpr hkk)]
    simp only [hkk, false_and, iff_false]
    split <;> simp

theorem errors_inv (P : Prop) : ∀ (argv : List Str) (s : LState), ("onerr=succeed".toList ∈ argv → P) →
    (s.onerr = PAM_SERVICE_ERR ∨ (s.onerr = PAM_SUCCESS ∧ P)) → (∀ r, s.retval = some r → r = PAM_SERVICE_ERR ∨ (r = PAM_SUCCESS ∧ P)) →
    ((argv.foldl argStep s).onerr = PAM_SERVICE_ERR ∨ ((argv.foldl argStep s).onerr = PAM_SUCCESS ∧ P)) ∧
    (∀ r, (argv.foldl argStep s).retval = some r → r = PAM_SERVICE_ERR ∨ (r = PAM_SUCCESS ∧ P)) ∧
    ((s.retval ≠ none ∨ ∃ x ∈ argv, ¬ Proper x) → (argv.foldl argStep s).retval ≠ none)
  | [], s, _, h1, h2 => ⟨h1, h2, fun h => by
      rcases h with h | ⟨x, hx, -⟩
      · exact h
      · cases hx⟩
  | x :: argv, s, hP, h1, h2 => by
    have hfail : ∀ r0, (r0 = PAM_SERVICE_ERR ∨ (r0 = PAM_SUCCESS ∧ P)) → ∀ r, (s.fail r0).retval = some r → r = PAM_SERVICE_ERR ∨ (r = PAM_SUCCESS ∧ P) := by
      intro r0 hr0 r hr
      unfold LState.fail at hr
      split at hr
      · cases hr; exact hr0
      · exact h2 r hr
    have hsome : ∀ r0, (s.fail r0).retval ≠ none := by
      intro r0
      unfold LState.fail
      split
      · nofun
      · next h => exact h
    have hon : ∀ r0, (s.fail r0).onerr = s.onerr := fun r0 => (fail_fields s r0).1
    have key : ((argStep s x).onerr = PAM_SERVICE_ERR ∨ ((argStep s x).onerr = PAM_SUCCESS ∧ P)) ∧
        (∀ r, (argStep s x).retval = some r → r = PAM_SERVICE_ERR ∨ (r = PAM_SUCCESS ∧ P)) ∧
        ((s.retval ≠ none ∨ ¬ Proper x) → (argStep s x).retval ≠ none) := by
      unfold argStep
      split
      · next hx => exact ⟨h1, h2, fun h => h.elim id (fun h => absurd (Or.inl (by rw [hx]; decide)) h)⟩
      split
      · next hx => exact ⟨h1, h2, fun h => h.elim id (fun h => absurd (Or.inl hx) h)⟩
      split
      · next v hx =>
        have hx := skipPrefix_some.mp hx
        split
        · next hv =>
          subst hv
          exact ⟨Or.inr ⟨rfl, hP (by rw [hx]; exact List.mem_cons_self)⟩, h2, fun h => h.elim id (fun h => absurd (Or.inr (Or.inl hx)) h)⟩
        split
        · next hv =>
          subst hv
          exact ⟨Or.inl rfl, h2, fun h => h.elim id (fun h => absurd (Or.inr (Or.inr (Or.inl hx))) h)⟩
        · exact ⟨by rw [hon]; exact h1, hfail _ (Or.inl rfl), fun _ => hsome _⟩
      split
      · next v hx =>
        have hx := skipPrefix_some.mp hx
        split
        · next hv =>
          subst hv
          exact ⟨h1, h2, fun h => h.elim id (fun h => absurd (Or.inr (Or.inr (Or.inr (Or.inl hx)))) h)⟩
        split
        · next hv =>
          subst hv
          exact ⟨h1, h2, fun h => h.elim id (fun h => absurd (Or.inr (Or.inr (Or.inr (Or.inr (Or.inl hx))))) h)⟩
        · exact ⟨by rw [hon]; exact h1, hfail _ h1, fun _ => hsome _⟩
      split
      · next v hx =>
        have hx := skipPrefix_some.mp hx
        exact ⟨h1, h2, fun h => h.elim id (fun h => absurd (Or.inr (Or.inr (Or.inr (Or.inr (Or.inr (Or.inl ⟨v, hx.symm⟩)))))) h)⟩
      split
      · next v hx =>
        have hx := skipPrefix_some.mp hx
        have : Proper x := Or.inr (Or.inr (Or.inr (Or.inr (Or.inr (Or.inr (Or.inl ⟨v, hx.symm⟩))))))
        iterate 6
          split
          · exact ⟨h1, h2, fun h => h.elim id (fun h => absurd this h)⟩
        exact ⟨h1, h2, fun h => h.elim id (fun h => absurd this h)⟩
      split
      · next v hx =>
        have hx := skipPrefix_some.mp hx
        exact ⟨h1, h2, fun h => h.elim id (fun h => absurd (Or.inr (Or.inr (Or.inr (Or.inr (Or.inr (Or.inr (Or.inr ⟨v, hx.symm⟩))))))) h)⟩
      · exact ⟨by rw [hon]; exact h1, hfail _ h1, fun _ => hsome _⟩
    obtain ⟨k1, k2, k3⟩ := key
    obtain ⟨i1, i2, i3⟩ := errors_inv P argv (argStep s x) (fun h => hP (List.mem_cons_of_mem _ h)) k1 k2
    refine ⟨i1, i2, fun h => i3 ?_⟩
    rcases h with h | ⟨y, hy, hn⟩
    · exact Or.inl (k3 (Or.inl h))
    · rcases List.mem_cons.mp hy with rfl | hy
      · exact Or.inl (k3 (Or.inr hn))
      · exact Or.inr ⟨y, hy, hn⟩

theorem complete_inv (P : Prop) (s : LState) (h1 : s.onerr = PAM_SERVICE_ERR ∨ (s.onerr = PAM_SUCCESS ∧ P))
    (h2 : ∀ r, s.retval = some r → r = PAM_SERVICE_ERR ∨ (r = PAM_SUCCESS ∧ P))
    (h3 : s.retval ≠ none ∨ s.citem = none ∨ s.file = none ∨ s.deny = none ∨ s.apply.any (fun a => a.val = []) = true) :
    ∃ r, (complete s).retval = some r ∧ (r = PAM_SERVICE_ERR ∨ (r = PAM_SUCCESS ∧ P)) := by
  obtain ⟨r, o, ci, ex, de, fi, ap⟩ := s
  dsimp only at h1 h2 h3
  have e : (complete ⟨r, o, ci, ex, de, fi, ap⟩).retval = some (r.getD o) := by
    unfold complete LState.fail
    cases r with
    | some r => simp
    | none =>
      cases ci with
      | none => cases fi <;> cases de <;> simp
      | some ci =>
        cases fi with
        | none => cases de <;> simp
        | some fi =>
          cases de with
          | none => simp
          | some de =>
            rcases h3 with h | h | h | h | h
            · exact absurd rfl h
            · cases h
            · cases h
            · cases h
            · simp only [reduceCtorEq, if_false, if_true]
              rw [if_pos h]
              rfl
  refine ⟨_, e, ?_⟩
  cases r with
  | none => exact h1
  | some r => exact h2 r rfl

theorem listfile_error {a : Accounts} {c : LCall} {argv : List Str} {r : Int} (h : (complete (argv.foldl argStep {})).retval = some r) : listfile a c argv = r := by
  unfold listfile
  dsimp only
  rw [h]

/-- the function once the options are known -/
theorem listfile_eq {a : Accounts} {c : LCall} {argv : List Str} {onerr : Int} {k : Kind} {deny : Bool} {file : Str} {ap : Option Apply}
    (h : complete (argv.foldl argStep {}) = ⟨none, onerr, some k.item, k.ext, some deny, some file, ap⟩) (ha : applies a c k.item k.ext ap = true)
    (hi : (c.item k.item).1 = PAM_SUCCESS) {v : Str} (hv : Subject c k v) :
    listfile a c argv = if v = [] then (if deny then PAM_SUCCESS else PAM_AUTH_ERR) else lookup a c k.item k.ext onerr deny file v := by
  unfold listfile
  dsimp only
  rw [h]
  dsimp only
  rw [ha, if_neg (by decide), if_neg (by rw [hi]; decide)]
  unfold Subject at hv
  have named : k.item = .user → ((c.item .user).2 = some v ∨ ((c.item .user).2 = none ∧ c.user = (PAM_SUCCESS, v))) →
      (match (c.item k.item).2 with
        | some v => if (if k.item = .tty then (skipPrefix v "/dev/".toList).getD v else v) = [] then (if deny then PAM_SUCCESS else PAM_AUTH_ERR)
            else lookup a c k.item k.ext onerr deny file (if k.item = .tty then (skipPrefix v "/dev/".toList).getD v else v)
        | none => if k.item = .user then if c.user.1 ≠ PAM_SUCCESS then PAM_SERVICE_ERR else
            if (if k.item = .tty then (skipPrefix c.user.2 "/dev/".toList).getD c.user.2 else c.user.2) = [] then (if deny then PAM_SUCCESS else PAM_AUTH_ERR)
            else lookup a c k.item k.ext onerr deny file (if k.item = .tty then (skipPrefix c.user.2 "/dev/".toList).getD c.user.2 else c.user.2)
          else if deny then PAM_SUCCESS else PAM_AUTH_ERR) =
      if v = [] then (if deny then PAM_SUCCESS else PAM_AUTH_ERR) else lookup a c k.item k.ext onerr deny file v := by
    intro hk h
    rw [hk]
    rcases h with h | ⟨h, hu⟩
    · rw [h]; rfl
    · rw [h, hu]; rfl
  cases k with
  | user => exact named rfl hv
  | group => exact named rfl hv
  | shell => exact named rfl hv
  | tty =>
    have hv := (terminal_iff _ _).mp hv
    show (match (c.item .tty).2 with
      | some v => _
      | none => _) = _
    cases hc : (c.item .tty).2 with
    | none =>
      rw [hc] at hv
      have : v = [] := by rw [← hv]; rfl
      rw [if_pos this]; rfl
    | some t =>
      rw [hc] at hv
      dsimp only [Option.getD_some] at hv
      simp only [Kind.item, if_true]
      rw [hv]
  | rhost =>
    show (match (c.item .rhost).2 with
      | some v => _
      | none => _) = _
    cases hc : (c.item .rhost).2 with
    | none =>
      rw [hc] at hv
      have : v = [] := by rw [← hv]; rfl
      rw [if_pos this]; rfl
    | some t =>
      rw [hc] at hv
      dsimp only [Option.getD_some] at hv
      rw [hv]; rfl
  | ruser =>
    show (match (c.item .ruser).2 with
      | some v => _
      | none => _) = _
    cases hc : (c.item .ruser).2 with
    | none =>
      rw [hc] at hv
      have : v = [] := by rw [← hv]; rfl
      rw [if_pos this]; rfl
    | some t =>
      rw [hc] at hv
      dsimp only [Option.getD_some] at hv
      rw [hv]; rfl

/-- the entry of a list for a shell -/
theorem shell_iff (a : Accounts) (v content : Str) : onList a .user (some .shell) v content = true ↔ Entry content v := by
  have h := onList_iff a .user (by decide) v content
  have e : onList a .user (some .shell) v content = onList a .user none v content := rfl
  rw [e]; exact h

/-! ### the theorems -/

/-- a complete line of options -/
structure Configured (argv : List Str) (k : Kind) (deny : Bool) (file : Str) : Prop where
  proper : ∀ x ∈ argv, Proper x
  about : About argv k
  sense : Last "sense=" argv (senseText deny)
  file : Last "file=" argv file
  apply : Without "apply=" argv ∨ ∃ v, ApplyGiven argv v

/-- an option is not understood or one is missing -/
def Misconfigured (argv : List Str) : Prop :=
  (∃ x ∈ argv, ¬ Proper x) ∨ Without "item=" argv ∨ (∃ v, Last "item=" argv v ∧ ∀ k : Kind, v ≠ k.text) ∨ Without "sense=" argv ∨
  Without "file=" argv ∨ Last "apply=" argv [] ∨ Last "apply=" argv ['@']

/-- **C83**: what pam_listfile answers, for complete options and every account database, file and item: users `apply=` does not name are ignored;
an empty item counts as not listed; an unknown user (for shells), a missing or unreadable list give the answer for errors; a list others can
write, or that is not a regular file, refuses; otherwise the answer is success exactly if being listed is what `sense=` wants. -/
theorem C83_answer {argv : List Str} {k : Kind} {deny : Bool} {file : Str} (h : Configured argv k deny file) (a : Accounts) (c : LCall) :
    (NotConcerned a c argv k → listfile a c argv = PAM_IGNORE) ∧
    (¬ NotConcerned a c argv k → (c.item k.item).1 ≠ PAM_SUCCESS → ErrorCode argv (listfile a c argv)) ∧
    (¬ NotConcerned a c argv k → (c.item k.item).1 = PAM_SUCCESS → k.item = .user → (c.item .user).2 = none → c.user.1 ≠ PAM_SUCCESS →
      listfile a c argv = PAM_SERVICE_ERR) ∧
    (¬ NotConcerned a c argv k → (c.item k.item).1 = PAM_SUCCESS → ∀ v, Subject c k v →
      (v = [] → listfile a c argv = if deny then PAM_SUCCESS else PAM_AUTH_ERR) ∧
      (v ≠ [] →
        ((k = .shell ∧ a.pwnam v = none) ∨ c.lstat file = none ∨ (c.lstat file = some (false, true) ∧ c.open_ file = none) →
          ErrorCode argv (listfile a c argv)) ∧
        (¬ (k = .shell ∧ a.pwnam v = none) → ∀ ww reg, c.lstat file = some (ww, reg) → (ww = true ∨ reg = false) → listfile a c argv = PAM_AUTH_ERR) ∧
        (¬ (k = .shell ∧ a.pwnam v = none) → c.lstat file = some (false, true) → ∀ content, c.open_ file = some content →
          ((Listed a k v content ↔ deny = false) → listfile a c argv = PAM_SUCCESS) ∧
          ((Listed a k v content ↔ deny = true) → listfile a c argv = PAM_AUTH_ERR)))) := by
  obtain ⟨onerr, ap, hcode, hopt, hap1, hap2⟩ := options h.proper h.about h.sense h.file h.apply
  have happ := applies_iff a c k h.apply hap1 hap2
  have yes : ¬ NotConcerned a c argv k → applies a c k.item k.ext ap = true := fun hn => by
    cases e : applies a c k.item k.ext ap with
    | true => rfl
    | false => exact absurd (happ.mp e) hn
  refine ⟨fun hn => ?_, fun hn hi => ?_, fun hn hi hk hnone hu => ?_, fun hn hi v hv => ?_⟩
  · unfold listfile
    dsimp only
    rw [hopt]
    dsimp only
    rw [happ.mpr hn]; rfl
  · unfold listfile
    dsimp only
    rw [hopt]
    dsimp only
    rw [yes hn, if_neg (by decide), if_pos hi]
    exact hcode
  · unfold listfile
    dsimp only
    rw [hopt]
    dsimp only
    rw [yes hn, if_neg (by decide), if_neg (fun h => h hi), hk, hnone]
    dsimp only
    rw [if_pos rfl, if_pos hu]
  · have e := listfile_eq hopt (yes hn) hi hv
    refine ⟨fun hv0 => by rw [e, if_pos hv0], fun hv0 => ?_⟩
    rw [if_neg hv0] at e
    rw [e]
    by_cases hshell : k = .shell
    · subst hshell
      cases hp : a.pwnam v with
      | none =>
        have e2 : lookup a c Kind.shell.item Kind.shell.ext onerr deny file v = onerr := by
          unfold lookup
          rw [if_pos (by rfl), hp]; rfl
        rw [e2]
        exact ⟨fun _ => hcode, fun hx => absurd ⟨rfl, rfl⟩ hx, fun hx => absurd ⟨rfl, rfl⟩ hx⟩
      | some u =>
        have e2 : lookup a c Kind.shell.item Kind.shell.ext onerr deny file v = match c.lstat file with
            | none => onerr
            | some (ww, reg) => if ww || !reg then PAM_AUTH_ERR
              else match c.open_ file with
                | none => onerr
                | some content => if onList a .user (some .shell) u.shell content = deny then PAM_AUTH_ERR else PAM_SUCCESS := by
          unfold lookup
          rw [if_pos (by rfl), hp]; rfl
        rw [e2]
        refine ⟨?_, ?_, ?_⟩
        · rintro (⟨-, hx⟩ | hx | ⟨hx, hy⟩)
          · cases hx
          · rw [hx]; exact hcode
          · rw [hx, hy]; exact hcode
        · intro _ ww reg hx hy
          rw [hx]
          dsimp only
          rw [if_pos (by rcases hy with rfl | rfl <;> simp)]
        · intro _ hx content hy
          rw [hx, hy]
          dsimp only
          rw [if_neg (by decide)]
          have hl : Listed a .shell v content ↔ onList a .user (some .shell) u.shell content = true := by
            rw [shell_iff]
            unfold Listed
            dsimp only
            rw [hp]
            exact ⟨fun ⟨u', hu', he⟩ => by cases hu'; exact he, fun he => ⟨u, rfl, he⟩⟩
          rw [hl]
          cases onList a .user (some .shell) u.shell content <;> cases deny <;> simp
    · have e2 : lookup a c k.item k.ext onerr deny file v = match c.lstat file with
          | none => onerr
          | some (ww, reg) => if ww || !reg then PAM_AUTH_ERR
            else match c.open_ file with
              | none => onerr
              | some content => if onList a k.item k.ext v content = deny then PAM_AUTH_ERR else PAM_SUCCESS := by
        unfold lookup
        rw [if_neg (by cases k <;> first | decide | exact absurd rfl hshell)]
        rfl
      rw [e2]
      refine ⟨?_, ?_, ?_⟩
      · rintro (⟨hx, -⟩ | hx | ⟨hx, hy⟩)
        · exact absurd hx hshell
        · rw [hx]; exact hcode
        · rw [hx, hy]; exact hcode
      · intro _ ww reg hx hy
        rw [hx]
        dsimp only
        rw [if_pos (by rcases hy with rfl | rfl <;> simp)]
      · intro _ hx content hy
        rw [hx, hy]
        dsimp only
        rw [if_neg (by decide), ← onList_iff a k hshell]
        cases onList a k.item k.ext v content <;> cases deny <;> simp

/-- **C83**, mistakes in the configuration: whatever else is the case, an option that is not understood or a missing one makes every call fail,
unless `onerr=succeed` is given -/
theorem C83_errors {argv : List Str} (h : Misconfigured argv) (a : Accounts) (c : LCall) :
    listfile a c argv = PAM_SERVICE_ERR ∨ (listfile a c argv = PAM_SUCCESS ∧ "onerr=succeed".toList ∈ argv) := by
  obtain ⟨h1, h2, h3⟩ := errors_inv ("onerr=succeed".toList ∈ argv) argv {} id (Or.inl rfl) nofun
  have i1 := foldl_last argStep LState.citem "item=" (fun s a => (arg_other s a).2.2.2.1) argv {}
  have i2 := foldl_last argStep LState.deny "sense=" (fun s a => (arg_other s a).2.1) argv {}
  have i3 := foldl_last argStep LState.file "file=" (fun s a => (arg_other s a).2.2.1) argv {}
  have i4 := foldl_last argStep LState.apply "apply=" (fun s a => (arg_other s a).2.2.2.2.2) argv {}
  obtain ⟨r, hr, hg⟩ := complete_inv ("onerr=succeed".toList ∈ argv) _ h1 h2 (by
    rcases h with h | h | ⟨v, h, hv⟩ | h | h | h | h
    · exact Or.inl (h3 (Or.inr h))
    · exact Or.inr (Or.inl (i1.1 h))
    · obtain ⟨p, -, e⟩ := i1.2 v h
      exact Or.inr (Or.inl (e.trans (arg_item_unknown _ hv)))
    · exact Or.inr (Or.inr (Or.inr (Or.inl (i2.1 h))))
    · exact Or.inr (Or.inr (Or.inl (i3.1 h)))
    · obtain ⟨p, -, e⟩ := i4.2 _ h
      rw [arg_apply] at e
      refine Or.inr (Or.inr (Or.inr (Or.inr ?_)))
      rw [e]; rfl
    · obtain ⟨p, -, e⟩ := i4.2 _ h
      rw [arg_apply] at e
      refine Or.inr (Or.inr (Or.inr (Or.inr ?_)))
      rw [e]; rfl)
  rw [listfile_error hr]
  exact hg

/-! ### concrete cases -/

/-- somebody called ann with the group staff -/
def demoAccounts : Accounts where
  pwnam n := if n = "ann".toList then some ⟨"ann".toList, 1000, 100, "/bin/sh".toList⟩ else none
  pwuid u := if u = 1000 then some ⟨"ann".toList, 1000, 100, "/bin/sh".toList⟩ else none
  grnam g := if g = "staff".toList then some ⟨"staff".toList, 50, ["ann".toList]⟩ else none
  grgid g := if g = 50 then some ⟨"staff".toList, 50, ["ann".toList]⟩ else none
  grouplist _ _ := [100, 50]

/-- ann at tty1, with a list of the given content -/
def demoCall (content : Str) : LCall where
  user := (PAM_SUCCESS, "ann".toList)
  item i := (PAM_SUCCESS, match i with
    | .user => some "ann".toList
    | .tty => some "/dev/tty1".toList
    | _ => none)
  lstat f := if f = "/f".toList then some (false, true) else none
  open_ f := if f = "/f".toList then some content else none

def demoArgs (item sense : String) : List Str := [item.toList, sense.toList, "file=/f".toList, "quiet".toList]

theorem demo_configured : Configured (demoArgs "item=group" "sense=allow") .group false "/f".toList where
  proper := by
    intro x hx
    rcases List.mem_cons.mp hx with rfl | hx
    · exact Or.inr (Or.inr (Or.inr (Or.inr (Or.inr (Or.inr (Or.inl ⟨"group".toList, rfl⟩))))))
    rcases List.mem_cons.mp hx with rfl | hx
    · exact Or.inr (Or.inr (Or.inr (Or.inl rfl)))
    rcases List.mem_cons.mp hx with rfl | hx
    · exact Or.inr (Or.inr (Or.inr (Or.inr (Or.inr (Or.inl ⟨"/f".toList, rfl⟩)))))
    rcases List.mem_cons.mp hx with rfl | hx
    · exact Or.inl (by decide)
    · cases hx
  about := ⟨⟨[], _, rfl, by decide⟩, fun _ => rfl, by decide⟩
  sense := ⟨["item=group".toList], _, rfl, by decide⟩
  file := ⟨["item=group".toList, "sense=allow".toList], ["quiet".toList], rfl, by decide⟩
  apply := Or.inl (by unfold Without; decide)

example : listfile demoAccounts (demoCall "wheel\nstaff\n".toList) (demoArgs "item=group" "sense=allow") = PAM_SUCCESS := by decide +kernel
example : listfile demoAccounts (demoCall "wheel\n".toList) (demoArgs "item=group" "sense=allow") = PAM_AUTH_ERR := by decide +kernel
example : listfile demoAccounts (demoCall "/dev/tty1\r\n".toList) (demoArgs "item=tty" "sense=deny") = PAM_AUTH_ERR := by decide +kernel
example : listfile demoAccounts (demoCall "tty2\n".toList) (demoArgs "item=tty" "sense=deny") = PAM_SUCCESS := by decide +kernel
example : listfile demoAccounts (demoCall "/bin/sh\n".toList) (demoArgs "item=shell" "sense=allow") = PAM_SUCCESS := by decide +kernel
example : listfile demoAccounts (demoCall "ann\n".toList) ("apply=bob".toList :: demoArgs "item=rhost" "sense=allow") = PAM_IGNORE := by decide +kernel
example : listfile demoAccounts (demoCall "ann\n".toList) ("apply=@staff".toList :: demoArgs "item=rhost" "sense=allow") = PAM_AUTH_ERR := by decide +kernel
example : Subject (demoCall []) .group "ann".toList := Or.inl rfl
example : ¬ NotConcerned demoAccounts (demoCall []) (demoArgs "item=group" "sense=allow") .group := fun h => by rcases h.1 with h | h <;> cases h
example : Listed demoAccounts .group "ann".toList "wheel\nstaff\n".toList :=
  ⟨"staff".toList, _, _, ⟨by decide, "staff".toList, (physLines_iff _ _).mp ⟨"staff\n".toList, by decide, by decide⟩, by decide⟩, rfl, rfl, Or.inr (Or.inl (by decide))⟩
example : Misconfigured (demoArgs "item=host" "sense=allow") := Or.inr (Or.inr (Or.inl ⟨"host".toList, ⟨[], _, rfl, by decide⟩, fun k => by cases k <;> decide⟩))
example : listfile demoAccounts (demoCall []) (demoArgs "item=host" "sense=allow") = PAM_SERVICE_ERR := by decide +kernel

/-- **C83**, why `About` asks about the other `item=` words: a later `item=` does not take back an earlier `item=group`.  Here the last word says
the list is about terminals and the terminal is on it, but the user at it is refused, because the terminal's name is looked up as a user in a group. -/
theorem C83_item_counterexample : ∃ argv : List Str, (∀ x ∈ argv, Proper x) ∧ Last "item=" argv Kind.tty.text ∧ Last "sense=" argv (senseText false) ∧
    Last "file=" argv "/f".toList ∧ Without "apply=" argv ∧ Listed demoAccounts .tty "tty1".toList "tty1\n".toList ∧
    Subject (demoCall "tty1\n".toList) .tty "tty1".toList ∧ listfile demoAccounts (demoCall "tty1\n".toList) argv = PAM_AUTH_ERR := by
  refine ⟨"item=group".toList :: demoArgs "item=tty" "sense=allow", ?_, ⟨["item=group".toList], _, rfl, by decide⟩,
    ⟨["item=group".toList, "item=tty".toList], _, rfl, by decide⟩,
    ⟨["item=group".toList, "item=tty".toList, "sense=allow".toList], _, rfl, by decide⟩, by unfold Without; decide, ?_, ?_, by decide +kernel⟩
  · intro x hx
    rcases List.mem_cons.mp hx with rfl | hx
    · exact Or.inr (Or.inr (Or.inr (Or.inr (Or.inr (Or.inr (Or.inl ⟨"group".toList, rfl⟩))))))
    rcases List.mem_cons.mp hx with rfl | hx
    · exact Or.inr (Or.inr (Or.inr (Or.inr (Or.inr (Or.inr (Or.inl ⟨"tty".toList, rfl⟩))))))
    rcases List.mem_cons.mp hx with rfl | hx
    · exact Or.inr (Or.inr (Or.inr (Or.inl rfl)))
    rcases List.mem_cons.mp hx with rfl | hx
    · exact Or.inr (Or.inr (Or.inr (Or.inr (Or.inr (Or.inl ⟨"/f".toList, rfl⟩)))))
    rcases List.mem_cons.mp hx with rfl | hx
    · exact Or.inl (by decide)
    · cases hx
  · exact ⟨"tty1".toList, ⟨by decide, "tty1".toList, (physLines_iff _ _).mp ⟨"tty1\n".toList, by decide, by decide⟩, by decide⟩, Or.inr ⟨rfl, by decide⟩⟩
  · exact Or.inl rfl

end Pam.Small
