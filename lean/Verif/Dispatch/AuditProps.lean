import Verif.Dispatch.Audit
import Verif.Dispatch.Props
/-
C152 and C153: the audit records.
-/
namespace Pam.AuditLog
open Pam Pam.Dispatch Pam.Dispatch.Spec

namespace Spec

/-- the text for the modules that granted an operation: their names with commas, `?` if there are none -/
def grantorText (hl : List (Str × Bool)) : Str :=
  match hl.filterMap (fun h => if h.2 then some h.1 else none) with
  | [] => "?".toList
  | l => ",".toList.intercalate l

/-- how an operation is called in the records -/
def opText : Op → Str
  | .authenticate => "authentication".toList
  | .setcred => "setcred".toList
  | .account => "accounting".toList
  | .openSession => "session_open".toList
  | .closeSession => "session_close".toList
  | .chauthtok => "chauthtok".toList

/-- the kernel took the record -/
def Taken (s : Rec × Int) : Prop := 0 ≤ s.2

/-- the type of the record: for credentials it depends on what is to be done with them -/
def recType : Op → Nat → RecType
  | .authenticate, _ => .userAuth
  | .account, _ => .userAcct
  | .openSession, _ => .userStart
  | .closeSession, _ => .userEnd
  | .chauthtok, _ => .userChauthtok
  | .setcred, flags =>
    if flags &&& 0x2 ≠ 0 then .credAcq
    else if flags &&& 0x8 ≠ 0 ∨ flags &&& 0x10 ≠ 0 then .credRefr
    else if flags &&& 0x4 ≠ 0 then .credDisp
    else .userErr

end Spec
open Spec

/-! ### the list of modules -/

theorem fold_len (l : List (Str × Bool)) (n : Nat) :
    l.foldl (fun n h => n + h.1.length + 1) n = n + (l.map (fun h => h.1.length + 1)).sum := by
  induction l generalizing n with
  | nil => simp
  | cons h t ih => rw [List.foldl_cons, ih, List.map_cons, List.sum_cons]; omega

/-- what the second loop writes after a first name -/
theorem fold_text (l : List (Str × Bool)) (s : Str) :
    l.foldl (fun p h => addName p h.1) (some s) =
      some (s ++ (l.map (fun h => ',' :: h.1)).flatten) := by
  induction l generalizing s with
  | nil => simp
  | cons h t ih => rw [List.foldl_cons]; show List.foldl _ (some (s ++ [','] ++ h.1)) t = _; rw [ih]; simp

theorem intercalate_eq (a : Str) (l : List Str) : ",".toList.intercalate (a :: l) = a ++ (l.map (fun h => ',' :: h)).flatten := by
  induction l generalizing a with
  | nil => simp [List.intercalate]
  | cons b t ih =>
    have h := ih b
    simp only [List.intercalate] at h ⊢
    rw [List.intersperse_cons₂, List.flatten_cons, List.flatten_cons, h]
    simp

theorem names_eq (hl : List (Str × Bool)) : hl.filterMap (fun h => if h.2 then some h.1 else none) = (hl.filter (·.2)).map (·.1) := by
  induction hl with
  | nil => rfl
  | cons h t ih =>
    obtain ⟨n, b⟩ := h
    cases b <;> simp [ih]

/-- the list: never too long for its block -/
theorem listGrantors_eq (mem : Bool) (hl : List (Str × Bool)) :
    listGrantors mem hl PAM_SUCCESS =
      if hl.filter (·.2) = [] then some (0, none) else if mem = false then some (-1, none) else some (0, some (grantorText hl)) := by
  unfold listGrantors grantorText
  rw [if_pos rfl, names_eq]
  dsimp only
  cases hf : hl.filter (·.2) with
  | nil => simp
  | cons h t =>
    rw [fold_len, List.map_cons, List.sum_cons, if_neg (by omega), if_neg (List.cons_ne_nil h t), List.map_cons]
    cases mem with
    | false => rfl
    | true =>
      rw [if_neg (by decide), if_neg (by decide), List.foldl_cons]
      show (match List.foldl _ (some h.1) t with | none => _ | some s => _) = _
      rw [fold_text]
      dsimp only
      rw [if_pos]
      · rw [intercalate_eq, List.map_map]; rfl
      · rw [List.length_append]
        have : ((t.map (fun h : Str × Bool => ',' :: h.1)).flatten).length = (t.map (fun h => h.1.length + 1)).sum := by
          clear hf
          induction t with
          | nil => rfl
          | cons a t ih => simp [ih]; omega
        omega

theorem listGrantors_other (mem : Bool) (hl : List (Str × Bool)) {r : Int} (h : r ≠ PAM_SUCCESS) : listGrantors mem hl r = some (0, none) := by
  unfold listGrantors; rw [if_neg h]

/-- an attempt at a record: all cases -/
theorem auditlog_fd (w : World) (it : Items) (k : Str × RecType) (r : Int) (hl : List (Str × Bool)) (ho : w.opened = .fd) :
    ∃ r' g, (r' = r ∨ r = PAM_SUCCESS ∧ w.listMem = false ∧ hl.filter (·.2) ≠ [] ∧ r' = PAM_SYSTEM_ERR) ∧
      (r' = PAM_SUCCESS → g = grantorText hl) ∧ (r ≠ PAM_SUCCESS → g = "?".toList) ∧
      auditlog w it k r hl = some ⟨if (writelog w it k.2 k.1 (some g) r').1 < 0 then PAM_SYSTEM_ERR else r', (writelog w it k.2 k.1 (some g) r').2, true⟩ := by
  unfold auditlog
  rw [ho]
  by_cases hr : r = PAM_SUCCESS
  · subst hr
    rw [listGrantors_eq]
    by_cases hf : hl.filter (·.2) = []
    · rw [if_pos hf]
      refine ⟨PAM_SUCCESS, "?".toList, Or.inl rfl, fun _ => ?_, fun h => absurd rfl h, rfl⟩
      unfold grantorText; rw [names_eq, hf]; rfl
    · rw [if_neg hf]
      by_cases hm : w.listMem = false
      · rw [if_pos hm]
        exact ⟨PAM_SYSTEM_ERR, "?".toList, Or.inr ⟨rfl, hm, hf, rfl⟩, fun h => absurd h (by decide), fun h => absurd rfl h, rfl⟩
      · rw [if_neg hm]
        exact ⟨PAM_SUCCESS, grantorText hl, Or.inl rfl, fun _ => rfl, fun h => absurd rfl h, rfl⟩
  · rw [listGrantors_other _ _ hr]
    exact ⟨r, "?".toList, Or.inl rfl, fun h => absurd h hr, fun _ => rfl, rfl⟩

theorem writelog_cases (w : World) (it : Items) (t : RecType) (m g : Str) (r : Int) :
    (writelog w it t m (some g) r = (-ENOMEM, []) ∧ w.textMem = false) ∨
    (w.textMem = true ∧ ∃ x : Rec, (writelog w it t m (some g) r).2 = [(x, w.rc)] ∧ (writelog w it t m (some g) r).1 = (if w.rc < 0 ∧ w.rc = -EPERM then 0 else w.rc) ∧
      x.type = t ∧ x.text = "PAM:".toList ++ m ++ " grantors=".toList ++ g ∧ x.ok = decide (r = PAM_SUCCESS) ∧ x.rhost = it.rhost ∧ x.tty = it.tty ∧
      x.user = (if r = PAM_USER_UNKNOWN then "?".toList else it.user.getD "?".toList)) := by
  unfold writelog
  dsimp only
  by_cases ht : w.textMem = false
  · rw [if_pos ht]; exact Or.inl ⟨rfl, ht⟩
  · rw [if_neg ht]
    right
    refine ⟨by revert ht; cases w.textMem <;> simp, ⟨_, rfl, rfl, rfl, rfl, rfl, rfl, rfl, ?_⟩⟩
    dsimp only
    cases it.user with
    | none => simp
    | some u =>
      by_cases h : r = PAM_USER_UNKNOWN
      · rw [if_pos h]; simp [h]
      · rw [if_neg h]; simp [h]

theorem kind_text (op : Op) (flags : Nat) : (kind op flags).1 = opText op := by cases op <;> rfl

/-! ### C152 -/

/-- C152: with auditing in the kernel the application is told of success only if a record of success was sent, with the operation and the modules that granted it, and
the kernel took it, or the program is not permitted to write records; the first pass of a password change alone leaves none. -/
theorem C152_success (w : World) (it : Items) (op : Op) (flags : Nat) (r : Int) (hl : List (Str × Bool)) (x : Result) (ho : w.opened ≠ .unsupported)
    (h : audited w it op flags r hl = some x) (hs : x.code = PAM_SUCCESS) :
    r = PAM_SUCCESS ∧ ((op = .chauthtok ∧ flags.testBit 13 = false ∧ x.sent = []) ∨
      ∃ s : Rec × Int, x.sent = [s] ∧ (Taken s ∨ s.2 = -EPERM) ∧ s.1.ok = true ∧ s.1.text = "PAM:".toList ++ opText op ++ " grantors=".toList ++ grantorText hl ∧
        s.1.user = it.user.getD "?".toList) := by
  unfold audited at h
  split at h
  · cases hop : w.opened with
    | unsupported => exact absurd hop ho
    | failed =>
      unfold auditlog at h
      rw [hop] at h
      cases h
      exact absurd hs (by dsimp only; decide)
    | fd =>
      obtain ⟨r', g, h1, h2, _, h3⟩ := auditlog_fd w it (kind op flags) r hl hop
      rw [h3] at h
      cases h
      dsimp only at hs ⊢
      split at hs
      · exact absurd hs (by decide)
      · next hn =>
        have hr : r = PAM_SUCCESS := by
          rcases h1 with h1 | h1
          · rw [← h1]; exact hs
          · exact h1.1
        refine ⟨hr, Or.inr ?_⟩
        rcases writelog_cases w it (kind op flags).2 (kind op flags).1 g r' with ⟨e, _⟩ | ⟨_, y, e1, e2, _, e4, e5, _, _, e6⟩
        · rw [e] at hn; exact absurd (by decide) hn
        · refine ⟨(y, w.rc), e1, ?_, ?_, ?_, ?_⟩
          · rw [e2] at hn
            split at hn
            · next hc => exact Or.inr hc.2
            · left; show 0 ≤ w.rc; omega
          · show y.ok = true
            rw [e5, hs]; rfl
          · show y.text = _
            rw [e4, kind_text, h2 hs]
          · show y.user = _
            rw [e6, hs, if_neg (by decide)]
  · next hc =>
    cases h
    refine ⟨hs, Or.inl ⟨?_, ?_, rfl⟩⟩
    · exact Classical.byContradiction fun h => hc (Or.inl h)
    · cases hb : flags.testBit 13 with
      | false => rfl
      | true => exact absurd (Or.inr (Or.inl hb)) hc

/-- C152: a record the kernel took says what the application is told: success if and only if the operation succeeded.  There is at most one. -/
theorem C152_truth (w : World) (it : Items) (op : Op) (flags : Nat) (r : Int) (hl : List (Str × Bool)) (x : Result)
    (h : audited w it op flags r hl = some x) :
    x.sent.length ≤ 1 ∧ ∀ s ∈ x.sent, Taken s → (s.1.ok = true ↔ x.code = PAM_SUCCESS) := by
  unfold audited at h
  split at h
  · cases hop : w.opened with
    | unsupported => unfold auditlog at h; rw [hop] at h; cases h; exact ⟨by simp, by simp⟩
    | failed => unfold auditlog at h; rw [hop] at h; cases h; exact ⟨by simp, by simp⟩
    | fd =>
      obtain ⟨r', g, h1, h2, _, h3⟩ := auditlog_fd w it (kind op flags) r hl hop
      rw [h3] at h
      cases h
      dsimp only
      rcases writelog_cases w it (kind op flags).2 (kind op flags).1 g r' with ⟨e, _⟩ | ⟨_, y, e1, e2, _, _, e5, _⟩
      · rw [e]; exact ⟨by simp, by simp⟩
      · rw [e1, e2]
        refine ⟨by simp, ?_⟩
        intro s hs ht
        rw [List.mem_singleton] at hs
        subst hs
        have ht : 0 ≤ w.rc := ht
        show y.ok = true ↔ _
        have hn : ¬ (w.rc < 0 ∧ w.rc = -EPERM) := by rintro ⟨h, _⟩; omega
        rw [e5, if_neg hn, if_neg (by omega : ¬ w.rc < 0)]
        simp
  · cases h; exact ⟨by simp, by simp⟩

/-- C152: without auditing in the kernel nothing changes; if auditing is there but cannot be reached, or the record is refused, the operation fails. -/
theorem C152_kernel (w : World) (it : Items) (op : Op) (flags : Nat) (r : Int) (hl : List (Str × Bool)) :
    ∃ x, audited w it op flags r hl = some x ∧
      (w.opened = .unsupported → x.code = r ∧ x.sent = []) ∧
      ((op ≠ .chauthtok ∨ flags.testBit 13 = true) → w.opened = .failed → x.code = PAM_SYSTEM_ERR) ∧
      ((op ≠ .chauthtok ∨ flags.testBit 13 = true) → w.opened = .fd → (w.textMem = false ∨ w.rc < 0 ∧ w.rc ≠ -EPERM) → x.code = PAM_SYSTEM_ERR) ∧
      (w.opened = .fd → w.textMem = true → w.listMem = true → (0 ≤ w.rc ∨ w.rc = -EPERM) → x.code = r) := by
  unfold audited
  split
  · cases hop : w.opened with
    | unsupported =>
      refine ⟨⟨r, [], false⟩, by unfold auditlog; rw [hop], fun _ => ⟨rfl, rfl⟩, nofun, nofun, nofun⟩
    | failed =>
      refine ⟨⟨PAM_SYSTEM_ERR, [], false⟩, by unfold auditlog; rw [hop], nofun, fun _ _ => rfl, nofun, nofun⟩
    | fd =>
      obtain ⟨r', g, h1, h2, _, h3⟩ := auditlog_fd w it (kind op flags) r hl hop
      refine ⟨_, h3, nofun, nofun, fun _ _ hm => ?_, fun _ h4 h5 h6 => ?_⟩
      · dsimp only
        rcases writelog_cases w it (kind op flags).2 (kind op flags).1 g r' with ⟨e, _⟩ | ⟨ht, y, _, e2, _⟩
        · rw [e]; rfl
        · rcases hm with hm | ⟨hm1, hm2⟩
          · rw [ht] at hm; cases hm
          · rw [e2, if_neg (fun h : w.rc < 0 ∧ w.rc = -EPERM => hm2 h.2), if_pos hm1]
      · dsimp only
        have hr : r' = r := by
          rcases h1 with h1 | ⟨_, h1, _⟩
          · exact h1
          · rw [h5] at h1; cases h1
        rcases writelog_cases w it (kind op flags).2 (kind op flags).1 g r' with ⟨_, e⟩ | ⟨ht, y, _, e2, _⟩
        · rw [h4] at e; cases e
        · rw [e2, hr]
          rcases h6 with h6 | h6
          · have hn : ¬ (w.rc < 0 ∧ w.rc = -EPERM) := by rintro ⟨h, _⟩; omega
            rw [if_neg hn, if_neg (by omega : ¬ w.rc < 0)]
          · rw [h6]; rfl
  · next hc =>
    refine ⟨⟨r, [], false⟩, rfl, fun _ => ⟨rfl, rfl⟩, fun h => ?_, fun h => ?_, fun _ _ _ _ => rfl⟩
    · exact absurd (h.elim Or.inl (fun h => Or.inr (Or.inl h))) hc
    · exact absurd (h.elim Or.inl (fun h => Or.inr (Or.inl h))) hc

/-- C152: the name given by a user who does not exist, which may be a password typed at the wrong prompt, is not recorded. -/
theorem C152_unknown (w : World) (it : Items) (op : Op) (flags : Nat) (hl : List (Str × Bool)) (x : Result)
    (h : audited w it op flags PAM_USER_UNKNOWN hl = some x) : ∀ s ∈ x.sent, s.1.user = "?".toList := by
  unfold audited at h
  rw [if_pos (Or.inr (Or.inr (by decide)))] at h
  cases hop : w.opened with
  | unsupported => unfold auditlog at h; rw [hop] at h; cases h; simp
  | failed => unfold auditlog at h; rw [hop] at h; cases h; simp
  | fd =>
    obtain ⟨r', g, h1, _, _, h3⟩ := auditlog_fd w it (kind op flags) PAM_USER_UNKNOWN hl hop
    rw [h3] at h
    cases h
    have hr : r' = PAM_USER_UNKNOWN := by
      rcases h1 with h1 | ⟨h1, _⟩
      · exact h1
      · exact absurd h1 (by decide)
    dsimp only
    rcases writelog_cases w it (kind op flags).2 (kind op flags).1 g r' with ⟨e, _⟩ | ⟨_, y, e1, _, _, _, _, _, _, e6⟩
    · rw [e]; simp
    · rw [e1]
      intro s hs
      rw [List.mem_singleton] at hs
      subst hs
      rw [e6, if_pos hr]

theorem bit_and (n k : Nat) : n &&& 2 ^ k ≠ 0 ↔ n.testBit k = true := by
  constructor
  · intro h
    obtain ⟨i, hi⟩ := Nat.exists_testBit_of_ne_zero h
    rw [Nat.testBit_and, Nat.testBit_two_pow, Bool.and_eq_true, decide_eq_true_eq] at hi
    rw [hi.2]; exact hi.1
  · intro h hc
    have := congrArg (fun m => Nat.testBit m k) hc
    simp [h] at this

theorem kind_type (op : Op) (flags : Nat) : (kind op flags).2 = recType op flags := by
  cases op <;> try rfl
  have b1 := bit_and flags 1
  have b2 := bit_and flags 2
  have b3 := bit_and flags 3
  have b4 := bit_and flags 4
  unfold kind recType
  dsimp only
  rw [show (0x2 : Nat) = 2 ^ 1 from rfl, show (0x8 : Nat) = 2 ^ 3 from rfl, show (0x10 : Nat) = 2 ^ 4 from rfl, show (0x4 : Nat) = 2 ^ 2 from rfl]
  simp only [b1, b2, b3, b4]

/-- C152: every record has the type of the operation, and the host and terminal of the transaction; a failure names no modules. -/
theorem C152_fields (w : World) (it : Items) (op : Op) (flags : Nat) (r : Int) (hl : List (Str × Bool)) (x : Result)
    (h : audited w it op flags r hl = some x) : ∀ s ∈ x.sent, s.1.type = recType op flags ∧ s.1.rhost = it.rhost ∧ s.1.tty = it.tty ∧
      (r ≠ PAM_SUCCESS → s.1.ok = false ∧ s.1.text = "PAM:".toList ++ opText op ++ " grantors=?".toList) := by
  unfold audited at h
  split at h
  · cases hop : w.opened with
    | unsupported => unfold auditlog at h; rw [hop] at h; cases h; simp
    | failed => unfold auditlog at h; rw [hop] at h; cases h; simp
    | fd =>
      obtain ⟨r', g, h1, _, hg, h3⟩ := auditlog_fd w it (kind op flags) r hl hop
      rw [h3] at h
      cases h
      dsimp only
      rcases writelog_cases w it (kind op flags).2 (kind op flags).1 g r' with ⟨e, _⟩ | ⟨_, y, e1, _, e3, e4, e5, e6, e7, _⟩
      · rw [e]; simp
      · rw [e1]
        intro s hs
        rw [List.mem_singleton] at hs
        subst hs
        refine ⟨by rw [e3, kind_type], e6, e7, fun hr => ⟨?_, ?_⟩⟩
        · have hr' : r' ≠ PAM_SUCCESS := by
            rcases h1 with h1 | ⟨h1, _⟩
            · rw [h1]; exact hr
            · exact absurd h1 hr
          rw [e5]; simp [hr']
        · rw [e4, kind_text, hg hr, List.append_assoc _ " grantors=".toList]; rfl
  · cases h; simp

theorem auditlog_sent (w : World) (it : Items) (k : Str × RecType) (r : Int) (hl : List (Str × Bool)) :
    ∃ x, auditlog w it k r hl = some x ∧ (x.logged = true ↔ w.opened = .fd) ∧ (w.opened = .fd → w.textMem = true → x.sent ≠ []) := by
  cases hop : w.opened with
  | unsupported => exact ⟨⟨r, [], false⟩, by unfold auditlog; rw [hop], by simp, nofun⟩
  | failed => exact ⟨⟨PAM_SYSTEM_ERR, [], false⟩, by unfold auditlog; rw [hop], by simp, nofun⟩
  | fd =>
    obtain ⟨r', g, _, _, _, h3⟩ := auditlog_fd w it k r hl hop
    refine ⟨_, h3, by simp, fun _ ht => ?_⟩
    rcases writelog_cases w it k.2 k.1 g r' with ⟨_, e⟩ | ⟨_, y, e1, _⟩
    · rw [ht] at e; cases e
    · dsimp only; rw [e1]; simp

/-- C152: a transaction with auditing in the kernel and memory leaves at least one record, whatever the application calls: if it calls nothing, `pam_end` records that. -/
theorem C152_transaction (fin : World × Items) (cs : List Call) (hf : fin.1.opened = .fd ∧ fin.1.textMem = true)
    (hc : ∀ c ∈ cs, c.world.opened = .fd ∧ c.world.textMem = true) : ∃ l, transaction fin false cs = some l ∧ l ≠ [] := by
  have key : ∀ (cs : List Call) (b : Bool), (∀ c ∈ cs, c.world.opened = .fd ∧ c.world.textMem = true) → ∃ l, transaction fin b cs = some l ∧ (b = false → l ≠ []) := by
    intro cs
    induction cs with
    | nil =>
      intro b _
      cases b with
      | true => exact ⟨[], rfl, nofun⟩
      | false =>
        obtain ⟨x, e, _, e2⟩ := auditlog_sent fin.1 fin.2 ("bad_ident".toList, .userErr) PAM_USER_UNKNOWN []
        refine ⟨x.sent, ?_, fun _ => e2 hf.1 hf.2⟩
        show (auditlog fin.1 fin.2 ("bad_ident".toList, .userErr) PAM_USER_UNKNOWN []).map Result.sent = _
        rw [e]; rfl
    | cons c cs ih =>
      intro b hcs
      obtain ⟨hc1, hc2⟩ := hcs c (by simp)
      have hr : ∃ r, audited c.world c.items c.op c.flags c.retval c.handlers = some r ∧ (r.sent = [] → r.logged = false) := by
        unfold audited
        split
        · obtain ⟨x, e, _, e2⟩ := auditlog_sent c.world c.items (kind c.op c.flags) c.retval c.handlers
          exact ⟨x, e, fun h => absurd h (e2 hc1 hc2)⟩
        · exact ⟨_, rfl, fun _ => rfl⟩
      obtain ⟨r, er, hr⟩ := hr
      obtain ⟨l, el, hl⟩ := ih (b || r.logged) (fun c hc => hcs c (by simp [hc]))
      refine ⟨r.sent ++ l, ?_, ?_⟩
      · show (audited c.world c.items c.op c.flags c.retval c.handlers).bind _ = _
        rw [er]
        show (transaction fin (b || r.logged) cs).bind _ = _
        rw [el]; rfl
      · intro hb
        by_cases hs : r.sent = []
        · have := hl (by rw [hb, hr hs]; rfl)
          simp [this]
        · simp [hs]
  obtain ⟨l, h1, h2⟩ := key cs false hc
  exact ⟨l, h1, h2 rfl⟩

/-! ### C153 -/

variable {σ : Type}

/-- the modules of a stack with their names and flags, as `_pam_list_grantors` sees them -/
def flagged (names : List Str) (grant : Nat → Bool) : List (Str × Bool) := names.zipIdx.map (fun p => (p.1, grant p.2))

theorem act_grant {mode : Mode} {L i : Nat} {a r c : Int} {st st' : St σ} {nx : Next} (h : act mode L i a r c st = some (st', nx)) :
    st'.trace = st.trace ∧ (∀ j, st'.grant j = true → st.grant j = true ∨ j = i ∧ r = PAM_SUCCESS) := by
  have hu : ∀ (g : Nat → Bool) j, upd g i true j = true → g j = true ∨ j = i := by
    intro g j hj
    unfold upd at hj
    split at hj
    · next e => exact Or.inr e
    · exact Or.inl hj
  unfold act at h
  split at h
  · split at h
    · split at h
      · cases h
      · cases h; exact ⟨rfl, fun j hj => Or.inl hj⟩
    · cases h
  · split at h
    · dsimp only at h
      have hst : ∀ {st1 : St σ}, st1 = (if st.imp = .undef ∨ (st.imp = .positive ∧ st.status = PAM_SUCCESS) then
          if r ≠ PAM_IGNORE ∨ c = r then { st with imp := .positive, status := r } else st else st) → st1.trace = st.trace ∧ st1.grant = st.grant := by
        intro st1 e
        rw [e]; split <;> (try split) <;> exact ⟨rfl, rfl⟩
      generalize hs1 : (if st.imp = .undef ∨ (st.imp = .positive ∧ st.status = PAM_SUCCESS) then
          if r ≠ PAM_IGNORE ∨ c = r then { st with imp := .positive, status := r } else st else st) = st1 at h
      obtain ⟨t1, t2⟩ := hst hs1.symm
      split at h
      · cases h
        split
        · next hr =>
          refine ⟨t1, fun j hj => ?_⟩
          rcases hu _ _ hj with h | h
          · left; rw [← t2]; exact h
          · exact Or.inr ⟨h, hr⟩
        · exact ⟨t1, fun j hj => Or.inl (by rw [← t2]; exact hj)⟩
      · cases h
        exact ⟨t1, fun j hj => Or.inl (by rw [← t2]; exact hj)⟩
    · split at h
      · cases h
        split <;> exact ⟨rfl, fun j hj => Or.inl hj⟩
      · split at h
        · cases h; exact ⟨rfl, fun j hj => Or.inl hj⟩
        · split at h
          · cases h
            split
            · split
              · split
                · refine ⟨rfl, fun j hj => ?_⟩
                  dsimp only at hj
                  split at hj
                  · next hr =>
                    rcases hu _ _ hj with h | h
                    · exact Or.inl h
                    · exact Or.inr ⟨h, hr.2⟩
                  · exact Or.inl hj
                · exact ⟨rfl, fun j hj => Or.inl hj⟩
              · exact ⟨rfl, fun j hj => Or.inl hj⟩
            · exact ⟨rfl, fun j hj => Or.inl hj⟩
          · cases h; exact ⟨rfl, fun j hj => Or.inl hj⟩

theorem visit_grant {mode : Mode} {h : Handler σ} {i : Nat} {st st' : St σ} {nx : Next} (hv : visit mode h i st = some (.inr (st', nx)))
    (hI : ∀ j, st.grant j = true → (j, PAM_SUCCESS) ∈ st.trace) : ∀ j, st'.grant j = true → (j, PAM_SUCCESS) ∈ st'.trace := by
  unfold visit at hv
  dsimp only at hv
  split at hv
  · cases hv
  · generalize hr : callModule h st.world = r at hv
    generalize hc : cachedRetval mode i r.1 { st with world := r.2, trace := st.trace ++ [(i, r.1)] } = c at hv
    have ht : c.2.trace = st.trace ++ [(i, r.1)] ∧ c.2.grant = st.grant := by
      rw [← hc]; unfold cachedRetval; cases mode <;> exact ⟨rfl, rfl⟩
    intro j hj
    split at hv
    · rw [Option.map_eq_some_iff] at hv
      obtain ⟨⟨s, n⟩, e1, e2⟩ := hv
      cases e2
      obtain ⟨k1, k2⟩ := act_grant e1
      rw [k1, ht.1]
      rcases k2 j hj with h | ⟨_, h⟩
      · rw [ht.2] at h; exact List.mem_append.mpr (Or.inl (hI j h))
      · exact absurd h (by decide)
    · rw [Option.map_eq_some_iff] at hv
      obtain ⟨⟨s, n⟩, e1, e2⟩ := hv
      cases e2
      obtain ⟨k1, k2⟩ := act_grant e1
      rw [k1, ht.1]
      rcases k2 j hj with h | ⟨h1, h2⟩
      · rw [ht.2] at h; exact List.mem_append.mpr (Or.inl (hI j h))
      · rw [h1, h2]; exact List.mem_append.mpr (Or.inr (by simp))

/-- C153: the modules in the record of a successful operation are modules of the stack that were called in this operation and returned success; there is at least one.
`e` is the state when the operation starts: nothing was called yet, and the flags of an earlier operation have been cleared; interruptions do not matter. -/
theorem C153_grantors (mode : Mode) (hs : List (Handler σ)) (e : Env σ) (he : e.trace = []) (hg : ∀ i, e.grant i = false) (st : St σ)
    (hw : Walk mode hs e (.done PAM_SUCCESS st)) (names : List Str) (hn : names.length = hs.length) :
    (∀ i < names.length, ∀ n, (flagged names st.grant)[i]? = some (n, true) → names[i]? = some n ∧ (i, PAM_SUCCESS) ∈ st.trace) ∧
    (∃ (i : Nat) (n : Str), (flagged names st.grant)[i]? = some (n, true)) ∧
    grantorText (flagged names st.grant) = ",".toList.intercalate ((names.zipIdx.filter (fun p => st.grant p.2)).map Prod.fst) := by
  have hI : Holds (fun st : St σ => ∀ j, st.grant j = true → (j, PAM_SUCCESS) ∈ st.trace) (.done PAM_SUCCESS st) := by
    refine walk_invariant mode hs e _ ?_ ?_ ?_ ?_ ?_ ?_ _ hw
    · intro j hj
      have : (freshSt e).grant j = e.grant j := rfl
      rw [this, hg] at hj; cases hj
    · intro st w h; exact h
    · intro prev L st st' h he
      unfold enter at he
      split at he
      · split at he
        · cases he; exact h
        · cases he
      · cases he; exact h
    · intro i h st st' _ _ hI hv
      unfold visit at hv
      dsimp only at hv
      split at hv
      · cases hv; exact hI
      · split at hv <;> (rw [Option.map_eq_some_iff] at hv; obtain ⟨_, _, e2⟩ := hv; cases e2)
    · intro i h st st' nx _ _ hI hv
      exact visit_grant hv hI
    · intro i h st st' n _ _ _ h; exact h
  have hfl : ∀ i, (flagged names st.grant)[i]? = (names[i]?).map (fun n => (n, st.grant i)) := by
    intro i
    unfold flagged
    rw [List.getElem?_map, List.getElem?_zipIdx]
    cases names[i]? <;> simp
  obtain ⟨i, h, f, w, h1, _, _, _, _, h6, h7, _⟩ := C01_success_needs_granting_module mode hs e he st hw
  have hlt : i < names.length := by
    rw [hn]
    exact (List.getElem?_eq_some_iff.mp h1).1
  refine ⟨?_, ⟨i, names[i], ?_⟩, ?_⟩
  · intro i _ n hi
    rw [hfl, Option.map_eq_some_iff] at hi
    obtain ⟨n', e1, e2⟩ := hi
    injection e2 with e3 e4
    exact ⟨by rw [e1, e3], hI i e4⟩
  · rw [hfl, List.getElem?_eq_getElem hlt, h7]; rfl
  · have hne : (names.zipIdx.filter (fun p => st.grant p.2)).map Prod.fst ≠ [] := by
      intro hc
      rw [List.map_eq_nil_iff, List.filter_eq_nil_iff] at hc
      refine hc (names[i], i) ?_ h7
      rw [List.mem_iff_getElem?]
      exact ⟨i, by rw [List.getElem?_zipIdx, List.getElem?_eq_getElem hlt]; simp⟩
    have hfm : (flagged names st.grant).filterMap (fun h => if h.2 then some h.1 else none) =
        (names.zipIdx.filter (fun p => st.grant p.2)).map Prod.fst := by
      rw [names_eq]
      unfold flagged
      rw [List.filter_map, List.map_map]
      rfl
    unfold grantorText
    rw [hfm]
    split
    · next hh => exact absurd hh hne
    · rfl

/-! ### examples, and where more does not hold -/

/-- everything works -/
def okWorld : World := ⟨.fd, true, true, 7⟩
/-- a user at a terminal -/
def it0 : Items := ⟨some "joe".toList, none, some "tty1".toList⟩

example : audited okWorld it0 .authenticate 0 PAM_SUCCESS [("pam_env".toList, false), ("pam_unix".toList, true), ("pam_x".toList, true)] =
    some ⟨PAM_SUCCESS, [(⟨.userAuth, "PAM:authentication grantors=pam_unix,pam_x".toList, "joe".toList, none, some "tty1".toList, true⟩, 7)], true⟩ := by decide +kernel
example : audited okWorld it0 .setcred 16 PAM_CRED_ERR [("pam_unix".toList, true)] =
    some ⟨PAM_CRED_ERR, [(⟨.credRefr, "PAM:setcred grantors=?".toList, "joe".toList, none, some "tty1".toList, false⟩, 7)], true⟩ := by decide +kernel
example : transaction (okWorld, it0) false [⟨okWorld, it0, .chauthtok, 0x4000, PAM_SUCCESS, []⟩] =
    some [(⟨.userErr, "PAM:bad_ident grantors=?".toList, "?".toList, none, some "tty1".toList, false⟩, 7)] := by decide +kernel

/-- a module that returns `r`, with actions given by code -/
def mod (r : Int) (actions : Nat → Int) : Handler Unit := ⟨.module, some (fun w => (r, w)), actions, 0⟩

/-- C153: more does not hold: a module whose success was discarded by a later `reset` is still in the list. -/
theorem C153_reset_counterexample :
    ∃ st, dispatchAux .pleaseFreeze [mod 0 (fun _ => ACT_OK), mod 7 (fun _ => ACT_RESET), mod 0 (fun _ => ACT_OK)] none
        ⟨fun _ => INVALID_RETVAL, fun _ => false, (), []⟩ = .done PAM_SUCCESS st ∧
      grantorText (flagged ["a".toList, "b".toList, "c".toList] st.grant) = "a,c".toList := by
  refine ⟨_, by simp [dispatchAux, loop, visit, callModule, cachedRetval, act, enter, finish, mod, freshSt, upd, PAM_SUCCESS, PAM_INCOMPLETE, PAM_RETURN_VALUES,
    ACT_OK, ACT_RESET, ACT_DONE, SUBSTACK_MAX_LEVEL, PAM_IGNORE]; rfl, ?_⟩
  simp [flagged, grantorText, upd]

/-- C153: an operation that is only interrupted is recorded as one that failed. -/
theorem C153_interrupted_counterexample (hl : List (Str × Bool)) :
    audited okWorld it0 .authenticate 0 PAM_INCOMPLETE hl =
      some ⟨PAM_INCOMPLETE, [(⟨.userAuth, "PAM:authentication grantors=?".toList, "joe".toList, none, some "tty1".toList, false⟩, 7)], true⟩ := by
  unfold audited
  rw [if_pos (Or.inl (by decide))]
  unfold auditlog
  rw [listGrantors_other _ _ (by decide)]
  rfl

end Pam.AuditLog
