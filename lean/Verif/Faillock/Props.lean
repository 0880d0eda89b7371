import Verif.Faillock.Inv
/-
C38: lockout after repeated failures.  C55: an interrupted update of the tally.
-/
namespace Pam.Faillock
open Pam Pam.Faillock.Spec

/-- C38: for every history of failures, successes, resets and queries under a clock that does not go back, the module
answers PAM_AUTH_ERR exactly while the account is locked by the failures that count.  (Partial: `deny` is at most 1024,
see `C38_large_deny_counterexample`, and the clock does not go back, see `C38_clock_counterexample`.) -/
theorem C38_lockout_partial (o : Opts) (hd : o.deny ≤ 1024) (hu : o.unlockTime < 2 ^ 32) (hr : o.rootUnlockTime < 2 ^ 32)
    (h : List Event) (hf : Forward 0 h) (now : Nat) (a : Action) (src : Kind × Str) :
    ((act o .fine a now src (fileAfter o h)).1 = PAM_AUTH_ERR ↔ Locked o (counted o h) now) ∧
    (¬ Locked o (counted o h) now →
      (act o .fine a now src (fileAfter o h)).1 = if a = .authfail then PAM_IGNORE else PAM_SUCCESS) := by
  have hcode : (checkTally o .fine now (fileAfter o h)).code =
      if Locked o (counted o h) now then PAM_AUTH_ERR else PAM_SUCCESS := by
    by_cases hl : Live o
    · have i := (Inv.start o 0 (by decide)).history (file := none) hl h hf
      cases hfile : fileAfter o h with
      | none =>
        have i' : Inv o ((fileAfter o h).getD []) (counted o h) (lastTime 0 h) := i
        rw [hfile] at i'
        have := i'.nil hl
        rw [this, if_neg (fun h => not_tooMany_nil hl h.2.1)]
        rfl
      | some recs =>
        have i' : Inv o ((fileAfter o h).getD []) (counted o h) (lastTime 0 h) := i
        rw [hfile] at i'
        rw [checkTally_file (recs := recs) (Nat.le_trans i'.len hl.deny_le), Inv.judge (recs := recs) hl i' now]
        by_cases hL : Locked o (counted o h) now
        · rw [if_pos hL, if_pos hL]
        · rw [if_neg hL, if_neg hL]
    · have hdead : o.deny = 0 ∨ o.failInterval = 0 ∨ Exempt o := by
        by_cases h1 : o.deny = 0
        · exact Or.inl h1
        · by_cases h2 : o.failInterval = 0
          · exact Or.inr (Or.inl h2)
          · by_cases h3 : Exempt o
            · exact Or.inr (Or.inr h3)
            · exact absurd ⟨by omega, hd, by omega, hu, hr, h3⟩ hl
      rw [if_neg (not_locked_dead hdead _ _)]
      cases fileAfter o h with
      | none => rfl
      | some recs => exact judge_dead hdead now (readTally recs)
  by_cases hL : Locked o (counted o h) now
  · rw [if_pos hL] at hcode
    refine ⟨⟨fun _ => hL, fun _ => ?_⟩, fun h => absurd hL h⟩
    cases a <;> simp only [act, hcode] <;> rfl
  · rw [if_neg hL] at hcode
    have : (act o .fine a now src (fileAfter o h)).1 = if a = .authfail then PAM_IGNORE else PAM_SUCCESS := by
      cases a <;> simp only [act, hcode] <;> rfl
    refine ⟨⟨fun h => ?_, fun h => absurd h hL⟩, fun _ => this⟩
    rw [this] at h
    cases a <;> exact absurd h (by decide)

/-- the failed logins of a history -/
def failTimes (h : List Event) : List Nat :=
  h.filterMap (fun e => match e with | .fail t _ => some t | _ => none)

/-- the failures that count are among those that happened -/
theorem counted_sub (o : Opts) (h : List Event) : ∀ F, (h.foldl (after o) F).Sublist ((failTimes h).reverse ++ F) := by
  induction h with
  | nil => intro F; exact List.Sublist.refl _
  | cons e es ih =>
    intro F
    rw [List.foldl_cons]
    refine (ih _).trans ?_
    cases e with
    | fail t src =>
      have : failTimes (Event.fail t src :: es) = t :: failTimes es := rfl
      rw [this, List.reverse_cons, List.append_assoc]
      apply List.Sublist.append_left
      show (after o F (.fail t src)).Sublist (t :: F)
      simp only [after]
      split
      · exact List.sublist_cons_self ..
      · split
        · exact List.Sublist.cons_cons t (List.nil_sublist F)
        · exact List.Sublist.refl _
    | success t =>
      apply List.Sublist.append_left
      show (if Locked o F t then F else []).Sublist F
      split
      · exact List.Sublist.refl _
      · exact List.nil_sublist F
    | account t => exact List.Sublist.append_left (List.nil_sublist F) _
    | reset => exact List.Sublist.append_left (List.nil_sublist F) _
    | ask t => exact List.Sublist.append_left (List.Sublist.refl _) _

/-- C38: an account is locked only if there were `deny` failures, none of them `fail_interval` or more before the
latest one of these, and the unlock time has not passed since then; failures outside the interval do not count. -/
theorem C38_only_if (o : Opts) (h : List Event) (now : Nat) (hL : Locked o (counted o h) now) :
    ∃ l ∈ failTimes h, o.deny ≤ ((failTimes h).filter (fun t => l - t < o.failInterval)).length ∧
      (unlockAfter o = 0 ∨ now ≤ l + unlockAfter o) := by
  obtain ⟨-, hT, hO⟩ := hL
  have hs : (counted o h).Sublist (failTimes h).reverse := by
    have := counted_sub o h []
    rwa [List.append_nil] at this
  have hne : counted o h ≠ [] := by
    intro e
    have h2 := hT.2
    rw [e] at h2
    simp only [recent, List.filter_nil, List.length_nil] at h2
    have := hT.1
    omega
  refine ⟨latest (counted o h), List.mem_reverse.mp (hs.subset (latest_mem hne)), ?_, ?_⟩
  · refine Nat.le_trans hT.2 ?_
    have := (hs.filter (fun t => decide (latest (counted o h) - t < o.failInterval))).length_le
    rw [List.filter_reverse, List.length_reverse] at this
    exact this
  · unfold Over at hO
    by_cases hz : unlockAfter o = 0
    · exact Or.inl hz
    · right
      refine Nat.le_of_not_lt (fun hc => hO ⟨hz, hc⟩)

/-- C38: a reset and the account phase clear the account; a successful login does, if the account is not locked. -/
theorem C38_cleared (o : Opts) (h1 h2 : List Event) (e : Event)
    (he : e = .reset ∨ (∃ t, e = .account t) ∨ ∃ t, e = .success t ∧ ¬ Locked o (counted o h1) t) :
    counted o (h1 ++ e :: h2) = counted o h2 := by
  have : after o (counted o h1) e = [] := by
    rcases he with rfl | ⟨t, rfl⟩ | ⟨t, rfl, hl⟩
    · rfl
    · rfl
    · exact if_neg hl
  unfold counted at this ⊢
  rw [List.foldl_append, List.foldl_cons, this]

/-- C38: fewer than `deny` failures do not lock the account. -/
theorem C38_too_few (o : Opts) (h : List Event) (now : Nat) (hfew : (failTimes h).length < o.deny) :
    ¬ Locked o (counted o h) now := by
  intro hL
  obtain ⟨l, -, h1, -⟩ := C38_only_if o h now hL
  have := List.length_filter_le (fun t => decide (l - t < o.failInterval)) (failTimes h)
  omega

/-- fewer than `deny` failures in a row all count -/
theorem counted_fails (o : Opts) (ts : List (Nat × (Kind × Str))) : ∀ (F : List Nat), F.length + ts.length ≤ o.deny →
    (ts.map (fun e => Event.fail e.1 e.2)).foldl (after o) F = (ts.map (·.1)).reverse ++ F := by
  induction ts with
  | nil => intro F _; rfl
  | cons e ts ih =>
    intro F hl
    rw [List.length_cons] at hl
    have hnot : ¬ TooMany o F := by
      intro h
      have h2 := h.2
      unfold recent at h2
      have := List.length_filter_le (fun t => decide (latest F - t < o.failInterval)) F
      omega
    have : after o F (.fail e.1 e.2) = e.1 :: F := by
      simp only [after]
      rw [if_neg (fun h => hnot h.2.1), if_neg (fun h => hnot h.2)]
    rw [List.map_cons, List.foldl_cons, this, ih _ (by rw [List.length_cons]; omega)]
    simp

/-- C38: `deny` failures within `fail_interval` lock an account that was clear: from then on and until the unlock time
has passed since the latest of them; then it is no longer locked. -/
theorem C38_locks (o : Opts) (hx : ¬ Exempt o) (h : List Event) (hclear : counted o h = []) (ts : List (Nat × (Kind × Str)))
    (hn : ts.length = o.deny) (hpos : 0 < o.deny) (last : Nat) (hlast : last ∈ ts.map (·.1))
    (hin : ∀ e ∈ ts, e.1 ≤ last ∧ last - e.1 < o.failInterval) (now : Nat) :
    Locked o (counted o (h ++ ts.map (fun e => Event.fail e.1 e.2))) now ↔
      (unlockAfter o = 0 ∨ now ≤ last + unlockAfter o) := by
  have e1 : counted o (h ++ ts.map (fun e => Event.fail e.1 e.2)) = (ts.map (·.1)).reverse := by
    have hc : h.foldl (after o) [] = [] := hclear
    unfold counted
    rw [List.foldl_append, hc, counted_fails o ts [] (by simp; omega), List.append_nil]
  rw [e1]
  have hlat : latest (ts.map (·.1)).reverse = last := by
    apply Nat.le_antisymm
    · apply latest_le
      intro t ht
      rw [List.mem_reverse] at ht
      obtain ⟨e, he, rfl⟩ := List.mem_map.mp ht
      exact (hin e he).1
    · exact le_latest (by rw [List.mem_reverse]; exact hlast)
  have hrec : recent o (ts.map (·.1)).reverse = o.deny := by
    unfold recent
    rw [hlat, List.filter_eq_self.mpr, List.length_reverse, List.length_map, hn]
    intro t ht
    rw [List.mem_reverse] at ht
    obtain ⟨e, he, rfl⟩ := List.mem_map.mp ht
    simpa using (hin e he).2
  unfold Locked TooMany Over
  rw [hrec, hlat]
  constructor
  · rintro ⟨-, -, h3⟩
    by_cases hz : unlockAfter o = 0
    · exact Or.inl hz
    · right
      exact Nat.le_of_not_lt (fun hc => h3 ⟨hz, hc⟩)
  · intro h3
    refine ⟨hx, ⟨by omega, Nat.le_refl _⟩, ?_⟩
    rintro ⟨h4, h5⟩
    rcases h3 with h3 | h3
    · exact h4 h3
    · omega

/-- C38 is false of large values of `deny`: the tally keeps 1024 records, so the account is never locked. -/
theorem C38_large_deny_counterexample (o : Opts) (hd : 1024 < o.deny) (file : File) (now : Nat) :
    (checkTally o .fine now file).code = PAM_SUCCESS := by
  cases file with
  | none => rfl
  | some recs =>
    show (judge o now (readTally recs)).code = _
    unfold judge
    split
    · rfl
    · simp only
      split
      · rename_i hc
        exfalso
        rw [countFailures_eq, Nat.zero_add] at hc
        have h1 := List.length_filter_le (fun t => decide (sub64 (latestTime 0 (readTally recs)) t < o.failInterval))
          (vt (readTally recs))
        have h2 := vt_length_le (readTally recs)
        have h3 : (readTally recs).length ≤ 1024 := by unfold readTally; rw [List.length_take]; exact Nat.min_le_left ..
        have := hc.2
        omega
      · rfl

/-- the usual options -/
def exOpts : Opts := ⟨3, 900, 600, 600, false, false⟩

/-- C38 is false when the clock is set back: a failure then discards the records that lie in the future, so that three
failures do not lock the account. -/
theorem C38_clock_counterexample :
    (act exOpts .fine .preauth 901 (.service, []) (fileAfter exOpts
      [.fail 1000 (.service, []), .fail 1001 (.service, []), .fail 900 (.service, [])])).1 = PAM_SUCCESS ∧
    Locked exOpts (counted exOpts
      [.fail 1000 (.service, []), .fail 1001 (.service, []), .fail 900 (.service, [])]) 901 := by
  decide +kernel

/-- C38: a caller that may not open the tally is told that the account is not locked, and its failures are not recorded. -/
theorem C38_no_permission (o : Opts) (io : IO) (h1 : io.open1 = some .eacces) (h2 : io.open2.isSome) (a : Action) (now : Nat)
    (src : Kind × Str) (file : File) :
    act o io a now src file = (if a = .authfail then PAM_IGNORE else PAM_SUCCESS, file) := by
  obtain ⟨e, he⟩ := Option.isSome_iff_exists.mp h2
  have : checkTally o io now file = ⟨PAM_SUCCESS, [], false, false⟩ := by unfold checkTally; rw [h1]
  cases a <;> simp [act, this, resetTally, writeTally, he]

/-- C38: when the tally cannot be read, the module says so with an error and changes nothing. -/
theorem C38_unreadable (o : Opts) (io : IO) (a : Action) (now : Nat) (src : Kind × Str) (file : File)
    (h : io.open1 = some .other ∨ (io.open1 = none ∧ io.read = false ∧ file.isSome)) :
    act o io a now src file = (PAM_SYSTEM_ERR, file) := by
  have hc : (checkTally o io now file).code = PAM_SYSTEM_ERR := by
    unfold checkTally
    rcases h with h | ⟨h1, h2, h3⟩
    · rw [h]
    · obtain ⟨recs, rfl⟩ := Option.isSome_iff_exists.mp h3
      rw [h1]
      simp [h2]
  unfold act
  have hne : ¬ (PAM_SYSTEM_ERR : Int) = PAM_SUCCESS := by decide
  cases a <;> simp only [hc, if_neg hne]

example : act exOpts { IO.fine with read := false } .authsucc 5 (.tty, []) (some []) = (PAM_SYSTEM_ERR, some []) := by
  decide

/-- C38: the account phase clears the tally only after this module was asked to authenticate. -/
theorem C38_account (o : Opts) (io : IO) (now : Nat) (user : Except Int Str) (tracked : Bool) (file : File) :
    acctMgmt o io now false user tracked file = (PAM_SUCCESS, file) ∧
    ∀ u recs, io = .fine → file = some recs → acctMgmt o io now true (.ok u) tracked file =
      (PAM_SUCCESS, if tracked then some [] else file) := by
  refine ⟨rfl, ?_⟩
  rintro u recs rfl rfl
  have : (checkTally o .fine now (some recs)).opened = true := by
    show (judge o now (readTally recs)).opened = true
    exact (judge_recs o now _).2
  cases tracked
  · rfl
  · simp only [acctMgmt, this]
    rfl

/-- C38: administrators are user 0 and the members of the group configured, if one is. -/
theorem C38_admin (uid : Nat) (group : Option Str) (member : Str → Bool) :
    isAdmin uid group member = true ↔ uid = 0 ∨ ∃ g, group = some g ∧ g ≠ [] ∧ member g = true := by
  unfold isAdmin
  by_cases h : uid = 0
  · simp [h]
  · rw [if_neg h]
    cases group <;> simp [h]

/-- C38: a failure on a clear account leaves one record: the time and, in this order of preference, remote host, terminal
or service, cut to 52 characters. -/
theorem C38_record (o : Opts) (now : Nat) (rhost tty : Option Str) (service : Str) (file : File) (hf : file.getD [] = []) (hd : o.deny ≠ 0) :
    (act o .fine .authfail now (sourceOf rhost tty (some service)) file) =
      (PAM_IGNORE, some [match rhost, tty with
        | some h, _ => ⟨.rhost, h.take 52, true, now⟩
        | none, some t => ⟨.tty, t.take 52, true, now⟩
        | none, none => ⟨.service, service.take 52, true, now⟩]) := by
  have hj : judge o now [] = ⟨PAM_SUCCESS, [], true, false⟩ := by
    unfold judge
    split
    · rfl
    · have : ¬ (o.deny ≠ 0 ∧ o.deny ≤ countFailures o (latestTime 0 []) 0 []) := by
        rintro ⟨-, h⟩
        exact hd (Nat.le_zero.mp h)
      rw [if_neg this]
  cases file with
  | none =>
    have hc : checkTally o .fine now none = ⟨PAM_SUCCESS, [], false, false⟩ := rfl
    simp only [act, hc]
    cases rhost <;> cases tty <;> simp [writeTally, IO.fine, updateTally, addFailure, findOldest, place, sourceOf, maxRecords]
  | some recs =>
    have : recs = [] := hf
    subst this
    have hc : checkTally o .fine now (some []) = ⟨PAM_SUCCESS, [], true, false⟩ := hj
    simp only [act, hc]
    cases rhost <;> cases tty <;> simp [writeTally, IO.fine, updateTally, addFailure, findOldest, place, sourceOf, maxRecords]

/-- C38: users that cannot be found, or that are not to be looked after, leave every tally alone. -/
theorem C38_untracked (o : Opts) (io : IO) (a : Action) (now : Nat) (src : Kind × Str) (file : File) :
    (∀ k, authenticate o io a now src (.error k) true file = (k, file)) ∧
    (∀ u, authenticate o io a now src (.ok u) false file = (PAM_SUCCESS, file)) ∧
    (∀ (f : Str → Bool), getPamUser (.ok []) f = .error PAM_IGNORE) ∧
    (∀ (f : Str → Bool) u, u ≠ [] → f u = false → getPamUser (.ok u) f = .error PAM_IGNORE) := by
  refine ⟨fun _ => rfl, fun _ => rfl, fun _ => rfl, fun f u h1 h2 => ?_⟩
  simp [getPamUser, h1, h2]

/-! ## C55 -/

theorem place_keeps {recs : List Rec} {k : Nat} {new : Rec} {j : Nat} {r : Rec} (h : recs[j]? = some r) (hv : r.valid = true) :
    (place recs k new)[j]? = some r := by
  have hlt : j < recs.length := by
    rcases Nat.lt_or_ge j recs.length with h' | h'
    · exact h'
    · rw [List.getElem?_eq_none h'] at h; cases h
  unfold place
  split
  · rw [List.getElem?_append_left hlt]; exact h
  · rename_i r' hr'
    split
    · rw [List.getElem?_append_left hlt]; exact h
    · rename_i hv'
      rw [List.getElem?_set_ne]
      · exact h
      · rintro rfl
        rw [h] at hr'; cases hr'
        exact hv' hv

theorem place_length_le (recs : List Rec) (k : Nat) (new : Rec) : (place recs k new).length ≤ recs.length + 1 := by
  unfold place
  split
  · simp
  · split <;> simp

/-- C55: wherever recording a failure is interrupted, every earlier failure that is still recent is still recorded, at
its place (with fewer than 1024 records and unless a lock has just ended). -/
theorem C55_interrupted (o : Opts) (io : IO) (h1 : io.open1 = none) (h2 : io.read = true) (now : Nat) (src : Kind × Str)
    (recs : List Rec) (hlen : recs.length < 1024) (hun : (judge o now recs).unlocked = false) (j : Nat) (r : Rec)
    (hj : recs[j]? = some r) (hv : r.valid = true) (hnow : r.time ≤ now) (hb : now < 2 ^ 64)
    (hin : now - r.time < o.failInterval) :
    ∃ recs', (act o io .authfail now src (some recs)).2 = some recs' ∧ recs'[j]? = some r := by
  have hc : checkTally o io now (some recs) = judge o now recs := by
    unfold checkTally
    rw [h1]
    simp only [h2, if_true]
    rw [readTally_self (Nat.le_of_lt hlen)]
  simp only [act, hc]
  obtain ⟨e1, e2⟩ := judge_recs o now recs
  split
  · simp only [writeTally, e2, if_true, Option.map_some, hun, e1]
    refine ⟨_, rfl, ?_⟩
    have hk : (recs.map (invalidate o now false))[j]? = some r := by
      rw [List.getElem?_map, hj, Option.map_some]
      congr 1
      unfold invalidate
      rw [if_neg]
      rw [sub64_of_le hnow hb]
      simp; omega
    have hp : (addFailure o now false src recs)[j]? = some r := place_keeps hk hv
    have hl : (addFailure o now false src recs).length ≤ maxRecords := by
      have := place_length_le (recs.map (invalidate o now false)) (findOldest 0 0 0 recs) ⟨src.1, src.2, true, now⟩
      rw [List.length_map] at this
      unfold addFailure
      show _ ≤ 1024
      omega
    unfold updateTally
    rw [Nat.sub_eq_zero_of_le hl, List.drop_zero]
    simp only
    split
    · exact hp
    · rename_i k _
      have hjl : j < (addFailure o now false src recs).length := by
        rcases Nat.lt_or_ge j (addFailure o now false src recs).length with h' | h'
        · exact h'
        · rw [List.getElem?_eq_none h'] at hp; cases hp
      by_cases hjk : j < k
      · rw [List.getElem?_append_left (by rw [List.length_take]; omega), List.getElem?_take_of_lt hjk]
        exact hp
      · by_cases hkl : k ≤ (addFailure o now false src recs).length
        · rw [List.getElem?_append_right (by rw [List.length_take]; omega), List.length_take, Nat.min_eq_left hkl,
            List.getElem?_drop]
          rw [show k + (j - k) = j by omega]
          exact hj
        · omega
  · exact ⟨recs, rfl, hj⟩

/-! The hypotheses can be met. -/

example : Forward 0 [.fail 1000 (.tty, "tty1".toList), .ask 1001, .fail 1100 (.rhost, "h".toList), .success 1200, .reset, .account 1300] := by
  simp [Forward, Event.time]
-- three failures lock for 600 seconds
example : (act exOpts .fine .preauth 1700 (.service, []) (fileAfter exOpts
    [.fail 1000 (.tty, []), .fail 1050 (.tty, []), .fail 1100 (.tty, [])])).1 = PAM_AUTH_ERR := by decide +kernel
example : (act exOpts .fine .preauth 1701 (.service, []) (fileAfter exOpts
    [.fail 1000 (.tty, []), .fail 1050 (.tty, []), .fail 1100 (.tty, [])])).1 = PAM_SUCCESS := by decide +kernel
-- the first one is too old
example : (act exOpts .fine .preauth 1901 (.service, []) (fileAfter exOpts
    [.fail 1000 (.tty, []), .fail 1050 (.tty, []), .fail 1900 (.tty, [])])).1 = PAM_SUCCESS := by decide +kernel
example : ¬ Exempt exOpts ∧ counted exOpts [.fail 5 (.tty, []), .reset] = [] := by decide +kernel
-- an update that stops after one record
example : (act exOpts { IO.fine with write := some 1 } .authfail 1050 (.tty, [])
    (some [⟨.tty, [], true, 1000⟩, ⟨.tty, [], true, 1010⟩])).2 =
    some [⟨.tty, [], true, 1000⟩, ⟨.tty, [], true, 1010⟩] := by decide +kernel
example : (judge exOpts 1050 [⟨.tty, [], true, 1000⟩, ⟨.tty, [], true, 1010⟩]).unlocked = false := by decide +kernel

end Pam.Faillock
