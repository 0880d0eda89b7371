import Verif.Handle.Example
import Verif.Handle.ItemInv
/-
Property theorems about items (C44, C45), the question for the user name (C26) and the failure
delay (C25).  Vocabulary: ItemSpec.lean.
-/
namespace Pam.Handle
open Spec

set_option linter.unusedSimpArgs false
set_option maxRecDepth 100000

variable {W : Type}

/-! ## C45 -/

section
variable {lib : Lib W} {service : Str} {user : Option Str} {conv : Nat} {w : W} {h0 h : Handle W}

/-- the items right after pam_start with these arguments -/
abbrev atStart (service : Str) (user : Option Str) (conv : Nat) : Item → Value :=
  startItems ((Config.afterLast '/' service).map lower) user conv

/-- C45: in every history of a handle, pam_get_item of an item other than the tokens and
PAM_AUTHTOK_TYPE succeeds and gives the value last stored in that very item by pam_start,
pam_set_item or pam_get_user; calls about other items, failed calls and operations make no
difference. -/
theorem C45_get_item_is_last_set (hs : start lib service user conv w = some h0) (hr : Since h0 h) {pre post : List Event}
    {c : Caller} {i : Int} {ans : Ans} {talk : List Talk} (he : h.m.hist = pre ++ .call c (.getItem i) ans talk :: post)
    {it : Item} (hi : Item.ofInt i = some it) (hp : isPublic it = true) :
    ans.code = PAM_SUCCESS ∧ ans.value = itemsAfter (atStart service user conv) pre it :=
  (itemInv_since hs hr).legal pre _ post he it hi hp

/-- C45: pam_set_item with a value of the item's kind succeeds if memory does not run out. -/
theorem C45_set_item_succeeds (hs : start lib service user conv w = some h0) (hr : Since h0 h) {pre post : List Event}
    {c : Caller} {i : Int} {v : Value} {ans : Ans} {talk : List Talk}
    (he : h.m.hist = pre ++ .call c (.setItem i v true true) ans talk :: post)
    {it : Item} (hi : Item.ofInt i = some it) (hf : fits it v = true) : ans.code = PAM_SUCCESS :=
  (itemInv_since hs hr).legal pre _ post he it hi hf rfl rfl

/-- C45: numbers that name no item are refused and nothing changes. -/
theorem C45_unknown_item_refused (x : Inner) (i : Int) (v : Value) (a b : Bool) (hi : i < 1 ∨ 13 < i) :
    setItem x i v a b = (PAM_BAD_ITEM, x) ∧ getItem x i = (PAM_BAD_ITEM, .null) := by
  have : Item.ofInt i = none := by
    cases h : Item.ofInt i with
    | none => rfl
    | some it => exfalso; revert h; grind (splits := 20) [Item.ofInt]
  simp only [setItem, getItem, this, and_self]

/-! ## C26 -/

/-- C26: every call of pam_get_user in every history follows `userRule`: a known user name is given
without asking; after a failed conversation the same code is given without asking; a suspended
conversation is continued only with the same prompt; otherwise one question is asked, with the
caller's prompt, else PAM_USER_PROMPT, else "login:". -/
theorem C26_get_user (hs : start lib service user conv w = some h0) (hr : Since h0 h) {pre post : List Event}
    {c : Caller} {p : Option Str} {okP okU : Bool} {ans : Ans} {talk : List Talk}
    (he : h.m.hist = pre ++ .call c (.getUser p okP okU) ans talk :: post) :
    userRule (itemsAfter (atStart service user conv) pre) (askAfter pre) p okU ans talk :=
  (itemInv_since hs hr).legal pre _ post he

theorem userRule_known {vals : Item → Value} {u : Str} (hu : vals .user = .str u) {a : Ask} {p : Option Str} {ok : Bool} {ans : Ans}
    {talk : List Talk} (h : userRule vals a p ok ans talk) : ans = { code := PAM_SUCCESS, value := .str u } ∧ talk = [] := by
  unfold userRule at h; rw [hu] at h; exact h

theorem userRule_unknown {vals : Item → Value} (hu : ∀ u, vals .user ≠ .str u) {a : Ask} {p : Option Str} {ok : Bool} {ans : Ans}
    {talk : List Talk} (h : userRule vals a p ok ans talk) :
    (a.failed ≠ 0 ∧ ans = { code := a.failed } ∧ talk = []) ∨
    (a.failed = 0 ∧ (a.pending ≠ none ∧ a.pending ≠ some (some (question vals p))) ∧ ans = { code := PAM_ABORT } ∧ talk = []) ∨
    (a.failed = 0 ∧ ∃ t : Talk, talk = [t] ∧ t.style = .echoOn ∧ t.msg = question vals p ∧ ans = answerOf t ok) := by
  unfold userRule at h
  cases hv : vals .user with
  | str u => exact absurd hv (hu u)
  | _ =>
    rw [hv] at h
    by_cases h1 : a.failed ≠ 0
    · rw [if_pos h1] at h; exact Or.inl ⟨h1, h⟩
    · rw [if_neg h1] at h
      have h1 : a.failed = 0 := by simpa using h1
      by_cases h2 : a.pending ≠ none ∧ a.pending ≠ some (some (question vals p))
      · rw [if_pos h2] at h; exact Or.inr (Or.inl ⟨h1, h2, h⟩)
      · rw [if_neg h2] at h; exact Or.inr (Or.inr ⟨h1, h⟩)

/-- C26: pam_get_user asks at most one question per call. -/
theorem C26_at_most_one_question (hs : start lib service user conv w = some h0) (hr : Since h0 h) {pre post : List Event}
    {c : Caller} {p : Option Str} {okP okU : Bool} {ans : Ans} {talk : List Talk}
    (he : h.m.hist = pre ++ .call c (.getUser p okP okU) ans talk :: post) : talk.length ≤ 1 := by
  have := C26_get_user hs hr he
  by_cases hu : ∃ u, itemsAfter (atStart service user conv) pre .user = .str u
  · obtain ⟨u, hu⟩ := hu
    simp [(userRule_known hu this).2]
  · rcases userRule_unknown (fun u e => hu ⟨u, e⟩) this with h | h | ⟨_, t, h, _⟩
    · simp [h.2.2]
    · simp [h.2.2.2]
    · simp [h]

/-- a successful change of the user, prompt or conversation item -/
def changesQuestion : Event → Bool
  | .call _ (.setItem i _ _ _) ans _ => ans.code = PAM_SUCCESS ∧ (i = PAM_USER ∨ i = PAM_USER_PROMPT ∨ i = PAM_CONV)
  | _ => false

theorem failed_kept (hs : start lib service user conv w = some h0) (hr : Since h0 h) {pre : List Event} {code : Int}
    (hc : code ≠ 0) (hu : ∀ u, itemsAfter (atStart service user conv) pre .user ≠ .str u)
    (hf : (askAfter pre).failed = code) (mid : List Event) : ∀ post, h.m.hist = pre ++ mid ++ post →
    (∀ e ∈ mid, changesQuestion e = false) →
    (∀ u, itemsAfter (atStart service user conv) (pre ++ mid) .user ≠ .str u) ∧ (askAfter (pre ++ mid)).failed = code := by
  intro post he hm
  induction mid generalizing pre with
  | nil => simpa using ⟨hu, hf⟩
  | cons e mid ih =>
    have key : (∀ u, itemsAfter (atStart service user conv) (pre ++ [e]) .user ≠ .str u) ∧ (askAfter (pre ++ [e])).failed = code := by
      rw [itemsAfter_snoc, askAfter_snoc]
      have hl := (itemInv_since hs hr).legal pre e (mid ++ post) (by rw [he]; simp)
      have hq := hm e List.mem_cons_self
      cases e with
      | pass p => exact ⟨hu, hf⟩
      | waited s w => exact ⟨hu, hf⟩
      | call c op a t =>
        cases op <;> first | exact ⟨hu, hf⟩ | skip
        case setItem i v ok ok2 =>
          simp only [changesQuestion, decide_eq_false_iff_not] at hq
          simp only [itemsStep, askStep]
          refine ⟨?_, by rw [if_neg hq]; exact hf⟩
          cases hj : Item.ofInt i with
          | none => exact hu
          | some j =>
            simp only
            intro u
            split
            · next hc =>
              unfold put
              rw [if_neg (fun e => hq ⟨hc, (ofInt_question i j hj).1 (Or.inl e.symm)⟩)]
              exact hu u
            · split
              · next hx => unfold put; rw [hx.1, if_neg (by decide)]; exact hu u
              · exact hu u
        case getUser p x y =>
          have hans : a = { code := code } ∧ t = [] := by
            rcases userRule_unknown hu hl with h | h | h
            · rw [hf] at h; exact h.2
            · exact absurd (hf.symm.trans h.1) hc
            · exact absurd (hf.symm.trans h.1) hc
          simp only [hans.1, hans.2, itemsStep, askStep]
          rw [if_neg hc]
          exact ⟨hu, hf⟩
    have := ih (pre := pre ++ [e]) key.1 key.2 (by rw [he]; simp) (fun x hx => hm x (List.mem_cons_of_mem _ hx))
    simpa using this

/-- C26: if the conversation failed, pam_get_user does not ask again and gives the same code, until
the user, prompt or conversation item is set. -/
theorem C26_failure_not_repeated (hs : start lib service user conv w = some h0) (hr : Since h0 h) {pre mid post : List Event}
    {c c' : Caller} {p p' : Option Str} {okP okU okP' okU' : Bool} {ans ans' : Ans} {t : Talk} {talk : List Talk}
    (he : h.m.hist = pre ++ .call c (.getUser p okP okU) ans [t] :: (mid ++ .call c' (.getUser p' okP' okU') ans' talk :: post))
    (hfail : t.code ≠ PAM_SUCCESS ∨ t.answer = none) (hagain : t.code ≠ PAM_CONV_AGAIN)
    (hm : ∀ e ∈ mid, changesQuestion e = false) :
    talk = [] ∧ ans'.code = ans.code ∧ ans.code ≠ PAM_SUCCESS := by
  have h1 := C26_get_user hs hr he
  have hu : ∀ u, itemsAfter (atStart service user conv) pre .user ≠ .str u := by
    intro u e
    exact absurd (userRule_known e h1).2 (by simp)
  have ha : ans = answerOf t okU := by
    rcases userRule_unknown hu h1 with h | h | ⟨_, t', ht, _, _, hx⟩
    · exact absurd h.2.2 (by simp)
    · exact absurd h.2.2.2 (by simp)
    · simp only [List.cons.injEq, and_true] at ht
      rw [ht]; exact hx
  have hcode : ans.code ≠ PAM_SUCCESS ∧ ans.code ≠ PAM_CONV_AGAIN := by
    rw [ha]
    unfold answerOf
    split
    · next h2 =>
      rw [hfail.resolve_left (fun e => e h2)]
      show (PAM_CONV_ERR : Int) ≠ PAM_SUCCESS ∧ (PAM_CONV_ERR : Int) ≠ PAM_CONV_AGAIN
      decide
    · by_cases h3 : t.code = PAM_BUF_ERR
      · simp only [hagain, h3, if_true, if_false]; decide
      · simp only [hagain, h3, if_false]; decide
  have hk := failed_kept hs hr (pre := pre ++ [.call c (.getUser p okP okU) ans [t]]) (code := ans.code) hcode.1
    (by
      rw [itemsAfter_snoc]
      simp only [itemsStep]
      rw [if_neg hcode.1]
      exact hu)
    (by
      rw [askAfter_snoc]
      simp only [askStep]
      rw [if_neg hcode.2, if_neg]
      rintro ⟨e1, e2⟩
      exact hfail.elim (fun f => f e1) e2)
    mid (.call c' (.getUser p' okP' okU') ans' talk :: post) (by rw [he]; simp) hm
  have h2 := C26_get_user hs hr (pre := pre ++ [.call c (.getUser p okP okU) ans [t]] ++ mid) (post := post)
    (c := c') (p := p') (okP := okP') (okU := okU') (ans := ans') (talk := talk) (by rw [he]; simp)
  rcases userRule_unknown hk.1 h2 with h | h | h
  · rw [hk.2] at h
    exact ⟨h.2.2, by rw [h.2.1], hcode.1⟩
  · exact absurd (hk.2.symm.trans h.1) hcode.1
  · exact absurd (hk.2.symm.trans h.1) hcode.1

/-- witness: the first conversation is suspended, then it fails; no further question is asked until
the prompt is changed -/
example : ∃ r, Ex.calls "auth required m\n" ["again", "convfail", "alice"]
      [.getUser none true true, .getUser (some "other:".toList) true true, .getUser none true true, .getUser none true true,
       .setItem PAM_USER_PROMPT (.str "who?".toList) true true, .getUser none true true, .getUser none true true,
       .getItem PAM_USER] = some r ∧ Reach r.1 ∧
    (r.2.map (fun a => (a.code, a.value)), r.1.m.s.talk.map (fun t => (t.msg, t.code))) =
      ([(PAM_CONV_AGAIN, .null), (PAM_ABORT, .null), (PAM_CONV_ERR, .null), (PAM_CONV_ERR, .null), (0, .null),
        (0, .str "alice".toList), (0, .str "alice".toList), (0, .str "alice".toList)],
       [("login:".toList, PAM_CONV_AGAIN), ("login:".toList, PAM_CONV_ERR), ("who?".toList, 0)]) :=
  Ex.calls_spec (by decide +kernel)

/-! ## C25 -/

/-- C25: at the end of pam_authenticate and pam_chauthtok the delay is derived from the largest
request since the last such end.  Missing from the full claim, because false: the cases outside
`delayKnown`, where the first request is for zero or where the delay function is called although
nothing was requested; an old delay can then be used again
(`C25_stale_delay_counterexample`, `C25_stale_delay_function_counterexample`). -/
theorem C25_largest_request_partial (hs : start lib service user conv w = some h0) (hr : Since h0 h) {pre post : List Event}
    {st : Int} {wt : Wait} (he : h.m.hist = pre ++ .waited st wt :: post)
    (hk : delayKnown (itemsAfter (atStart service user conv) pre .failDelay) (requests pre) st) :
    wt = waitRule (itemsAfter (atStart service user conv) pre .failDelay) (requests pre) st :=
  (itemInv_since hs hr).legal pre _ post he hk

/-- witness: three requests, the largest counts; nothing remains for the second call -/
example : ∃ r, Ex.calls "auth required m delay3 delay5 delay0 fail\n" []
      [.run .authenticate 0, .run .chauthtok 0] = some r ∧ Reach r.1 ∧
    r.1.m.hist.filterMap (fun | .waited s w => some (s, w) | _ => none) = [(7, .slept 5), (6, .none)] :=
  Ex.calls_spec (by decide +kernel)

/-- A request for no delay makes the delay of an earlier operation count again. -/
theorem C25_stale_delay_counterexample : ∃ (h : Handle (List String)) (pre post : List Event) (st : Int),
    Reach h ∧ h.m.hist = pre ++ .waited st (.slept 5) :: post ∧ st ≠ PAM_SUCCESS ∧ requests pre = [0] := by
  have hc : (Ex.calls "auth required m fail\n" [] [.failDelay 5, .run .authenticate 0, .failDelay 0, .run .authenticate 0]).map
      (fun r => (r.1.m.hist.getLast?.any (fun | .waited s w => s == 7 && w == .slept 5 | _ => false), requests r.1.m.hist.dropLast)) =
      some (true, [0]) := by decide +kernel
  obtain ⟨r, _, hr, hp⟩ := Ex.calls_spec hc
  simp only [Prod.mk.injEq] at hp
  obtain ⟨e, hl, he⟩ : ∃ e, r.1.m.hist.getLast? = some e ∧ e = .waited 7 (.slept 5) := by
    cases hl : r.1.m.hist.getLast? with
    | none => rw [hl] at hp; exact absurd hp.1 (by simp)
    | some e =>
      rw [hl] at hp
      refine ⟨e, rfl, ?_⟩
      have h1 := hp.1
      simp only [Option.any_some] at h1
      split at h1
      · simp only [Bool.and_eq_true, beq_iff_eq] at h1; rw [h1.1, h1.2]
      · exact absurd h1 (by simp)
  refine ⟨r.1, r.1.m.hist.dropLast, [], 7, hr, ?_, by decide, hp.2⟩
  rw [← he]
  obtain ⟨l, hl'⟩ := List.getLast?_eq_some_iff.1 hl
  rw [hl', List.dropLast_concat]

/-- The delay function gets the delay of an earlier operation although nothing was requested. -/
theorem C25_stale_delay_function_counterexample : ∃ (h : Handle (List String)) (pre post : List Event) (st : Int) (f : Nat),
    Reach h ∧ h.m.hist = pre ++ .waited st (.called f st 5) :: post ∧ requests pre = [] := by
  have hc : (Ex.calls "auth required m\n" [] [.setItem PAM_FAIL_DELAY (.fn 9) true true, .failDelay 5, .run .authenticate 0, .run .authenticate 0]).map
      (fun r => (r.1.m.hist.getLast?.any (fun | .waited s w => s == 0 && w == .called 9 0 5 | _ => false), requests r.1.m.hist.dropLast)) =
      some (true, []) := by decide +kernel
  obtain ⟨r, _, hr, hp⟩ := Ex.calls_spec hc
  simp only [Prod.mk.injEq] at hp
  obtain ⟨e, hl, he⟩ : ∃ e, r.1.m.hist.getLast? = some e ∧ e = .waited 0 (.called 9 0 5) := by
    cases hl : r.1.m.hist.getLast? with
    | none => rw [hl] at hp; exact absurd hp.1 (by simp)
    | some e =>
      rw [hl] at hp
      refine ⟨e, rfl, ?_⟩
      have h1 := hp.1
      simp only [Option.any_some] at h1
      split at h1
      · simp only [Bool.and_eq_true, beq_iff_eq] at h1; rw [h1.1, h1.2]
      · exact absurd h1 (by simp)
  refine ⟨r.1, r.1.m.hist.dropLast, [], 0, 9, hr, ?_, hp.2⟩
  rw [← he]
  obtain ⟨l, hl'⟩ := List.getLast?_eq_some_iff.1 hl
  rw [hl', List.dropLast_concat]

end

/-! ## C44 -/

/-- C44: pam_start uses the part of its service argument behind the last slash, in lower case: a name
without slash. -/
theorem C44_service_is_a_plain_name {lib : Lib W} {service : Str} {user : Option Str} {conv : Nat} {w : W} {h0 : Handle W}
    (hs : start lib service user conv w = some h0) :
    '/' ∉ h0.inner.service ∧
      ∃ dir name, service = dir ++ name ∧ (dir = [] ∨ dir.getLast? = some '/') ∧ '/' ∉ name ∧ h0.inner.service = name.map lower := by
  have he : h0.inner.service = (Config.afterLast '/' service).map lower := by
    unfold start at hs
    simp only at hs
    split at hs
    · next h1 e =>
      simp only [Option.some.injEq] at hs
      subst hs
      have := load_m lib ({ m := startM service user conv w, tables := {}, cells := fun _ _ _ => INVALID_RETVAL, grant := fun _ _ _ => false, former := none, update := false } : Handle W)
      unfold startM at this
      rw [e] at this
      rcases this with e2 | e2 <;> exact congrArg (fun m => m.s.inner.service) e2
    · exact absurd hs (by simp)
  have hn : '/' ∉ Config.afterLast '/' service := by
    unfold Config.afterLast
    intro hm
    have := List.all_takeWhile (p := (· ≠ '/')) (l := service.reverse)
    rw [List.all_eq_true] at this
    simpa using this '/' (List.mem_reverse.1 hm)
  refine ⟨?_, (service.reverse.dropWhile (· ≠ '/')).reverse, Config.afterLast '/' service, ?_, ?_, hn, he⟩
  · rw [he]
    intro hm
    obtain ⟨c, hc, hl⟩ := List.mem_map.1 hm
    have : c = '/' := by
      unfold lower at hl
      split at hl
      · next hr =>
        exfalso
        have h1 : 65 ≤ c.toNat ∧ c.toNat ≤ 90 := hr
        have h2 : (Char.ofNat (c.toNat + 32)).toNat = 47 := by rw [hl]; rfl
        have h3 : (Char.ofNat (c.toNat + 32)).toNat = c.toNat + 32 := by
          rw [Char.ofNat, dif_pos (by unfold Nat.isValidChar; omega)]
          rfl
        omega
      · exact hl
    exact hn (this ▸ hc)
  · unfold Config.afterLast
    rw [← List.reverse_append, List.takeWhile_append_dropWhile, List.reverse_reverse]
  · rw [List.getLast?_reverse, List.reverse_eq_nil_iff]
    cases hd : service.reverse.dropWhile (· ≠ '/') with
    | nil => exact Or.inl rfl
    | cons x xs =>
      right
      have := List.head_dropWhile_not (p := (· ≠ '/')) (l := service.reverse) (by rw [hd]; simp)
      simp only [hd, List.head_cons] at this
      simpa using this

/-- C44: hence the file read for the service is one directly inside a configuration directory: files
elsewhere make no difference. -/
theorem C44_service_file_confined (sys sys' : Config.Sys) (name : Str) (hn : '/' ∉ name) (hd : sys'.dirs = sys.dirs)
    (hc : sys'.confdir = sys.confdir)
    (hfs : ∀ d n, '/' ∉ n → (d ∈ sys.dirs ∨ (∃ e, sys.confdir = some e ∧ d = e ++ ['/'])) → sys'.fs (d ++ n) = sys.fs (d ++ n)) :
    Config.openConfig sys' name = Config.openConfig sys name := by
  have hh : name.head? ≠ some '/' := by
    intro e
    exact hn (List.mem_of_mem_head? e)
  unfold Config.openConfig
  rw [if_neg hh, if_neg hh, hc, hd]
  cases hcd : sys.confdir with
  | some e => exact hfs (e ++ ['/']) name hn (Or.inr ⟨e, hcd, rfl⟩)
  | none =>
    simp only
    have : ∀ ds : List (List Char), (∀ d ∈ ds, d ∈ sys.dirs) →
        ds.findSome? (fun d => sys'.fs (d ++ name)) = ds.findSome? (fun d => sys.fs (d ++ name)) := by
      intro ds hds
      induction ds with
      | nil => rfl
      | cons d ds ih =>
        simp only [List.findSome?_cons]
        rw [hfs d name hn (Or.inl (hds d List.mem_cons_self)), ih (fun x hx => hds x (List.mem_cons_of_mem _ hx))]
    exact this _ (fun _ h => h)

/-- witness: pam_start with a path -/
example : ((start (Ex.lib "auth required m\n") "/tmp/S".toList none 0 []).map (fun h => h.inner.service)) = some "s".toList := by
  decide +kernel

/-- pam_set_item does not cut service names: the configuration can then come from any file. -/
theorem C44_set_item_counterexample : ∃ (h : Handle (List String)), Reach h ∧ h.inner.service = "/tmp/x".toList ∧
    ∀ sys : Config.Sys, Config.openConfig sys h.inner.service = sys.fs "/tmp/x".toList := by
  have hc : (Ex.calls "auth required m\n" [] [.setItem PAM_SERVICE (.str "/tmp/x".toList) true true]).map
      (fun r => r.1.inner.service) = some "/tmp/x".toList := by decide +kernel
  obtain ⟨r, _, hr, hp⟩ := Ex.calls_spec hc
  refine ⟨r.1, hr, hp, fun sys => ?_⟩
  rw [hp]
  rfl

end Pam.Handle
