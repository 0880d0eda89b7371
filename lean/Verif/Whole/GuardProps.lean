import Verif.Whole.GuardCall
import Verif.Whole.AcctProps
/-
Property theorems C182: pam_unix among other modules.
-/
namespace Pam.Whole
open Pam Pam.Config Pam.Config.Spec Pam.Handle Pam.Dispatch
open Pam.Stack (Line fileLinesOf fileLinesOf_tree rstep)

variable {W : Type}

/-- the state after the modules of these lines have been called, one after the other, whatever they answered -/
def afterLines (lib : Lib W) (fn : Fn) (flags : Nat) : List Line → M W → M W
  | [], m => m
  | l :: ls, m => afterLines lib fn flags ls
      (match lib.modules fn l.path with
        | some f => (callProg lib (f flags l.args) l.args m).2
        | none => m)

/-- the state in which a function of the library calls the module of the line after these lines -/
def moment (lib : Lib W) (fn : Fn) (flags : Nat) (pre : List Line) (h : Handle W) : M W :=
  afterLines lib fn flags pre (entered fn (if fn = .authenticate then begin false h else h))

/-- The configuration of a service has, for an operation, a line `required` or `requisite` with a module and arguments, after these lines,
which are not `sufficient`, and before those; all lines have classic control words. -/
structure Guarded (lib : Lib W) (service : Str) (fn : Fn) (pre : List Line) (path : Str) (args : List Str) (post : List Line) : Prop where
  dir : lib.sys.confdir.isSome ∨ lib.sys.haveDir
  own : ieq (serviceName service) otherName = false
  lines : ∃ flag, (flag = .required ∨ flag = .requisite) ∧
    fileLinesOf lib.sys (serviceName service) fn.mtype = some (pre ++ ⟨flag, path, args⟩ :: post)
  open_ : ∀ l ∈ pre, l.flag ≠ .sufficient

/-! ### helper lemmas -/

theorem gives_of {lib : Lib W} {s s1 : S W} {w : W} {pw : Str} (h : Gives lib s1 w pw) (h1 : s1.inner.authtok = s.inner.authtok) (h2 : s1.inner.conv = s.inner.conv) :
    Gives lib s w pw := by
  cases h with
  | kept h => exact .kept _ (h1 ▸ h)
  | typed h k => exact .typed _ (h1 ▸ h) (h2 ▸ k)

theorem names_host {lib : Lib W} {host : W → Host} (hst : Still host lib) {s : S W} {name : Str} {w1 : W} (h : Names lib s name w1) : host w1 = host s.world := by
  cases h with
  | known => rfl
  | asked prompt _ _ k =>
    have := hst s.inner.conv .echoOn prompt s.world
    rw [k] at this
    exact this

/-- what the program for authentication answers, in any state -/
theorem auth_any {lib : Lib W} {host : W → Host} (hst : Still host lib) {s : S W} (hc : s.inner.caller = .module) (hch : s.inner.chauthtok = false)
    (hf : FailOk s.inner.failUser) {flags : Nat} {args : List Str} {ctrl : Unix.Ctrl} (hctrl : unixCtrl (host s.world) flags args = some ctrl) :
    ∃ c s', Runs lib.conv (unixAuth host flags args) s c s' ∧ FailOk c ∧ (c = PAM_SUCCESS → ∃ name w1, Names lib s name w1 ∧
      ∃ tok : Int × Str, (tok = (PAM_AUTHTOK_ERR, []) ∨ (tok.1 = PAM_SUCCESS ∧ Gives lib s w1 tok.2)) ∧
      ∃ r, Unix.authenticate (host s.world).sys (host s.world).bin (host s.world).luck (host s.world).proc ctrl (fun _ => 0) (PAM_SUCCESS, name) tok = some r ∧
        r.code = PAM_SUCCESS) := by
  have hret : ∀ (s1 : S W), s1.inner.caller = .module → ∀ c, FailOk c → c ≠ PAM_SUCCESS → ∃ c s', Runs lib.conv (authReturn c) s1 c s' ∧ FailOk c ∧ c ≠ PAM_SUCCESS :=
    fun s1 h1 c h2 h3 => by
      obtain ⟨s', k, -⟩ := authReturn_runs (cv := lib.conv) h1 c
      exact ⟨c, s', k, h2, h3⟩
  obtain ⟨a, s1, g1, g2, g3, g4⟩ := getUser_any lib s hf
  have hc1 : s1.inner.caller = .module := g3.caller.trans hc
  have hlead : ∀ c s', Runs lib.conv (if a.code = PAM_SUCCESS then unixNamed host ctrl (textOf a.value)
      else authReturn (if a.code = PAM_CONV_AGAIN then PAM_INCOMPLETE else a.code)) s1 c s' → Runs lib.conv (unixAuth host flags args) s c s' := by
    intro c s' h
    unfold unixAuth
    refine runs_look ?_
    rw [hctrl]
    exact runs_api g1 h
  by_cases ha : a.code = PAM_SUCCESS
  · obtain ⟨name, v1, v2, v3, v4, -⟩ := g4 ha
    have hw1 := names_host hst v2
    rw [if_pos ha, v1] at hlead
    have hlead2 : ∀ c s', Runs lib.conv (unixNamed host ctrl name) s1 c s' → Runs lib.conv (unixAuth host flags args) s c s' := hlead
    by_cases hn : name.head? = some '-' ∨ name.head? = some '+'
    · obtain ⟨s', k, -⟩ := authReturn_runs (cv := lib.conv) hc1 PAM_USER_UNKNOWN
      refine ⟨_, s', hlead2 _ _ (by unfold unixNamed; rw [if_pos hn]; exact k), by unfold FailOk; decide, fun h => absurd h (by decide)⟩
    · cases hb : Unix.blankPasswd (host s.world).sys (host s.world).bin (host s.world).luck (host s.world).proc ctrl name with
      | none =>
        refine ⟨_, s1, hlead2 _ _ ?_, (show FailOk PAM_SYSTEM_ERR by unfold FailOk; decide), fun h => absurd h (by decide)⟩
        unfold unixNamed
        rw [if_neg hn]
        refine runs_look ?_
        rw [hw1, hb]
        exact runs_ret _ _ _
      | some b =>
        obtain ⟨v, runs⟩ := b
        cases v with
        | true =>
          obtain ⟨s', k, -⟩ := authReturn_runs (cv := lib.conv) hc1 PAM_SUCCESS
          refine ⟨PAM_SUCCESS, s', hlead2 _ _ ?_, by unfold FailOk; decide, fun _ => ⟨name, s1.world, v2, (PAM_AUTHTOK_ERR, []), Or.inl rfl, ⟨PAM_SUCCESS, fun _ => 0, false⟩, ?_, rfl⟩⟩
          · unfold unixNamed
            rw [if_neg hn]
            refine runs_look ?_
            rw [hw1, hb]
            exact k
          · unfold Unix.authenticate
            rw [if_pos rfl, if_neg hn]
            dsimp only
            rw [hb]
        | false =>
          have hlead3 : ∀ c s', Runs lib.conv (unixToken host ctrl name) s1 c s' → Runs lib.conv (unixAuth host flags args) s c s' := by
            intro c s' h
            refine hlead2 _ _ ?_
            unfold unixNamed
            rw [if_neg hn]
            refine runs_look ?_
            rw [hw1, hb]
            exact h
          obtain ⟨t, s2, t1, t2, t3, t4⟩ := getAuthtok_any lib s1 hc1 (g3.chauthtok.trans hch)
          by_cases ht : t.code = PAM_SUCCESS
          · obtain ⟨u1, u2⟩ := t4 ht
            have hw2 : host s2.world = host s.world := by
              rcases u2 with e | e
              · rw [e, hw1]
              · rw [e, hst, hw1]
            have hlead4 : ∀ c s', Runs lib.conv (verifyPassword host ctrl name (textOf t.value) authReturn) s2 c s' → Runs lib.conv (unixAuth host flags args) s c s' := by
              intro c s' h
              refine hlead3 _ _ ?_
              unfold unixToken
              refine runs_api t1 ?_
              rw [if_neg (fun x => x ht)]
              exact h
            cases hv : Unix.verdict (host s.world).sys (host s.world).bin ((host s.world).luck 3) (host s.world).proc ctrl name (textOf t.value) with
            | none =>
              have : ∃ s', Runs lib.conv (verifyPassword host ctrl name (textOf t.value) authReturn) s2 PAM_SYSTEM_ERR s' := by
                have hlook : ∀ s3 : S W, s3.world = s2.world → Runs lib.conv (.ext id fun w =>
                    match Unix.verdict (host w).sys (host w).bin ((host w).luck 3) (host w).proc ctrl name (textOf t.value) with
                    | none => .ret PAM_SYSTEM_ERR
                    | some rv => countFailures name rv authReturn) s3 PAM_SYSTEM_ERR s3 := by
                  intro s3 h3
                  refine runs_look ?_
                  rw [h3, hw2, hv]
                  exact runs_ret _ _ _
                unfold verifyPassword
                dsimp only
                split
                · exact ⟨_, runs_api (s1 := { s2 with inner := (failDelay s2.inner 2000000).2 }) rfl (hlook _ rfl)⟩
                · exact ⟨_, hlook _ rfl⟩
              obtain ⟨s', k⟩ := this
              exact ⟨_, s', hlead4 _ _ k, by unfold FailOk; decide, fun h => absurd h (by decide)⟩
            | some rv =>
              obtain ⟨s', k, -⟩ := verify_runs (cv := lib.conv) (host := host) t3 ctrl name (textOf t.value) (rv := rv) (by rw [hw2]; exact hv)
              have hord := count_ordinary (fails := failsOf s2.inner) (name := name) (verdict_ordinary hv)
              refine ⟨_, s', hlead4 _ _ k, ?_, fun hs => ⟨name, s1.world, v2, (PAM_SUCCESS, textOf t.value), Or.inr ⟨rfl, gives_of u1 v3 v4⟩, ?_⟩⟩
              · generalize (Unix.count (failsOf s2.inner) name rv).1 = c at hord
                unfold FailOk
                constructor <;> (rintro rfl; exact absurd hord (by decide))
              · have hrv : rv = PAM_SUCCESS := by
                  by_cases hx : rv = PAM_SUCCESS
                  · exact hx
                  · unfold Unix.count at hs
                    rw [if_neg hx] at hs
                    dsimp only at hs
                    split at hs
                    · dsimp only at hs
                      split at hs
                      · exact absurd hs (by decide)
                      · exact hs
                    · exact hs
                refine ⟨⟨PAM_SUCCESS, (Unix.count (fun _ => 0) name rv).2, true⟩, ?_, rfl⟩
                unfold Unix.authenticate
                rw [if_pos rfl, if_neg hn]
                dsimp only
                rw [hb]
                dsimp only
                rw [if_neg (fun x => x rfl)]
                unfold Unix.verifyPassword
                rw [hv, hrv]
                rfl
          · have hne : ¬ (if t.code ≠ PAM_CONV_AGAIN then t.code else PAM_INCOMPLETE) = PAM_SUCCESS := by
              split
              · exact ht
              · decide
            have hfo : FailOk (if t.code ≠ PAM_CONV_AGAIN then t.code else PAM_INCOMPLETE) := by
              split
              · exact t2
              · unfold FailOk; decide
            obtain ⟨s', k, -⟩ := authReturn_runs (cv := lib.conv) t3 (if t.code ≠ PAM_CONV_AGAIN then t.code else PAM_INCOMPLETE)
            refine ⟨_, s', hlead3 _ _ ?_, hfo, fun h => absurd h hne⟩
            unfold unixToken
            refine runs_api t1 ?_
            rw [if_pos ht]
            exact k
  · have hne : ¬ (if a.code = PAM_CONV_AGAIN then PAM_INCOMPLETE else a.code) = PAM_SUCCESS := by
      split
      · decide
      · exact ha
    have hfo : FailOk (if a.code = PAM_CONV_AGAIN then PAM_INCOMPLETE else a.code) := by
      split
      · unfold FailOk; decide
      · exact g2
    obtain ⟨s', k, -⟩ := authReturn_runs (cv := lib.conv) hc1 (if a.code = PAM_CONV_AGAIN then PAM_INCOMPLETE else a.code)
    refine ⟨_, s', hlead _ _ ?_, hfo, fun h => absurd h hne⟩
    rw [if_neg ha]
    exact k

/-- the line of a handler, linked -/
theorem call_link (lib : Lib W) (fn : Fn) (flags : Nat) (l : Line) (m : M W) :
    callModule (link (linker lib fn flags) (entryOf l)) m =
      match lib.modules fn l.path with
      | some f => callProg lib (f flags l.args) l.args m
      | none => (PAM_MODULE_UNKNOWN, m) := by
  show callModule ⟨.module, linker lib fn flags l.path l.args, _, _⟩ m = _
  unfold callModule linker
  cases lib.modules fn l.path with
  | none => rfl
  | some f => rfl

theorem world_lines (lib : Lib W) (fn : Fn) (flags : Nat) : ∀ (ls : List Line) (m : M W),
    worldAfter ((ls.map entryOf).map (link (linker lib fn flags))) m = afterLines lib fn flags ls m := by
  intro ls
  induction ls with
  | nil => intro m; rfl
  | cons l t ih =>
    intro m
    show worldAfter ((t.map entryOf).map (link (linker lib fn flags))) (callModule (link (linker lib fn flags) (entryOf l)) m).2 = _
    rw [ih, call_link]
    show _ = afterLines lib fn flags t (match lib.modules fn l.path with
      | some f => (callProg lib (f flags l.args) l.args m).2
      | none => m)
    congr 1
    cases lib.modules fn l.path <;> rfl

theorem lines_tame (lib : Lib W) (fn : Fn) (flags : Nat) : ∀ (ls : List Line) (m : M W), m.s.inner.caller = .module →
    Tame m.s.inner (afterLines lib fn flags ls m).s.inner ∧ (afterLines lib fn flags ls m).s.inner.caller = .module := by
  intro ls
  induction ls with
  | nil => intro m hm; exact ⟨Tame.refl _, hm⟩
  | cons l t ih =>
    intro m hm
    unfold afterLines
    cases lib.modules fn l.path with
    | none => exact ih m hm
    | some f =>
      obtain ⟨h1, h2⟩ := callProg_rel tame_rel lib (f flags l.args) l.args m hm
      obtain ⟨h3, h4⟩ := ih _ h2
      exact ⟨h1.trans h3, h4⟩

theorem fair_link {σ : Type} (dl : List Char → List (List Char) → Option (σ → Int × σ)) (l : Line) : Fair (link dl (entryOf l)) := by
  refine ⟨direct_link dl l, ?_⟩
  intro c hc
  show (if c < 32 then classicActions l.flag c else ACT_UNDEF) ≠ _ ∧ (if c < 32 then classicActions l.flag c else ACT_UNDEF) ≠ _
  rw [if_pos (by omega)]
  unfold classicActions
  rcases hc with rfl | rfl <;> cases l.flag <;> decide

theorem open_link {σ : Type} (dl : List Char → List (List Char) → Option (σ → Int × σ)) (l : Line) (hl : l.flag ≠ .sufficient) :
    Dispatch.Open (link dl (entryOf l)) := by
  intro c hc
  show (if c < 32 then classicActions l.flag c else ACT_UNDEF) ≠ _
  rw [if_pos hc]
  unfold classicActions
  cases hf : l.flag with
  | sufficient => exact absurd hf hl
  | required => dsimp only; repeat' split
                all_goals decide
  | requisite => dsimp only; repeat' split
                 all_goals decide
  | optional => dsimp only; repeat' split
                all_goals decide

/-- an answer to a line that must not fail -/
theorem kind_guard {σ : Type} (dl : List Char → List (List Char) → Option (σ → Int × σ)) (l : Line) (hl : l.flag = .required ∨ l.flag = .requisite) (c : Int)
    (h : kindOf (link dl (entryOf l)) c ≠ ACT_BAD ∧ kindOf (link dl (entryOf l)) c ≠ ACT_DIE) :
    (c = PAM_SUCCESS ∨ c = PAM_NEW_AUTHTOK_REQD) ∧ kindOf (link dl (entryOf l)) c = ACT_OK ∧ answerOf c = c ∨ c = PAM_IGNORE := by
  unfold kindOf at h ⊢
  unfold answerOf
  by_cases hf : c < 0 ∨ (PAM_RETURN_VALUES : Int) ≤ c
  · rw [if_pos hf] at h; exact absurd rfl h.1
  · rw [if_neg hf] at h ⊢
    rw [if_neg hf]
    have he : (link dl (entryOf l)).actions c.toNat = classicActions l.flag c.toNat := by
      show (if c.toNat < 32 then classicActions l.flag c.toNat else ACT_UNDEF) = _
      rw [if_pos (by simp only [PAM_RETURN_VALUES] at hf; omega)]
    rw [he] at h ⊢
    have key : ((c.toNat = 0 ∨ c.toNat = 12) ∧ classicActions l.flag c.toNat = ACT_OK) ∨ c.toNat = 25 := by
      rcases hl with hl | hl <;> rw [hl] at h ⊢ <;> unfold classicActions at h ⊢ <;> dsimp only at h ⊢ <;>
        (by_cases h0 : c.toNat = 0
         · rw [if_pos h0]; exact Or.inl ⟨Or.inl h0, rfl⟩
         · by_cases h1 : c.toNat = 12
           · rw [if_neg h0, if_pos h1]; exact Or.inl ⟨Or.inr h1, rfl⟩
           · by_cases h2 : c.toNat = 25
             · exact Or.inr h2
             · rw [if_neg h0, if_neg h1, if_neg h2] at h
               first | exact absurd rfl h.1 | exact absurd rfl h.2)
    simp only [PAM_RETURN_VALUES] at hf
    rcases key with ⟨k | k, k2⟩ | k
    · left; exact ⟨Or.inl (by unfold PAM_SUCCESS; omega), k2, rfl⟩
    · left; exact ⟨Or.inr (by unfold PAM_NEW_AUTHTOK_REQD; omega), k2, rfl⟩
    · right; unfold PAM_IGNORE; omega

theorem names_args {lib : Lib W} {s : S W} {args : List Str} {name : Str} {w1 : W} (h : Names lib { s with inner := { s.inner with modArgs := args } } name w1) :
    Names lib s name w1 := by
  cases h with
  | known k => exact .known _ k
  | asked p _ k l => exact .asked _ p _ k l

theorem gives_args {lib : Lib W} {s : S W} {args : List Str} {w1 : W} {pw : Str} (h : Gives lib { s with inner := { s.inner with modArgs := args } } w1 pw) :
    Gives lib s w1 pw := by
  cases h with
  | kept h => exact .kept _ h
  | typed h k => exact .typed _ h k

/-- what the call comes to, for the functions with one walk -/
theorem run_walk {lib : Lib W} {fn : Fn} (hfn : fn = .authenticate ∨ fn = .acctMgmt ∨ fn = .openSession) {flags : Nat} {h h1 : Handle W} {code : Int}
    (hl : h.inner.loaded = true) (hf : h.former = none) (happ : h.inner.caller = .app) (hrun : run lib fn flags h = some (code, h1)) :
    ∃ hb hy, hb = (if fn = .authenticate then begin false h else h) ∧ dispatch lib fn flags hb = some (code, hy) ∧ hb.inner.loaded = true ∧
      hb.former = none ∧ hb.tables = h.tables ∧ hb.inner.caller = .app := by
  have hrefuse : refused h.inner (.run fn flags) = none := by
    rcases hfn with rfl | rfl | rfl <;> (unfold refused; simp [happ])
  unfold run at hrun
  rw [hrefuse] at hrun
  rcases hfn with rfl | rfl | rfl
  · obtain ⟨hy, d1, -, -, -⟩ := authenticate_keeps hl hf hrun
    obtain ⟨b1, b2, b3, -, b5⟩ := begin_keeps hl hf
    exact ⟨_, hy, by rw [if_pos rfl], d1, b1, b2, b3, b5.trans happ⟩
  · exact ⟨_, h1, by rw [if_neg (by decide)], hrun, hl, hf, rfl, happ⟩
  · exact ⟨_, h1, by rw [if_neg (by decide)], hrun, hl, hf, rfl, happ⟩

/-- C182: in any stack of lines with classic control words, one of which is `required` or `requisite` and has no `sufficient` line before
it: whatever the modules are and do, and whatever the application did before, pam_authenticate, pam_acct_mgmt or pam_open_session grants
only if that line's module, called after those before it, answers PAM_SUCCESS or PAM_NEW_AUTHTOK_REQD, or declines with PAM_IGNORE; and it
returns PAM_SUCCESS only if the module answers PAM_SUCCESS or PAM_IGNORE. -/
theorem C182_line (lib : Lib W) (fn : Fn) (hfn : fn = .authenticate ∨ fn = .acctMgmt ∨ fn = .openSession) (service : Str) (pre post : List Line)
    (path : Str) (args : List Str) (hc : Guarded lib service fn pre path args post)
    (user : Option Str) (conv : Nat) (w : W) (h : Handle W) (hs : start lib service user conv w = some h)
    (h0 : Handle W) (hm0 : Meanwhile lib [.chauthtok] h h0) (flags : Nat) (code : Int) (h1 : Handle W)
    (hrun : run lib fn flags h0 = some (code, h1)) (hg : code = PAM_SUCCESS ∨ code = PAM_NEW_AUTHTOK_REQD) :
    ∃ f r, lib.modules fn path = some f ∧ (callProg lib (f flags args) args (moment lib fn flags pre h0)).1 = r ∧
      (r = PAM_SUCCESS ∨ r = PAM_NEW_AUTHTOK_REQD ∨ r = PAM_IGNORE) ∧ (code = PAM_SUCCESS → r = PAM_SUCCESS ∨ r = PAM_IGNORE) := by
  obtain ⟨flag, hflag, hl⟩ := hc.lines
  obtain ⟨hr, -, -, -, -⟩ := start_ready hs
  obtain ⟨p1, p2, p3, -⟩ := meanwhile_keeps (first := .authenticate) (Or.inl rfl) (by simp) hr.loaded hr.idle hm0
  have papp := reach_app (meanwhile_reach (.start lib service user conv w h hs) hm0)
  obtain ⟨rows, r1, r2⟩ := fileLinesOf_tree hl
  have he := lines_entries fn.mtype rows _ r1
  have hfirst : fn.first = true := by rcases hfn with rfl | rfl | rfl <;> rfl
  have hmode : Handle.modeOf fn = .pleaseFreeze := by rcases hfn with rfl | rfl | rfl <;> rfl
  have ht1 : h.tables.conf.get fn = (pre ++ ⟨flag, path, args⟩ :: post).map entryOf := by
    rw [((C43_loaded_stacks lib.sys _ h.tables hc.dir hc.own hr.tables fn).1 hfirst).1]
    show Tree.flatten _ _ = _
    rw [r2, he]
  have hend : code ≠ PAM_INCOMPLETE := by rcases hg with rfl | rfl <;> decide
  obtain ⟨hb, hy, q1, q2, q3, q4, q5, q6⟩ := run_walk hfn p1 p2 papp hrun
  obtain ⟨st, k1, -⟩ := dispatch_walk q6 q3 q4 (by rw [q5, p3, ht1]; cases pre <;> rfl) q2 hend
  rw [hmode, q5, p3, ht1, List.map_append, List.map_cons, List.map_append, List.map_cons] at k1
  have hA : ∀ x ∈ (pre.map entryOf).map (link (linker lib fn flags)), Fair x ∧ Dispatch.Open x := by
    intro x hx
    obtain ⟨e, he, rfl⟩ := List.mem_map.mp hx
    obtain ⟨l, hl, rfl⟩ := List.mem_map.mp he
    exact ⟨fair_link _ l, open_link _ l (hc.open_ l hl)⟩
  have hB : ∀ x ∈ (post.map entryOf).map (link (linker lib fn flags)), Fair x := by
    intro x hx
    obtain ⟨e, he, rfl⟩ := List.mem_map.mp hx
    obtain ⟨l, hl, rfl⟩ := List.mem_map.mp he
    exact fair_link _ l
  have hw := walk_guard _ hA _ (fair_link _ _) _ hB _ _ _ k1 hg
  have hM : (envOf fn hb).world = entered fn hb := rfl
  rw [world_lines, call_link, hM, q1] at hw
  have hk := kind_guard _ _ hflag _ hw
  have hst : code = PAM_SUCCESS → ∀ r, callModule (link (linker lib fn flags) (entryOf ⟨flag, path, args⟩)) (moment lib fn flags pre h0) = r →
      answerOf r.1 ≠ PAM_IGNORE → kindOf (link (linker lib fn flags) (entryOf ⟨flag, path, args⟩)) r.1 = ACT_OK → answerOf r.1 = PAM_SUCCESS := by
    rintro rfl r rfl hri hko
    refine walk_strict _ hA _ (fair_link _ _) _ hB _ _ k1 _ ?_ hri (Or.inl hko)
    rw [world_lines, hM, q1]
    rfl
  rw [call_link] at hst
  dsimp only at hk hst
  unfold moment at hst ⊢
  generalize afterLines lib fn flags pre (entered fn (if fn = .authenticate then begin false h0 else h0)) = m at hk hst ⊢
  cases hm : lib.modules fn path with
  | none =>
    rw [hm] at hk
    dsimp only at hk
    rcases hk with ⟨hk | hk, -⟩ | hk <;> exact absurd hk (by decide)
  | some f =>
    rw [hm] at hk hst
    dsimp only at hk hst
    refine ⟨f, _, rfl, rfl, ?_, ?_⟩
    · rcases hk with ⟨hk | hk, -⟩ | hk
      · exact Or.inl hk
      · exact Or.inr (Or.inl hk)
      · exact Or.inr (Or.inr hk)
    · intro hcode
      rcases hk with ⟨hk, hk2, hk3⟩ | hk
      · left
        have := hst hcode _ rfl (by rw [hk3]; rcases hk with e | e <;> rw [e] <;> decide) hk2
        rw [hk3] at this
        exact this
      · exact Or.inr hk

/-- C182: with pam_unix, without `nullok`, on such a line for authentication: pam_authenticate grants access only if the password pam_unix
was given, by the user or by a module before it, is not empty and matches a hash read from the user database for the user it was told. -/
theorem C182_guard (lib : Lib W) (host : W → Host) (hst : Still host lib) (service : Str) (pre post : List Line) (path : Str) (args : List Str)
    (hc : Guarded lib service .authenticate pre path args post)
    (hm : lib.modules .authenticate path = some (unixAuth host)) (hnullok : Lacks args "nullok") (hreset : Lacks args "nullresetok")
    (user : Option Str) (conv : Nat) (w : W) (h : Handle W) (hs : start lib service user conv w = some h)
    (h0 : Handle W) (hm0 : Meanwhile lib [.chauthtok] h h0) (flags : Nat) (code : Int) (h1 : Handle W)
    (hrun : run lib .authenticate flags h0 = some (code, h1)) (hg : code = PAM_SUCCESS ∨ code = PAM_NEW_AUTHTOK_REQD)
    (s : S W) (hmoment : s = (moment lib .authenticate flags pre h0).s)
    (hbuf : ∀ i, ((host s.world).luck i).buf.length = 513) (hn : (host s.world).sys.pwnam Unix.nobody = none)
    (hnul : ∀ w1 pw, Gives lib s w1 pw → NUL ∉ pw) :
    ∃ name w1 pw i hash, Names lib s name w1 ∧ Gives lib s w1 pw ∧ pw ≠ [] ∧
      Unix.Read (host s.world).sys (host s.world).bin ((host s.world).luck i) (host s.world).proc name hash ∧
      Unix.Accepts (host s.world).sys.crypts false hash (pw.take 512) := by
  obtain ⟨f, r, z1, z2, z3, -⟩ := C182_line lib .authenticate (Or.inl rfl) service pre post path args hc user conv w h hs h0 hm0 flags code h1 hrun hg
  rw [hm] at z1
  have e := Option.some.inj z1
  subst e
  have hreach0 := meanwhile_reach (.start lib service user conv w h hs) hm0
  unfold moment at z2 hmoment
  rw [if_pos rfl] at z2 hmoment
  obtain ⟨t1, t2⟩ := lines_tame lib .authenticate flags pre (entered .authenticate (begin false h0)) rfl
  have hf0 : FailOk (entered .authenticate (begin false h0)).s.inner.failUser := failOk_closed.begin false h0 (reach_failOk hreach0)
  generalize hmm : afterLines lib .authenticate flags pre (entered .authenticate (begin false h0)) = m at *
  subst hmoment
  obtain ⟨ctrl, c1, c2, c3⟩ := ctrl_of (host m.s.world) flags args
  obtain ⟨c, s', a1, a2, a3⟩ := auth_any hst (s := { m.s with inner := { m.s.inner with modArgs := args } }) t2 (t1.1.trans rfl) (t1.2 hf0) c1
  have hcall := (runs_call (lib := lib) (m := m) a1).1
  rw [hcall] at z2
  have hok : c = PAM_SUCCESS := by
    rw [z2]
    rw [z2] at a2
    rcases z3 with z | z | z
    · exact z
    · exact absurd z a2.1
    · exact absurd z a2.2
  obtain ⟨name, w1, n1, tok, n2, r, n3, n4⟩ := a3 hok
  have hnr : Unix.on Unix.UNIX_NULLRESETOK ctrl = false := by
    have := c3 "nullresetok".toList Unix.UNIX_NULLRESETOK (by decide)
    cases hx : Unix.on Unix.UNIX_NULLRESETOK ctrl with
    | false => rfl
    | true =>
      obtain ⟨a, ha, hp⟩ := this.mp hx
      exact absurd hp (hreset a ha)
  have hoff : Unix.off Unix.UNIX__NONULL ctrl = false := by
    cases hx : Unix.off Unix.UNIX__NONULL ctrl with
    | false => rfl
    | true =>
      obtain ⟨⟨a, ha, hp⟩, -⟩ := c2.mp hx
      exact absurd hp (hnullok a ha)
  have hnt : NUL ∉ tok.2 := by
    rcases n2 with rfl | ⟨-, n2⟩
    · simp
    · exact hnul _ _ (gives_args n2)
  obtain ⟨-, i, hh, b1, b2⟩ := Unix.C77_sound _ _ _ hbuf _ _ _ _ _ hnt hn r n3 n4
  rw [hoff, hnr] at b2
  rcases b2 with ⟨b2, b3⟩ | ⟨b2, -⟩
  · rcases n2 with rfl | ⟨-, n2⟩
    · exact absurd b2 (by decide)
    · refine ⟨name, w1, tok.2, i, hh, names_args n1, gives_args n2, ?_, b1, b3⟩
      intro e
      rw [e] at b3
      exact Unix.accepts_empty b3
  · simp at b2

/-- what pam_unix's function for accounts does in any state -/
theorem acct_any {lib : Lib W} {host : W → Host} {s : S W} (hcall : s.inner.caller = .module) (flags : Nat) (args : List Str) {ctrl : Unix.Ctrl}
    (hctrl : unixCtrl (host s.world) flags args = some ctrl) :
    (s.inner.user = none → Runs lib.conv (unixAcct host flags args) s PAM_USER_UNKNOWN s) ∧
    ∀ name c msg, s.inner.user = some name →
      Unix.acctMgmt (host s.world).sys (host s.world).bin ((host s.world).luck 4) (host s.world).proc ctrl (heeded ctrl s.inner) (some name) = some (c, msg) →
      Runs lib.conv (unixAcct host flags args) s c (uttered lib.conv msg s) := by
  constructor
  · intro hu
    unfold unixAcct
    refine runs_look ?_
    rw [hctrl]
    have hitem : getItem s.inner PAM_USER = (PAM_SUCCESS, .null) := by
      show readItem s.inner .user = _
      unfold readItem
      simp only [hu, Value.ofStr]
    refine runs_api (a := { code := PAM_SUCCESS, value := .null }) (s1 := s) ?_ ?_
    · unfold effect
      dsimp only
      rw [hitem]
    · dsimp only
      rw [if_pos (Or.inr rfl)]
      exact runs_ret _ _ _
  · intro name c msg hu hacct
    have haged : ∀ saved, Unix.acctMgmt (host s.world).sys (host s.world).bin ((host s.world).luck 4) (host s.world).proc ctrl
        saved (some name) = some (c, msg) → Runs lib.conv (unixAged host ctrl name saved) s c (uttered lib.conv msg s) := by
      intro saved hh
      unfold unixAged
      refine runs_look ?_
      rw [hh]
      cases msg with
      | none => exact runs_ret _ _ _
      | some r => exact runs_api (s1 := uttered lib.conv (some r) s) rfl (runs_ret _ _ _)
    have hitem : getItem s.inner PAM_USER = (PAM_SUCCESS, .str name) := by
      show readItem s.inner .user = _
      unfold readItem
      simp only [hu, Value.ofStr]
    unfold unixAcct
    refine runs_look ?_
    rw [hctrl]
    refine runs_api (a := { code := PAM_SUCCESS, value := .str name }) (s1 := s) ?_ ?_
    · unfold effect
      dsimp only
      rw [hitem]
    · dsimp only
      rw [if_neg (by simp)]
      unfold heeded at hacct
      by_cases hn : Unix.on Unix.UNIX_NO_PASS_EXPIRY ctrl = true
      · rw [if_pos hn] at hacct ⊢
        refine runs_api (s1 := s) rfl ?_
        have : savedCode { code := (getData s.inner (some savedName)).1, data := (getData s.inner (some savedName)).2 } = savedOf s.inner :=
          savedCode_module hcall
        rw [this]
        exact haged _ hacct
      · rw [if_neg hn] at hacct ⊢
        exact haged _ hacct

/-- C182: with pam_unix, without `broken_shadow` and `no_pass_expiry`, on such a line for account management, on a machine in order:
pam_acct_mgmt returns PAM_SUCCESS only if PAM_USER names an account that is in order at that moment, and PAM_NEW_AUTHTOK_REQD only if it
names one that is in order or whose password has to be changed. -/
theorem C182_account (lib : Lib W) (host : W → Host) (service : Str) (pre post : List Line) (path : Str) (args : List Str)
    (hc : Guarded lib service .acctMgmt pre path args post)
    (hm : lib.modules .acctMgmt path = some (unixAcct host)) (hbroken : Lacks args "broken_shadow") (hexp : Lacks args "no_pass_expiry")
    (user : Option Str) (conv : Nat) (w : W) (h : Handle W) (hs : start lib service user conv w = some h)
    (h0 : Handle W) (hm0 : Meanwhile lib [.chauthtok] h h0) (flags : Nat) (code : Int) (h1 : Handle W)
    (hrun : run lib .acctMgmt flags h0 = some (code, h1)) (hg : code = PAM_SUCCESS ∨ code = PAM_NEW_AUTHTOK_REQD)
    (s : S W) (hmoment : s = (moment lib .acctMgmt flags pre h0).s)
    (shadow : Str → Option Unix.Sp) (hH : ∀ name, s.inner.user = some name → Healthy (host s.world) shadow name) :
    ∃ name, s.inner.user = some name ∧
      (InOrder (host s.world) shadow name ∨ (code = PAM_NEW_AUTHTOK_REQD ∧ ∃ e, Ages (host s.world) shadow name e ∧ Unix.MustChange e (host s.world).sys.today)) := by
  obtain ⟨f, r, z1, z2, z3, z4⟩ := C182_line lib .acctMgmt (Or.inr (Or.inl rfl)) service pre post path args hc user conv w h hs h0 hm0 flags code h1 hrun hg
  rw [hm] at z1
  have e := Option.some.inj z1
  subst e
  unfold moment at z2 hmoment
  rw [if_neg (by decide)] at z2 hmoment
  obtain ⟨t1, t2⟩ := lines_tame lib .acctMgmt flags pre (entered .acctMgmt h0) rfl
  generalize hmm : afterLines lib .acctMgmt flags pre (entered .acctMgmt h0) = m at *
  subst hmoment
  obtain ⟨ctrl, c1, -, c3⟩ := ctrl_of (host m.s.world) flags args
  obtain ⟨k1, k2⟩ := acct_any (lib := lib) (host := host) (s := { m.s with inner := { m.s.inner with modArgs := args } }) t2 flags args c1
  cases hu : m.s.inner.user with
  | none =>
    have := (runs_call (lib := lib) (m := m) (k1 hu)).1
    rw [this] at z2
    rw [← z2] at z3
    rcases z3 with z | z | z <;> exact absurd z (by decide)
  | some name =>
    have hwaived : ¬ Unix.Waived ctrl (heeded ctrl m.s.inner) := by
      rintro ⟨y1, -⟩
      have := c3 "no_pass_expiry".toList Unix.UNIX_NO_PASS_EXPIRY (by decide)
      obtain ⟨a, ha, hp⟩ := this.mp y1
      exact absurd hp (hexp a ha)
    obtain ⟨c, msg, b1, -, b3, b4, -, -, b7, -⟩ := acct_code (hH name hu) hbroken c1 (heeded ctrl m.s.inner) hwaived
    have := (runs_call (lib := lib) (m := m) (k2 name c msg hu b1)).1
    rw [this] at z2
    subst z2
    have hni : c ≠ PAM_IGNORE := fun e => absurd (e ▸ b3 : (rstep .none PAM_IGNORE).code = PAM_IGNORE) (by decide)
    refine ⟨name, rfl, ?_⟩
    rcases hg with rfl | rfl
    · exact Or.inl (b4.mp ((z4 rfl).resolve_right hni))
    · rcases z3 with z | z | z
      · exact Or.inl (b4.mp z)
      · exact Or.inr ⟨rfl, b7.mp z⟩
      · exact absurd z hni

end Pam.Whole
