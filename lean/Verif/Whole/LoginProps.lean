import Verif.Whole.AuthCall
/-
Property theorems C176: pam_start and pam_authenticate with pam_unix.
-/
namespace Pam.Whole
open Pam Pam.Handle

variable {W : Type}

/-! ### helper lemmas -/

theorem ctrl_of (H : Host) (flags : Nat) (args : List Str) :
    ∃ ctrl, unixCtrl H flags args = some ctrl ∧ (Unix.off Unix.UNIX__NONULL ctrl = true ↔ Lenient args flags) ∧
      (∀ w x, (w, x) ∈ Unix.words → (Unix.on x ctrl = true ↔ ∃ a ∈ args, w <+: a)) := by
  obtain ⟨o, ho⟩ := Unix.C72_defined (decide (H.proc.uid = 0)) (unixFlags flags) H.defs none none none args
  refine ⟨o.ctrl, by unfold unixCtrl; rw [ho]; rfl, ?_, fun w x hw => Unix.C72_word w x hw _ _ _ _ _ _ _ o ho⟩
  rw [Unix.C72_nullok _ _ _ _ _ _ _ o ho]
  rfl

theorem lacks_option {args : List Str} (h : Lacks args "use_first_pass") : getOption args "use_first_pass".toList = none := by
  unfold getOption
  rw [List.findSome?_eq_none_iff]
  intro a ha
  have : ¬ ("use_first_pass".toList.isPrefixOf a = true) := fun x => h a ha (List.isPrefixOf_iff_prefix.mp x)
  rw [if_neg this]

theorem authenticate_fails {s : Unix.Sys} {b : Unix.Bin} {l : Nat → Unix.Luck} {p : Unix.Proc} {ctrl : Unix.Ctrl} (f g : Unix.Fails) {user tok : Int × Str}
    (h : (Unix.authenticate s b l p ctrl f user tok).isSome = true) : ∃ r, Unix.authenticate s b l p ctrl g user tok = some r := by
  unfold Unix.authenticate at h ⊢
  split
  · rename_i hu
    rw [if_pos hu] at h
    split
    · exact ⟨_, rfl⟩
    · rename_i hn
      rw [if_neg hn] at h
      split
      · rename_i hb; rw [hb] at h; cases h
      · exact ⟨_, rfl⟩
      · rename_i hb
        rw [hb] at h
        dsimp only at h
        split
        · exact ⟨_, rfl⟩
        · rename_i ht
          rw [if_neg ht] at h
          unfold Unix.verifyPassword at h ⊢
          cases hv : Unix.verdict s b (l 3) p ctrl user.2 tok.2 with
          | none => rw [hv] at h; cases h
          | some rv => exact ⟨_, rfl⟩
  · exact ⟨_, rfl⟩

theorem tokOf_success {r : Reply} : (tokOf r).1 = PAM_SUCCESS ↔ r = (PAM_SUCCESS, some (some (tokOf r).2)) := by
  obtain ⟨c, t⟩ := r
  unfold tokOf
  cases t with
  | none => exact ⟨fun h => absurd (show PAM_AUTHTOK_ERR = PAM_SUCCESS from h) (by decide), fun h => by cases h⟩
  | some t =>
    cases t with
    | none => exact ⟨fun h => absurd (show PAM_AUTHTOK_ERR = PAM_SUCCESS from h) (by decide), fun h => by cases h⟩
    | some t =>
      simp only [Option.bind_some, id]
      by_cases hc : c = PAM_SUCCESS
      · rw [if_pos hc]; simp [hc]
      · rw [if_neg hc]
        exact ⟨fun h => absurd h (by decide), fun h => absurd (congrArg Prod.fst h) hc⟩

theorem tokOf_text (pw : Str) : tokOf (PAM_SUCCESS, some (some pw)) = (PAM_SUCCESS, pw) := rfl

/-- getting the name, on the stage -/
theorem knows_effect {lib : Lib W} {host : W → Host} (hst : Still host lib) {service : Str} {user : Option Str} {conv : Nat} {w : W} {h : Handle W}
    (hs : start lib service user conv w = some h) {name : Str} {w1 : W} {talk1 : List Talk} (hk : Knows lib conv w user name w1 talk1) (args : List Str) :
    ∃ s1, effect lib.conv (.getUser none true true) (onStage args h) = some ({ code := PAM_SUCCESS, value := .str name }, s1) ∧
      s1.inner = { (onStage args h).inner with user := some name } ∧ s1.world = w1 ∧ s1.talk = talk1 ∧ host w1 = host w := by
  obtain ⟨hr, hw, ht, hi, -⟩ := start_ready hs
  cases hk with
  | given name =>
    have hu : (onStage args h).inner.user = some name := by rw [onStage_eq hr.idle]; rw [hi]
    refine ⟨_, getUser_known hu, ?_, ?_, ?_, rfl⟩
    · rw [onStage_eq hr.idle, hi]
    · rw [onStage_eq hr.idle]; exact hw
    · rw [onStage_eq hr.idle]; exact ht
  | asked name w1 hreply =>
    have e : (onStage args h).inner.conv = conv ∧ (onStage args h).world = w ∧ (onStage args h).talk = [] := by
      rw [onStage_eq hr.idle]
      exact ⟨by rw [hi], hw, ht⟩
    have hask := getUser_ask (cv := lib.conv) (s := onStage args h) (by rw [onStage_eq hr.idle]; rw [hi]) (by rw [onStage_eq hr.idle]; rw [hi])
      (by rw [onStage_eq hr.idle]; rw [hi]) (by rw [onStage_eq hr.idle]; rw [hi]) (by rw [e.1, e.2.1, hreply]; exact show PAM_SUCCESS ≠ PAM_CONV_AGAIN by decide)
    rw [e.1, e.2.1, e.2.2, hreply] at hask
    obtain ⟨s1, v, a1, a2, a3, a4, -⟩ := hask
    have hok : userOf (PAM_SUCCESS, some (some name)) = (PAM_SUCCESS, name) := by
      unfold userOf
      rw [if_pos (show convCode PAM_SUCCESS = PAM_SUCCESS by decide)]
      rfl
    rw [hok] at a1 a2
    obtain ⟨a5, a6⟩ := a2 rfl
    subst a5
    refine ⟨s1, a1, a6, a3, a4, ?_⟩
    have := hst conv .echoOn "login:".toList w
    rw [hreply] at this
    exact this

/-- pam_start and pam_authenticate -/
theorem login_core {lib : Lib W} {host : W → Host} (hst : Still host lib) {service : Str} {args : List Str}
    (hline : OneLine lib service .authenticate (unixAuth host) args) (hfirst : Lacks args "use_first_pass")
    {user : Option Str} {conv : Nat} {w : W} {h : Handle W} (hs : start lib service user conv w = some h)
    {name : Str} {w1 : W} {talk1 : List Talk} (hk : Knows lib conv w user name w1 talk1) {flags : Nat} {ctrl : Unix.Ctrl}
    (hc : unixCtrl (host w) flags args = some ctrl)
    (hend : Ends (host w) flags args name (tokOf (lib.conv conv .echoOff "Password: ".toList w1).1)) :
    ∃ r h', Unix.authenticate (host w).sys (host w).bin (host w).luck (host w).proc ctrl (fun _ => 0) (PAM_SUCCESS, name)
        (tokOf (lib.conv conv .echoOff "Password: ".toList w1).1) = some r ∧
      run lib .authenticate flags h = some (r.code, h') ∧ Ready lib (serviceName service) h' ∧
      Settled h.inner h'.inner (some name) PAM_SUCCESS ∧ host w1 = host w ∧
      h'.m.s.world = (if r.asked then (lib.conv conv .echoOff "Password: ".toList w1).2 else w1) ∧
      h'.m.s.talk = (if r.asked then talk1 ++ [⟨.echoOff, "Password: ".toList,
        (lib.conv conv .echoOff "Password: ".toList w1).1.1, (lib.conv conv .echoOff "Password: ".toList w1).1.2.bind id⟩] else talk1) ∧
      failsOf h'.inner = r.fails ∧ savedOf h'.inner = some (r.code.toNat : Int) := by
  obtain ⟨hr, hw, ht, hi, -⟩ := start_ready hs
  obtain ⟨path, hl, hm⟩ := hline.line
  obtain ⟨s1, g1, g2, g3, g4, g5⟩ := knows_effect hst hs hk args
  have hf0 : failsOf h.inner = fun _ => 0 := by rw [hi]; rfl
  obtain ⟨r, hauth⟩ := Option.isSome_iff_exists.mp (hend ctrl hc)
  have hconv : h.inner.conv = conv := by rw [hi]
  have hfu : h.inner.failUser = PAM_SUCCESS := by rw [hi]
  subst g3
  have hauth' := hauth
  rw [← hconv, ← hw, ← hf0] at hauth
  obtain ⟨h', a1, a2, a3, a4, a5, a6, a7⟩ := authenticate_named hst hr hline.dir hline.own path args hl hm (lacks_option hfirst) flags
    (by rw [hw]; exact hc) g1 g2 (by rw [hw]; exact g5) hauth
  rw [hfu] at a3
  rw [hconv] at a4 a5
  rw [g4] at a5
  exact ⟨r, h', hauth', a1, a2, a3, g5, a4, a5, a6, a7⟩

theorem nul_free {r : Reply} (hnul : ∀ t, r.2 = some (some t) → NUL ∉ t) : NUL ∉ (tokOf r).2 := by
  unfold tokOf
  split
  · simp
  · rename_i t he
    split
    · refine hnul t ?_
      cases hx : r.2 with
      | none => rw [hx] at he; cases he
      | some y => rw [hx] at he; rw [show y = some t from he]
    · simp

/-- C176: pam_authenticate on a new handle, for a service that leaves it to pam_unix: it succeeds exactly if the account needs no
password or the password typed is right, and it asks for no more than the name, if pam_start was not told, and the password. -/
theorem C176_answer (lib : Lib W) (host : W → Host) (hst : Still host lib) (service : Str) (args : List Str)
    (hline : OneLine lib service .authenticate (unixAuth host) args) (hreset : Lacks args "nullresetok") (hfirst : Lacks args "use_first_pass")
    (user : Option Str) (conv : Nat) (w : W) (h : Handle W) (hs : start lib service user conv w = some h)
    (name : Str) (w1 : W) (talk1 : List Talk) (hk : Knows lib conv w user name w1 talk1)
    (shadow : Str → Option Unix.Sp) (hH : Healthy (host w) shadow name) (flags : Nat) (nullok : Bool) (hnull : nullok = true ↔ Lenient args flags)
    (hnul : ∀ t, (lib.conv conv .echoOff "Password: ".toList w1).1.2 = some (some t) → NUL ∉ t)
    (hend : Ends (host w) flags args name (tokOf (lib.conv conv .echoOff "Password: ".toList w1).1)) :
    ∃ code h', run lib .authenticate flags h = some (code, h') ∧
      (code = PAM_SUCCESS ↔ Open (host w) shadow args flags name ∨
        ∃ pw, (lib.conv conv .echoOff "Password: ".toList w1).1 = (PAM_SUCCESS, some (some pw)) ∧ Right (host w) shadow nullok name pw) ∧
      (Open (host w) shadow args flags name → h'.m.s.talk = talk1) ∧
      (¬ Open (host w) shadow args flags name → h'.m.s.talk = talk1 ++ [⟨.echoOff, "Password: ".toList,
        (lib.conv conv .echoOff "Password: ".toList w1).1.1, (lib.conv conv .echoOff "Password: ".toList w1).1.2.bind id⟩]) ∧
      h'.inner.user = some name ∧ h'.inner.authtok = none := by
  obtain ⟨ctrl, c1, c2, c3⟩ := ctrl_of (host w) flags args
  have hnr : Unix.on Unix.UNIX_NULLRESETOK ctrl = false := by
    have := c3 "nullresetok".toList Unix.UNIX_NULLRESETOK (by decide)
    cases hx : Unix.on Unix.UNIX_NULLRESETOK ctrl with
    | false => rfl
    | true =>
      obtain ⟨a, ha, hp⟩ := this.mp hx
      exact absurd hp (hreset a ha)
  obtain ⟨r, h', hauth, a1, -, a3, -, a4, a5, -, -⟩ := login_core hst hline hfirst hs hk c1 hend
  obtain ⟨k1, k2⟩ := Unix.C77_answer _ _ _ hH.fine _ _ _ _ _ (nul_free hnul) shadow hH.reads hH.trusted hH.nobody hH.day hH.aging hH.sign r hauth
  have hopen : (Unix.BlankAllowed (host w).sys shadow ctrl name ∧ Unix.NoPassword (host w).sys shadow name) ↔ Open (host w) shadow args flags name := by
    unfold Open Unix.BlankAllowed
    rw [hnr, c2]
    simp
  rw [hopen] at k1 k2
  have hoff : Unix.off Unix.UNIX__NONULL ctrl = nullok := by
    cases hx : nullok with
    | true => rw [c2]; exact hnull.mp hx
    | false =>
      cases hy : Unix.off Unix.UNIX__NONULL ctrl with
      | false => rfl
      | true => rw [hnull.mpr (c2.mp hy)] at hx; cases hx
  obtain ⟨x1, x2, x3, x4, hx⟩ := a3
  refine ⟨r.code, h', a1, ?_, ?_, ?_, by rw [hx], by rw [hx]⟩
  · rw [k2, hoff]
    refine or_congr Iff.rfl ⟨fun ⟨x, y⟩ => ⟨_, tokOf_success.mp x, y⟩, ?_⟩
    rintro ⟨pw, e, y⟩
    rw [e, tokOf_text]
    exact ⟨rfl, y⟩
  · intro ho
    rw [a5, k1.mpr ho, if_neg (by decide)]
  · intro ho
    have : r.asked = true := by
      cases hx : r.asked with
      | true => rfl
      | false => exact absurd (k1.mp hx) ho
    rw [a5, this, if_pos rfl]

/-- C176 (whatever goes wrong with the helper): without `nullok` and `nullresetok` pam_authenticate succeeds only for a non-empty
password typed by the user that matches a hash read from the user database for that user. -/
theorem C176_sound (lib : Lib W) (host : W → Host) (hst : Still host lib) (service : Str) (args : List Str)
    (hline : OneLine lib service .authenticate (unixAuth host) args) (hnullok : Lacks args "nullok") (hreset : Lacks args "nullresetok")
    (hfirst : Lacks args "use_first_pass")
    (user : Option Str) (conv : Nat) (w : W) (h : Handle W) (hs : start lib service user conv w = some h)
    (name : Str) (w1 : W) (talk1 : List Talk) (hk : Knows lib conv w user name w1 talk1)
    (hbuf : ∀ i, ((host w).luck i).buf.length = 513) (hn : (host w).sys.pwnam Unix.nobody = none) (flags : Nat)
    (hnul : ∀ t, (lib.conv conv .echoOff "Password: ".toList w1).1.2 = some (some t) → NUL ∉ t)
    (hend : Ends (host w) flags args name (tokOf (lib.conv conv .echoOff "Password: ".toList w1).1)) :
    ∃ code h', run lib .authenticate flags h = some (code, h') ∧
      (code = PAM_SUCCESS → ∃ pw i hash, (lib.conv conv .echoOff "Password: ".toList w1).1 = (PAM_SUCCESS, some (some pw)) ∧ pw ≠ [] ∧
        Unix.Read (host w).sys (host w).bin ((host w).luck i) (host w).proc name hash ∧
        Unix.Accepts (host w).sys.crypts false hash (pw.take 512)) ∧
      h'.inner.authtok = none := by
  obtain ⟨ctrl, c1, c2, c3⟩ := ctrl_of (host w) flags args
  have hnr : Unix.on Unix.UNIX_NULLRESETOK ctrl = false := by
    have := c3 "nullresetok".toList Unix.UNIX_NULLRESETOK (by decide)
    cases hx : Unix.on Unix.UNIX_NULLRESETOK ctrl with
    | false => rfl
    | true =>
      obtain ⟨a, ha, hp⟩ := this.mp hx
      exact absurd hp (hreset a ha)
  have hoff : Unix.off Unix.UNIX__NONULL ctrl = false := by
    cases hx : Unix.off Unix.UNIX__NONULL ctrl with
    | false => rfl
    | true =>
      obtain ⟨⟨a, ha, hp⟩, -⟩ := c2.mp hx
      exact absurd hp (hnullok a ha)
  obtain ⟨r, h', hauth, a1, -, ⟨x1, x2, x3, x4, hx⟩, -⟩ := login_core hst hline hfirst hs hk c1 hend
  refine ⟨r.code, h', a1, fun hr => ?_, by rw [hx]⟩
  obtain ⟨-, i, hh, b1, b2⟩ := Unix.C77_sound _ _ _ hbuf _ _ _ _ _ (nul_free hnul) hn r hauth hr
  rw [hoff, hnr] at b2
  rcases b2 with ⟨b2, b3⟩ | ⟨b2, -⟩
  · refine ⟨_, i, hh, tokOf_success.mp b2, ?_, b1, b3⟩
    intro e
    rw [e] at b3
    exact Unix.accepts_empty b3
  · simp at b2

/-- C176 (no name): if the question for the name is not answered with a name, pam_authenticate fails, and no password is asked for. -/
theorem C176_no_name (lib : Lib W) (host : W → Host) (service : Str) (args : List Str)
    (hline : OneLine lib service .authenticate (unixAuth host) args)
    (conv : Nat) (w : W) (h : Handle W) (hs : start lib service none conv w = some h)
    (hno : ∀ name w1, lib.conv conv .echoOn "login:".toList w ≠ ((PAM_SUCCESS, some (some name)), w1))
    (hagain : (lib.conv conv .echoOn "login:".toList w).1.1 ≠ PAM_CONV_AGAIN) (flags : Nat) :
    ∃ code h', run lib .authenticate flags h = some (code, h') ∧ code ≠ PAM_SUCCESS ∧
      h'.m.s.talk = [⟨.echoOn, "login:".toList, (lib.conv conv .echoOn "login:".toList w).1.1, (lib.conv conv .echoOn "login:".toList w).1.2.bind id⟩] ∧
      h'.inner.authtok = none := by
  obtain ⟨hr, hw, ht, hi, -⟩ := start_ready hs
  obtain ⟨path, hl, hm⟩ := hline.line
  obtain ⟨ctrl, c1, -⟩ := ctrl_of (host w) flags args
  have e : (onStage args h).inner.conv = conv ∧ (onStage args h).world = w ∧ (onStage args h).talk = [] ∧ (onStage args h).inner.caller = .module := by
    rw [onStage_eq hr.idle]
    exact ⟨by rw [hi], hw, ht, rfl⟩
  have hask := getUser_ask (cv := lib.conv) (s := onStage args h) (by rw [onStage_eq hr.idle]; rw [hi]) (by rw [onStage_eq hr.idle]; rw [hi])
    (by rw [onStage_eq hr.idle]; rw [hi]) (by rw [onStage_eq hr.idle]; rw [hi]) (by rw [e.1, e.2.1]; exact hagain)
  rw [e.1, e.2.1, e.2.2.1] at hask
  have hu : Ordinary (userOf (lib.conv conv .echoOn "login:".toList w).1).1 ∧ (userOf (lib.conv conv .echoOn "login:".toList w).1).1 ≠ PAM_SUCCESS := by
    generalize "login:".toList = P at hno hagain
    generalize lib.conv conv .echoOn P w = r at hno hagain
    obtain ⟨⟨c, t⟩, w1⟩ := r
    have hc : c ≠ PAM_CONV_AGAIN := hagain
    unfold userOf
    dsimp only
    by_cases hs : convCode c = PAM_SUCCESS
    · rw [if_pos hs]
      have hs' : c = PAM_SUCCESS := by
        unfold convCode at hs
        split at hs
        · exact hs
        · exact absurd hs (by decide)
      cases t with
      | none => exact ⟨show Ordinary PAM_CONV_ERR by decide, show PAM_CONV_ERR ≠ PAM_SUCCESS by decide⟩
      | some t =>
        cases t with
        | none => exact ⟨show Ordinary PAM_CONV_ERR by decide, show PAM_CONV_ERR ≠ PAM_SUCCESS by decide⟩
        | some t => rw [hs'] at hno; exact absurd rfl (hno t w1)
    · rw [if_neg hs]
      refine ⟨?_, hs⟩
      unfold convCode
      split
      · rename_i h
        rcases h with rfl | rfl | h | rfl
        · show Ordinary PAM_SUCCESS; decide
        · show Ordinary PAM_BUF_ERR; decide
        · exact absurd h hc
        · show Ordinary PAM_CONV_ERR; decide
      · show Ordinary PAM_CONV_ERR; decide
  obtain ⟨s1, v, a1, -, a3, a4, u, f, a5⟩ := hask
  obtain ⟨s', b1, b2, b3, b4, -⟩ := authReturn_runs (cv := lib.conv) (s := s1) (by rw [a5]; exact e.2.2.2)
    (userOf (lib.conv conv .echoOn "login:".toList w).1).1
  have hruns : Runs lib.conv (unixAuth host flags args) (onStage args h) (userOf (lib.conv conv .echoOn "login:".toList w).1).1 s' := by
    unfold unixAuth
    refine runs_look ?_
    rw [e.2.1, c1]
    refine runs_api a1 ?_
    dsimp only
    rw [if_neg hu.2, if_neg (fun x => by rw [x] at hu; exact absurd hu.1 (by decide))]
    exact b1
  obtain ⟨h', d1, d2, d3, d4, -⟩ := authenticate_line hr hline.dir hline.own path args hl hm flags hruns hu.1
  exact ⟨_, h', d1, hu.2, by rw [d3, b4, a4]; rfl, by rw [d4]⟩

/-- C176 (finding): an application that answers the question for the password with PAM_CONV_AGAIN, to be called again later, is not
suspended: pam_authenticate ends with PAM_AUTHTOK_ERR.  (The same answer to the question for the name gives PAM_INCOMPLETE.) -/
theorem C176_again (lib : Lib W) (host : W → Host) (hst : Still host lib) (service : Str) (args : List Str)
    (hline : OneLine lib service .authenticate (unixAuth host) args) (hreset : Lacks args "nullresetok") (hfirst : Lacks args "use_first_pass")
    (user : Option Str) (conv : Nat) (w : W) (h : Handle W) (hs : start lib service user conv w = some h)
    (name : Str) (w1 : W) (talk1 : List Talk) (hk : Knows lib conv w user name w1 talk1)
    (shadow : Str → Option Unix.Sp) (hH : Healthy (host w) shadow name) (flags : Nat) (hopen : ¬ Open (host w) shadow args flags name)
    (hagain : (lib.conv conv .echoOff "Password: ".toList w1).1 = (PAM_CONV_AGAIN, none))
    (hend : Ends (host w) flags args name (PAM_AUTHTOK_ERR, [])) :
    ∃ h', run lib .authenticate flags h = some (PAM_AUTHTOK_ERR, h') := by
  obtain ⟨ctrl, c1, c2, c3⟩ := ctrl_of (host w) flags args
  have hnr : Unix.on Unix.UNIX_NULLRESETOK ctrl = false := by
    have := c3 "nullresetok".toList Unix.UNIX_NULLRESETOK (by decide)
    cases hx : Unix.on Unix.UNIX_NULLRESETOK ctrl with
    | false => rfl
    | true =>
      obtain ⟨a, ha, hp⟩ := this.mp hx
      exact absurd hp (hreset a ha)
  have htok : tokOf (lib.conv conv .echoOff "Password: ".toList w1).1 = (PAM_AUTHTOK_ERR, []) := by rw [hagain]; rfl
  obtain ⟨r, h', hauth, a1, -⟩ := login_core hst hline hfirst hs hk c1 (by rw [htok]; exact hend)
  rw [htok] at hauth
  obtain ⟨k1, -⟩ := Unix.C77_answer _ _ _ hH.fine _ _ _ _ _ (by simp) shadow hH.reads hH.trusted hH.nobody hH.day hH.aging hH.sign r hauth
  have hask : r.asked = true := by
    cases hx : r.asked with
    | true => rfl
    | false =>
      obtain ⟨x, y⟩ := k1.mp hx
      unfold Unix.BlankAllowed at x
      rw [hnr, c2] at x
      rcases x with x | x
      · exact absurd ⟨x, y⟩ hopen
      · cases x.1
  have hcode : r.code = PAM_AUTHTOK_ERR := by
    unfold Unix.authenticate at hauth
    rw [if_pos rfl, if_neg (by rintro (x | x); exact hH.sign.1 x; exact hH.sign.2 x)] at hauth
    dsimp only at hauth
    split at hauth
    · cases hauth
    · cases hauth; cases hask
    · rw [if_pos (by decide)] at hauth
      rw [← Option.some.inj hauth]
      rfl
  exact ⟨h', by rw [a1, hcode]⟩

end Pam.Whole
