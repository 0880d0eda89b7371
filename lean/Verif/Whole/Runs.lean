import Verif.Whole.Unix
import Verif.Whole.Call
import Verif.Unix.LoginProps
/-
What the programs of pam_unix do to a handle.
-/
namespace Pam.Whole
open Pam Pam.Handle

variable {W : Type}

/-- the program gives that code and leaves that state -/
def Runs (cv : Convs W) (p : Prog W) (s : S W) (c : Int) (s' : S W) : Prop :=
  ∀ m : M W, m.s = s → (p.exec cv m).1 = c ∧ (p.exec cv m).2.s = s'

theorem runs_ret (cv : Convs W) (c : Int) (s : S W) : Runs cv (.ret c) s c s := fun _ h => ⟨rfl, h⟩

theorem runs_api {cv : Convs W} {op : Op} {k : Ans → Prog W} {s s1 s' : S W} {a : Ans} {c : Int} (h1 : effect cv op s = some (a, s1))
    (h2 : Runs cv (k a) s1 c s') : Runs cv (.api op k) s c s' := by
  intro m hm
  have hs : step cv op m = (a, { m with s := s1, hist := m.hist ++ [.call m.s.inner.caller op a (s1.talk.drop m.s.talk.length)] }) := by
    unfold step
    rw [hm, h1]
  unfold Prog.exec
  simp only [hs]
  exact h2 _ rfl

theorem runs_look {cv : Convs W} {k : W → Prog W} {s s' : S W} {c : Int} (h : Runs cv (k s.world) s c s') : Runs cv (.ext id k) s c s' := by
  intro m hm
  unfold Prog.exec
  have := h { m with s := { m.s with world := m.s.world } } hm
  simp only [id]
  rw [hm] at this ⊢
  exact this

/-- a program called by the dispatcher -/
theorem runs_call {lib : Lib W} {p : Prog W} {argv : List Str} {m : M W} {c : Int} {s' : S W}
    (h : Runs lib.conv p { m.s with inner := { m.s.inner with modArgs := argv } } c s') :
    (callProg lib p argv m).1 = c ∧ (callProg lib p argv m).2.s = { s' with inner := { s'.inner with modArgs := [] } } := by
  obtain ⟨h1, h2⟩ := h { m with s := { m.s with inner := { m.s.inner with modArgs := argv } } } rfl
  exact ⟨h1, by unfold callProg; rw [← h2]⟩

/-! ### data -/

/-- the datum of a name, 0 if there is none -/
def datum (i : Inner) (n : Str) : Nat :=
  match i.data.find? (fun d => d.name == n) with
  | some d => d.data
  | none => 0

theorem find_replace (n k : Str) (d' : Datum) (hd : d'.name = n) : ∀ ds : List Datum,
    (ds.find? (fun d => d.name == n)).isSome = true →
    (setData.replaceFirst n d' ds).find? (fun d => d.name == k) = if k = n then some d' else ds.find? (fun d => d.name == k) := by
  intro ds
  induction ds with
  | nil => intro h; cases h
  | cons a t ih =>
    intro h
    unfold setData.replaceFirst
    by_cases ha : (a.name == n) = true
    · rw [if_pos ha]
      have han := eq_of_beq ha
      by_cases hk : k = n
      · rw [if_pos hk, List.find?_cons_of_pos (by rw [hd, hk]; exact BEq.rfl)]
      · rw [if_neg hk, List.find?_cons_of_neg (by rw [hd]; simpa using fun x => hk x.symm),
          List.find?_cons_of_neg (by rw [han]; simpa using fun x => hk x.symm)]
    · rw [if_neg ha]
      rw [List.find?_cons_of_neg (by simpa using ha)] at h
      by_cases hak : (a.name == k) = true
      · have hkn : k ≠ n := by
          intro x; subst x; exact ha hak
        rw [List.find?_cons_of_pos (p := fun d : Datum => d.name == k) hak, if_neg hkn, List.find?_cons_of_pos (p := fun d : Datum => d.name == k) hak]
      · rw [List.find?_cons_of_neg (by simpa using hak), List.find?_cons_of_neg (by simpa using hak)]
        exact ih h

/-- what storing a datum changes -/
theorem setData_module {i : Inner} (hc : i.caller = .module) (n : Str) (d : Nat) (cl : Bool) :
    ∃ data nextId cleaned, setData i (some n) d cl true = (PAM_SUCCESS, { i with data := data, nextId := nextId, cleaned := cleaned }) ∧
      ∀ k, datum { i with data := data, nextId := nextId, cleaned := cleaned } k = if k = n then d else datum i k := by
  unfold setData
  rw [if_neg (by rw [hc]; decide)]
  dsimp only
  cases hf : i.data.find? (fun d => d.name == n) with
  | some e =>
    refine ⟨_, _, _, rfl, fun k => ?_⟩
    unfold datum
    dsimp only
    rw [find_replace n k _ rfl i.data (by rw [hf]; rfl)]
    by_cases hk : k = n
    · rw [if_pos hk, if_pos hk]
    · rw [if_neg hk, if_neg hk]
  | none =>
    refine ⟨_, _, i.cleaned, rfl, fun k => ?_⟩
    unfold datum
    dsimp only
    by_cases hk : k = n
    · rw [if_pos hk, List.find?_cons_of_pos (by rw [hk]; exact BEq.rfl)]
    · rw [if_neg hk, List.find?_cons_of_neg (by simpa using fun x => hk x.symm)]

theorem getData_module {i : Inner} (hc : i.caller = .module) (n : Str) :
    (if (getData i (some n)).1 = PAM_SUCCESS then (getData i (some n)).2.getD 0 else 0) = datum i n := by
  have hc' : ¬ i.caller = .app := by rw [hc]; decide
  unfold getData datum
  simp only [if_neg hc']
  cases i.data.find? (fun d => d.name == n) with
  | some e => dsimp only; rw [if_pos rfl]; rfl
  | none => dsimp only; rw [if_neg (by decide)]

/-- the failures kept with the handle -/
def failsOf (i : Inner) : Unix.Fails := fun n => datum i (failName n)

/-- the result of the last authentication kept with the handle -/
def savedOf (i : Inner) : Option Int :=
  match datum i savedName with
  | 0 => none
  | n + 1 => some (n : Int)

theorem failName_inj {a b : Str} : failName a = failName b ↔ a = b := by
  unfold failName
  exact List.append_cancel_left_eq _ _ _ |> Eq.to_iff

theorem failName_ne (a : Str) : failName a ≠ savedName := by
  unfold failName savedName
  intro h
  have h1 : ("-UN*X-FAIL-".toList ++ a).head? = some '-' := rfl
  rw [h] at h1
  exact absurd h1 (by decide)

/-- the handle but for the token, the delay and the data of modules -/
def Alike (i j : Inner) : Prop :=
  ∃ authtok delaySet delay data nextId cleaned,
    j = { i with authtok := authtok, delaySet := delaySet, delay := delay, data := data, nextId := nextId, cleaned := cleaned }

theorem Alike.refl (i : Inner) : Alike i i := ⟨_, _, _, _, _, _, rfl⟩

theorem Alike.trans {i j k : Inner} (h1 : Alike i j) (h2 : Alike j k) : Alike i k := by
  obtain ⟨a, b, c, d, e, f, rfl⟩ := h1
  obtain ⟨a', b', c', d', e', f', rfl⟩ := h2
  exact ⟨a', b', c', d', e', f', rfl⟩

/-- the handle but for the data of modules -/
def Noted (i j : Inner) : Prop := ∃ data nextId cleaned, j = { i with data := data, nextId := nextId, cleaned := cleaned }

theorem Noted.alike {i j : Inner} (h : Noted i j) : Alike i j := by
  obtain ⟨a, b, c, rfl⟩ := h
  exact ⟨_, _, _, _, _, _, rfl⟩

/-- storing the result -/
theorem authReturn_runs {cv : Convs W} {s : S W} (hc : s.inner.caller = .module) (c : Int) :
    ∃ s', Runs cv (authReturn c) s c s' ∧ Alike s.inner s'.inner ∧ s'.world = s.world ∧ s'.talk = s.talk ∧
      failsOf s'.inner = failsOf s.inner ∧ savedOf s'.inner = some (c.toNat : Int) := by
  obtain ⟨data, nextId, cleaned, h1, h2⟩ := setData_module hc savedName (c.toNat + 1) true
  refine ⟨{ s with inner := { s.inner with data := data, nextId := nextId, cleaned := cleaned } }, ?_, ⟨_, _, _, _, _, _, rfl⟩, rfl, rfl, ?_, ?_⟩
  · refine runs_api (a := { code := PAM_SUCCESS }) ?_ (runs_ret _ _ _)
    unfold effect
    dsimp only
    rw [h1]
  · funext n
    unfold failsOf
    rw [h2, if_neg (failName_ne n)]
  · unfold savedOf
    rw [h2, if_pos rfl]

/-- counting the failures -/
theorem count_runs {cv : Convs W} {s : S W} (hc : s.inner.caller = .module) (name : Str) (rv : Int) (k : Int → Prog W) :
    ∃ s1 : S W, Noted s.inner s1.inner ∧ s1.world = s.world ∧ s1.talk = s.talk ∧
      failsOf s1.inner = (Unix.count (failsOf s.inner) name rv).2 ∧
      ∀ c s', Runs cv (k (Unix.count (failsOf s.inner) name rv).1) s1 c s' → Runs cv (countFailures name rv k) s c s' := by
  unfold countFailures Unix.count
  by_cases hrv : rv = PAM_SUCCESS
  · simp only [if_pos hrv]
    obtain ⟨data, nextId, cleaned, h1, h2⟩ := setData_module hc (failName name) 0 true
    refine ⟨{ s with inner := { s.inner with data := data, nextId := nextId, cleaned := cleaned } }, ⟨_, _, _, rfl⟩, rfl, rfl, ?_, ?_⟩
    · funext n
      unfold failsOf
      rw [h2]
      by_cases hn : n = name
      · rw [if_pos hn, if_pos (by rw [hn])]
      · rw [if_neg hn, if_neg (fun x => hn (failName_inj.mp x))]
    · intro c s' hk
      refine runs_api (a := { code := PAM_SUCCESS }) ?_ hk
      unfold effect
      dsimp only
      rw [h1]
  · simp only [if_neg hrv]
    have ho := getData_module hc (failName name)
    generalize hold : failsOf s.inner name = old
    have hold' : datum s.inner (failName name) = old := hold
    rw [hold'] at ho
    obtain ⟨data, nextId, cleaned, h1, h2⟩ := setData_module hc (failName name) (if old ≠ 0 then old + 1 else 1) true
    refine ⟨{ s with inner := { s.inner with data := data, nextId := nextId, cleaned := cleaned } }, ⟨_, _, _, rfl⟩, rfl, rfl, ?_, ?_⟩
    · have e : failsOf { s.inner with data := data, nextId := nextId, cleaned := cleaned } =
          fun n => if n = name then old + 1 else failsOf s.inner n := by
        funext n
        unfold failsOf
        rw [h2]
        by_cases hn : n = name
        · rw [if_pos hn, if_pos (by rw [hn])]
          split <;> omega
        · rw [if_neg hn, if_neg (fun x => hn (failName_inj.mp x))]
      dsimp only
      rw [e]
      split <;> rfl
    · intro c s' hk
      refine runs_api (a := { code := (getData s.inner (some (failName name))).1, data := (getData s.inner (some (failName name))).2 }) rfl ?_
      dsimp only
      rw [ho]
      refine runs_api (a := { code := PAM_SUCCESS }) (s1 := { s with inner := { s.inner with data := data, nextId := nextId, cleaned := cleaned } }) ?_ ?_
      · unfold effect
        dsimp only
        rw [h1]
      · have : (if old ≠ 0 ∧ old + 1 ≥ 3 then PAM_MAXTRIES else rv) =
            (if old ≠ 0 then (if old + 1 ≥ 3 then PAM_MAXTRIES else rv, fun n => if n = name then old + 1 else failsOf s.inner n)
              else (rv, fun n => if n = name then old + 1 else failsOf s.inner n) : Int × Unix.Fails).1 := by
          by_cases h0 : old ≠ 0
          · rw [if_pos h0]; by_cases h3 : old + 1 ≥ 3
            · rw [if_pos ⟨h0, h3⟩]; dsimp only; rw [if_pos h3]
            · rw [if_neg (fun x => h3 x.2)]; dsimp only; rw [if_neg h3]
          · rw [if_neg h0, if_neg (fun x => h0 x.1)]
        rw [this]
        exact hk

/-- what the answer to the question for the password comes to -/
def tokOf (r : Reply) : Int × Str :=
  match r.2.bind id with
  | none => (PAM_AUTHTOK_ERR, [])
  | some t => if r.1 = PAM_SUCCESS then (PAM_SUCCESS, t) else (PAM_AUTHTOK_ERR, [])

/-- the question for the password -/
def askedPw (r : Reply) : Talk := ⟨.echoOff, "Password: ".toList, r.1, r.2.bind id⟩

theorem firstPrompt_password : firstPrompt none 0 PAM_AUTHTOK [] = "Password: ".toList := rfl

/-- pam_get_authtok when there is no token yet -/
theorem getAuthtok_ask {cv : Convs W} {s : S W} (hc : s.inner.caller = .module) (hch : s.inner.chauthtok = false) (ht : s.inner.authtok = none)
    (hu : getOption s.inner.modArgs "use_first_pass".toList = none) :
    ∃ s1 v, effect cv (.getAuthtok false none false {}) s = some ({ code := (tokOf (cv s.inner.conv .echoOff "Password: ".toList s.world).1).1, value := v }, s1) ∧
      ((tokOf (cv s.inner.conv .echoOff "Password: ".toList s.world).1).1 = PAM_SUCCESS →
        v = .str (tokOf (cv s.inner.conv .echoOff "Password: ".toList s.world).1).2) ∧
      s1.world = (cv s.inner.conv .echoOff "Password: ".toList s.world).2 ∧
      s1.talk = s.talk ++ [askedPw (cv s.inner.conv .echoOff "Password: ".toList s.world).1] ∧
      (∃ t, s1.inner = { s.inner with authtok := t }) := by
  have e1 : chpassOf s.inner PAM_AUTHTOK false = 0 := by
    unfold chpassOf; rw [if_neg (by rw [hch]; simp)]
  have e2 : authtokTypeOf s.inner true = ([], s.inner) := by
    unfold authtokTypeOf; rw [if_neg (by rw [hch]; simp)]
  have e3 : getItem s.inner PAM_AUTHTOK = (PAM_SUCCESS, .null) := by
    show readItem s.inner .authtok = _
    unfold readItem
    simp only [if_pos hc, ht, Value.ofStr]
  have e4 : getAuthtok cv PAM_AUTHTOK none false {} s =
      tokenReply cv PAM_AUTHTOK 0 true (askToken cv (firstPrompt none 0 PAM_AUTHTOK []) (secondPrompt none []) false true true s).1
        (askToken cv (firstPrompt none 0 PAM_AUTHTOK []) (secondPrompt none []) false true true s).2.1
        (askToken cv (firstPrompt none 0 PAM_AUTHTOK []) (secondPrompt none []) false true true s).2.2.1
        (askToken cv (firstPrompt none 0 PAM_AUTHTOK []) (secondPrompt none []) false true true s).2.2.2 := by
    unfold getAuthtok
    simp only [e1, e2, e3, hu]
    rw [if_neg (by simp), if_neg (by simp)]
    rfl
  rw [firstPrompt_password] at e4
  unfold askedPw
  generalize "Password: ".toList = P at e4 ⊢
  unfold effect
  dsimp only
  rw [if_neg (by decide), e4]
  unfold askToken promptFor converse
  simp only [if_true, Bool.false_eq_true, false_and, and_false, if_false]
  generalize hr : cv s.inner.conv .echoOff P s.world = r
  unfold tokenReply tokOf
  cases ha : r.1.2.bind id with
  | none =>
    dsimp only
    rw [if_neg (by decide)]
    exact ⟨_, _, rfl, fun h => absurd h (by decide), rfl, rfl, ⟨s.inner.authtok, rfl⟩⟩
  | some t =>
    dsimp only
    by_cases hs : r.1.1 = PAM_SUCCESS
    · rw [if_neg (by rintro (h | h); exact h hs; exact absurd h.1 (by decide)), if_neg (fun h => absurd h.1 (by decide)), if_pos hs]
      have k : ∀ s0 : S W, s0.inner = s.inner → keepToken PAM_AUTHTOK t true (decide (1 < 0)) s0 =
          (PAM_SUCCESS, some (.str t), { s0 with inner := { s.inner with authtok := some t } }) := by
        intro s0 h0
        have k1 : setItem s.inner PAM_AUTHTOK (.str t) true true = (PAM_SUCCESS, { s.inner with authtok := some t }) := by
          show putItem s.inner .authtok (.str t) true true = _
          unfold putItem
          simp only [if_pos hc]
          rfl
        have k2 : getItem { s.inner with authtok := some t } PAM_AUTHTOK = (PAM_SUCCESS, .str t) := by
          show readItem _ .authtok = _
          unfold readItem
          simp only [if_pos hc, Value.ofStr]
        have k3 : markVerified (decide (1 < 0)) true { s.inner with authtok := some t } = { s.inner with authtok := some t } := rfl
        unfold keepToken
        simp only [h0, k1, k3, k2]
        rw [if_neg (by simp)]
      rw [k ⟨s.inner, r.2, _⟩ rfl]
      exact ⟨_, _, rfl, fun _ => rfl, rfl, rfl, ⟨some t, rfl⟩⟩
    · rw [if_pos (Or.inl hs), if_neg hs, if_neg (by decide)]
      exact ⟨_, _, rfl, fun h => absurd h (by decide), rfl, rfl, ⟨s.inner.authtok, rfl⟩⟩

/-- the delay, the verdict and the count -/
theorem verify_runs {cv : Convs W} {host : W → Host} {s : S W} (hc : s.inner.caller = .module) (ctrl : Unix.Ctrl) (name pw : Str) {rv : Int}
    (hv : Unix.verdict (host s.world).sys (host s.world).bin ((host s.world).luck 3) (host s.world).proc ctrl name pw = some rv) :
    ∃ s', Runs cv (verifyPassword host ctrl name pw authReturn) s (Unix.count (failsOf s.inner) name rv).1 s' ∧ Alike s.inner s'.inner ∧
      s'.world = s.world ∧ s'.talk = s.talk ∧ failsOf s'.inner = (Unix.count (failsOf s.inner) name rv).2 ∧
      savedOf s'.inner = some ((Unix.count (failsOf s.inner) name rv).1.toNat : Int) := by
  have main : ∀ s0 : S W, Alike s.inner s0.inner → s0.inner.caller = .module → s0.world = s.world → s0.talk = s.talk → failsOf s0.inner = failsOf s.inner →
      ∃ s', Runs cv (.ext id fun w => match Unix.verdict (host w).sys (host w).bin ((host w).luck 3) (host w).proc ctrl name pw with
          | none => .ret PAM_SYSTEM_ERR
          | some rv => countFailures name rv authReturn) s0 (Unix.count (failsOf s.inner) name rv).1 s' ∧ Alike s.inner s'.inner ∧
        s'.world = s.world ∧ s'.talk = s.talk ∧ failsOf s'.inner = (Unix.count (failsOf s.inner) name rv).2 ∧
        savedOf s'.inner = some ((Unix.count (failsOf s.inner) name rv).1.toNat : Int) := by
    intro s0 ha hc0 hw ht hf
    obtain ⟨s1, a1, a2, a3, a4, a5⟩ := count_runs (cv := cv) hc0 name rv authReturn
    have a1 := a1.alike
    rw [hf] at a4 a5
    have hc1 : s1.inner.caller = .module := by
      obtain ⟨_, _, _, _, _, _, e⟩ := a1
      rw [e]; exact hc0
    obtain ⟨s', b1, b2, b3, b4, b5, b6⟩ := authReturn_runs (cv := cv) hc1 (Unix.count (failsOf s.inner) name rv).1
    refine ⟨s', ?_, (ha.trans a1).trans b2, by rw [b3, a2, hw], by rw [b4, a3, ht], by rw [b5, a4], b6⟩
    refine runs_look ?_
    rw [hw, hv]
    exact a5 _ _ b1
  unfold verifyPassword
  dsimp only
  split
  · obtain ⟨s', h1, h2⟩ := main { s with inner := (failDelay s.inner 2000000).2 } ⟨_, _, _, _, _, _, rfl⟩ hc rfl rfl rfl
    exact ⟨s', runs_api (a := { code := PAM_SUCCESS }) rfl h1, h2⟩
  · exact main s (Alike.refl _) hc rfl rfl rfl

/-- what pam_unix works on -/
structure Stage (s : S W) (args : List Str) : Prop where
  caller : s.inner.caller = .module
  quiet : s.inner.chauthtok = false
  clear : s.inner.authtok = none
  argv : s.inner.modArgs = args
  own : getOption args "use_first_pass".toList = none

/-- From the name on, the program does what the model of the module says. -/
theorem named_runs {cv : Convs W} {host : W → Host} {s : S W} {args : List Str} (hs : Stage s args)
    (hstill : host (cv s.inner.conv .echoOff "Password: ".toList s.world).2 = host s.world) (ctrl : Unix.Ctrl) (name : Str) {r : Unix.AuthRes}
    (hr : Unix.authenticate (host s.world).sys (host s.world).bin (host s.world).luck (host s.world).proc ctrl (failsOf s.inner)
      (PAM_SUCCESS, name) (tokOf (cv s.inner.conv .echoOff "Password: ".toList s.world).1) = some r) :
    ∃ s', Runs cv (unixNamed host ctrl name) s r.code s' ∧ Alike s.inner s'.inner ∧ failsOf s'.inner = r.fails ∧
      savedOf s'.inner = some (r.code.toNat : Int) ∧
      s'.world = (if r.asked then (cv s.inner.conv .echoOff "Password: ".toList s.world).2 else s.world) ∧
      s'.talk = (if r.asked then s.talk ++ [askedPw (cv s.inner.conv .echoOff "Password: ".toList s.world).1] else s.talk) := by
  have hask := getAuthtok_ask (cv := cv) hs.caller hs.quiet hs.clear (by rw [hs.argv]; exact hs.own)
  generalize hreply : cv s.inner.conv .echoOff "Password: ".toList s.world = reply at hask hr hstill ⊢
  have done : ∀ c : Int, r = ⟨c, failsOf s.inner, false⟩ → ∃ s', Runs cv (authReturn c) s r.code s' ∧ Alike s.inner s'.inner ∧
      failsOf s'.inner = r.fails ∧ savedOf s'.inner = some (r.code.toNat : Int) ∧ s'.world = (if r.asked then reply.2 else s.world) ∧
      s'.talk = (if r.asked then s.talk ++ [askedPw reply.1] else s.talk) := by
    intro c e
    subst e
    obtain ⟨s', b1, b2, b3, b4, b5, b6⟩ := authReturn_runs (cv := cv) hs.caller c
    exact ⟨s', b1, b2, b5, b6, b3, b4⟩
  unfold Unix.authenticate at hr
  rw [if_pos rfl] at hr
  dsimp only at hr
  unfold unixNamed
  by_cases hsign : name.head? = some '-' ∨ name.head? = some '+'
  · rw [if_pos hsign] at hr ⊢
    exact done _ (Option.some.inj hr).symm
  · rw [if_neg hsign] at hr ⊢
    have key : ∃ s', Runs cv (match Unix.blankPasswd (host s.world).sys (host s.world).bin (host s.world).luck (host s.world).proc ctrl name with
          | none => .ret PAM_SYSTEM_ERR
          | some (true, _) => authReturn PAM_SUCCESS
          | some (false, _) => unixToken host ctrl name : Prog W) s r.code s' ∧ Alike s.inner s'.inner ∧
        failsOf s'.inner = r.fails ∧ savedOf s'.inner = some (r.code.toNat : Int) ∧ s'.world = (if r.asked then reply.2 else s.world) ∧
        s'.talk = (if r.asked then s.talk ++ [askedPw reply.1] else s.talk) := by
      cases hb : Unix.blankPasswd (host s.world).sys (host s.world).bin (host s.world).luck (host s.world).proc ctrl name with
      | none => rw [hb] at hr; cases hr
      | some br =>
        obtain ⟨v, runs⟩ := br
        rw [hb] at hr
        cases v with
        | true => exact done _ (Option.some.inj hr).symm
        | false =>
          dsimp only at hr ⊢
          obtain ⟨s1, v, c1, c2, c3, c4, t, c5⟩ := hask
          have hc1 : s1.inner.caller = .module := by rw [c5]; exact hs.caller
          have hal : Alike s.inner s1.inner := ⟨t, s.inner.delaySet, s.inner.delay, s.inner.data, s.inner.nextId, s.inner.cleaned, c5⟩
          have hfl : failsOf s1.inner = failsOf s.inner := by rw [c5]; rfl
          unfold unixToken
          by_cases ht : (tokOf reply.1).1 = PAM_SUCCESS
          · rw [if_neg (by simpa using ht)] at hr
            obtain ⟨p, hp, e⟩ := Option.map_eq_some_iff.mp hr
            obtain ⟨rv, hv, e2⟩ := Option.map_eq_some_iff.mp hp
            subst e2
            rw [← c3] at hstill
            rw [← hstill] at hv
            obtain ⟨s', d1, d2, d3, d4, d5, d6⟩ := verify_runs (cv := cv) hc1 ctrl name (tokOf reply.1).2 hv
            rw [hfl] at d1 d5 d6
            subst e
            refine ⟨s', runs_api c1 ?_, hal.trans d2, d5, d6, by rw [d3, c3]; rfl, by rw [d4, c4]; rfl⟩
            dsimp only
            rw [if_neg (by simpa using ht), c2 ht]
            exact d1
          · rw [if_pos ht] at hr
            have e := Option.some.inj hr
            obtain ⟨s', b1, b2, b3, b4, b5, b6⟩ := authReturn_runs (cv := cv) hc1 r.code
            subst e
            refine ⟨s', runs_api c1 ?_, hal.trans b2, by rw [b5, hfl], b6, by rw [b3, c3]; rfl, by rw [b4, c4]; rfl⟩
            dsimp only
            rw [if_pos ht]
            exact b1
    obtain ⟨s', k1, k2⟩ := key
    exact ⟨s', runs_look k1, k2⟩

end Pam.Whole
