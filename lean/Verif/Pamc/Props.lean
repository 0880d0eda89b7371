import Verif.Pamc.HistLemmas
/-
Property theorems about libpamc: C34 (binary prompts), C46 (which programs are run), C47 (which agent
gets a prompt), C48 (end of the conversation).
-/
namespace Pam.Pamc
open Pam.Util (Ev)
open Spec

/-! ### C34: binary prompts -/

/-- C34 (delivery): the client passes on a prompt while an agent is selected, and the agent answers
with a framed reply (any control byte but 0, any data short enough for the length field, and possibly
more bytes after it).  For every schedule of short transfers and EINTR without an I/O error: the
call has returned once the kernel has transferred as many times as there are bytes; then the agent got
exactly the prompt, the client gets exactly the frame (and a NUL after it), and the bytes after it stay unread. -/
theorem C34_delivered_partial (pch : Pch) (a : Agent) (p : Bytes) (size : Nat) (ctl : UInt8) (env : Env) (w : World)
    (c : UInt8) (data rest : Bytes)
    (hcur : pch.current = some a) (hp : Sound p) (hsize : bpSize p = some size) (h5 : 5 ≤ size)
    (hctl : p[4]? = some ctl) (hclient : ctl = 1 ∨ ctl = 3 ∨ ctl = 4)
    (hreply : env.stream = frame c data ++ rest) (hc : c ≠ 0) (hlen : data.length + 6 < 2 ^ 32)
    (hio : Ev.err ∉ env.sched) (hmem : env.memPrompt = true) :
    (converse (some pch) (some (some p)) env w = .wait ∧ answers env.sched < size + (frame c data).length) ∨
    converse (some pch) (some (some p)) env w =
      .ret { value := 1, prompt := some (frame c data ++ [0]), pch := some pch,
             world := { w with trace := w.trace ++ [.sent a.conn (p.take size)] }, unread := rest } := by
  obtain ⟨n, hn, hnl, _⟩ := hp
  rw [hsize] at hn; cases hn
  have hle : ctl ≤ bpcFail ∧ bpcOk ≤ ctl := by rcases hclient with h | h | h <;> subst h <;> decide
  have hns : ctl ≠ bpcSelect := by rcases hclient with h | h | h <;> subst h <;> decide
  unfold converse
  simp only [hsize, bpControl, hctl]
  rw [if_neg (by unfold minSize; omega), if_neg (fun h => h hle), if_neg hns]
  unfold passOn
  rw [hcur]
  simp only
  rcases sendAll_spec p size hnl env.sched 0 (by omega) with ⟨h1, h2⟩ | ⟨h, _⟩ | ⟨used, es, h1, h2, h3⟩
  · rw [h1]; left; exact ⟨rfl, by omega⟩
  · exact absurd h hio
  · rw [h3]
    simp only
    rcases readReply_frame p ⟨size, hsize, hnl, by omega⟩ pch { w with trace := w.trace ++ [.sent a.conn (p.take size)] } env es
      c data rest hc hlen hreply (fun h => hio (by rw [h1]; simp [h])) hmem with ⟨h4, h5⟩ | h4
    · left
      refine ⟨h4, ?_⟩
      rw [h1, answers_append]; omega
    · right; exact h4

/-- C34 (reply cut short): if the agent closes its output inside a reply, the client is told that the
conversation failed and gets no prompt. -/
theorem C34_cut_short (pch : Pch) (a : Agent) (p : Bytes) (size : Nat) (ctl : UInt8) (env : Env) (w : World)
    (c : UInt8) (data : Bytes)
    (hcur : pch.current = some a) (hp : Sound p) (hsize : bpSize p = some size) (h5 : 5 ≤ size)
    (hctl : p[4]? = some ctl) (hclient : ctl = 1 ∨ ctl = 3 ∨ ctl = 4)
    (hreply : env.stream <+: frame c data) (hcut : env.stream ≠ frame c data) (hc : c ≠ 0)
    (hlen : data.length + 6 < 2 ^ 32) (hio : Ev.err ∉ env.sched) (hmem : env.memPrompt = true) :
    converse (some pch) (some (some p)) env w = .wait ∨
    converse (some pch) (some (some p)) env w =
      .ret { value := 0, prompt := none, pch := some pch,
             world := { w with trace := w.trace ++ [.sent a.conn (p.take size)] }, unread := [] } := by
  obtain ⟨n, hn, hnl, _⟩ := hp
  rw [hsize] at hn; cases hn
  have hle : ctl ≤ bpcFail ∧ bpcOk ≤ ctl := by rcases hclient with h | h | h <;> subst h <;> decide
  have hns : ctl ≠ bpcSelect := by rcases hclient with h | h | h <;> subst h <;> decide
  unfold converse
  simp only [hsize, bpControl, hctl]
  rw [if_neg (by unfold minSize; omega), if_neg (fun h => h hle), if_neg hns]
  unfold passOn
  rw [hcur]
  simp only
  rcases sendAll_spec p size hnl env.sched 0 (by omega) with ⟨h1, h2⟩ | ⟨h, _⟩ | ⟨used, es, h1, h2, h3⟩
  · rw [h1]; left; rfl
  · exact absurd h hio
  · rw [h3]
    exact readReply_cut p ⟨size, hsize, hnl, by omega⟩ pch _ env es c data hc hlen hreply hcut
      (fun h => hio (by rw [h1]; simp [h])) hmem

theorem passOn_left (p : Bytes) (hp : Sound p) (size : Nat) (hsize : bpSize p = some size) (pch : Pch)
    (w : World) (env : Env) (hst : SizeOk env.stream) (hmem : env.memPrompt = true) :
    passOn p size pch w env = .wait ∨ ∃ r, passOn p size pch w env = .ret r ∧ Left r := by
  have hu : ∀ (w' : World) u, ∃ r, convUnknown p pch w' env u = .ret r ∧ Left r := by
    intro w' u
    rcases convUnknown_spec p hp pch w' env u with ⟨_, h⟩ | ⟨h, _⟩
    · rw [hmem] at h; cases h
    · exact ⟨_, h, Or.inr ⟨rfl, _, rfl, failPrompt_sound⟩⟩
  have hnl : size ≤ p.length := by
    obtain ⟨n, hn, h, _⟩ := hp
    rw [hsize] at hn; cases hn; exact h
  unfold passOn
  split
  · right; exact hu w env.stream
  · rename_i a _
    rcases sendAll_spec p size hnl env.sched 0 (by omega) with ⟨h1, h2⟩ | ⟨_, n, es, _, h⟩ | ⟨used, es, h1, h2, h3⟩
    · rw [h1]; left; rfl
    · rw [h]; right; exact hu _ _
    · rw [h3]
      simp only
      rcases readReply_spec p hp pch { w with trace := w.trace ++ [.sent a.conn (p.take size)] } env es with
        ⟨_, h⟩ | h | ⟨_, h⟩ | ⟨v, q, u, h, hl⟩
      · exact absurd hst h
      · exact Or.inl h
      · rw [hmem] at h; cases h
      · exact Or.inr ⟨_, h, hl⟩

/-- C34 (safety): whatever prompt the server sent (sound in memory), whatever the agent replies and
however the transfers go, provided the reply's length field is at least 4 and not 2^32 - 1: no
access outside an object, and a call that returns leaves either FALSE and no prompt, or TRUE and a
prompt as long as its length field says. -/
theorem C34_safe_partial (pch : Pch) (pp : Option Bytes) (env : Env) (w : World)
    (hp : ∀ p, pp = some p → Sound p)
    (hreply : ∀ n, 5 ≤ env.stream.length → bpSize env.stream = some n → 4 ≤ n ∧ n ≠ 2 ^ 32 - 1)
    (hmem : env.memPrompt = true) :
    converse (some pch) (some pp) env w = .wait ∨
    ∃ r, converse (some pch) (some pp) env w = .ret r ∧
      ((r.value = 0 ∧ r.prompt = none) ∨ (r.value = 1 ∧ ∃ q, r.prompt = some q ∧ Sound q)) := by
  cases pp with
  | none =>
    right
    unfold converse
    exact ⟨_, convFailure_spec none (fun q h => by cases h) _ _ _, Or.inl ⟨rfl, rfl⟩⟩
  | some p =>
    have hps := hp p rfl
    have hu : ∀ pch' (w' : World) u, ∃ r, convUnknown p pch' w' env u = .ret r ∧ Left r := by
      intro pch' w' u
      rcases convUnknown_spec p hps pch' w' env u with ⟨_, h⟩ | ⟨h, _⟩
      · rw [hmem] at h; cases h
      · exact ⟨_, h, Or.inr ⟨rfl, _, rfl, failPrompt_sound⟩⟩
    obtain ⟨n, hn, hnl, hl5⟩ := hps
    have hcl : ∃ c, bpControl p = some c := by
      unfold bpControl
      exact ⟨p[4]'(by omega), by rw [List.getElem?_eq_getElem]⟩
    obtain ⟨c, hc⟩ := hcl
    unfold converse
    simp only [hn, hc]
    split
    · exact Or.inr (hu _ _ _)
    · split
      · exact Or.inr (hu _ _ _)
      · split
        · rw [if_neg (by omega)]
          split
          · exact Or.inr (hu _ _ _)
          · split
            · exact Or.inr (hu _ _ _)
            · split
              · exact passOn_left p ⟨n, hn, hnl, hl5⟩ n hn _ _ env hreply hmem
              · exact Or.inr (hu _ _ _)
        · exact passOn_left p ⟨n, hn, hnl, hl5⟩ n hn _ _ env hreply hmem

/-- a handle with one agent, for the examples -/
def exPch : Pch := ⟨some ⟨ascii "ops", 7⟩, [⟨ascii "ops", 7⟩], [], [ascii "/lib/pamc"]⟩

/-- plenty of everything -/
def exEnv (stream : Bytes) (sched : List Ev) : Env :=
  { stat := fun _ => true, memAgent := true, memId := true, memPath := fun _ => true, spawn := true,
    memBlock := true, memPrompt := true, stream := stream, sched := sched }

/-- C34 as stated is false: a reply whose length field is shorter than its header is not rejected;
with a length below 4 the client writes behind the block it has allocated, with length 4 the short
frame is passed to the client, with length 2^32 - 1 the size of the allocation wraps to 0. -/
theorem C34_short_frame_counterexample :
    converse (some exPch) (some (some (frame 1 []))) (exEnv [0, 0, 0, 3, 1] [.upto 9, .upto 9]) ⟨8, []⟩ = .ub ∧
    converse (some exPch) (some (some (frame 1 []))) (exEnv [0, 0, 0, 4, 1] [.upto 9, .upto 9]) ⟨8, []⟩ =
      .ret ⟨1, some [0, 0, 0, 4, 1], some exPch, ⟨8, [.sent 7 (frame 1 [])]⟩, []⟩ ∧
    converse (some exPch) (some (some (frame 1 []))) (exEnv [255, 255, 255, 255, 1] [.upto 9, .upto 9]) ⟨8, []⟩ = .ub := by
  decide +kernel

/-- the hypotheses are met: a prompt and its reply in pieces; a prompt without an agent; a reply cut
short; a write error -/
example :
    converse (some exPch) (some (some (frame 1 (ascii "hi") ++ [0])))
      (exEnv (frame 3 (ascii "bye") ++ [9]) [.upto 1, .intr, .upto 9, .upto 2, .upto 0, .intr, .upto 9, .upto 1, .upto 9]) ⟨8, []⟩ =
      .ret ⟨1, some (frame 3 (ascii "bye") ++ [0]), some exPch, ⟨8, [.sent 7 (frame 1 (ascii "hi"))]⟩, [9]⟩ ∧
    converse (some { exPch with current := none }) (some (some (frame 1 []))) (exEnv [] []) ⟨8, []⟩ =
      .ret ⟨1, some (frame 4 [] ++ [0]), some { exPch with current := none }, ⟨8, []⟩, []⟩ ∧
    converse (some exPch) (some (some (frame 1 []))) (exEnv ((frame 3 (ascii "bye")).take 6) [.upto 9, .upto 9, .upto 9, .upto 9]) ⟨8, []⟩ =
      .ret ⟨0, none, some exPch, ⟨8, [.sent 7 (frame 1 [])]⟩, []⟩ ∧
    converse (some exPch) (some (some (frame 1 []))) (exEnv [] [.upto 1, .err]) ⟨8, []⟩ =
      .ret ⟨1, some (frame 4 [] ++ [0]), some exPch, ⟨8, [.sent 7 [0, 0]]⟩, []⟩ := by
  decide +kernel

/-! ### C46: which programs are run -/

/-- C46 (confinement): for every history of calls on a handle, every program the library has run is a
file of its own agent directories, named by a single path component. -/
theorem C46_confined (path : Bytes) (n : Nat) (h : List (Op × Env × Int)) (pch : Pch) (w : World)
    (hr : Run (start path) ⟨n, []⟩ h pch w) (file : Bytes) (c : Nat) (hx : Event.exec file c ∈ w.trace) :
    ∃ dir ∈ (start path).paths, ∃ id, file = agentFile dir id ∧ (47 : UInt8) ∉ id := by
  obtain ⟨hi, hp, _⟩ := run_inv (start_inv path n) hr
  obtain ⟨a, _, _, dir, hd, h1, h2⟩ := hi.listed file c hx
  exact ⟨dir, by rw [← hp]; exact hd, a.id, h1, h2⟩

theorem run_append {pch : Pch} {w : World} {h1 : List (Op × Env × Int)} {x : Op × Env × Int} {h2 : List (Op × Env × Int)} {pch' : Pch} {w' : World}
    (hr : Run pch w (h1 ++ x :: h2) pch' w') :
    ∃ p1 w1 p2 w2, Run pch w h1 p1 w1 ∧ step p1 w1 x.1 x.2.1 = some (x.2.2, p2, w2) ∧ Run p2 w2 h2 pch' w' := by
  generalize hh : h1 ++ x :: h2 = h at hr
  induction hr generalizing h2 with
  | nil => simp at hh
  | @snoc h' p' w' op env v p'' w'' hr' hs ih =>
    rcases List.eq_nil_or_concat h2 with h | ⟨h2', y, h⟩
    · subst h
      have := List.append_inj' hh rfl
      obtain ⟨e1, e2⟩ := this
      cases e2
      subst e1
      exact ⟨p', w', p'', w'', hr', hs, .nil⟩
    · rw [List.concat_eq_append] at h
      subst h
      rw [show h1 ++ x :: (h2' ++ [y]) = (h1 ++ x :: h2') ++ [y] by simp] at hh
      obtain ⟨e1, e2⟩ := List.append_inj' hh rfl
      cases e2
      obtain ⟨p1, w1, p2, w2, a1, a2, a3⟩ := ih e1
      exact ⟨p1, w1, p2, w2, a1, a2, .snoc a3 hs⟩

/-- C46 (disabled agents): if at some point of the history pamc_disable reported success for an agent,
then that agent has never been run and never will be. -/
theorem C46_disabled_never_run (path : Bytes) (n : Nat) (h : List (Op × Env × Int)) (pch : Pch) (w : World)
    (hr : Run (start path) ⟨n, []⟩ h pch w) (id : Bytes) (env : Env) (hd : (Op.disable id, env, (1 : Int)) ∈ h)
    (dir : Bytes) (c : Nat) (hid : (47 : UInt8) ∉ id) : Event.exec (agentFile dir id) c ∉ w.trace := by
  obtain ⟨h1, h2, hh⟩ := List.append_of_mem hd
  rw [hh] at hr
  obtain ⟨p1, w1, p2, w2, r1, r2, r3⟩ := run_append hr
  obtain ⟨hi1, _⟩ := run_inv (start_inv path n) r1
  obtain ⟨hi2, _⟩ := step_inv hi1 r2
  obtain ⟨hi3, _, hb⟩ := run_inv hi2 r3
  have hblk : id ∈ p2.blocked := by
    simp only [step] at r2
    rcases disable_cases p1 id env with hc | ⟨hc, _, h⟩ | ⟨hc, _⟩
    · rw [hc] at r2; cases r2
    · rw [hc] at r2; cases r2; exact h
    · rw [hc] at r2; cases r2; simp
  intro hx
  obtain ⟨a, ha, _, dir', _, heq, h47⟩ := hi3.listed _ _ hx
  obtain ⟨_, hid'⟩ := agentFile_inj hid h47 heq
  exact hi3.blocked a ha (by rw [← hid']; exact hb id hblk)

/-- C46 (once): no agent is run twice. -/
theorem C46_run_once (path : Bytes) (n : Nat) (h : List (Op × Env × Int)) (pch : Pch) (w : World)
    (hr : Run (start path) ⟨n, []⟩ h pch w) (id dir dir' : Bytes) (c c' : Nat) (hid : (47 : UInt8) ∉ id)
    (h1 : Event.exec (agentFile dir id) c ∈ w.trace) (h2 : Event.exec (agentFile dir' id) c' ∈ w.trace) : c = c' := by
  obtain ⟨hi, _⟩ := run_inv (start_inv path n) hr
  obtain ⟨a, ha, hc, _, _, e1, k1⟩ := hi.listed _ _ h1
  obtain ⟨b, hb, hc', _, _, e2, k2⟩ := hi.listed _ _ h2
  have i1 := (agentFile_inj hid k1 e1).2
  have i2 := (agentFile_inj hid k2 e2).2
  have hab : a = b := by
    apply Decidable.byContradiction
    intro hne
    have hpw := hi.ids
    have : ∀ (l : List Agent), l.Pairwise (fun a b => a.id ≠ b.id) → a ∈ l → b ∈ l → a = b := by
      intro l
      induction l with
      | nil => simp
      | cons x xs ih =>
        intro hp h1 h2
        rw [List.pairwise_cons] at hp
        simp only [List.mem_cons] at h1 h2
        rcases h1 with h1 | h1 <;> rcases h2 with h2 | h2
        · rw [h1, h2]
        · exact absurd (by rw [← h1, ← i1, i2]) (hp.1 b h2)
        · exact absurd (by rw [← h2, ← i2, i1]) (hp.1 a h1)
        · exact ih hp.2 h1 h2
    exact hne (this _ hpw ha hb)
  rw [← hc, ← hc', hab]

/-! ### C47: which agent gets a prompt -/

/-- a SELECT prompt for agent `id`: control byte 2, the name, a slash, anything -/
def Selects (p : Bytes) (id : Bytes) : Prop :=
  ∃ args tail, p = frame 2 (id ++ 47 :: args) ++ tail ∧ (47 : UInt8) ∉ id ∧ (0 : UInt8) ∉ id ∧
    id.length + args.length + 7 < 2 ^ 32

/-- the prompt is not a SELECT prompt -/
def NoSelect : Op → Prop
  | .converse (some (some p)) => p[4]? ≠ some 2
  | _ => True

theorem noselect_step {pch : Pch} {w : World} {op : Op} {env : Env} {v : Int} {pch' : Pch} {w' : World}
    (hs : step pch w op env = some (v, pch', w')) (hn : NoSelect op) :
    pch'.current = pch.current ∧ ∃ evs, w'.trace = w.trace ++ evs ∧
    ∀ c bs, Event.sent c bs ∈ evs → ∃ a, pch.current = some a ∧ a.conn = c := by
  cases op with
  | load id =>
    simp only [step, Option.some.injEq] at hs
    rcases load_cases pch id env w with h | ⟨h, _⟩ | ⟨d, _, h, _⟩ <;> rw [h] at hs <;> cases hs
    · exact ⟨rfl, [], by simp, by simp⟩
    · exact ⟨rfl, [], by simp, by simp⟩
    · exact ⟨rfl, _, rfl, by simp⟩
  | disable id =>
    simp only [step] at hs
    rcases disable_cases pch id env with h | ⟨h, _⟩ | ⟨h, _⟩ <;> rw [h] at hs <;> cases hs <;>
      exact ⟨rfl, [], by simp, by simp⟩
  | converse pp =>
    simp only [step] at hs
    cases hc : converse (some pch) pp env w with
    | ub => rw [hc] at hs; cases hs
    | wait => rw [hc] at hs; cases hs
    | exit => rw [hc] at hs; cases hs
    | ret r =>
      rw [hc] at hs
      simp only at hs
      rcases converse_cases pch pp env w r hc with ⟨h1, h2⟩ | ⟨p, size, name, id, hpp, _, hctl, _⟩
      · rw [h1] at hs
        cases hs
        refine ⟨rfl, ?_⟩
        rcases h2 with h2 | ⟨a, bs', h2, h3, _⟩
        · rw [h2]; exact ⟨[], by simp, by simp⟩
        · rw [h3]
          refine ⟨_, rfl, fun c bs h => ?_⟩
          simp only [List.mem_singleton] at h
          cases h
          exact ⟨a, h2, rfl⟩
      · subst hpp
        exact absurd hctl hn

theorem takeWhile_append_stop {α : Type} (f : α → Bool) (l : List α) (x : α) (r : List α) (h1 : ∀ a ∈ l, f a = true) (h2 : f x = false) :
    (l ++ x :: r).takeWhile f = l := by
  induction l with
  | nil => simp [h2]
  | cons a l ih =>
    rw [List.cons_append, List.takeWhile_cons, if_pos (h1 a (by simp)), ih (fun b hb => h1 b (by simp [hb]))]

theorem select_name {p id : Bytes} (hs : Selects p id) {size : Nat} {name : Bytes} (hz : bpSize p = some size)
    (hn : selectName p size = some name) : name = id := by
  obtain ⟨args, tail, hp, h47, _, hlen⟩ := hs
  have hfl : (frame 2 (id ++ 47 :: args)).length = 5 + (id ++ 47 :: args).length := by simp [frame, be32]; omega
  have hsz : size = 5 + (id ++ 47 :: args).length := by
    rw [hp, frame, List.append_assoc, List.append_assoc, bpSize_be32 _ _ (by simp; omega)] at hz
    cases hz; rfl
  unfold selectName at hn
  have hd : (p.take size).drop minSize = id ++ 47 :: args := by
    rw [hp, hsz, ← hfl, List.take_left' rfl, frame, List.drop_left' (by simp [be32, minSize])]
  rw [hd] at hn
  have htw : (id ++ 47 :: args).takeWhile (fun c => c != 47) = id := by
    apply takeWhile_append_stop
    · intro a ha
      simp only [bne_iff_ne, ne_eq]
      intro h; exact h47 (h ▸ ha)
    · decide
  simp only [htw] at hn
  split at hn
  · cases hn
  · split at hn
    · cases hn; rfl
    · cases hn

theorem select_step {pch : Pch} {w : World} {p id : Bytes} (hsel : Selects p id) {env : Env} {v : Int} {pch' : Pch} {w' : World}
    (hs : step pch w (.converse (some (some p))) env = some (v, pch', w')) :
    ∃ evs, w'.trace = w.trace ++ evs ∧
      ((∀ c bs, Event.sent c bs ∉ evs) ∨
       ∃ a ∈ pch'.chain, pch'.current = some a ∧ a.id = id ∧ ∀ c bs, Event.sent c bs ∈ evs → c = a.conn) := by
  simp only [step] at hs
  cases hc : converse (some pch) (some (some p)) env w with
  | ub => rw [hc] at hs; cases hs
  | wait => rw [hc] at hs; cases hs
  | exit => rw [hc] at hs; cases hs
  | ret r =>
    rw [hc] at hs
    simp only at hs
    have hctl : bpControl p = some bpcSelect := by
      obtain ⟨args, tail, hp, _⟩ := hsel
      rw [hp]; rfl
    rcases converse_cases pch _ env w r hc with ⟨h1, h2⟩ | ⟨p', size, name, id', hpp, hsz, _, hn, hid, h2⟩
    · rw [h1] at hs
      cases hs
      rcases h2 with h2 | ⟨_, _, _, _, h3⟩
      · rw [h2]; exact ⟨[], by simp, Or.inl (by simp)⟩
      · exact absurd hctl (h3 p rfl)
    · cases hpp
      have hname := select_name hsel hsz hn
      have hid' : id' = id := by
        rw [hid, hname]
        obtain ⟨_, _, _, _, h0, _⟩ := hsel
        have := List.takeWhile_append_of_pos (p := fun c : UInt8 => c != 0) (l₁ := id) (l₂ := [])
          (fun c hc => by simp only [bne_iff_ne, ne_eq]; intro h; exact h0 (h ▸ hc))
        simpa using this
      have hl : ∃ evs, (load pch id' env w).2.2.trace = w.trace ++ evs ∧ ∀ c bs, Event.sent c bs ∉ evs := by
        rcases load_cases pch id' env w with h | ⟨h, _⟩ | ⟨d, _, h, _⟩ <;> rw [h]
        · exact ⟨[], by simp, by simp⟩
        · exact ⟨[], by simp, by simp⟩
        · exact ⟨_, rfl, by simp⟩
      obtain ⟨evs, he1, he2⟩ := hl
      rcases h2 with ⟨h2, h3, _⟩ | ⟨a, hf, _, h2, h3⟩
      · rw [h2] at hs
        cases hs
        rw [h3]
        exact ⟨evs, he1, Or.inl he2⟩
      · rw [h2] at hs
        cases hs
        have hin := List.mem_of_find?_eq_some hf
        have hia : a.id = id := by
          have := List.find?_some hf
          rw [beq_iff_eq] at this
          rw [this, hid']
        rcases h3 with h3 | ⟨bs, h3⟩
        · rw [h3]
          exact ⟨evs, he1, Or.inl he2⟩
        · rw [h3]
          refine ⟨evs ++ [.sent a.conn bs], by simp [he1], Or.inr ⟨a, hin, rfl, hia, ?_⟩⟩
          intro c bs' h
          simp only [List.mem_append, List.mem_singleton] at h
          rcases h with h | h
          · exact absurd h (he2 c bs')
          · cases h; rfl

theorem noselect_run {pch : Pch} {w : World} {t : List (Op × Env × Int)} {pch' : Pch} {w' : World}
    (hr : Run pch w t pch' w') (hn : ∀ x ∈ t, NoSelect x.1) :
    pch'.current = pch.current ∧ ∃ evs, w'.trace = w.trace ++ evs ∧
    ∀ c bs, Event.sent c bs ∈ evs → ∃ a, pch.current = some a ∧ a.conn = c := by
  induction hr with
  | nil => exact ⟨rfl, [], by simp, by simp⟩
  | snoc _ hs ih =>
    obtain ⟨h1, evs, h2, h3⟩ := ih (fun x hx => hn x (by simp [hx]))
    obtain ⟨h4, evs', h5, h6⟩ := noselect_step hs (hn (_, _, _) (List.mem_append_right _ List.mem_cons_self))
    refine ⟨h4.trans h1, evs ++ evs', by rw [h5, h2, List.append_assoc], ?_⟩
    intro c bs h
    rw [List.mem_append] at h
    rcases h with h | h
    · exact h3 c bs h
    · obtain ⟨a, h7, h8⟩ := h6 c bs h
      exact ⟨a, by rw [← h1]; exact h7, h8⟩

/-- C47 (routing): consider any history, then a SELECT prompt naming agent `id` that the library passed
on to an agent, then any calls without another SELECT prompt.  From the SELECT on, everything the
library sent went to one process, and that process was started from a file called `id` in one of the
agent directories. -/
theorem C47_routed (path : Bytes) (n : Nat) (h t : List (Op × Env × Int)) (p id : Bytes) (env : Env) (v : Int)
    (p1 p2 p3 : Pch) (w1 w2 w3 : World)
    (hr1 : Run (start path) ⟨n, []⟩ h p1 w1) (hsel : Selects p id)
    (hs : step p1 w1 (.converse (some (some p))) env = some (v, p2, w2))
    (hpassed : ∃ c bs, Event.sent c bs ∈ w2.trace.drop w1.trace.length)
    (hr2 : Run p2 w2 t p3 w3) (hno : ∀ x ∈ t, NoSelect x.1) :
    ∃ c0, (∃ dir ∈ (start path).paths, Event.exec (agentFile dir id) c0 ∈ w2.trace) ∧
      ∀ c bs, Event.sent c bs ∈ w3.trace.drop w1.trace.length → c = c0 := by
  obtain ⟨hi1, hp1, _⟩ := run_inv (start_inv path n) hr1
  obtain ⟨hi2, hp2, _⟩ := step_inv hi1 hs
  obtain ⟨evs, e1, e2⟩ := select_step hsel hs
  obtain ⟨_, evs', e3, e4⟩ := noselect_run hr2 hno
  have d2 : w2.trace.drop w1.trace.length = evs := by rw [e1, List.drop_left' rfl]
  have d3 : w3.trace.drop w1.trace.length = evs ++ evs' := by
    rw [e3, e1, List.append_assoc, List.drop_left' rfl]
  rw [d2] at hpassed
  rw [d3]
  obtain ⟨c, bs, hc⟩ := hpassed
  rcases e2 with e2 | ⟨a, ha, hcur, hid, hto⟩
  · exact absurd hc (e2 c bs)
  · obtain ⟨dir, hd, hx⟩ := hi2.started a ha
    refine ⟨a.conn, ⟨dir, by rw [← hp1, ← hp2]; exact hd, by rw [← hid]; exact hx⟩, ?_⟩
    intro c bs h
    rw [List.mem_append] at h
    rcases h with h | h
    · exact hto c bs h
    · obtain ⟨b, h1, h2⟩ := e4 c bs h
      rw [hcur] at h1
      cases h1
      exact h2.symm

/-- C47 (no agent): before the first successful selection nothing is sent anywhere. -/
theorem C47_nothing_before_selection (path : Bytes) (n : Nat) (h : List (Op × Env × Int)) (pch : Pch) (w : World)
    (hr : Run (start path) ⟨n, []⟩ h pch w) (hno : ∀ x ∈ h, NoSelect x.1) (c : Nat) (bs : Bytes) :
    Event.sent c bs ∉ w.trace := by
  obtain ⟨_, evs, e1, e2⟩ := noselect_run hr hno
  intro hx
  rw [e1] at hx
  obtain ⟨a, ha, _⟩ := e2 c bs (by simpa using hx)
  cases ha

/-! ### C48: the end -/

theorem shutdown_spec (status : Nat → Bool) : ∀ (as : List Agent) (w : World),
    (shutdown status as w).2.trace = w.trace ++ (as.map (fun a => [Event.closed a.conn, Event.reaped a.conn])).flatten ∧
    ((shutdown status as w).1 = 1 ∨ (shutdown status as w).1 = 0) ∧
    ((shutdown status as w).1 = 1 ↔ ∀ a ∈ as, status a.conn = true) := by
  intro as
  induction as with
  | nil => intro w; simp [shutdown]
  | cons a as ih =>
    intro w
    obtain ⟨h1, h2, h3⟩ := ih { w with trace := w.trace ++ [.closed a.conn, .reaped a.conn] }
    simp only [shutdown]
    refine ⟨by rw [h1]; simp, ?_, ?_⟩
    · split
      · exact h2
      · right; rfl
    · cases hs : status a.conn with
      | true => simp [hs, h3]
      | false => simp [hs]

/-- C48: for every history of calls, pamc_end closes the pipes of every agent that was run and waits
for it, each exactly once, touches no other process, and reports success exactly if every one of
them exited with 0. -/
theorem C48_end (path : Bytes) (n : Nat) (h : List (Op × Env × Int)) (pch : Pch) (w : World)
    (hr : Run (start path) ⟨n, []⟩ h pch w) (status : Nat → Bool) :
    (∀ c, (∃ file, Event.exec file c ∈ w.trace) →
      (pend (some (some pch)) status w).2.trace.count (.closed c) = 1 ∧
      (pend (some (some pch)) status w).2.trace.count (.reaped c) = 1) ∧
    (∀ c, (¬ ∃ file, Event.exec file c ∈ w.trace) →
      Event.closed c ∉ (pend (some (some pch)) status w).2.trace ∧ Event.reaped c ∉ (pend (some (some pch)) status w).2.trace) ∧
    ((pend (some (some pch)) status w).1 = 1 ↔ ∀ file c, Event.exec file c ∈ w.trace → status c = true) := by
  obtain ⟨hi, _, _⟩ := run_inv (start_inv path n) hr
  obtain ⟨h1, _, h3⟩ := shutdown_spec status pch.chain w
  have hcount : ∀ (l : List Agent), l.Pairwise (fun a b => a.conn ≠ b.conn) → ∀ a ∈ l,
      ((l.map (fun a => [Event.closed a.conn, Event.reaped a.conn])).flatten).count (.closed a.conn) = 1 ∧
      ((l.map (fun a => [Event.closed a.conn, Event.reaped a.conn])).flatten).count (.reaped a.conn) = 1 := by
    intro l
    have hzero : ∀ (l : List Agent) (c : Nat), (∀ b ∈ l, b.conn ≠ c) →
        ((l.map (fun a => [Event.closed a.conn, Event.reaped a.conn])).flatten).count (.closed c) = 0 ∧
        ((l.map (fun a => [Event.closed a.conn, Event.reaped a.conn])).flatten).count (.reaped c) = 0 := by
      intro l c hl
      constructor <;>
      · rw [List.count_eq_zero]
        intro hm
        rw [List.mem_flatten] at hm
        obtain ⟨x, hx, hm⟩ := hm
        rw [List.mem_map] at hx
        obtain ⟨b, hb, rfl⟩ := hx
        simp at hm
        exact hl b hb hm.symm
    induction l with
    | nil => simp
    | cons b bs ih =>
      intro hp a ha
      rw [List.pairwise_cons] at hp
      simp only [List.mem_cons] at ha
      rcases ha with ha | ha
      · subst ha
        obtain ⟨z1, z2⟩ := hzero bs a.conn (fun x hx => (hp.1 x hx).symm)
        simp only [List.map_cons, List.flatten_cons, List.count_append, z1, z2]
        constructor <;> simp
      · obtain ⟨z1, z2⟩ := ih hp.2 a ha
        simp only [List.map_cons, List.flatten_cons, List.count_append, z1, z2]
        have := hp.1 a ha
        constructor <;> simp [this]
  refine ⟨?_, ?_, ?_⟩
  · rintro c ⟨file, hx⟩
    obtain ⟨a, ha, hc, _⟩ := hi.listed file c hx
    obtain ⟨k1, k2⟩ := hcount pch.chain hi.conns a ha
    rw [hc] at k1 k2
    simp only [pend, h1, List.count_append]
    rw [List.count_eq_zero.mpr (hi.open_ c).1, List.count_eq_zero.mpr (hi.open_ c).2, k1, k2]
    exact ⟨rfl, rfl⟩
  · intro c hx
    simp only [pend, h1]
    have hnot : ∀ e ∈ (pch.chain.map (fun a => [Event.closed a.conn, Event.reaped a.conn])).flatten,
        e ≠ .closed c ∧ e ≠ .reaped c := by
      intro e he
      rw [List.mem_flatten] at he
      obtain ⟨x, hx', he⟩ := he
      rw [List.mem_map] at hx'
      obtain ⟨b, hb, rfl⟩ := hx'
      have hbc : b.conn ≠ c := by
        intro hbc
        obtain ⟨dir, _, hs⟩ := hi.started b hb
        exact hx ⟨_, hbc ▸ hs⟩
      simp only [List.mem_cons, List.not_mem_nil, or_false] at he
      rcases he with he | he <;> subst he <;> simp [hbc]
    constructor
    · intro hm
      rw [List.mem_append] at hm
      rcases hm with hm | hm
      · exact (hi.open_ c).1 hm
      · exact (hnot _ hm).1 rfl
    · intro hm
      rw [List.mem_append] at hm
      rcases hm with hm | hm
      · exact (hi.open_ c).2 hm
      · exact (hnot _ hm).2 rfl
  · simp only [pend, h3]
    constructor
    · intro hall file c hx
      obtain ⟨a, ha, hc, _⟩ := hi.listed file c hx
      rw [← hc]; exact hall a ha
    · intro hall a ha
      obtain ⟨dir, _, hs⟩ := hi.started a ha
      exact hall _ _ hs

/-- the hypotheses are met: a history that disables one agent, selects another, and talks to it -/
example : ∃ p1 w1 p2 w2,
    Run (start defaultPath) ⟨3, []⟩ [(.disable (ascii "bad"), exEnv [] [], 1), (.load (ascii "bad"), exEnv [] [], 0)] p1 w1 ∧
    Selects (frame 2 (ascii "ops/x")) (ascii "ops") ∧
    step p1 w1 (.converse (some (some (frame 2 (ascii "ops/x"))))) (exEnv (frame 1 []) [.upto 99, .upto 99]) = some (1, p2, w2) ∧
    w2.trace = [.exec (ascii "/lib/pamc/ops") 3, .sent 3 (frame 2 (ascii "ops/x"))] ∧
    (pend (some (some p2)) (fun _ => true) w2).1 = 1 := by
  refine ⟨⟨none, [], [ascii "bad"], [ascii "/lib/pamc", ascii "/usr/lib/pamc"]⟩, ⟨3, []⟩,
    ⟨some ⟨ascii "ops", 3⟩, [⟨ascii "ops", 3⟩], [ascii "bad"], [ascii "/lib/pamc", ascii "/usr/lib/pamc"]⟩,
    ⟨4, [.exec (ascii "/lib/pamc/ops") 3, .sent 3 (frame 2 (ascii "ops/x"))]⟩, ?_, ?_, ?_, rfl, rfl⟩
  · exact .snoc (h := [_]) (pch' := ⟨none, [], [ascii "bad"], [ascii "/lib/pamc", ascii "/usr/lib/pamc"]⟩) (w' := ⟨3, []⟩)
      (.snoc (h := []) (.nil) (by decide +kernel)) (by decide +kernel)
  · exact ⟨ascii "x", [], by decide +kernel, by decide +kernel, by decide +kernel, by decide +kernel⟩
  · decide +kernel

end Pam.Pamc
