import Verif.Pamc.Lemmas
/-
Lemmas about pamc_converse.
-/
namespace Pam.Pamc
open Pam.Util (Ev Res sysRead sysWrite storeAt)
open Spec

theorem bpSize_lt {raw : Bytes} {n : Nat} (h : bpSize raw = some n) : n < 2 ^ 32 := by
  match raw, h with
  | a :: b :: c :: d :: _, h =>
    simp only [bpSize, Option.some.injEq] at h
    have h1 := a.toNat_lt
    have h2 := b.toNat_lt
    have h3 := c.toNat_lt
    have h4 := d.toNat_lt
    omega

theorem bpSize_take5 (s : Bytes) (h : 5 ≤ s.length) : bpSize (s.take 5) = bpSize s ∧
    (∃ n, bpSize s = some n) ∧ ∃ c, bpControl (s.take 5) = some c := by
  match s, h with
  | a :: b :: c :: d :: e :: rest, _ =>
    exact ⟨rfl, ⟨_, rfl⟩, ⟨e, rfl⟩⟩

/-- what a completed call leaves: FALSE and no prompt, or TRUE and a sound prompt -/
def Left (r : Conv) : Prop :=
  (r.value = 0 ∧ r.prompt = none) ∨ (r.value = 1 ∧ ∃ q, r.prompt = some q ∧ Sound q)

theorem failPrompt_sound : Sound (be32 5 ++ [bpcFail] ++ List.replicate 1 0) :=
  sound_be32 5 _ (by decide) _ (by simp)

theorem convUnknown_spec (p : Bytes) (hp : Sound p) (pch : Pch) (w : World) (env : Env) (unread : Bytes) :
    (convUnknown p pch w env unread = .exit ∧ env.memPrompt = false) ∨
    (convUnknown p pch w env unread =
      .ret ⟨1, some (be32 5 ++ [bpcFail] ++ [0]), some pch, w, unread⟩ ∧ env.memPrompt = true) := by
  have hs : ∀ q, some p = some q → Sound q := fun q h => by cases h; exact hp
  unfold convUnknown
  rcases renew_cases (some p) hs bpcFail 5 env.memPrompt (by decide) with ⟨_, h⟩ | ⟨h, hm⟩ | ⟨h, _⟩ | ⟨_, h, _⟩
  · omega
  · left; rw [h]; exact ⟨rfl, hm⟩
  · exact absurd h (by decide)
  · right
    rw [h]
    refine ⟨rfl, ?_⟩
    cases hm : env.memPrompt with
    | true => rfl
    | false =>
      rw [hm] at h
      unfold renew at h
      simp only [overruns_sound _ hs, Bool.false_eq_true, if_false, Bool.not_false, if_true] at h
      rw [if_neg (by decide)] at h
      cases h

theorem convFailure_spec (old : Option Bytes) (hs : ∀ p, old = some p → Sound p) (pch : Option Pch) (w : World) (unread : Bytes) :
    convFailure (some old) pch w unread = .ret ⟨0, none, pch, w, unread⟩ := by
  unfold convFailure
  rw [renew_none old hs]

/-- the size field of a stream, when there is one, is one the code handles -/
def SizeOk (stream : Bytes) : Prop := ∀ n, 5 ≤ stream.length → bpSize stream = some n → 4 ≤ n ∧ n ≠ 2 ^ 32 - 1

theorem header_prefix {raw : Bytes} (h5 : raw.length = 5) {n : Nat} {c : UInt8} (hn : bpSize raw = some n)
    (hc : bpControl raw = some c) : be32 n ++ [c] = raw := by
  match raw, h5 with
  | [a, b, x, d, e], _ =>
    simp only [bpSize, Option.some.injEq] at hn
    simp only [bpControl, List.getElem?_cons_succ, List.getElem?_cons_zero, Option.some.injEq] at hc
    subst hc
    have h1 := a.toNat_lt
    have h2 := b.toNat_lt
    have h3 := x.toNat_lt
    have h4 := d.toNat_lt
    simp only [be32, List.cons_append, List.nil_append, List.cons.injEq, and_true]
    refine ⟨?_, ?_, ?_, ?_⟩ <;> (apply UInt8.toNat_inj.mp; simp only [UInt8.toNat_ofNat']; omega)

theorem readReply_spec (p : Bytes) (hp : Sound p) (pch : Pch) (w : World) (env : Env) (sched : List Ev) :
    (readReply p pch w env sched = .ub ∧ ¬ SizeOk env.stream) ∨
    readReply p pch w env sched = .wait ∨
    (readReply p pch w env sched = .exit ∧ env.memPrompt = false) ∨
    (∃ v q u, readReply p pch w env sched = .ret ⟨v, q, some pch, w, u⟩ ∧ Left ⟨v, q, some pch, w, u⟩) := by
  have hs : ∀ q, some p = some q → Sound q := fun q h => by cases h; exact hp
  have hunk : ∀ q unread, Sound q → (∃ x, convUnknown q pch w env unread = x ∧
      (x = .ub ∧ ¬ SizeOk env.stream ∨ x = .wait ∨ x = .exit ∧ env.memPrompt = false ∨
        ∃ v q u, x = .ret ⟨v, q, some pch, w, u⟩ ∧ Left ⟨v, q, some pch, w, u⟩)) := by
    intro q unread hq
    refine ⟨_, rfl, ?_⟩
    rcases convUnknown_spec q hq pch w env unread with ⟨h1, h2⟩ | ⟨h1, h2⟩
    · right; right; left; exact ⟨h1, h2⟩
    · right; right; right; exact ⟨_, _, _, h1, Or.inr ⟨rfl, _, rfl, failPrompt_sound⟩⟩
  unfold readReply
  have h5 : minSize = ([] : Bytes).length + 5 := rfl
  have hr : List.replicate minSize (0 : UInt8) = [] ++ List.replicate 5 0 := rfl
  rw [hr]
  rcases recvAll_spec sched [] (List.replicate 5 0) env.stream 5 (by simp) with
    ⟨h1, _⟩ | ⟨_, got, rest, es, h1, _⟩ | ⟨hl, used, es, _, _, h1⟩ | ⟨_, es, h1⟩
  · rw [show recvAll minSize ([] ++ List.replicate 5 0) 0 env.stream sched = .wait from h1]
    right; left; rfl
  · rw [show recvAll minSize ([] ++ List.replicate 5 0) 0 env.stream sched = _ from h1]
    obtain ⟨x, h2, h3⟩ := hunk p rest hp
    simp only
    rw [h2]; exact h3
  · rw [show recvAll minSize ([] ++ List.replicate 5 0) 0 env.stream sched = _ from h1]
    have hraw : ([] : Bytes) ++ env.stream.take 5 ++ (List.replicate 5 0).drop 5 = env.stream.take 5 := by simp
    rw [hraw]
    obtain ⟨hb1, ⟨n, hn⟩, c, hc⟩ := bpSize_take5 env.stream hl
    have hn5 : bpSize (env.stream.take 5) = some n := by rw [hb1, hn]
    simp only [hn5, hc]
    rcases renew_cases (some p) hs c n env.memPrompt (bpSize_lt hn) with ⟨h, hbad⟩ | ⟨h, hm⟩ | ⟨hc0, h⟩ | ⟨hc0, h, hok⟩
    · left
      rw [h]
      exact ⟨rfl, fun hso => by have := hso n hl hn; omega⟩
    · rw [h]; right; right; left; exact ⟨rfl, hm⟩
    · rw [h]
      simp only
      rcases renew_cases none (fun q h => by cases h) bpcFail 5 env.memPrompt (by decide) with ⟨_, h⟩ | ⟨h, hm⟩ | ⟨h, _⟩ | ⟨_, h, _⟩
      · omega
      · rw [h]; right; right; left; exact ⟨rfl, hm⟩
      · exact absurd h (by decide)
      · rw [h]; right; right; right
        exact ⟨_, _, _, rfl, Or.inr ⟨rfl, _, rfl, failPrompt_sound⟩⟩
    · rw [h]
      simp only
      have hpre : (be32 n ++ [c]).length = minSize := by simp [be32, minSize]
      by_cases h4 : n = 4
      · subst h4
        have : recvAll 4 (be32 4 ++ [c] ++ List.replicate (4 - 4) 0) minSize (env.stream.drop 5) es =
            .ret (.ok, be32 4 ++ [c] ++ List.replicate (4 - 4) 0, env.stream.drop 5, es) := by
          cases es <;> rw [recvAll, if_neg (by decide)]
        rw [this]
        right; right; right
        exact ⟨_, _, _, rfl, Or.inr ⟨rfl, _, rfl, sound_be32 4 c (by decide) _ (by simp)⟩⟩
      · have hspec := recvAll_spec es (be32 n ++ [c]) (List.replicate (n - 4) 0) (env.stream.drop 5) (n - 5) (by simp; omega)
        rw [show (be32 n ++ [c]).length + (n - 5) = n by rw [hpre, minSize]; omega, hpre] at hspec
        rcases hspec with ⟨h1, _⟩ | ⟨_, got, rest, es', h1, hgl⟩ | ⟨hl', used', es', _, _, h1⟩ | ⟨hlt, es', h1⟩
        · rw [h1]; right; left; rfl
        · rw [h1]
          simp only
          obtain ⟨x, h2, h3⟩ := hunk (be32 n ++ [c] ++ got ++ List.drop got.length (List.replicate (n - 4) 0)) rest
            (by rw [List.append_assoc]; exact sound_be32 n c hok.2 _ (by simp at hgl ⊢; omega))
          rw [h2]; exact h3
        · rw [h1]
          right; right; right
          exact ⟨_, _, _, rfl, Or.inr ⟨rfl, _, rfl, by
            rw [List.append_assoc]; exact sound_be32 n c hok.2 _ (by simp at hl' ⊢; omega)⟩⟩
        · rw [h1]
          simp only
          rw [convFailure_spec _ (fun q h => by
            cases h
            rw [List.append_assoc]; exact sound_be32 n c hok.2 _ (by simp at hlt ⊢; omega))]
          right; right; right
          exact ⟨_, _, _, rfl, Or.inl ⟨rfl, rfl⟩⟩
  · rw [show recvAll minSize ([] ++ List.replicate 5 0) 0 env.stream sched = _ from h1]
    simp only
    rw [convFailure_spec _ hs]
    right; right; right
    exact ⟨_, _, _, rfl, Or.inl ⟨rfl, rfl⟩⟩

/-- a complete reply is delivered -/
theorem readReply_frame (p : Bytes) (hp : Sound p) (pch : Pch) (w : World) (env : Env) (sched : List Ev)
    (c : UInt8) (data rest : Bytes) (hc : c ≠ 0) (hlen : data.length + 6 < 2 ^ 32)
    (hst : env.stream = frame c data ++ rest) (hok : Ev.err ∉ sched) (hm : env.memPrompt = true) :
    (readReply p pch w env sched = .wait ∧ answers sched < (frame c data).length) ∨
    readReply p pch w env sched = .ret ⟨1, some (frame c data ++ [0]), some pch, w, rest⟩ := by
  have hs : ∀ q, some p = some q → Sound q := fun q h => by cases h; exact hp
  have hfl : (frame c data).length = 5 + data.length := by simp [frame, be32]; omega
  unfold readReply
  have hr : List.replicate minSize (0 : UInt8) = [] ++ List.replicate 5 0 := rfl
  rw [hr]
  have htake : env.stream.take 5 = be32 (5 + data.length) ++ [c] := by
    rw [hst, frame, List.append_assoc, List.take_left' (by simp [be32])]
  have hdrop : env.stream.drop 5 = data ++ rest := by
    rw [hst, frame, List.append_assoc, List.drop_left' (by simp [be32])]
  rcases recvAll_spec sched [] (List.replicate 5 0) env.stream 5 (by simp) with
    ⟨h1, ha⟩ | ⟨h, _⟩ | ⟨hl, used, es, hsch, hu, h1⟩ | ⟨hlt, es, h1⟩
  · rw [show recvAll minSize ([] ++ List.replicate 5 0) 0 env.stream sched = .wait from h1]
    left; exact ⟨rfl, by omega⟩
  · exact absurd h hok
  · rw [show recvAll minSize ([] ++ List.replicate 5 0) 0 env.stream sched = _ from h1]
    have hraw : ([] : Bytes) ++ env.stream.take 5 ++ (List.replicate 5 0).drop 5 = be32 (5 + data.length) ++ [c] := by
      rw [htake]; simp
    rw [hraw]
    have hb : bpSize (be32 (5 + data.length) ++ [c]) = some (5 + data.length) := bpSize_be32 _ _ (by omega)
    have hcc : bpControl (be32 (5 + data.length) ++ [c]) = some c := rfl
    simp only [hb, hcc, hm]
    rw [renew_ok (some p) hs c _ hc (by omega) (by omega)]
    simp only
    have hpre : (be32 (5 + data.length) ++ [c]).length = minSize := by simp [be32, minSize]
    have hspec := recvAll_spec es (be32 (5 + data.length) ++ [c]) (List.replicate (5 + data.length - 4) 0) (env.stream.drop 5)
      data.length (by simp; omega)
    rw [show (be32 (5 + data.length) ++ [c]).length + data.length = 5 + data.length by rw [hpre, minSize], hpre, hdrop] at hspec
    rw [hdrop]
    rcases hspec with ⟨h1, ha⟩ | ⟨h, _⟩ | ⟨hl', used', es', _, _, h1⟩ | ⟨hlt, _⟩
    · rw [h1]
      left
      refine ⟨rfl, ?_⟩
      rw [hsch, answers_append]; omega
    · exact absurd (by rw [hsch]; exact List.mem_append_right _ h) hok
    · rw [h1]
      right
      rw [List.take_left' rfl, List.drop_left' rfl]
      have : List.drop data.length (List.replicate (5 + data.length - 4) (0 : UInt8)) = [0] := by
        rw [List.drop_replicate, show 5 + data.length - 4 - data.length = 1 by omega]; rfl
      rw [this]
      rfl
    · rw [List.length_append] at hlt; omega
  · exfalso
    rw [hst, List.length_append, hfl] at hlt
    omega

/-- a reply that ends early is a conversation failure -/
theorem readReply_cut (p : Bytes) (hp : Sound p) (pch : Pch) (w : World) (env : Env) (sched : List Ev)
    (c : UInt8) (data : Bytes) (hc : c ≠ 0) (hlen : data.length + 6 < 2 ^ 32)
    (hpre : env.stream <+: frame c data) (hne : env.stream ≠ frame c data) (hok : Ev.err ∉ sched) (hm : env.memPrompt = true) :
    readReply p pch w env sched = .wait ∨
    readReply p pch w env sched = .ret ⟨0, none, some pch, w, []⟩ := by
  have hs : ∀ q, some p = some q → Sound q := fun q h => by cases h; exact hp
  have hfl : (frame c data).length = 5 + data.length := by simp [frame, be32]; omega
  obtain ⟨tail, htail⟩ := hpre
  have htl : 0 < tail.length := by
    cases tail with
    | nil => exact absurd (by simpa using htail) hne
    | cons _ _ => simp
  have hsl : env.stream.length < 5 + data.length := by
    have := congrArg List.length htail
    rw [List.length_append, hfl] at this
    omega
  unfold readReply
  have hr : List.replicate minSize (0 : UInt8) = [] ++ List.replicate 5 0 := rfl
  rw [hr]
  rcases recvAll_spec sched [] (List.replicate 5 0) env.stream 5 (by simp) with
    ⟨h1, ha⟩ | ⟨h, _⟩ | ⟨hl, used, es, hsch, hu, h1⟩ | ⟨hlt, es, h1⟩
  · rw [show recvAll minSize ([] ++ List.replicate 5 0) 0 env.stream sched = .wait from h1]
    left; rfl
  · exact absurd h hok
  · rw [show recvAll minSize ([] ++ List.replicate 5 0) 0 env.stream sched = _ from h1]
    have htake : env.stream.take 5 = be32 (5 + data.length) ++ [c] := by
      have h2 : (env.stream ++ tail).take 5 = env.stream.take 5 := List.take_append_of_le_length hl
      rw [← h2, htail, frame, List.take_left' (by simp [be32])]
    have hraw : ([] : Bytes) ++ env.stream.take 5 ++ (List.replicate 5 0).drop 5 = be32 (5 + data.length) ++ [c] := by
      rw [htake]; simp
    rw [hraw]
    have hb : bpSize (be32 (5 + data.length) ++ [c]) = some (5 + data.length) := bpSize_be32 _ _ (by omega)
    have hcc : bpControl (be32 (5 + data.length) ++ [c]) = some c := rfl
    simp only [hb, hcc, hm]
    rw [renew_ok (some p) hs c _ hc (by omega) (by omega)]
    simp only
    have hpre : (be32 (5 + data.length) ++ [c]).length = minSize := by simp [be32, minSize]
    have hspec := recvAll_spec es (be32 (5 + data.length) ++ [c]) (List.replicate (5 + data.length - 4) 0) (env.stream.drop 5)
      data.length (by simp; omega)
    rw [show (be32 (5 + data.length) ++ [c]).length + data.length = 5 + data.length by rw [hpre, minSize], hpre] at hspec
    rcases hspec with ⟨h1, ha⟩ | ⟨h, _⟩ | ⟨hl', used', es', _, _, h1⟩ | ⟨hlt, es', h1⟩
    · rw [h1]; left; rfl
    · exact absurd (by rw [hsch]; exact List.mem_append_right _ h) hok
    · rw [List.length_drop] at hl'; omega
    · rw [h1]
      simp only
      right
      rw [convFailure_spec _ (fun q h => by
        cases h
        rw [List.append_assoc]; exact sound_be32 _ c (by omega) _ (by simp; omega))]
  · rw [show recvAll minSize ([] ++ List.replicate 5 0) 0 env.stream sched = _ from h1]
    right
    simp only
    rw [convFailure_spec _ hs]

end Pam.Pamc
