import Verif.Audit.Netlink
/-
C188: pam_tty_audit and the kernel.
-/
namespace Pam.Audit.Netlink
open Pam Pam.Small Pam.Audit

namespace Spec

/-- a header of a message of this type: `struct nlmsghdr`, linux/netlink.h -/
def Header (type : Nat) (h : Bytes) : Prop := h.length = 16 ∧ ∃ l0 l1 l2 l3 t0 t1 rest, h = l0 :: l1 :: l2 :: l3 :: t0 :: t1 :: rest ∧ t0 + 256 * t1 = type

/-- an acknowledgement, or an error: the first four bytes after the header are the number of the error, 0 for none -/
def Ack (zero : Prop) (b : Bytes) : Prop :=
  ∃ h x0 x1 x2 x3 rest, b = h ++ x0 :: x1 :: x2 :: x3 :: rest ∧ Header 2 h ∧ 16 ≤ rest.length ∧ (zero ↔ x0 = 0 ∧ x1 = 0 ∧ x2 = 0 ∧ x3 = 0)

/-- a number in four bytes -/
def Four (n : Nat) (x : Bytes) : Prop :=
  ∃ x0 x1 x2 x3, x = [x0, x1, x2, x3] ∧ (x0 < 256 ∧ x1 < 256 ∧ x2 < 256 ∧ x3 < 256) ∧ n = x0 + 256 * x1 + 65536 * x2 + 16777216 * x3

/-- a request of this type, with these flags and data: its length, the type, the flags, and two numbers that are 0 -/
def Request (type flags : Nat) (data b : Bytes) : Prop :=
  ∃ l t0 t1, b = l ++ [t0, t1, flags, 0, 0, 0, 0, 0, 0, 0, 0, 0] ++ data ∧ Four b.length l ∧ (t0 < 256 ∧ t1 < 256) ∧ t0 + 256 * t1 = type

/-- a kernel's answer to the question for the status, and whether the status can be read from it: after acknowledgements the status itself, which
older kernels send without the second number; or an error; or it cannot be received -/
inductive Answer (s : Status) : List Recv → Bool → Prop
  | status (h x y : Bytes) (q : List Recv) : Header 1016 h → Four s.enabled x → Four s.logPasswd y → Answer s (.msg (h ++ (x ++ y)) true :: q) true
  | older (h x : Bytes) (q : List Recv) : Header 1016 h → Four s.enabled x → s.logPasswd = 0 → Answer s (.msg (h ++ x) true :: q) true
  | ack (b : Bytes) (q : List Recv) (r : Bool) : Ack True b → Answer s q r → Answer s (.msg b true :: q) r
  | refused (b : Bytes) (q : List Recv) : Ack False b → Answer s (.msg b true :: q) false
  | lost (q : List Recv) : Answer s (.fail :: q) false
  | gone (h p : Bytes) (t : Nat) (q : List Recv) : Header t h → Answer s (.msg (h ++ p) false :: q) false

/-- a kernel's answer to a new status, what the status is then, and what came of it -/
inductive Done (old new : Status) : Status × List Recv → Setting → Prop
  | ok (b : Bytes) (a : Bool) (q : List Recv) : Ack True b → Done old new (new, .msg b a :: q) .ok
  | refused (b : Bytes) (a : Bool) (q : List Recv) : Ack False b → Done old new (old, .msg b a :: q) .refused
  | lost (q : List Recv) : Done old new (new, .fail :: q) .lost
  | nothing (q : List Recv) : Done old new (old, .fail :: q) .refused

end Spec
open Spec

/-! ### helper lemmas -/

theorem typeOf_header {t : Nat} {h : Bytes} (hh : Header t h) : typeOf h = t := by
  obtain ⟨-, l0, l1, l2, l3, t0, t1, rest, rfl, e⟩ := hh
  unfold typeOf get16
  simpa using e

theorem header_of {h : Bytes} (hl : h.length = 16) : Header (typeOf h) h := by
  match h, hl with
  | l0 :: l1 :: l2 :: l3 :: t0 :: t1 :: rest, hl => exact ⟨hl, l0, l1, l2, l3, t0, t1, rest, rfl, by simp [typeOf, get16]⟩

theorem over_header {nlm h p : Bytes} (hn : nlm.length = 16) (hl : h.length = 16) : over nlm ((h ++ p).take 16) = h := by
  have e : (h ++ p).take 16 = h := by rw [← hl]; exact List.take_left' rfl
  unfold over
  rw [e, hn, List.take_of_length_le (by omega), List.drop_of_length_le (by omega), List.append_nil]

theorem finish_eq {type size : Nat} {h p nlm buf : Bytes} (hn : nlm.length = 16) (hl : h.length = 16) (hb : buf.length = size) :
    finish type size (h ++ p) nlm buf = if typeOf h = type then .ok (p.take size ++ List.replicate (size - p.length) 0) else .err := by
  unfold finish
  rw [over_header hn hl]
  have e1 : (h ++ p).drop 16 = p := by rw [← hl]; exact List.drop_left' rfl
  rw [e1]
  dsimp only
  rw [show (h ++ p).length = 16 + p.length by rw [List.length_append, hl]]
  have e2 : (((16 + size : Nat) : Int) - (min (16 + p.length) (16 + size) : Nat)) = ((size - p.length : Nat) : Int) := by omega
  rw [e2]
  by_cases ht : typeOf h = type
  · rw [if_neg (fun x => x.elim (fun x => by omega) (fun x => x ht)), if_pos ht]
    have e3 : over buf (p.take size) = p.take size ++ buf.drop p.length := by
      unfold over
      rw [hb, List.take_take, Nat.min_self, List.length_take]
      by_cases hle : p.length ≤ size
      · rw [Nat.min_eq_right hle]
      · rw [Nat.min_eq_left (by omega), List.drop_of_length_le (by omega), List.drop_of_length_le (by omega)]
    rw [e3]
    by_cases hz : p.length < size
    · rw [if_pos (by omega), if_neg (by omega)]
      congr 2
      rw [Int.toNat_natCast, show size - (size - p.length) = p.length by omega, List.take_of_length_le (l := p) (by omega), List.take_left' rfl]
    · rw [if_neg (by omega), List.drop_of_length_le (by omega), show size - p.length = 0 by omega]
      rfl
  · rw [if_pos (Or.inr ht), if_neg ht]

theorem split16 {b : Bytes} (h : 16 ≤ b.length) : ∃ h p, b = h ++ p ∧ h.length = 16 :=
  ⟨b.take 16, b.drop 16, (List.take_append_drop 16 b).symm, by rw [List.length_take]; omega⟩

theorem over_length {nlm b : Bytes} (hn : nlm.length = 16) : (over nlm (b.take 16)).length = 16 := by
  unfold over
  rw [List.length_append, List.length_take, List.length_drop, List.length_take]
  omega

/-- one message that is looked at first -/
theorem recv_msg {type size : Nat} (ht : type ≠ 2) {h p nlm buf : Bytes} {again : Bool} {q : List Recv} (hn : nlm.length = 16) (hl : h.length = 16) (hb : buf.length = size) :
    nlRecv type size (.msg (h ++ p) again :: q) nlm buf =
      if again = false then .err
      else if typeOf h = 2 then (if p.length < 20 then .err else if get32 p 0 = 0 then nlRecv type size q h buf else .err)
      else if typeOf h = type then .ok (p.take size ++ List.replicate (size - p.length) 0) else .err := by
  have hlen : (h ++ p).length = 16 + p.length := by rw [List.length_append, hl]
  have h32 : get32 (h ++ p) 16 = get32 p 0 := by
    unfold get32
    simp only [List.getD_eq_getElem?_getD]
    rw [List.getElem?_append_right (by omega), List.getElem?_append_right (by omega), List.getElem?_append_right (by omega), List.getElem?_append_right (by omega), hl]
  rw [nlRecv.eq_3]
  unfold NLMSG_ERROR
  dsimp only
  rw [if_pos ht, over_header hn hl, over_header hl hl, hlen, finish_eq hl hl hb, h32]
  rw [if_neg (by omega)]
  cases again with
  | false => by_cases h2 : typeOf h = 2 <;> simp [h2]
  | true =>
    have tf : ¬ (true = false) := by simp
    rw [if_neg tf, if_neg tf, if_neg tf]
    by_cases h2 : typeOf h = 2
    · rw [if_pos h2, if_pos h2]
      by_cases hp : p.length < 20
      · rw [if_pos (Or.inl (show min (16 + p.length) 36 ≠ 36 by omega)), if_pos hp]
      · rw [if_neg (show ¬ (min (16 + p.length) 36 ≠ 36 ∨ typeOf h ≠ 2) from fun x => x.elim (fun x => by omega) (fun x => x h2)), if_neg hp]
    · rw [if_neg h2, if_neg h2]

/-- what the answer to `nl_recv` may be -/
def Fine (type size : Nat) (q : List Recv) (o : Out Bytes) : Prop :=
  o ≠ .ub ∧ ∀ r, o = .ok r → ∃ h p a, .msg (h ++ p) a ∈ q ∧ Header type h ∧ r = p.take size ++ List.replicate (size - p.length) 0

theorem fine_err {type size : Nat} {q : List Recv} : Fine type size q .err := ⟨by simp, by intro r e; cases e⟩

theorem fine_more {type size : Nat} {q : List Recv} {x : Recv} {o : Out Bytes} (h : Fine type size q o) : Fine type size (x :: q) o :=
  ⟨h.1, fun r e => by
    obtain ⟨h', p, a, k1, k2⟩ := h.2 r e
    exact ⟨h', p, a, List.mem_cons_of_mem _ k1, k2⟩⟩

/-! ### the theorems -/

/-- C188: reading the status: whatever datagrams come, nothing is written outside the buffer; and it succeeds only with a message of the type that was
asked for, whose bytes are then in the buffer, with zeros for those that are missing. -/
theorem C188_status {type size : Nat} (ht : type ≠ 2) (q : List Recv) {buf : Bytes} (hb : buf.length = size) : ∀ {nlm : Bytes}, nlm.length = 16 →
    nlRecv type size q nlm buf ≠ .ub ∧
    ∀ r, nlRecv type size q nlm buf = .ok r → ∃ h p a, .msg (h ++ p) a ∈ q ∧ Header type h ∧ r = p.take size ++ List.replicate (size - p.length) 0 := by
  induction q with
  | nil => intro nlm hn; exact ⟨by simp [nlRecv], by intro r e; simp [nlRecv] at e⟩
  | cons x q ih =>
    intro nlm hn
    cases x with
    | fail => exact ⟨by simp [nlRecv], by intro r e; simp [nlRecv] at e⟩
    | msg b again =>
      show Fine type size (.msg b again :: q) (nlRecv type size (.msg b again :: q) nlm buf)
      by_cases h16 : 16 ≤ b.length
      · obtain ⟨h, p, rfl, hl⟩ := split16 h16
        rw [recv_msg ht hn hl hb]
        split
        · exact fine_err
        · split
          · split
            · exact fine_err
            · split
              · exact fine_more (ih hl)
              · exact fine_err
          · split
            · rename_i htype
              refine ⟨by simp, fun r e => ?_⟩
              injection e with e
              exact ⟨h, p, again, by simp, htype ▸ header_of hl, e.symm⟩
            · exact fine_err
      · have : nlRecv type size (.msg b again :: q) nlm buf = .err := by
          unfold nlRecv
          rw [if_pos (show type ≠ NLMSG_ERROR from ht)]
          dsimp only
          rw [if_pos (by omega)]
        rw [this]
        exact fine_err

/-- C188: waiting for the acknowledgement: with datagrams that have a whole header nothing is written outside the buffer; and it succeeds only if the
message is of type NLMSG_ERROR and the bytes with the number of the error are 0, as far as they were sent.  Not proved, because it is false: the same
without regard to the length of the datagram (`C188_short_counterexample`). -/
theorem C188_acknowledged_partial (q : List Recv) (hq : ∀ b a, .msg b a ∈ q → 16 ≤ b.length) {nlm err : Bytes} (hn : nlm.length = 16) (he : err.length = 20) :
    nlRecvAck q nlm err ≠ .ub ∧
    (nlRecvAck q nlm err = .ok () → ∃ h p a rest, q = .msg (h ++ p) a :: rest ∧ Header 2 h ∧ ∀ x ∈ p.take 4, x = 0) ∧
    ∀ h x0 x1 x2 x3 p a rest, q = .msg (h ++ x0 :: x1 :: x2 :: x3 :: p) a :: rest → Header 2 h →
      nlRecvAck q nlm err = if x0 = 0 ∧ x1 = 0 ∧ x2 = 0 ∧ x3 = 0 then .ok () else .err := by
  have whole : ∀ h p a rest, h.length = 16 → q = .msg (h ++ p) a :: rest → nlRecvAck q nlm err =
      if typeOf h = 2 then (if get32 (p.take 20 ++ List.replicate (20 - p.length) 0) 0 ≠ 0 then .err else .ok ()) else .err := by
    intro h p a rest hl e
    unfold nlRecvAck
    rw [e]
    unfold nlRecv
    rw [if_neg (by simp), finish_eq hn hl he]
    unfold NLMSG_ERROR
    by_cases h2 : typeOf h = 2
    · rw [if_pos h2, if_pos h2]
    · rw [if_neg h2, if_neg h2]
  refine ⟨?_, ?_, ?_⟩
  · cases q with
    | nil => simp [nlRecvAck, nlRecv]
    | cons x q =>
      cases x with
      | fail => simp [nlRecvAck, nlRecv]
      | msg b a =>
        obtain ⟨h, p, rfl, hl⟩ := split16 (hq b a (by simp))
        rw [whole h p a q hl rfl]
        split
        · split <;> simp
        · simp
  · intro hok
    cases q with
    | nil => simp [nlRecvAck, nlRecv] at hok
    | cons x q =>
      cases x with
      | fail => simp [nlRecvAck, nlRecv] at hok
      | msg b a =>
        obtain ⟨h, p, rfl, hl⟩ := split16 (hq b a (by simp))
        rw [whole h p a q hl rfl] at hok
        split at hok
        · rename_i h2
          split at hok
          · cases hok
          · rename_i hz
            refine ⟨h, p, a, q, rfl, h2 ▸ header_of hl, ?_⟩
            have hz := Classical.not_not.mp hz
            unfold get32 at hz
            match p, hz with
            | [], _ => simp
            | [a0], hz => simp at hz ⊢; omega
            | [a0, a1], hz => simp at hz ⊢; omega
            | [a0, a1, a2], hz => simp at hz ⊢; omega
            | a0 :: a1 :: a2 :: a3 :: t, hz => simp at hz ⊢; omega
        · cases hok
  · intro h x0 x1 x2 x3 p a rest e hh
    rw [whole h _ a rest hh.1 e, if_pos (typeOf_header hh)]
    have e32 : get32 ((x0 :: x1 :: x2 :: x3 :: p).take 20 ++ List.replicate (20 - (x0 :: x1 :: x2 :: x3 :: p).length) 0) 0 = x0 + 256 * x1 + 65536 * x2 + 16777216 * x3 := by
      simp [get32]
    rw [e32]
    by_cases hz : x0 = 0 ∧ x1 = 0 ∧ x2 = 0 ∧ x3 = 0
    · rw [if_pos hz, if_neg (by omega)]
    · rw [if_neg hz, if_pos (by omega)]

/-- C188: the bytes of a request are its length, the type, NLM_F_REQUEST with the flags, and the data. -/
theorem C188_request (type flags : Nat) (data : Bytes) (ht : type < 2 ^ 16) (hf : flags = 0 ∨ flags = 4) (hd : data.length < 1000) :
    Request type (1 + flags) data (request type flags data) := by
  have hlen : (request type flags data).length = 16 + data.length := by simp [request, le32, le16]; omega
  refine ⟨le32 (16 + data.length), type % 256, type / 256 % 256, ?_, ?_, ?_, ?_⟩
  · unfold request le16
    rcases hf with rfl | rfl <;> rfl
  · rw [hlen]
    exact ⟨_, _, _, _, rfl, by omega, by omega⟩
  · omega
  · omega

theorem four_le32 {n : Nat} (h : n < 2 ^ 32) : Four n (le32 n) := ⟨_, _, _, _, rfl, by omega, by omega⟩

theorem answer_recv {s : Status} {q : List Recv} {r : Bool} (h : Answer s q r) {buf : Bytes} (hb : buf.length = 8) : ∀ {nlm : Bytes}, nlm.length = 16 →
    (r = true → ∃ b, nlRecv AUDIT_TTY_GET 8 q nlm buf = .ok b ∧ decode b = s) ∧ (r = false → nlRecv AUDIT_TTY_GET 8 q nlm buf = .err) := by
  have hne : AUDIT_TTY_GET ≠ 2 := by decide
  induction h with
  | status h x y q hh hx hy =>
    intro nlm hn
    refine ⟨fun _ => ?_, fun e => by cases e⟩
    rw [recv_msg hne hn hh.1 hb, typeOf_header hh, if_neg (by simp), if_neg (by decide), if_pos (show 1016 = AUDIT_TTY_GET from rfl)]
    obtain ⟨x0, x1, x2, x3, rfl, -, ex⟩ := hx
    obtain ⟨y0, y1, y2, y3, rfl, -, ey⟩ := hy
    refine ⟨_, rfl, ?_⟩
    cases s
    simp only at ex ey
    simp [decode, get32, ex, ey]
  | older h x q hh hx hz =>
    intro nlm hn
    refine ⟨fun _ => ?_, fun e => by cases e⟩
    rw [recv_msg hne hn hh.1 hb, typeOf_header hh, if_neg (by simp), if_neg (by decide), if_pos (show 1016 = AUDIT_TTY_GET from rfl)]
    obtain ⟨x0, x1, x2, x3, rfl, -, ex⟩ := hx
    refine ⟨_, rfl, ?_⟩
    cases s
    simp only at ex hz
    simp [decode, get32, ex, hz, List.replicate]
  | ack b q r hb' _ ih =>
    intro nlm hn
    obtain ⟨h, x0, x1, x2, x3, rest, rfl, hh, hl, hz⟩ := hb'
    obtain ⟨rfl, rfl, rfl, rfl⟩ := hz.mp trivial
    rw [recv_msg hne hn hh.1 hb, typeOf_header hh, if_neg (by simp), if_pos rfl, if_neg (by simp; omega), if_pos (by simp [get32])]
    exact ih hh.1
  | refused b q hb' =>
    intro nlm hn
    refine ⟨fun e => by (cases e), fun _ => ?_⟩
    obtain ⟨h, x0, x1, x2, x3, rest, rfl, hh, hl, hz⟩ := hb'
    rw [recv_msg hne hn hh.1 hb, typeOf_header hh, if_neg (by simp), if_pos rfl, if_neg (by simp; omega), if_neg]
    intro e
    refine hz.mpr ?_
    simp [get32] at e
    omega
  | lost q => intro nlm hn; exact ⟨fun e => by (cases e), fun _ => by simp [nlRecv]⟩
  | gone h p t q hh =>
    intro nlm hn
    refine ⟨fun e => by (cases e), fun _ => ?_⟩
    rw [recv_msg hne hn hh.1 hb, if_pos rfl]

theorem done_ack {old new : Status} {r : Status × List Recv} {x : Setting} (h : Done old new r x) {nlm err : Bytes} (hn : nlm.length = 16) (he : err.length = 20) :
    r.1 = (if x = .refused then old else new) ∧ nlRecvAck r.2 nlm err = if x = .ok then .ok () else .err := by
  have ack : ∀ (z : Prop) [Decidable z] (b : Bytes) (a : Bool) (q : List Recv), Ack z b → nlRecvAck (.msg b a :: q) nlm err = if z then .ok () else .err := by
    intro z _ b a q hb
    obtain ⟨h, x0, x1, x2, x3, rest, rfl, hh, hl, hz⟩ := hb
    have e : nlRecvAck (.msg (h ++ x0 :: x1 :: x2 :: x3 :: rest) a :: q) nlm err = nlRecvAck [.msg (h ++ x0 :: x1 :: x2 :: x3 :: rest) a] nlm err := rfl
    rw [e, (C188_acknowledged_partial [.msg (h ++ x0 :: x1 :: x2 :: x3 :: rest) a] (by
      intro b' a' hm
      rw [List.mem_singleton] at hm
      injection hm with e1 _
      rw [e1, List.length_append, hh.1]
      omega) hn he).2.2 h x0 x1 x2 x3 rest a [] rfl hh]
    by_cases hd : x0 = 0 ∧ x1 = 0 ∧ x2 = 0 ∧ x3 = 0
    · rw [if_pos hd, if_pos (hz.mpr hd)]
    · rw [if_neg hd, if_neg (fun e => hd (hz.mp e))]
  cases h with
  | ok b a q hb => exact ⟨rfl, by rw [ack True b a q hb]; rfl⟩
  | refused b a q hb => exact ⟨rfl, by rw [ack False b a q hb]; rfl⟩
  | lost q => exact ⟨rfl, rfl⟩
  | nothing q => exact ⟨rfl, rfl⟩

/-- the module as it is in Audit/Tty.lean, where reading and setting the status come out like this -/
def Wire.world (w : Wire) (get : Bool) (set : Setting) : World := ⟨w.user, w.fnmatch, w.socket, get, w.save, set⟩

theorem set_wire {w : Wire} {new : Status} {st : State} {set : Setting} {get : Bool} (hn : w.nlm.length = 16) (he : w.err.length = 20)
    (hs : (w.sentSet = none ∧ set = .refused) ∨
      (w.sentSet = some 24 ∧ Done st.kernel new (w.kernel (request 1017 4 (encode new)) st.kernel) set)) :
    setWire w new st = .ok (setStatus (w.world get set) new st) := by
  have hlen : (encode new).length = 8 := rfl
  unfold setWire setStatus nlSend AUDIT_TTY_SET NLM_F_ACK Wire.world
  rw [hlen]
  rcases hs with ⟨h1, rfl⟩ | ⟨h1, h2⟩
  · rw [h1]
    simp
  · rw [h1]
    obtain ⟨k1, k2⟩ := done_ack h2 hn he
    dsimp only
    rw [if_pos (show (some 24 : Option Nat).isSome = true from rfl), if_neg (show ¬ ((24 == 16 + 8) = false) by decide), k2, k1]
    cases set <;> rfl

/-- C188: the module with a kernel that answers as it should, or fails to, does what the model without the messages does (C142, C143): it ends, with
the code and the status that model gives. -/
theorem C188_session (w : Wire) (argv : List Str) (st : State) (hn : w.nlm.length = 16) (hb : w.buf.length = 8) (he : w.err.length = 20) (get : Bool) (set : Setting)
    (hsv : ∀ s, st.saved = some s → s.enabled < 2 ^ 32 ∧ s.logPasswd < 2 ^ 32)
    (hget : (w.sentGet = none ∧ get = false) ∨
      (w.sentGet = some 16 ∧ ∀ b, Request 1016 1 [] b → ∃ q, w.kernel b st.kernel = (st.kernel, q) ∧ Answer st.kernel q get))
    (hset : (w.sentSet = none ∧ set = .refused) ∨
      (w.sentSet = some 24 ∧ ∀ new x y b, Four new.enabled x → Four new.logPasswd y → Request 1017 5 (x ++ y) b → Done st.kernel new (w.kernel b st.kernel) set)) :
    openWire w argv st = .ok (openSession (w.world get set) argv st) ∧
    closeWire w st = .ok (closeSession (w.world get set) st) := by
  have hset' : ∀ new sv, new.enabled < 2 ^ 32 → new.logPasswd < 2 ^ 32 → setWire w new { st with saved := sv } = .ok (setStatus (w.world get set) new { st with saved := sv }) := by
    intro new sv hn1 hn2
    refine set_wire hn he ?_
    rcases hset with h | ⟨h1, h2⟩
    · exact Or.inl h
    · exact Or.inr ⟨h1, h2 new _ _ _ (four_le32 hn1) (four_le32 hn2) (C188_request 1017 4 _ (by decide) (Or.inr rfl) (show (8 : Nat) < 1000 by decide))⟩
  constructor
  · unfold openWire openSession
    show _ = Out.ok (match w.user with | none => _ | some (user, uid) => _)
    cases hu : w.user with
    | none => rfl
    | some p =>
      obtain ⟨user, uid⟩ := p
      dsimp only
      show _ = Out.ok (match (argv.foldl (arg w.fnmatch user uid) {}).command with | none => _ | some c => _)
      cases hc : (argv.foldl (arg w.fnmatch user uid) {}).command with
      | none => rfl
      | some c =>
        dsimp only
        show _ = Out.ok (match w.socket with | .unsupported => _ | .failed => _ | .ok => _)
        cases hk : w.socket with
        | unsupported => rfl
        | failed => rfl
        | ok =>
          dsimp only
          rcases hget with ⟨h1, rfl⟩ | ⟨h1, hk2⟩
          · rw [h1]
            rfl
          · obtain ⟨q, h2, h3⟩ := hk2 _ (C188_request 1016 0 [] (by decide) (Or.inl rfl) (by decide))
            have hreq : w.kernel (request AUDIT_TTY_GET 0 []) st.kernel = (st.kernel, q) := h2
            rw [h1, if_pos (show (some 16 : Option Nat).isSome = true from rfl), hreq, if_neg (show ¬ nlSend (some 16) [] = false by decide)]
            dsimp only
            cases get with
            | false =>
              rw [(answer_recv h3 hb hn).2 rfl]
              rfl
            | true =>
              obtain ⟨b, k1, k2⟩ := (answer_recv h3 hb hn).1 rfl
              rw [k1]
              dsimp only
              rw [k2]
              rw [if_neg (show ¬ (w.world true set).get = false by simp [Wire.world])]
              rw [show (w.world true set).fnmatch = w.fnmatch from rfl, show (w.world true set).save = w.save from rfl]
              generalize argv.foldl (arg w.fnmatch user uid) {} = s
              have hiff : (st.kernel.enabled = (if c then 1 else 0) ∧ st.kernel.logPasswd = (if s.logPasswd then 1 else 0)) ↔
                  st.kernel = (⟨if c then 1 else 0, if s.logPasswd then 1 else 0⟩ : Status) := by
                cases hst : st.kernel
                simp
              by_cases hsame : st.kernel = (⟨if c then 1 else 0, if s.logPasswd then 1 else 0⟩ : Status)
              · rw [if_pos (hiff.mpr hsame), if_pos hsame]
              · rw [if_neg (fun e => hsame (hiff.mp e)), if_neg hsame]
                by_cases hsv : s.openOnly = false ∧ w.save = false
                · rw [if_pos hsv, if_pos hsv]
                · rw [if_neg hsv, if_neg hsv]
                  by_cases ho : s.openOnly = true
                  · rw [if_pos ho]
                    exact hset' _ st.saved (by dsimp only; split <;> decide) (by dsimp only; split <;> decide)
                  · rw [if_neg ho]
                    exact hset' _ (some st.kernel) (by dsimp only; split <;> decide) (by dsimp only; split <;> decide)
  · unfold closeWire closeSession
    cases hs0 : st.saved with
    | none => rfl
    | some old =>
      dsimp only
      show _ = Out.ok (if w.socket ≠ .ok then _ else _)
      by_cases hk : w.socket ≠ .ok
      · rw [if_pos hk, if_pos hk]
      · rw [if_neg hk, if_neg hk]
        exact hset' old st.saved (hsv old hs0).1 (hsv old hs0).2

/-- C188: a datagram shorter than a header, of the type of an acknowledgement: bytes before the buffer are written over.  And one that ends with its
header counts as an acknowledgement without an error.  (The kernel sends neither.) -/
theorem C188_short_counterexample :
    nlRecvAck [.msg [0, 0, 0, 0, 2, 0] true] (List.replicate 16 7) (List.replicate 20 7) = .ub ∧
    nlRecvAck [.msg [16, 0, 0, 0, 2, 0, 0, 0, 0, 0, 0, 0, 0, 0, 0, 0] true] (List.replicate 16 7) (List.replicate 20 7) = .ok () := by decide +kernel

/-! ### an example -/

/-- a kernel with auditing off, that does as it is told -/
def exKernel (b : Bytes) (s : Status) : Status × List Recv :=
  if get16 b 4 = 1016 then (s, [.msg ([24, 0, 0, 0, 248, 3] ++ List.replicate 10 0 ++ (le32 s.enabled ++ le32 s.logPasswd)) true])
  else (decode (b.drop 16), [.msg ([36, 0, 0, 0, 2, 0] ++ List.replicate 10 0 ++ List.replicate 20 0) true])

def exWire : Wire := ⟨some ("ann".toList, 1000), fun p s => p == "*".toList || p == s, .ok, true, some 16, some 24, exKernel, List.replicate 16 7, List.replicate 8 7, List.replicate 20 7⟩

/-- witness for C188: opening with `enable=*`, and closing -/
example : openWire exWire ["enable=*".toList] ⟨⟨0, 0⟩, none⟩ = .ok (PAM_SUCCESS, ⟨⟨1, 0⟩, some ⟨0, 0⟩⟩) ∧
    closeWire exWire ⟨⟨1, 0⟩, some ⟨0, 0⟩⟩ = .ok (PAM_SUCCESS, ⟨⟨0, 0⟩, some ⟨0, 0⟩⟩) := by decide +kernel

/-- witness for C188: it meets the hypotheses of `C188_session` -/
example : openWire exWire ["enable=*".toList] ⟨⟨0, 0⟩, none⟩ = .ok (openSession (exWire.world true .ok) ["enable=*".toList] ⟨⟨0, 0⟩, none⟩) := by
  refine (C188_session exWire _ ⟨⟨0, 0⟩, none⟩ rfl rfl rfl true .ok (by intro s e; cases e) (Or.inr ⟨rfl, ?_⟩) (Or.inr ⟨rfl, ?_⟩)).1
  · intro b hb
    obtain ⟨l, t0, t1, rfl, ⟨x0, x1, x2, x3, rfl, -, -⟩, -, ht⟩ := hb
    have hk : exKernel ([x0, x1, x2, x3] ++ [t0, t1, 1, 0, 0, 0, 0, 0, 0, 0, 0, 0] ++ []) ⟨0, 0⟩ =
        (⟨0, 0⟩, [.msg ([24, 0, 0, 0, 248, 3] ++ List.replicate 10 0 ++ (le32 0 ++ le32 0)) true]) := by
      unfold exKernel
      rw [if_pos (by simpa [get16] using ht)]
    refine ⟨_, hk, .status ([24, 0, 0, 0, 248, 3] ++ List.replicate 10 0) [0, 0, 0, 0] [0, 0, 0, 0] [] ⟨rfl, _, _, _, _, _, _, _, rfl, rfl⟩
      ⟨_, _, _, _, rfl, by decide, rfl⟩ ⟨_, _, _, _, rfl, by decide, rfl⟩⟩
  · intro new x y b hx hy hb
    obtain ⟨x0, x1, x2, x3, rfl, -, hx⟩ := hx
    obtain ⟨y0, y1, y2, y3, rfl, -, hy⟩ := hy
    obtain ⟨l, t0, t1, rfl, ⟨z0, z1, z2, z3, rfl, -, -⟩, -, ht⟩ := hb
    have hk : exKernel ([z0, z1, z2, z3] ++ [t0, t1, 5, 0, 0, 0, 0, 0, 0, 0, 0, 0] ++ ([x0, x1, x2, x3] ++ [y0, y1, y2, y3])) ⟨0, 0⟩ =
        (new, [.msg ([36, 0, 0, 0, 2, 0] ++ List.replicate 10 0 ++ List.replicate 20 0) true]) := by
      unfold exKernel
      rw [if_neg (by simp [get16]; omega)]
      cases new
      simp only at hx hy
      simp [decode, get32, hx, hy]
    show Done ⟨0, 0⟩ new (exKernel _ ⟨0, 0⟩) .ok
    rw [hk]
    exact .ok _ true [] ⟨[36, 0, 0, 0, 2, 0] ++ List.replicate 10 0, 0, 0, 0, 0, List.replicate 16 0, rfl, ⟨rfl, _, _, _, _, _, _, _, rfl, rfl⟩, by decide, by simp⟩

end Pam.Audit.Netlink
