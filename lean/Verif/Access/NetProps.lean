import Verif.Access.Props
/-
C41: network masks.
-/
namespace Pam.Access
open Pam Pam.Access.Spec

/-! ## masks -/

theorem and_mask_eq {x y n : Nat} (hx : x < 256) (hy : y < 256) (hn : n < 8) :
    (x &&& (255 <<< (8 - n)) % 256 = y &&& (255 <<< (8 - n)) % 256) ↔ ∀ i, i < n → x.testBit (7 - i) = y.testBit (7 - i) := by
  have hm : ∀ j, ((255 <<< (8 - n)) % 256).testBit j = (decide (j < 8) && decide (8 - n ≤ j)) := by
    intro j
    rw [show (256 : Nat) = 2 ^ 8 by rfl, Nat.testBit_mod_two_pow, Nat.testBit_shiftLeft,
      show (255 : Nat) = 2 ^ 8 - 1 by rfl, Nat.testBit_two_pow_sub_one]
    by_cases h1 : j < 8 <;> by_cases h2 : 8 - n ≤ j <;> simp [h1, h2]
    omega
  constructor
  · intro h i hi
    have := congrArg (Nat.testBit · (7 - i)) h
    simp only [Nat.testBit_and, hm] at this
    have h1 : 7 - i < 8 := by omega
    have h2 : 8 - n ≤ 7 - i := by omega
    simpa [h1, h2] using this
  · intro h
    apply Nat.eq_of_testBit_eq
    intro j
    simp only [Nat.testBit_and, hm]
    by_cases h1 : j < 8
    · by_cases h2 : 8 - n ≤ j
      · have := h (7 - j) (by omega)
        rw [show 7 - (7 - j) = j by omega] at this
        rw [this]
      · simp [h2]
    · simp [h1]

theorem bit_zero (a : Nat) (as : List Nat) {i : Nat} (h : i < 8) : bit (a :: as) i = a.testBit (7 - i) := by
  unfold bit
  rw [Nat.div_eq_of_lt h, Nat.mod_eq_of_lt h]
  rfl

theorem bit_succ (a : Nat) (as : List Nat) (i : Nat) : bit (a :: as) (i + 8) = bit as i := by
  unfold bit
  rw [Nat.add_div_right _ (by decide), Nat.add_mod_right]
  rfl

theorem zip_zero (l : List Nat) (k : Nat) (h : l.length = k) : List.zipWith (· &&& ·) l (List.replicate k 0) = List.replicate k 0 := by
  induction l generalizing k with
  | nil => cases h; rfl
  | cons a l ih =>
    cases h
    rw [List.length_cons, List.replicate_succ, List.zipWith_cons_cons, ih _ rfl, Nat.and_zero]

theorem byte_ext {x y : Nat} (hx : x < 256) (hy : y < 256) (h : ∀ i, i < 8 → x.testBit (7 - i) = y.testBit (7 - i)) : x = y := by
  apply Nat.eq_of_testBit_eq
  intro j
  by_cases hj : j < 8
  · have := h (7 - j) (by omega)
    rwa [show 7 - (7 - j) = j by omega] at this
  · have hp : 2 ^ 8 ≤ 2 ^ j := Nat.pow_le_pow_right (by decide) (by omega)
    rw [Nat.testBit_lt_two_pow (by omega), Nat.testBit_lt_two_pow (by omega)]

theorem masked_iff : ∀ (k n : Nat) (a b : List Nat), a.length = k → b.length = k → (∀ x ∈ a, x < 256) → (∀ x ∈ b, x < 256) →
    (List.zipWith (· &&& ·) a (maskBytes k n) = List.zipWith (· &&& ·) b (maskBytes k n) ↔ ∀ i, i < n → i < 8 * k → bit a i = bit b i) := by
  intro k
  induction k with
  | zero =>
    intro n a b ha hb _ _
    rw [List.length_eq_zero_iff.mp ha, List.length_eq_zero_iff.mp hb]
    simp
  | succ k ih =>
    intro n a b ha hb hxa hxb
    cases a with
    | nil => cases ha
    | cons x a =>
      cases b with
      | nil => cases hb
      | cons y b =>
        have hx := hxa x (by simp)
        have hy := hxb y (by simp)
        have ha' : a.length = k := by simpa using ha
        have hb' : b.length = k := by simpa using hb
        unfold maskBytes
        by_cases h8 : 8 ≤ n
        · rw [if_pos h8, List.zipWith_cons_cons, List.zipWith_cons_cons]
          rw [show (255 : Nat) = 2 ^ 8 - 1 by rfl, Nat.and_two_pow_sub_one_eq_mod, Nat.and_two_pow_sub_one_eq_mod,
            Nat.mod_eq_of_lt (by omega), Nat.mod_eq_of_lt (by omega), List.cons.injEq,
            ih (n - 8) a b ha' hb' (fun z hz => hxa z (by simp [hz])) (fun z hz => hxb z (by simp [hz]))]
          constructor
          · rintro ⟨rfl, h⟩ i hi hik
            by_cases hi8 : i < 8
            · rw [bit_zero _ _ hi8, bit_zero _ _ hi8]
            · rw [show i = (i - 8) + 8 by omega, bit_succ, bit_succ]
              exact h (i - 8) (by omega) (by omega)
          · intro h
            refine ⟨byte_ext hx hy ?_, ?_⟩
            · intro i hi
              have := h i (by omega) (by omega)
              rwa [bit_zero _ _ hi, bit_zero _ _ hi] at this
            · intro i hi hik
              have := h (i + 8) (by omega) (by omega)
              rwa [bit_succ, bit_succ] at this
        · rw [if_neg h8]
          by_cases h0 : 0 < n
          · rw [if_pos h0, List.zipWith_cons_cons, List.zipWith_cons_cons, zip_zero a k ha', zip_zero b k hb', List.cons.injEq,
              and_mask_eq hx hy (by omega)]
            constructor
            · rintro ⟨h, -⟩ i hi _
              rw [bit_zero _ _ (by omega), bit_zero _ _ (by omega)]
              exact h i hi
            · intro h
              refine ⟨?_, rfl⟩
              intro i hi
              have := h i hi (by omega)
              rwa [bit_zero _ _ (by omega), bit_zero _ _ (by omega)] at this
          · rw [if_neg h0, zip_zero (x :: a) (k + 1) ha, zip_zero (y :: b) (k + 1) hb]
            simp; omega

theorem maskBytes_length : ∀ k n, (maskBytes k n).length = k
  | 0, _ => rfl
  | k + 1, n => by
    unfold maskBytes
    split
    · rw [List.length_cons, maskBytes_length]
    · split <;> simp

theorem maskBytes_lt : ∀ k n x, x ∈ maskBytes k n → x < 256
  | 0, _, x, h => by cases h
  | k + 1, n, x, h => by
    unfold maskBytes at h
    split at h
    · rcases List.mem_cons.mp h with rfl | h
      · decide
      · exact maskBytes_lt k (n - 8) x h
    · split at h
      · rcases List.mem_cons.mp h with rfl | h
        · exact Nat.mod_lt _ (by decide)
        · rw [(List.mem_replicate.mp h).2]; decide
      · rw [(List.mem_replicate.mp h).2]; decide

/-! ## tokens -/

theorem lower_low {c d : Char} (hd : d.toNat < 65) (h : lower c = lower d) : c = d := by
  have ha : 'A'.toNat = 65 := rfl
  have hz : 'Z'.toNat = 90 := rfl
  have hd' : lower d = d := by
    unfold lower
    rw [if_neg (by omega)]
  rw [hd'] at h
  unfold lower at h
  split at h
  · rename_i hr
    have h1 : c.toNat + 32 < 0xd800 := by omega
    have h2 : (Char.ofNat (c.toNat + 32)).toNat = c.toNat + 32 := by
      rw [Char.ofNat, dif_pos (Or.inl h1)]; rfl
    rw [h] at h2
    omega
  · exact h

theorem isip_iff {sys : Sys} (law : Lawful sys) {s : Str} {f : Fam} {b : List Nat} : isip sys s = some (f, b) ↔ sys.pton f s = some b := by
  unfold isip
  cases h4 : sys.pton .v4 s with
  | some b4 =>
    simp only
    cases f with
    | v4 => rw [h4]; simp
    | v6 =>
      constructor
      · intro h; cases h
      · intro h; rw [law.family s b h] at h4; cases h4
  | none =>
    simp only
    cases h6 : sys.pton .v6 s with
    | some b6 =>
      simp only
      cases f with
      | v4 => rw [h4]; simp
      | v6 => rw [h6]; simp
    | none =>
      simp only
      cases f with
      | v4 => rw [h4]; simp
      | v6 => rw [h6]; simp

theorem no_slash {sys : Sys} (law : Lawful sys) {s : Str} {f : Fam} {b : List Nat} (h : sys.pton f s = some b) : ∀ c ∈ s, c ≠ '/' := by
  intro c hc e
  subst e
  rcases law.chars f s b h _ hc with h | h | h
  · revert h; decide
  · revert h; decide
  · revert h; decide

/-- a word with a slash after an address is looked at as a network -/
theorem from_network {sys : Sys} (law : Lawful sys) {item : Item} (hr : item.remote = true) (cache : Cache) {net mask : Str} {f : Fam}
    {b : List Nat} (hn : sys.pton f net = some b) (ho : ∀ c ∈ item.origin, c ≠ '/') (hm : mask.getLast? ≠ some '.') (hm' : mask ≠ []) :
    fromMatch sys item cache (net ++ '/' :: mask) = networkMatch sys item cache (net ++ '/' :: mask) := by
  obtain ⟨e1, e2, e3⟩ := law.ends f net b hn
  obtain ⟨c, net', rfl⟩ := List.exists_cons_of_ne_nil e1
  have hc := law.chars f _ b hn c (by simp)
  have h1 : (c :: net' ++ '/' :: mask).head? ≠ some '@' := by
    intro e
    cases e
    rcases hc with h | h | h
    · revert h; decide
    · revert h; decide
    · revert h; decide
  have hieq : ∀ s : Str, (∀ x ∈ s, x ≠ '/') → ieq (c :: net' ++ '/' :: mask) s = false := by
    intro s hs
    cases h : ieq (c :: net' ++ '/' :: mask) s with
    | false => rfl
    | true =>
      unfold ieq at h
      have h := beq_iff_eq.mp h
      have hmem : lower '/' ∈ s.map lower := by
        rw [← h]
        exact List.mem_map.mpr ⟨'/', by simp, rfl⟩
      obtain ⟨x, hx, hx'⟩ := List.mem_map.mp hmem
      have : x = '/' := lower_low (by decide) hx'
      exact absurd this (hs x hx)
  unfold fromMatch
  rw [if_neg h1, if_neg (by
    unfold stringMatch
    rw [hieq _ ho, hieq "ALL".toList (by decide)]
    simp), if_neg (by rw [hieq "LOCAL".toList (by decide)]; simp), if_pos hr]
  unfold remoteMatch
  rw [if_neg (by
    intro e
    exact e2 e), if_neg (by
    rw [List.getLast?_append, List.getLast?_cons, List.getLast?_eq_some_getLast hm']
    rw [List.getLast?_eq_some_getLast hm'] at hm
    simpa using hm)]

theorem split_slash {net mask : Str} (h : ∀ c ∈ net, c ≠ '/') :
    (net ++ '/' :: mask).takeWhile (· ≠ '/') = net ∧ ((net ++ '/' :: mask).dropWhile (· ≠ '/')).drop 1 = mask := by
  rw [takeWhile_gap (fun c hc => by simpa using h c hc) (fun c hc => by cases hc; simp),
    dropWhile_gap (fun c hc => by simpa using h c hc) (fun c hc => by cases hc; simp)]
  exact ⟨rfl, rfl⟩

/-- what are_addresses_equal says of addresses of one family -/
theorem addrEqual_same {sys : Sys} (law : Lawful sys) {f : Fam} {s t : Str} {a b : List Nat} (hs : sys.pton f s = some a)
    (ht : sys.pton f t = some b) (mask : Option Str) :
    addrEqual sys s t mask = (masked (mask.bind (sys.pton f)) a == masked (mask.bind (sys.pton f)) b) := by
  unfold addrEqual
  rw [(isip_iff law).mpr hs, (isip_iff law).mpr ht]
  simp

/-- and of different families -/
theorem addrEqual_other {sys : Sys} (law : Lawful sys) {f g : Fam} (hfg : f ≠ g) {s t : Str} {a b : List Nat}
    (hs : sys.pton f s = some a) (ht : sys.pton g t = some b) (mask : Option Str) :
    addrEqual sys s t mask = (isLocal s f && isLocal t g) := by
  unfold addrEqual
  rw [(isip_iff law).mpr hs, (isip_iff law).mpr ht]
  simp [hfg]

/-- the masks given as numbers -/
theorem masked_number {sys : Sys} (law : Lawful sys) {f : Fam} {n : Nat} (h0 : 0 < n) (hn : n ≤ 8 * f.size) {a b : List Nat}
    (ha : a.length = f.size) (ha' : ∀ x ∈ a, x < 256) (hb : b.length = f.size) (hb' : ∀ x ∈ b, x < 256) :
    (masked ((numberToNetmask sys n f).bind (sys.pton f)) a == masked ((numberToNetmask sys n f).bind (sys.pton f)) b) = true ↔
      SameNet n a b := by
  unfold numberToNetmask
  rw [if_neg (by omega), Option.bind_some, law.round f _ (maskBytes_length _ _) (maskBytes_lt _ _)]
  simp only [masked, beq_iff_eq]
  rw [masked_iff f.size n a b ha hb ha' hb']
  constructor
  · intro h i hi; exact h i hi (by omega)
  · intro h i hi _; exact h i hi

theorem zip_under : ∀ (k : Nat) (m a b : List Nat), m.length = k → a.length = k → b.length = k → (∀ x ∈ m, x < 256) →
    (List.zipWith (· &&& ·) a m = List.zipWith (· &&& ·) b m ↔ SameUnder m a b) := by
  intro k
  induction k with
  | zero =>
    intro m a b hm ha hb _
    rw [List.length_eq_zero_iff.mp hm, List.length_eq_zero_iff.mp ha, List.length_eq_zero_iff.mp hb]
    constructor
    · intro _ i _; rfl
    · intro _; rfl
  | succ k ih =>
    intro m a b hm ha hb hx
    cases m with
    | nil => cases hm
    | cons z m =>
      cases a with
      | nil => cases ha
      | cons x a =>
        cases b with
        | nil => cases hb
        | cons y b =>
          rw [List.zipWith_cons_cons, List.zipWith_cons_cons, List.cons.injEq,
            ih m a b (by simpa using hm) (by simpa using ha) (by simpa using hb) (fun w hw => hx w (by simp [hw]))]
          have hz := hx z (by simp)
          constructor
          · rintro ⟨h1, h2⟩ i hi
            by_cases hi8 : i < 8
            · rw [bit_zero _ _ hi8] at hi
              rw [bit_zero _ _ hi8, bit_zero _ _ hi8]
              have := congrArg (Nat.testBit · (7 - i)) h1
              simpa [Nat.testBit_and, hi] using this
            · rw [show i = (i - 8) + 8 by omega, bit_succ] at hi
              rw [show i = (i - 8) + 8 by omega, bit_succ, bit_succ]
              exact h2 (i - 8) hi
          · intro h
            refine ⟨?_, ?_⟩
            · apply Nat.eq_of_testBit_eq
              intro j
              simp only [Nat.testBit_and]
              cases hj : z.testBit j with
              | false => simp
              | true =>
                have hj8 : j < 8 := by
                  apply Nat.lt_of_not_le
                  intro hle
                  have hp : 2 ^ 8 ≤ 2 ^ j := Nat.pow_le_pow_right (by decide) hle
                  rw [Nat.testBit_lt_two_pow (by omega)] at hj
                  cases hj
                have := h (7 - j) (by rw [bit_zero _ _ (by omega), show 7 - (7 - j) = j by omega]; exact hj)
                rw [bit_zero _ _ (by omega), bit_zero _ _ (by omega), show 7 - (7 - j) = j by omega] at this
                rw [this]
            · intro i hi
              have := h (i + 8) (by rw [bit_succ]; exact hi)
              rwa [bit_succ, bit_succ] at this

theorem digits_not_address {sys : Sys} (law : Lawful sys) (p : Nat) : isip sys (Nat.toDigits 10 p) = none := by
  cases h : isip sys (Nat.toDigits 10 p) with
  | none => rfl
  | some fb =>
    have h' := (isip_iff law).mp (show isip sys _ = some (fb.1, fb.2) from h)
    have hd := (toDigits_spec p).2.1
    rcases law.marked _ _ _ h' with h | h
    · exact absurd (hd _ h) (by decide)
    · exact absurd (hd _ h) (by decide)

theorem strto_digits (p : Nat) : strtoInt 0 (Nat.toDigits 10 p) = ((p : Int), []) :=
  ((strtoInt_zero _ _).mpr (numeral_toDigits p)).1

/-- the token network/number -/
theorem resolve_number {sys : Sys} (law : Lawful sys) (item : Item) {net : Str} {f : Fam} {b : List Nat} (hn : sys.pton f net = some b)
    {p : Nat} (hp : p ≤ 8 * f.size) :
    resolveToken sys item (net ++ '/' :: Nat.toDigits 10 p) =
      (sys.gai .plain net).map (fun ai => (ai, numberToNetmask sys p f)) := by
  obtain ⟨e1, e2⟩ := split_slash (mask := Nat.toDigits 10 p) (no_slash law hn)
  unfold resolveToken
  rw [if_pos (by simp)]
  simp only [e1, e2]
  rw [(isip_iff law).mpr hn]
  simp only
  rw [digits_not_address law]
  simp only
  rw [strto_digits]
  simp only
  rw [if_neg (by
    rintro (h | h)
    · exact (toDigits_spec p).1 h.symm
    · exact h rfl), if_neg (by omega)]
  rfl

/-- the token network/netmask -/
theorem resolve_mask {sys : Sys} (law : Lawful sys) (item : Item) {net mask : Str} {f g : Fam} {b m : List Nat}
    (hn : sys.pton f net = some b) (hm : sys.pton g mask = some m) :
    resolveToken sys item (net ++ '/' :: mask) = (sys.gai .plain net).map (fun ai => (ai, some mask)) := by
  obtain ⟨e1, e2⟩ := split_slash (mask := mask) (no_slash law hn)
  unfold resolveToken
  rw [if_pos (by simp)]
  simp only [e1, e2]
  rw [(isip_iff law).mpr hn]
  simp only
  rw [(isip_iff law).mpr hm]

theorem any_const {α : Type} {l : List α} (hl : l ≠ []) {p : α → Bool} {v : Bool} (h : ∀ e ∈ l, p e = v) : l.any p = v := by
  cases v with
  | false => rw [List.any_eq_false]; intro e he; rw [h e he]; simp
  | true =>
    obtain ⟨e, t, rfl⟩ := List.exists_cons_of_ne_nil hl
    rw [List.any_eq_true]
    exact ⟨e, by simp, h e (by simp)⟩

/-- an origin that is an address, and a token that stands for one address -/
theorem network_address {sys : Sys} (law : Lawful sys) {item : Item} {g : Fam} {a : List Nat} (ho : sys.pton g item.origin = some a)
    {f : Fam} {b : List Nat} {net : Str} (hn : sys.pton f net = some b) {tok : Str} {mask : Option Str}
    (ht : resolveToken sys item tok = (sys.gai .plain net).map (fun ai => (ai, mask))) (cache : Cache) :
    networkMatch sys item cache tok = (addrEqual sys item.origin (sys.ntop f b) mask, cache) := by
  obtain ⟨l, h1, h2, h3⟩ := law.literal f net b hn
  unfold networkMatch
  rw [ht, h1, Option.map_some]
  simp only
  rw [if_pos (by rw [(isip_iff law).mpr ho]; rfl)]
  rw [any_const h2 (v := addrEqual sys item.origin (sys.ntop f b) mask)]
  intro e he
  rw [(h3 e he).2.2]
  rfl

/-- C41: an address against network/number, for every number of bits from 1 on, exactly if these first bits agree; the
two addresses of the machine itself also match each other.  (Partial: 0 bits, see `C41_zero_counterexample`.) -/
theorem C41_prefix_partial (sys : Sys) (law : Lawful sys) (item : Item) (hr : item.remote = true) (cache : Cache)
    (f g : Fam) (net : Str) (a b : List Nat) (ho : sys.pton g item.origin = some a) (hn : sys.pton f net = some b)
    (p : Nat) (h0 : 0 < p) (hp : p ≤ 8 * f.size) :
    (fromMatch sys item cache (net ++ '/' :: Nat.toDigits 10 p)).1 = true ↔
      if f = g then SameNet p a b else item.origin = loopback g ∧ sys.ntop f b = loopback f := by
  have hd := toDigits_spec p
  rw [from_network law hr cache hn (no_slash law ho) (by
    intro e
    exact absurd (hd.2.1 _ (List.mem_of_getLast? e)) (by decide)) hd.1,
    network_address law ho hn (resolve_number law item hn hp) cache]
  obtain ⟨l1, l2⟩ := law.size f net b hn
  obtain ⟨l3, l4⟩ := law.size g _ a ho
  have hround := law.round f b l1 l2
  by_cases hfg : f = g
  · subst hfg
    rw [if_pos rfl]
    show addrEqual sys item.origin (sys.ntop f b) _ = true ↔ _
    rw [addrEqual_same law ho hround, masked_number law h0 hp l3 l4 l1 l2]
  · rw [if_neg hfg]
    show addrEqual sys item.origin (sys.ntop f b) _ = true ↔ _
    rw [addrEqual_other law (fun e => hfg e.symm) ho hround]
    unfold isLocal loopback
    cases f <;> cases g
    · exact absurd rfl hfg
    · simp
    · simp
    · exact absurd rfl hfg

/-- C41: the same with a netmask written as an address of the family: the bits set in it must agree. -/
theorem C41_netmask (sys : Sys) (law : Lawful sys) (item : Item) (hr : item.remote = true) (cache : Cache)
    (f : Fam) (net mask : Str) (a b m : List Nat) (ho : sys.pton f item.origin = some a) (hn : sys.pton f net = some b)
    (hm : sys.pton f mask = some m) :
    (fromMatch sys item cache (net ++ '/' :: mask)).1 = true ↔ SameUnder m a b := by
  obtain ⟨e1, e2, e3⟩ := law.ends f mask m hm
  rw [from_network law hr cache hn (no_slash law ho) e3 e1,
    network_address law ho hn (resolve_mask law item hn hm) cache]
  obtain ⟨l1, l2⟩ := law.size f net b hn
  obtain ⟨l3, l4⟩ := law.size f _ a ho
  obtain ⟨l5, l6⟩ := law.size f _ m hm
  show addrEqual sys item.origin (sys.ntop f b) _ = true ↔ _
  rw [addrEqual_same law ho (law.round f b l1 l2), Option.bind_some, hm]
  simp only [masked, beq_iff_eq]
  exact zip_under f.size m a b l5 l3 l1 l6

theorem eachToken_spec {sys : Sys} {fam f : Fam} {buf t : Str} {mask : Option Str} : ∀ {ai : List Entry},
    (∀ e ∈ ai, e.fam = f ∧ e.numeric = some t) → ai ≠ [] →
    eachToken sys fam buf mask ai = some (decide (fam = f) && addrEqual sys buf t mask)
  | [], _, h => absurd rfl h
  | e :: es, h, _ => by
    obtain ⟨h1, h2⟩ := h e (by simp)
    rw [eachToken, h1, h2]
    by_cases hf : fam = f
    · rw [if_neg (by simpa using hf)]
      simp only [hf, decide_true, Bool.true_and]
      cases ha : addrEqual sys buf t mask with
      | true => simp
      | false =>
        simp only [Bool.false_eq_true, if_false]
        cases es with
        | nil => rfl
        | cons e' es' =>
          rw [eachToken_spec (fun x hx => h x (by simp [hx])) (by simp)]
          simp [ha]
    · rw [if_pos (by simpa using hf)]
      simp only [hf, decide_false, Bool.false_and]
      cases es with
      | nil => rfl
      | cons e' es' =>
        rw [eachToken_spec (fun x hx => h x (by simp [hx])) (by simp)]
        simp [hf]

theorem eachOrigin_spec {sys : Sys} {f : Fam} {t : Str} {mask : Option Str} {ai : List Entry}
    (hai : ∀ e ∈ ai, e.fam = f ∧ e.numeric = some t) (hne : ai ≠ []) : ∀ {l : List Entry},
    (∀ e ∈ l, e.numeric = some (sys.ntop e.fam e.bytes)) →
    (eachOrigin sys ai mask l = true ↔ ∃ e ∈ l, e.fam = f ∧ addrEqual sys (sys.ntop e.fam e.bytes) t mask = true)
  | [], _ => by simp [eachOrigin]
  | e :: es, h => by
    rw [eachOrigin, h e (by simp)]
    simp only
    rw [eachToken_spec hai hne]
    simp only [List.mem_cons, exists_eq_or_imp]
    rw [← eachOrigin_spec hai hne (fun x hx => h x (by simp [hx]))]
    by_cases hf : e.fam = f
    · simp only [hf, decide_true, Bool.true_and]
      cases addrEqual sys (sys.ntop f e.bytes) t mask <;> simp
    · simp [hf]

/-- C41: a host name against network/number: some address of the host is in the network.  (Partial as above; the name is
looked up afresh.) -/
theorem C41_host_partial (sys : Sys) (law : Lawful sys) (item : Item) (hr : item.remote = true) (hname : isip sys item.origin = none)
    (hslash : ∀ c ∈ item.origin, c ≠ '/') (f : Fam) (net : Str) (b : List Nat) (hn : sys.pton f net = some b) (p : Nat) (h0 : 0 < p)
    (hp : p ≤ 8 * f.size) (l : List Entry) (hl : sys.gai .unspec item.origin = some l)
    (hok : ∀ e ∈ l, e.bytes.length = e.fam.size ∧ (∀ x ∈ e.bytes, x < 256) ∧ e.numeric = some (sys.ntop e.fam e.bytes)) :
    (fromMatch sys item none (net ++ '/' :: Nat.toDigits 10 p)).1 = true ↔ ∃ e ∈ l, e.fam = f ∧ SameNet p e.bytes b := by
  have hd := toDigits_spec p
  obtain ⟨ai, h1, h2, h3⟩ := law.literal f net b hn
  obtain ⟨l1, l2⟩ := law.size f net b hn
  rw [from_network law hr none hn hslash (by
    intro e
    exact absurd (hd.2.1 _ (List.mem_of_getLast? e)) (by decide)) hd.1]
  unfold networkMatch
  rw [resolve_number law item hn hp, h1, Option.map_some]
  simp only
  rw [hname, if_neg (by simp)]
  have hlk : lookup sys .unspec item.origin none = (some l, some (some l)) := by
    unfold lookup
    simp only [hl]
  rw [hlk]
  simp only
  rw [eachOrigin_spec (fun e he => ⟨(h3 e he).1, (h3 e he).2.2⟩) h2 (fun e he => (hok e he).2.2)]
  constructor
  · rintro ⟨e, he, rfl, h⟩
    obtain ⟨o1, o2, -⟩ := hok e he
    rw [addrEqual_same law (law.round _ _ o1 o2) (law.round _ b l1 l2), masked_number law h0 hp o1 o2 l1 l2] at h
    exact ⟨e, he, rfl, h⟩
  · rintro ⟨e, he, rfl, h⟩
    obtain ⟨o1, o2, -⟩ := hok e he
    refine ⟨e, he, rfl, ?_⟩
    rw [addrEqual_same law (law.round _ _ o1 o2) (law.round _ b l1 l2), masked_number law h0 hp o1 o2 l1 l2]
    exact h

/-- C41 is false of 0 bits: the network is then taken as a single address. -/
theorem C41_zero_counterexample (sys : Sys) (law : Lawful sys) (item : Item) (hr : item.remote = true) (cache : Cache)
    (f : Fam) (net : Str) (a b : List Nat) (ho : sys.pton f item.origin = some a) (hn : sys.pton f net = some b) :
    (fromMatch sys item cache (net ++ "/0".toList)).1 = true ↔ a = b := by
  obtain ⟨l1, l2⟩ := law.size f net b hn
  rw [show "/0".toList = '/' :: Nat.toDigits 10 0 by rfl,
    from_network law hr cache hn (no_slash law ho) (by decide) (by decide),
    network_address law ho hn (resolve_number law item hn (Nat.zero_le _)) cache]
  show addrEqual sys item.origin (sys.ntop f b) _ = true ↔ _
  rw [addrEqual_same law ho (law.round f b l1 l2)]
  simp [numberToNetmask, masked]

/-! ## examples -/

/-- somebody from 10.1.2.3 -/
def guest : Item := ⟨"guest".toList, 1002, "10.1.2.3".toList, none, false, false, ":".toList, ", \t".toList, true⟩

/-- the hypotheses of `C41_prefix_partial`, `C41_netmask` and `C41_zero_counterexample` -/
example : Lawful Example.sys ∧ guest.remote = true ∧ Example.sys.pton .v4 guest.origin = some [10, 1, 2, 3] ∧
    Example.sys.pton .v4 "10.1.64.0".toList = some [10, 1, 64, 0] ∧ Example.sys.pton .v4 "255.255.0.0".toList = some [255, 255, 0, 0] :=
  ⟨Example.lawful, rfl, by decide +kernel, by decide +kernel, by decide +kernel⟩

/-- 10.1.2.3 is in 10.1.64.0/17 but not in /18; both agree with `SameNet` -/
example : SameNet 17 [10, 1, 2, 3] [10, 1, 64, 0] ∧ ¬ SameNet 18 [10, 1, 2, 3] [10, 1, 64, 0] := by
  unfold SameNet; decide

/-- the hypotheses of `C41_host_partial` -/
example : isip Example.sys bob.origin = none ∧ Example.sys.gai .unspec bob.origin = some [Example.gate4, Example.gate6] ∧
    (∀ c ∈ bob.origin, c ≠ '/') ∧ ∀ e ∈ [Example.gate4, Example.gate6], e.bytes.length = e.fam.size ∧ (∀ x ∈ e.bytes, x < 256) ∧
      e.numeric = some (Example.sys.ntop e.fam e.bytes) := by
  refine ⟨by decide +kernel, by decide +kernel, by decide, by decide +kernel⟩

end Pam.Access
