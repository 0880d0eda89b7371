import Verif.Whole.ChangeSpec
import Verif.Whole.LoginProps
/-
Property theorems C179: pam_chauthtok with pam_unix, from the configuration to the files.
-/
namespace Pam.Whole
open Pam Pam.Handle Pam.Handle.Spec

variable {W : Type}

/-! ### helper lemmas -/

theorem asks_typed (what kind : Str) : typedPrompt what kind = asks what kind := by
  unfold typedPrompt asks
  split
  · rfl
  · show what ++ ([' '] ++ kind) ++ _ = what ++ [' '] ++ kind ++ _
    rw [← List.append_assoc what]

theorem hidden_answered {q : Talk} {t what kind : Str} (h : Answered q t) (hm : q.msg = typedPrompt what kind) : Hidden q (asks what kind) t :=
  ⟨h.1, by rw [hm, asks_typed], h.2.1, h.2.2⟩

theorem TypedTwice.typed {ts : List Talk} {t : Str} (h : TypedTwice ts t) : NewTyped ts t := by
  obtain ⟨pre, q1, q2, post, kind, rfl, a1, a2, m1, m2⟩ := h
  exact ⟨pre, q1, q2, post, kind, by simp, hidden_answered a1 m1, hidden_answered a2 m2⟩

theorem TypedCurrent.typed {ts : List Talk} {t : Str} (h : TypedCurrent ts t) : CurrentTyped ts t := by
  obtain ⟨q, kind, h1, h2, h3⟩ := h
  exact ⟨q, h1, kind, hidden_answered h2 h3⟩

theorem codeOf_success {r : Option Unix.ChRes} (h : codeOf r = PAM_SUCCESS) : ∃ x, r = some x ∧ x.code = PAM_SUCCESS := by
  cases r with
  | none => exact absurd h (show ¬ (PAM_SYSTEM_ERR : Int) = PAM_SUCCESS by decide)
  | some x => exact ⟨x, rfl, h⟩

theorem after_nil (e : Unix.Etc) : e.after [] = e := rfl

/-- no hash that is made is one of the two marks for "look elsewhere" -/
theorem made_hash {c : Unix.Crypts} (hl : Unix.Laws c.crypt) {rnd : Nat → Nat} {gensalt : Str → Int → Str} {a : Unix.Algo} {rounds : Int} {p h : Str}
    (hh : Unix.createHash c rnd gensalt a rounds p = some h) (name : Str) : h ≠ "x".toList ∧ h ≠ "##".toList ++ name := by
  have dollar : ∀ y, '$' :: y = h → h ≠ "x".toList ∧ h ≠ "##".toList ++ name := by
    rintro y rfl
    exact ⟨fun e => absurd (congrArg List.head? e) (by simp), fun e => absurd (congrArg List.head? e) (by simp)⟩
  have trad : ∀ key, Unix.bigcrypt c.crypt key (Unix.makeSalt rnd 2) = some h → h ≠ "x".toList ∧ h ≠ "##".toList ++ name := by
    intro key hb
    obtain ⟨h1, h2, -⟩ := Unix.bigcrypt_again hl (Unix.makeSalt_des rnd (Nat.le_refl 2)) (by simp [Unix.makeSalt]) hb
    refine ⟨fun e => ?_, fun e => ?_⟩
    · rw [e] at h1; exact absurd h1 (by decide)
    · exact absurd (h2 '#' (by rw [e]; exact List.mem_cons_self ..)) (by decide)
  have other : a ≠ .md5 ∧ a ≠ .bigcrypt ∧ a ≠ .des → h ≠ "x".toList ∧ h ≠ "##".toList ++ name := by
    intro ha
    obtain ⟨t, ht⟩ := Unix.C70_prefix c rnd gensalt a rounds p h hh ha
    obtain ⟨h1, h2, h3⟩ := ha
    cases a with
    | md5 => exact absurd rfl h1
    | bigcrypt => exact absurd rfl h2
    | des => exact absurd rfl h3
    | yescrypt => exact dollar _ ht
    | gost => exact dollar _ ht
    | blowfish => exact dollar _ ht
    | sha256 => exact dollar _ ht
    | sha512 => exact dollar _ ht
  cases a with
  | md5 => exact dollar _ (Option.some.inj hh)
  | bigcrypt => exact trad _ hh
  | des => exact trad _ hh
  | yescrypt => exact other (by decide)
  | gost => exact other (by decide)
  | blowfish => exact other (by decide)
  | sha256 => exact other (by decide)
  | sha512 => exact other (by decide)

/-- on a machine in good order the hash that is read is the one root sees -/
theorem read_hash {M : Mach} {name x : Str} (hg : InGoodOrder M name) {second : Bool} {i : Nat}
    (h : Unix.Read (M.etc.sys M.world) M.bin (M.luck second i) M.proc name x) : HashOf M name x := by
  rcases h with ⟨pw, h1, h2, h3⟩ | ⟨q, q', h1, h2, h3⟩
  · exact ⟨pw, h1, Or.inl ⟨h2, h3⟩⟩
  · obtain ⟨h4, h5⟩ := Unix.trusted_sees hg.trusted (hg.fine second i).setuid h1
    have hqq : q' = q := by
      rcases h2 with ⟨a, b⟩ | ⟨a, b⟩
      · exact b
      · rcases h4 with ⟨c, -⟩ | ⟨-, d⟩
        · exact absurd c a
        · rw [b, ← d]
    rw [hqq] at h3
    exact (Unix.stored_account (Unix.rootReads M.world M.etc) h5).mp h3

theorem not_cut {l : Unix.Luck} (h : l.Fine) : ¬ l.Cut := by
  rintro (x | x | x)
  · rw [h.write1] at x; cases x
  · rw [h.write2] at x; cases x
  · exact h.sched x

theorem prelim_unasked (w : Unix.World) (e : Unix.Etc) (b : Unix.Bin) (p : Unix.Proc) (c : Unix.ChCall) (ctrl : Unix.Ctrl) (fails : Unix.Fails)
    (h : c.oldTok.1 ≠ PAM_SUCCESS) : Unix.prelim w e b p { c with oldTok := (c.oldTok.1, []) } ctrl fails = Unix.prelim w e b p c ctrl fails := by
  unfold Unix.prelim
  dsimp only
  split
  · rfl
  · rfl
  · rw [if_pos h, if_pos h]

/-! ### the property -/

/-- C179: With one line `required pam_unix.so`, pam_chauthtok always comes to an end. -/
theorem C179_ends {lib : Lib W} {D : Disk W} (hD : D.Law) (hq : Quiet D lib.conv) (hconv : ∀ c st msg w, (lib.conv c st msg w).1.1 ≠ PAM_INCOMPLETE)
    {service name : Str} {conv : Nat} {w : W} {h : Handle W} (hs : start lib service (some name) conv w = some h) {args : List Str}
    (hone : OneLine lib service .chauthtok (unixChange D) args) (flags : Nat) : ∃ code h', run lib .chauthtok flags h = some (code, h') := by
  obtain ⟨hr, -, -, hi, -⟩ := start_ready hs
  obtain ⟨path, hl, hm⟩ := hone.line
  obtain ⟨code, h', k, -⟩ := chauthtok_line hD hq hconv hr (by rw [hi]) hone.dir hone.own path args hl hm flags
  exact ⟨code, h', k⟩

/-- C179: What pam_chauthtok does with one line `required pam_unix.so`, whatever goes wrong on the machine.  No token stays behind, nothing
but the account files changes, no other account is touched and of this one only the password.  If the call does not succeed, the password
is what it was.  If it does, the application has typed a new password, twice and alike, the account has a hash of it, and the caller was
entitled to the change: as root, because the empty password was accepted, or by typing the current password, which is another one. -/
theorem C179_change {lib : Lib W} {D : Disk W} (hD : D.Law) (hq : Quiet D lib.conv) (hconv : ∀ c st msg w, (lib.conv c st msg w).1.1 ≠ PAM_INCOMPLETE)
    {service name : Str} {conv : Nat} {w : W} {h : Handle W} (hs : start lib service (some name) conv w = some h) {args : List Str}
    (hone : OneLine lib service .chauthtok (unixChange D) args) (flags : Nat) {code : Int} {h' : Handle W}
    (hrun : run lib .chauthtok flags h = some (code, h')) (hnul : ∀ q ∈ h'.m.s.talk, ∀ t, q.answer = some t → NUL ∉ t) {M M' : Mach}
    (hM : D.mach w = M) (hM' : D.mach h'.m.s.world = M') (husual : Usual M name) :
    h'.inner.authtok = none ∧ h'.inner.oldauthtok = none ∧
    M' = { M with etc := M'.etc } ∧ (∀ n, n ≠ name → Unix.SameAccount M.world M.etc M'.etc n) ∧ Unix.OnlyPassword M.etc M'.etc name ∧
    (M'.etc.pw.attr = M.etc.pw.attr ∧ M'.etc.sp.attr = M.etc.sp.attr) ∧ (M.etc.held = false → M'.etc.held = false) ∧
    (code ≠ PAM_SUCCESS → Unix.SameHash M.world M.etc M'.etc name) ∧
    (code = PAM_SUCCESS → ∃ new hash before after, h'.m.s.talk = before ++ after ∧ NewTyped after new ∧ new ≠ [] ∧ new.length ≤ 512 ∧
      Unix.HashIs M.world M'.etc name hash ∧ (∀ nullok, Unix.Accepts M.world.crypts nullok hash new) ∧
      Entitled M flags name before new ∧ AgeAllows M flags name) := by
  obtain ⟨hr, hw, htalk, hi, -⟩ := start_ready hs
  obtain ⟨path, hl, hm⟩ := hone.line
  obtain ⟨code', h'', hrun', hres⟩ := chauthtok_line hD hq hconv hr (by rw [hi]) hone.dir hone.own path args hl hm flags
  rw [hrun] at hrun'
  have e := Option.some.inj hrun'
  have e1 : code = code' := congrArg Prod.fst e
  have e2 : h' = h'' := congrArg Prod.snd e
  clear e hrun'
  subst e1 e2
  have same : M' = M → M' = { M with etc := M'.etc } ∧ (∀ n, n ≠ name → Unix.SameAccount M.world M.etc M'.etc n) ∧ Unix.OnlyPassword M.etc M'.etc name ∧
      (M'.etc.pw.attr = M.etc.pw.attr ∧ M'.etc.sp.attr = M.etc.sp.attr) ∧ (M.etc.held = false → M'.etc.held = false) ∧
      (code ≠ PAM_SUCCESS → Unix.SameHash M.world M.etc M'.etc name) := by
    intro e
    rw [e]
    exact ⟨rfl, fun _ _ => ⟨rfl, rfl, rfl, rfl⟩, Unix.only_refl (Or.inl rfl) (Or.inl rfl), ⟨rfl, rfl⟩, id, fun _ _ => Iff.rfl⟩
  rcases hres with ⟨-, hc, hh⟩ | ⟨h14, h13, hp1, hp2, -, ts, ht, hp⟩
  · obtain ⟨k1, k2, k3, k4, k5, k6⟩ := same (by rw [← hM', hh, hw, hM])
    exact ⟨by rw [hh, hi], by rw [hh, hi], k1, k2, k3, k4, k5, k6, fun x => absurd (hc.symm.trans x) (by decide)⟩
  rw [htalk, List.nil_append] at ht
  rw [hw, hM, hM'] at hp
  refine ⟨hp1, hp2, ?_⟩
  rw [ht] at hnul ⊢
  cases hp with
  | one _ _ hc hMM =>
    obtain ⟨k1, k2, k3, k4, k5, k6⟩ := same hMM
    exact ⟨k1, k2, k3, k4, k5, k6, fun x => absurd x hc⟩
  | two ts1 ts2 _ c2 info oldTok kept fails1 fails2 o1 o2 toks acts ho1 hpre hknown ho2 hcode hacts htyped hMM hiff =>
    cases hr2 : Unix.chauthtok M.world M.etc M.bin M.proc (callOf M true o2 name info oldTok kept toks) fails2 with
    | none =>
      rw [hr2] at hcode hacts
      have ha : acts = [] := hacts.symm
      obtain ⟨k1, k2, k3, k4, k5, k6⟩ := same (by rw [hMM, ha, after_nil])
      refine ⟨k1, k2, k3, k4, k5, k6, fun x => ?_⟩
      rw [hiff] at x
      exact absurd (hcode.trans x) (show ¬ (PAM_SYSTEM_ERR : Int) = PAM_SUCCESS by decide)
    | some r =>
      rw [hr2] at hcode hacts
      replace hcode : r.code = c2 := hcode
      replace hacts : r.acts = acts := hacts
      have hetc : M'.etc = M.etc.after r.acts := by rw [hMM, hacts]
      have hh : ∀ new h, Unix.createHash M.world.crypts (callOf M true o2 name info oldTok kept toks).rnd (callOf M true o2 name info oldTok kept toks).gensalt
          (Unix.algoOf (callOf M true o2 name info oldTok kept toks).ctrl) (callOf M true o2 name info oldTok kept toks).rounds new = some h →
          h ≠ "x".toList ∧ h ≠ "##".toList ++ (callOf M true o2 name info oldTok kept toks).user.2 := fun new h x => made_hash husual.crypt x name
      obtain ⟨d1, d2, -, ⟨d4, d4', -⟩, d5, d6⟩ := Unix.C81_change M.world M.etc husual.clean M.bin M.proc (callOf M true o2 name info oldTok kept toks) fails2 husual.named hh r hr2
        r.acts.length M'.etc (by rw [List.take_length]; exact hetc)
      have hheld := (Unix.C81_locked M.world M.etc M.bin M.proc (callOf M true o2 name info oldTok kept toks) fails2 r hr2).2
      obtain ⟨g1, g2, g3, g4, g5⟩ := Unix.C72_call _ _ _ _ _ _ _ _ ho1
      obtain ⟨f1, f2, f3, f4, f5⟩ := Unix.C72_call _ _ _ _ _ _ _ _ ho2
      have b5 : (flags ||| 2 ^ 14).testBit 5 = flags.testBit 5 ∧ (flags ||| 2 ^ 13).testBit 5 = flags.testBit 5 := by
        simp only [Nat.testBit_or, Nat.testBit_two_pow]
        simp
      have hroot1 : Unix.on Unix.UNIX__IAMROOT o1.ctrl = true ↔ M.proc.uid = 0 ∧ flags.testBit 5 = false := by
        rw [g4]
        show (decide (M.proc.uid = 0) && !(flags ||| 2 ^ 14).testBit 5) = true ↔ _
        rw [b5.1]
        cases flags.testBit 5 <;> simp
      have hroot2 : Unix.on Unix.UNIX__IAMROOT o2.ctrl = true ↔ M.proc.uid = 0 ∧ flags.testBit 5 = false := by
        rw [f4]
        show (decide (M.proc.uid = 0) && !(flags ||| 2 ^ 13).testBit 5) = true ↔ _
        rw [b5.2]
        cases flags.testBit 5 <;> simp
      have hexp2 : Unix.on Unix.UNIX_EXPIRED_ONLY o2.ctrl = flags.testBit 5 := by rw [f5]; exact b5.2
      obtain ⟨b14, b14', -⟩ := bits h14 h13
      have pre1 : Unix.on Unix.UNIX__PRELIM o1.ctrl = true := by rw [g2]; exact b14
      have pre2 : Unix.on Unix.UNIX__PRELIM o2.ctrl = false := by rw [f2]; exact b14'
      refine ⟨?_, d1, d2, ⟨d4, d4'⟩, fun x => by rw [hetc]; exact hheld x, fun hc => ?_, fun hc => ?_⟩
      · rw [hMM]
      · rcases d5 with d5 | ⟨d5, -⟩
        · exact d5
        · exact absurd (hiff.mpr (hcode.symm.trans d5)) hc
      · have hrc : r.code = PAM_SUCCESS := hcode.trans (hiff.mp hc)
        obtain ⟨new, j, hash, -, j2, j3, j4, j5⟩ := d6 hrc pre2 (Nat.le_refl _)
        have hnt : NewTyped ts2 new := by
          have := htyped j (by rw [show toks j = (PAM_SUCCESS, new) from j2])
          rw [show toks j = (PAM_SUCCESS, new) from j2] at this
          exact this.typed
        have hkn : NUL ∉ oldTok.2 ∨ oldTok.1 ≠ PAM_SUCCESS := by
          rcases hknown with ⟨x, -⟩ | ⟨-, ⟨q, kind, q1, q2, -⟩, -⟩
          · exact Or.inr x
          · exact Or.inl (hnul q (List.mem_append_left _ q1) _ q2.2.2)
        have hkept : ∀ o, kept = some o → NUL ∉ o := by
          intro o ho
          rcases hknown with ⟨-, x⟩ | ⟨-, ⟨q, kind, q1, q2, -⟩, x⟩
          · rw [x rfl] at ho; cases ho
          · rw [x] at ho
            rw [← Option.some.inj ho]
            exact hnul q (List.mem_append_left _ q1) _ q2.2.2
        obtain ⟨-, -, -, -, -, -, -, -, hage, -⟩ := Unix.C81_sound M.world M.etc M.bin M.proc (callOf M true o2 name info oldTok kept toks) fails2 husual.named (husual.buf true 3)
          hkept husual.day r hr2 (Or.inr ⟨hrc, pre2⟩)
        refine ⟨new, hash, ts1, ts2, rfl, hnt, j3.1, j3.2.1, j5, fun nullok => ?_, ?_, ?_⟩
        · exact ⟨_, Unix.counts_strip.mpr rfl, (Unix.C69_accepts M.world.crypts new hash _ _ (Unix.counts_strip.mpr rfl)).mp
            (Unix.C70_round_trip M.world.crypts husual.crypt M.rnd M.gensalt (Unix.algoOf o2.ctrl) (o2.rounds.getD 0) new hash _ (Or.inl j3.1) j4)⟩
        · obtain ⟨r1, hr1, hc1⟩ := codeOf_success hpre
          have pr : ∀ tok : Int × Str, NUL ∉ tok.2 → (tok = oldTok ∨ (tok.1 = oldTok.1 ∧ oldTok.1 ≠ PAM_SUCCESS)) →
              Unix.chauthtok M.world M.etc M.bin M.proc (callOf M false o1 name info tok kept toks) fails1 = some r1 → Entitled M flags name ts1 new := by
            intro tok hn htok hr1
            obtain ⟨-, hcase⟩ := Unix.C81_prelim M.world M.etc M.bin M.proc (callOf M false o1 name info tok kept toks) fails1 (husual.buf false) hn husual.nobody husual.day pre1 r1 hr1 hc1
            rcases hcase with ⟨x, x1, x2⟩ | ⟨hroot | ⟨htk, x, x1, x2⟩, -⟩
            · exact .blank x x1 x2
            · exact .root (hroot1.mp hroot).1 (hroot1.mp hroot).2
            · rcases htok with rfl | ⟨ht1, ht2⟩
              · rcases hknown with ⟨y, -⟩ | ⟨-, y1, y2⟩
                · exact absurd htk y
                · refine .known tok.2 x y1.typed ?_ x1 x2
                  intro e
                  exact j3.2.2.1 (by show kept = some new; rw [y2, e])
              · exact absurd (ht1.symm.trans htk) ht2
          rcases hkn with hkn | hkn
          · exact pr oldTok hkn (Or.inl rfl) hr1
          · refine pr (oldTok.1, []) (by simp) (Or.inr ⟨rfl, hkn⟩) ?_
            rw [← hr1]
            have : ∀ ctrl, Unix.prelim M.world M.etc M.bin M.proc (callOf M false o1 name info (oldTok.1, []) kept toks) ctrl fails1 =
                Unix.prelim M.world M.etc M.bin M.proc (callOf M false o1 name info oldTok kept toks) ctrl fails1 :=
              fun ctrl => prelim_unasked M.world M.etc M.bin M.proc (callOf M false o1 name info oldTok kept toks) ctrl fails1 hkn
            unfold Unix.chauthtok
            dsimp only
            rw [this]
            have pre1' : Unix.on Unix.UNIX__PRELIM (Unix.relaxed o1.ctrl) = true := by
              rw [Unix.on_relaxed (by decide) (by decide) (by decide) (by decide)]; exact pre1
            show (if _ then _ else if _ then _ else match M.etc.findPw name with | none => _ | some _ => if Unix.on Unix.UNIX__PRELIM (Unix.relaxed o1.ctrl) = true then _ else _) =
              (if _ then _ else if _ then _ else match M.etc.findPw name with | none => _ | some _ => if Unix.on Unix.UNIX__PRELIM (Unix.relaxed o1.ctrl) = true then _ else _)
            simp only [if_pos pre1']
            rfl
        · intro pw hpw hsh hnr
          obtain ⟨q, q', sp, a1, a2, a3, a4⟩ := hage pw hpw hsh (by
            show Unix.on Unix.UNIX__IAMROOT o2.ctrl = false ∨ Unix.on Unix.UNIX_EXPIRED_ONLY o2.ctrl = true
            rw [hexp2]
            rcases hnr with hnr | hnr
            · left
              cases hx : Unix.on Unix.UNIX__IAMROOT o2.ctrl with
              | false => rfl
              | true => exact absurd (hroot2.mp hx).1 hnr
            · exact Or.inr hnr)
          refine ⟨q, q', sp, a1, a2, a3, fun hok => ⟨(a4 hok).1, fun hx => (a4 hok).2 ?_⟩⟩
          show Unix.on Unix.UNIX_EXPIRED_ONLY o2.ctrl = true
          rw [hexp2]; exact hx

/-- C179: On a machine in good order a change that is reported as done was due to root, or the account had no password, or the current
password was typed; and the age of the password, as the shadow file has it, allowed the change. -/
theorem C179_healthy {lib : Lib W} {D : Disk W} (hD : D.Law) (hq : Quiet D lib.conv) (hconv : ∀ c st msg w, (lib.conv c st msg w).1.1 ≠ PAM_INCOMPLETE)
    {service name : Str} {conv : Nat} {w : W} {h : Handle W} (hs : start lib service (some name) conv w = some h) {args : List Str}
    (hone : OneLine lib service .chauthtok (unixChange D) args) (flags : Nat) {h' : Handle W}
    (hrun : run lib .chauthtok flags h = some (PAM_SUCCESS, h')) (hnul : ∀ q ∈ h'.m.s.talk, ∀ t, q.answer = some t → NUL ∉ t) {M M' : Mach}
    (hM : D.mach w = M) (hM' : D.mach h'.m.s.world = M') (husual : Usual M name) (hgood : InGoodOrder M name) :
    ∃ new hash before after, h'.m.s.talk = before ++ after ∧ NewTyped after new ∧ MayAsk M flags name before new ∧ OldEnough M flags name ∧
      (∀ x, HashOf M' name x ↔ x = hash) ∧ ∀ nullok, Unix.Accepts M.world.crypts nullok hash new := by
  obtain ⟨-, -, hmm, -, -, -, -, -, hsucc⟩ := C179_change hD hq hconv hs hone flags hrun hnul hM hM' husual
  obtain ⟨new, hash, before, after, h1, h2, -, -, h3, h4, h5, h6⟩ := hsucc rfl
  refine ⟨new, hash, before, after, h1, h2, ?_, ?_, ?_, h4⟩
  · cases h5 with
    | root a b => exact Or.inl ⟨a, b⟩
    | blank x a b => exact Or.inr ⟨x, read_hash hgood a, Or.inl b⟩
    | known old x a b c d =>
      refine Or.inr ⟨x, read_hash hgood c, Or.inr ⟨old, a, b, ?_⟩⟩
      rcases d with d | ⟨d, -⟩
      · exact d
      · exact absurd d (not_cut (hgood.fine false 3))
  · intro pw hpw hsh hnr
    obtain ⟨q, q', sp, a1, a2, a3, a4⟩ := h6 pw hpw hsh hnr
    obtain ⟨b1, b2⟩ := Unix.trusted_sees hgood.trusted (hgood.fine true 4).setuid a1
    have hqq : q' = q := by
      rcases a2 with ⟨a, b⟩ | ⟨a, b⟩
      · exact b
      · rcases b1 with ⟨c, -⟩ | ⟨-, d⟩
        · exact absurd c a
        · rw [b, ← d]
    rw [hqq, Unix.rootReads M.world M.etc q b2] at a3
    exact ⟨sp, a3, a4⟩
  · intro x
    have hw : M'.world = M.world := by rw [hmm]
    unfold HashOf
    rw [hw]
    exact h3 x

/-- C179: After a change that has been reported as done, the user who types the new password is let in by pam_authenticate, and whoever is
let in has typed a password that the hash of the new one accepts.  Between the two calls the machine stays as it is. -/
theorem C179_login {lib : Lib W} {D : Disk W} (hD : D.Law) (hq : Quiet D lib.conv) (hconv : ∀ c st msg w, (lib.conv c st msg w).1.1 ≠ PAM_INCOMPLETE)
    {service name : Str} {conv : Nat} {w : W} {h : Handle W} (hs : start lib service (some name) conv w = some h) {args : List Str}
    (hone : OneLine lib service .chauthtok (unixChange D) args) (flags : Nat) {h' : Handle W}
    (hrun : run lib .chauthtok flags h = some (PAM_SUCCESS, h')) (hnul : ∀ q ∈ h'.m.s.talk, ∀ t, q.answer = some t → NUL ∉ t) {M M' : Mach}
    (hM : D.mach w = M) (hM' : D.mach h'.m.s.world = M') (husual : Usual M name) :
    ∃ new hash before after, h'.m.s.talk = before ++ after ∧ NewTyped after new ∧
      ∀ (service2 : Str) (args2 : List Str), OneLine lib service2 .authenticate (unixAuth fun w => (D.mach w).host false) args2 →
        Lacks args2 "nullresetok" → Lacks args2 "use_first_pass" → Lacks args2 "nullok" → ∀ (conv2 : Nat) (w2 : W) (h2 : Handle W),
        D.mach w2 = M' → start lib service2 (some name) conv2 w2 = some h2 → Healthy (M'.host false) (M'.etc.shadow M'.world) name →
        ∀ (flags2 : Nat) (pw : Str), (lib.conv conv2 .echoOff "Password: ".toList w2).1 = (PAM_SUCCESS, some (some pw)) → NUL ∉ pw →
        Ends (M'.host false) flags2 args2 name (PAM_SUCCESS, pw) →
        ∃ code h2', run lib .authenticate flags2 h2 = some (code, h2') ∧ (pw = new → code = PAM_SUCCESS) ∧
          (code = PAM_SUCCESS ↔ Unix.Accepts M.world.crypts false hash (pw.take 512)) := by
  obtain ⟨-, -, hmm, -, -, -, -, -, hsucc⟩ := C179_change hD hq hconv hs hone flags hrun hnul hM hM' husual
  obtain ⟨new, hash, before, after, h1, h2, -, hlen, h3, h4, h5, h6⟩ := hsucc rfl
  refine ⟨new, hash, before, after, h1, h2, ?_⟩
  intro service2 args2 hl2 hreset hfirst hnullok conv2 w2 hh2 hw2 hs2 hH flags2 pw hpw hn hend
  have hworld : M'.world = M.world := by rw [hmm]
  have hlen' : ¬ Lenient args2 flags2 := by
    rintro ⟨⟨a, ha, hp⟩, -⟩
    exact hnullok a ha hp
  have htok : tokOf (lib.conv conv2 .echoOff "Password: ".toList w2).1 = (PAM_SUCCESS, pw) := by rw [hpw]; rfl
  obtain ⟨code, h2', g1, g2, -⟩ := C176_answer lib (fun w => (D.mach w).host false) (fun c st msg w => by dsimp only; rw [hq]) service2 args2 hl2 hreset hfirst
    (some name) conv2 w2 hh2 hs2 name w2 [] (.given name) (M'.etc.shadow M'.world) (by rw [hw2]; exact hH) flags2 false
    (by simp [hlen']) (fun t ht => by
      rw [hpw] at ht
      rw [← Option.some.inj (Option.some.inj ht)]
      exact hn) (by rw [hw2, htok]; exact hend)
  have key : code = PAM_SUCCESS ↔ Unix.Accepts M.world.crypts false hash (pw.take 512) := by
    rw [g2]
    constructor
    · rintro (⟨hx, -⟩ | ⟨t, ht, x, hx, hacc⟩)
      · exact absurd hx hlen'
      · rw [hpw] at ht
        have et : pw = t := Option.some.inj (Option.some.inj (congrArg Prod.snd ht))
        subst et
        rw [hw2] at hx hacc
        have hx' : Unix.Account (M'.etc.sys M.world) (M'.etc.shadow M.world) name x := by rw [← hworld]; exact hx
        rw [(h3 x).mp hx'] at hacc
        rw [← hworld]
        exact hacc
    · intro hacc
      refine Or.inr ⟨pw, hpw, hash, ?_, ?_⟩
      · rw [hw2]
        have := (h3 hash).mpr rfl
        rw [← hworld] at this
        exact this
      · rw [hw2]
        rw [← hworld] at hacc
        exact hacc
  refine ⟨code, h2', g1, fun e => key.mpr ?_, key⟩
  rw [e, List.take_of_length_le hlen]
  exact h4 false

end Pam.Whole
