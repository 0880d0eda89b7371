import Verif.Log.Model
/-
C194: what a module or the library logs with `pam_syslog`, and the texts of `pam_strerror`.
-/
namespace Pam.Log

namespace Spec

/-- what the person who wrote the format means: `%s` is the next argument as it is, `%m` the text `m` of the error, `%%` a percent sign; other characters stand for themselves -/
inductive Expands (m : Str) : Str → List Str → Str → Prop
  | done (args) : Expands m [] args []
  | arg {r args t} (a) : Expands m r args t → Expands m ('%' :: 's' :: r) (a :: args) (a ++ t)
  | error {r args t} : Expands m r args t → Expands m ('%' :: 'm' :: r) args (m ++ t)
  | percent {r args t} : Expands m r args t → Expands m ('%' :: '%' :: r) args ('%' :: t)
  | plain {r args t} (c) : c ≠ '%' → Expands m r args t → Expands m (c :: r) args (c :: t)

/-- the operations of an application -/
inductive Operation
  | authenticate | setcred | account | openSession | closeSession | chauthtok

/-- the number of an operation: libpam/pam_private.h:187-192 -/
def Operation.number : Operation → Nat
  | .authenticate => 1 | .setcred => 2 | .account => 3 | .openSession => 4 | .closeSession => 5 | .chauthtok => 6

/-- the name of an operation in the log -/
def Operation.name : Operation → Str
  | .authenticate => "auth".toList | .setcred => "setcred".toList | .account => "account".toList
  | .openSession => "session".toList | .closeSession => "session".toList | .chauthtok => "chauthtok".toList

/-- the line `module(service:operation): text` -/
def line (module service operation text : Str) : Str := module ++ '(' :: (service ++ ':' :: (operation ++ ')' :: ':' :: ' ' :: text))

end Spec

theorem printf_expands {msg : Nat → Str} {e : Nat} {fmt : Str} {args : List Str} {t : Str} (h : Spec.Expands (msg e) fmt args t) :
    printf msg e fmt args = some t := by
  induction h with
  | done args => simp only [printf]
  | arg a _ ih => simp only [printf, ih, Option.map_some]
  | error _ ih => simp only [printf, ih, Option.map_some]
  | percent _ ih => simp only [printf, ih, Option.map_some]
  | @plain r args t c hc _ ih =>
    rw [printf.eq_6 msg e args c r (by intros; contradiction) (by intros; contradiction) (by intros; contradiction) (by intros; contradiction)]
    simp only [ih, Option.map_some]

theorem choice_name (op : Spec.Operation) : choice2str op.number = op.name := by cases op <;> rfl

/-- C194.  If there is memory, a call logs exactly one line, in the private facility with the caller's priority.  A module's line is `module(service:operation): text`; the library's own
    line is `PAM text`.  The text is what the caller's format means, with the error number of the moment of the call; what stands in the arguments, in the name of the module or in the name
    of the service is not a format, whatever it contains. -/
theorem C194_line (w : World) (h1 : w.mem1 = true) (h2 : w.mem2 = true) (priority : Nat) (fmt : Str) (args : List Str) (text : Str)
    (hx : Spec.Expands (w.msg w.errno) fmt args text) :
    (∀ (m : Str) (service : Option Str) (op : Spec.Operation),
      ∃ e, vsyslog w (some ⟨some m, service, op.number⟩) priority fmt args = some e ∧
        e.lines = [(80 ||| priority, Spec.line m (service.getD "<unknown>".toList) op.name text)]) ∧
    (∃ e, vsyslog w none priority fmt args = some e ∧ e.lines = [(80 ||| priority, "PAM ".toList ++ text)]) ∧
    (∀ (service : Option Str) (c : Nat), ∃ e, vsyslog w (some ⟨none, service, c⟩) priority fmt args = some e ∧
        e.lines = [(80 ||| priority, "PAM ".toList ++ text)]) := by
  have hp := printf_expands hx
  have rest : ∀ (buf : Option Str) (s : Effect), s.lines = [] →
      ∃ e, vsyslogRest w buf priority fmt args s = some e ∧ e.lines = [(80 ||| priority, buf.getD "PAM".toList ++ ' ' :: text)] := by
    intro buf s hs
    have hl : printf w.msg w.errno "%s %s".toList [buf.getD "PAM".toList, text] = some (buf.getD "PAM".toList ++ ' ' :: text) :=
      printf_expands (by
        have := Spec.Expands.arg (m := w.msg w.errno) (buf.getD "PAM".toList)
          (.plain ' ' (by decide) (.arg text (.done [])))
        rw [List.append_nil] at this; exact this)
    simp only [vsyslogRest, h2, if_true, hp, hl]
    refine ⟨_, rfl, ?_⟩
    split <;> simp only [hs, List.nil_append, authpriv]
  refine ⟨fun m service op => ?_, ?_, fun service c => ?_⟩
  · have ht : printf w.msg w.errno "%s(%s:%s):".toList [m, service.getD "<unknown>".toList, choice2str op.number] =
        some (m ++ '(' :: (service.getD "<unknown>".toList ++ ':' :: (op.name ++ [')', ':']))) := by
      rw [choice_name]
      exact printf_expands (.arg m (.plain '(' (by decide) (.arg _ (.plain ':' (by decide) (.arg _
        (.plain ')' (by decide) (.plain ':' (by decide) (.done []))))))))
    simp only [vsyslog, h1, if_true, ht]
    obtain ⟨e, he, hl⟩ := rest (some (m ++ '(' :: (service.getD "<unknown>".toList ++ ':' :: (op.name ++ [')', ':'])))) { got := [1] } rfl
    refine ⟨e, he, ?_⟩
    rw [hl]
    simp only [Option.getD_some, Spec.line, List.append_assoc, List.cons_append, List.nil_append]
  · exact rest none {} rfl
  · exact rest none {} rfl

/-- C194.  A text that the caller passes as an argument of `%s` is logged as it is, even if it is full of percent signs. -/
theorem C194_verbatim (w : World) (h1 : w.mem1 = true) (h2 : w.mem2 = true) (priority : Nat) (m : Str) (service : Str) (op : Spec.Operation) (text : Str) :
    ∃ e, vsyslog w (some ⟨some m, some service, op.number⟩) priority ['%', 's'] [text] = some e ∧
      e.lines = [(80 ||| priority, Spec.line m service op.name text)] :=
  (C194_line w h1 h2 priority ['%', 's'] [text] text (by have := Spec.Expands.arg (m := w.msg w.errno) text (.done []); rw [List.append_nil] at this; exact this)).1 m (some service) op

/-- C194.  However a call goes, it logs exactly one line; it frees each buffer that it got once, and nothing else.  Without memory the line says so, as an error. -/
theorem C194_memory (w : World) (h : Option Handle) (priority : Nat) (fmt : Str) (args : List Str) (e : Effect) (he : vsyslog w h priority fmt args = some e) :
    e.lines.length = 1 ∧ (∀ b, e.freed.count b = e.got.count b) ∧ e.got.Nodup ∧
    (w.mem2 = false → e.lines = [(83, "vasprintf: ".toList ++ w.msg w.errno2)] ∨ e.lines = [(83, "asprintf: ".toList ++ w.msg w.errno1)]) := by
  have h2 : printf w.msg w.errno2 "vasprintf: %m".toList [] = some ("vasprintf: ".toList ++ w.msg w.errno2) := by
    simp [printf]
  have h3 : printf w.msg w.errno1 "asprintf: %m".toList [] = some ("asprintf: ".toList ++ w.msg w.errno1) := by
    simp [printf]
  have rest : ∀ (buf : Option Str) (e : Effect), vsyslogRest w buf priority fmt args { got := if buf.isSome then [1] else [] } = some e →
      e.lines.length = 1 ∧ (∀ b, e.freed.count b = e.got.count b) ∧ e.got.Nodup ∧
      (w.mem2 = false → e.lines = [(83, "vasprintf: ".toList ++ w.msg w.errno2)] ∨ e.lines = [(83, "asprintf: ".toList ++ w.msg w.errno1)]) := by
    intro buf e hr
    unfold vsyslogRest at hr
    by_cases hm : w.mem2 = true
    · rw [if_pos hm] at hr
      split at hr
      · cases hr
      · split at hr
        · cases hr
        · cases buf <;> (simp at hr; subst hr; simp [hm])
    · rw [if_neg hm, h2] at hr
      cases buf <;> (simp at hr; subst hr; simp [authpriv, logErr])
  unfold vsyslog at he
  split at he
  · split at he
    · split at he
      · cases he
      · exact rest (some _) e he
    · rw [h3] at he
      simp only [Option.some.injEq] at he
      subst he
      exact ⟨rfl, fun _ => rfl, List.nodup_nil, fun _ => Or.inr rfl⟩
  · exact rest none e he

theorem split_at {c : Char} : ∀ {a b x y : Str}, c ∉ a → c ∉ b → a ++ c :: x = b ++ c :: y → a = b ∧ x = y
  | [], [], _, _, _, _, e => ⟨rfl, (List.cons.inj e).2⟩
  | [], d :: b, _, _, _, hb, e => absurd (List.cons.inj e).1 (fun h => hb (h ▸ List.mem_cons_self))
  | d :: a, [], _, _, ha, _, e => absurd (List.cons.inj e).1 (fun h => ha (h ▸ List.mem_cons_self))
  | d :: a, f :: b, _, _, ha, hb, e => by
    have ⟨h1, h2⟩ := List.cons.inj e
    have ⟨h3, h4⟩ := split_at (fun h => ha (List.mem_cons_of_mem _ h)) (fun h => hb (List.mem_cons_of_mem _ h)) h2
    exact ⟨by rw [h1, h3], h4⟩

theorem no_paren (op : Spec.Operation) : ')' ∉ op.name := by cases op <;> decide

theorem name_same {op op' : Spec.Operation} (h : op.name = op'.name) :
    op = op' ∨ op = .openSession ∧ op' = .closeSession ∨ op = .closeSession ∧ op' = .openSession := by
  cases op <;> cases op' <;>
    first | exact Or.inl rfl | exact Or.inr (Or.inl ⟨rfl, rfl⟩) | exact Or.inr (Or.inr ⟨rfl, rfl⟩) | exact absurd h (by decide)

/-- C194.  A line of a module tells which module wrote it, for which service, in which operation, and what: two calls that log the same line agree in all of them.  In part: no module name
    may contain an opening parenthesis and no service name a colon, and opening and closing a session have the same name. -/
theorem C194_who_partial (w w' : World) (h1 : w.mem1 = true) (h2 : w.mem2 = true) (h1' : w'.mem1 = true) (h2' : w'.mem2 = true)
    (p p' : Nat) (m m' s s' text text' : Str) (op op' : Spec.Operation) (fmt fmt' : Str) (args args' : List Str)
    (hx : Spec.Expands (w.msg w.errno) fmt args text) (hx' : Spec.Expands (w'.msg w'.errno) fmt' args' text')
    (hm : '(' ∉ m) (hm' : '(' ∉ m') (hs : ':' ∉ s) (hs' : ':' ∉ s') (e e' : Effect)
    (he : vsyslog w (some ⟨some m, some s, op.number⟩) p fmt args = some e)
    (he' : vsyslog w' (some ⟨some m', some s', op'.number⟩) p' fmt' args' = some e')
    (heq : e.lines.map (·.2) = e'.lines.map (·.2)) :
    m = m' ∧ s = s' ∧ text = text' ∧ (op = op' ∨ op = .openSession ∧ op' = .closeSession ∨ op = .closeSession ∧ op' = .openSession) := by
  obtain ⟨f, hf, hl⟩ := (C194_line w h1 h2 p fmt args text hx).1 m (some s) op
  obtain ⟨f', hf', hl'⟩ := (C194_line w' h1' h2' p' fmt' args' text' hx').1 m' (some s') op'
  rw [he] at hf; rw [he'] at hf'
  obtain rfl := Option.some.inj hf
  obtain rfl := Option.some.inj hf'
  rw [hl, hl'] at heq
  have hq : Spec.line m s op.name text = Spec.line m' s' op'.name text' := (List.cons.inj heq).1
  unfold Spec.line at hq
  have ⟨e1, hq⟩ := split_at hm hm' hq
  have ⟨e2, hq⟩ := split_at hs hs' hq
  have ⟨e3, hq⟩ := split_at (no_paren op) (no_paren op') hq
  refine ⟨e1, e2, (List.cons.inj (List.cons.inj hq).2).2, ?_⟩
  exact name_same e3

/-- a surrounding with memory -/
def exWorld : World := ⟨fun n => if n = 2 then "No such file".toList else "?".toList, 2, true, 12, true, 12⟩

/-- C194, in full, is false: an application that chooses a service name with a colon makes a line of one service look like a line of another. -/
theorem C194_who_counterexample :
    ∃ (s s' t t' : Str), s ≠ s' ∧
      ∃ e e', vsyslog exWorld (some ⟨some "m".toList, some s, Spec.Operation.authenticate.number⟩) 5 "%s".toList [t] = some e ∧
        vsyslog exWorld (some ⟨some "m".toList, some s', Spec.Operation.authenticate.number⟩) 5 "%s".toList [t'] = some e' ∧ e.lines = e'.lines :=
  ⟨"a".toList, "a:auth): x(b".toList, "x(b:auth): t".toList, "t".toList, by decide, ⟨[(85, "m(a:auth): x(b:auth): t".toList)], [1, 2], [1, 2]⟩,
    ⟨[(85, "m(a:auth): x(b:auth): t".toList)], [1, 2], [1, 2]⟩, by decide +kernel, by decide +kernel, rfl⟩

theorem strerror_outside {c : Int} (h : ¬(0 ≤ c ∧ c < 32)) : strerror c = "Unknown PAM error".toList := by
  unfold strerror
  simp only [PAM_SUCCESS, PAM_OPEN_ERR, PAM_SYMBOL_ERR, PAM_SERVICE_ERR, PAM_SYSTEM_ERR, PAM_BUF_ERR, PAM_PERM_DENIED, PAM_AUTH_ERR, PAM_CRED_INSUFFICIENT, PAM_AUTHINFO_UNAVAIL,
    PAM_USER_UNKNOWN, PAM_MAXTRIES, PAM_NEW_AUTHTOK_REQD, PAM_ACCT_EXPIRED, PAM_SESSION_ERR, PAM_CRED_UNAVAIL, PAM_CRED_EXPIRED, PAM_CRED_ERR, PAM_NO_MODULE_DATA, PAM_CONV_ERR,
    PAM_AUTHTOK_ERR, PAM_AUTHTOK_RECOVERY_ERR, PAM_AUTHTOK_LOCK_BUSY, PAM_AUTHTOK_DISABLE_AGING, PAM_TRY_AGAIN, PAM_IGNORE, PAM_ABORT, PAM_AUTHTOK_EXPIRED, PAM_MODULE_UNKNOWN,
    PAM_BAD_ITEM, PAM_CONV_AGAIN, PAM_INCOMPLETE]
  repeat rw [if_neg (by omega)]

theorem strerror_table : ∀ c d : Fin 32, strerror (c.val : Int) = strerror (d.val : Int) → c = d := by decide +kernel
theorem strerror_known : ∀ c : Fin 32, strerror (c.val : Int) ≠ "Unknown PAM error".toList := by decide +kernel

/-- C194.  `pam_strerror` has an answer for every number.  The texts of the 32 codes of the interface tell the codes apart, from each other and from any other number, and any other number
    is called an unknown error. -/
theorem C194_strerror (c d : Int) :
    (0 ≤ c → c < 32 → strerror c = strerror d → c = d) ∧ (¬(0 ≤ c ∧ c < 32) ↔ strerror c = "Unknown PAM error".toList) := by
  have cast : ∀ c : Int, 0 ≤ c → c < 32 → ∃ k : Fin 32, (k.val : Int) = c := fun c h0 h1 => ⟨⟨c.toNat, by omega⟩, by simp only; omega⟩
  refine ⟨fun h0 h1 he => ?_, strerror_outside, fun he h => ?_⟩
  · obtain ⟨k, rfl⟩ := cast c h0 h1
    by_cases hd : 0 ≤ d ∧ d < 32
    · obtain ⟨l, rfl⟩ := cast d hd.1 hd.2
      rw [strerror_table k l he]
    · exact absurd (he.trans (strerror_outside hd)) (strerror_known k)
  · obtain ⟨k, rfl⟩ := cast c h.1 h.2
    exact strerror_known k he

/-! The hypotheses are met. -/

example : Spec.Expands (exWorld.msg exWorld.errno) "open %s: %m".toList ["/etc/x%n".toList] "open /etc/x%n: No such file".toList :=
  .plain _ (by decide) (.plain _ (by decide) (.plain _ (by decide) (.plain _ (by decide) (.plain _ (by decide)
    (.arg "/etc/x%n".toList (.plain _ (by decide) (.plain _ (by decide) (.error (.done []))))))))) 

example : (vsyslog exWorld (some ⟨some "pam_unix".toList, some "sshd".toList, 4⟩) 6 "open %s: %m".toList ["/etc/x%n".toList]).map (·.lines) =
    some [(86, "pam_unix(sshd:session): open /etc/x%n: No such file".toList)] := by decide +kernel

example : vsyslog { exWorld with mem2 := false } (some ⟨some "m".toList, none, 1⟩) 6 "x".toList [] =
    some ⟨[(83, "vasprintf: ?".toList)], [1], [1]⟩ := by decide +kernel

end Pam.Log
