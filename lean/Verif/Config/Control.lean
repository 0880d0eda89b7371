import Verif.Core.Text
import Verif.Core.Codes
/-
Model of the control-string parser: libpam/pam_misc.c `_pam_parse_control`,
`_pam_set_default_control`.
-/
namespace Pam.Config

/-- `_pam_token_returns`: libpam/pam_tokens.h:37-73.  The index is the return code; the last entry
is `_PAM_RETURN_VALUES`, the default. -/
def tokenReturns : List (List Char) :=
  ["success".toList, "open_err".toList, "symbol_err".toList, "service_err".toList,
   "system_err".toList, "buf_err".toList, "perm_denied".toList, "auth_err".toList,
   "cred_insufficient".toList, "authinfo_unavail".toList, "user_unknown".toList,
   "maxtries".toList, "new_authtok_reqd".toList, "acct_expired".toList, "session_err".toList,
   "cred_unavail".toList, "cred_expired".toList, "cred_err".toList, "no_module_data".toList,
   "conv_err".toList, "authtok_err".toList, "authtok_recover_err".toList,
   "authtok_lock_busy".toList, "authtok_disable_aging".toList, "try_again".toList,
   "ignore".toList, "abort".toList, "authtok_expired".toList, "module_unknown".toList,
   "bad_item".toList, "conv_again".toList, "incomplete".toList, "default".toList]

/-- `_pam_token_actions`: libpam/pam_tokens.h:23-30.  The index is minus the action. -/
def tokenActions : List (List Char) :=
  ["ignore".toList, "ok".toList, "done".toList, "bad".toList, "die".toList, "reset".toList]

/-- The table scans, libpam/pam_misc.c:264-270 and 290-298: the first table entry that is a prefix
of the text, and the text after it. -/
def matchTok : List (List Char) → List Char → Option (Nat × List Char)
  | [], _ => none
  | n :: ns, s =>
    if n.isPrefixOf s then some (0, s.drop n.length)
    else (matchTok ns s).map (fun r => (r.1 + 1, r.2))

/-- `while (isspace((unsigned char)*tok) && *++tok);`: libpam/pam_misc.c:260, 277, 284. -/
def skipSpace (s : List Char) : List Char := s.dropWhile isSpace

/-- `INT_MAX` -/
abbrev INT_MAX : Nat := 2147483647

/-- The number loop, libpam/pam_misc.c:314-327, entered with a digit in front (`none` = error).
Reaching the end of the string ends the number. -/
def parseNum : Nat → List Char → Option (Nat × List Char)
  | acc, [] => some (acc, [])
  | acc, c :: t =>
    if isDigit c then
      if acc > INT_MAX / 10 then none
      else if acc * 10 > INT_MAX - (c.toNat - '0'.toNat) then none
      else parseNum (acc * 10 + (c.toNat - '0'.toNat)) t
    else some (acc, c :: t)

/-- "observe action type" and the jump number: libpam/pam_misc.c:290-334. -/
def parseAction (s : List Char) : Option (Int × List Char) :=
  match matchTok tokenActions s with
  | some (i, r) => some (-(i : Int), r)
  | none =>
    match s with
    | [] => none
    | c :: _ =>
      if isDigit c then
        match parseNum 0 s with
        | none => none
        | some (n, r) => if n = 0 then none else some ((n : Int), r)
      else none

/-- One `return_code = action` entry, from the return code on: libpam/pam_misc.c:264-334. -/
def parseEntry (s : List Char) : Option ((Nat × Int) × List Char) :=
  match matchTok tokenReturns s with
  | none => none
  | some (ret, s1) =>
    match skipSpace s1 with
    | [] => none
    | c :: s2 =>
      if c = '=' then
        match skipSpace s2 with
        | [] => none
        | d :: s3 =>
          match parseAction (d :: s3) with
          | none => none
          | some (a, r) => some ((ret, a), r)
      else none

/-- `_pam_set_default_control`: libpam/pam_misc.c:230-239. -/
def setDefault (tbl : Nat → Int) (a : Int) : Nat → Int :=
  fun i => if i < PAM_RETURN_VALUES then (if tbl i = ACT_UNDEF then a else tbl i) else tbl i

/-- "set control_array element": libpam/pam_misc.c:337-342. -/
def assign (tbl : Nat → Int) (ret : Nat) (a : Int) : Nat → Int :=
  if ret ≠ PAM_RETURN_VALUES then fun i => if i = ret then a else tbl i
  else setDefault tbl a

theorem matchTok_length (ns : List (List Char)) (hne : ∀ n ∈ ns, n ≠ []) (s : List Char) (i : Nat) (r : List Char)
    (h : matchTok ns s = some (i, r)) : r.length < s.length := by
  induction ns generalizing i r with
  | nil => simp [matchTok] at h
  | cons n ns ih =>
    rw [matchTok] at h
    split at h
    · next hp =>
      injection h with h; injection h with h1 h2
      have hp := (List.isPrefixOf_iff_prefix.1 hp).length_le
      have : 0 < n.length := List.length_pos_iff.2 (hne n (by simp))
      rw [← h2, List.length_drop]; omega
    · rw [Option.map_eq_some_iff] at h
      obtain ⟨⟨j, r'⟩, h1, h2⟩ := h
      injection h2 with h2 h3
      exact h3 ▸ ih (fun n hn => hne n (by simp [hn])) j r' h1

theorem tokenReturns_ne : ∀ n ∈ tokenReturns, n ≠ [] := by decide
theorem tokenActions_ne : ∀ n ∈ tokenActions, n ≠ [] := by decide

theorem parseNum_length (acc : Nat) (s : List Char) (n : Nat) (r : List Char)
    (h : parseNum acc s = some (n, r)) : r.length ≤ s.length := by
  fun_induction parseNum acc s with
  | case1 => cases h; simp
  | case2 => cases h
  | case3 => cases h
  | case4 acc c t _ _ _ ih => have := ih h; simp; omega
  | case5 => cases h; simp

theorem parseAction_length (s : List Char) (a : Int) (r : List Char)
    (h : parseAction s = some (a, r)) : r.length ≤ s.length := by
  unfold parseAction at h
  split at h
  · next i r' hm =>
    cases h
    exact Nat.le_of_lt (matchTok_length _ tokenActions_ne _ _ _ hm)
  · split at h
    · cases h
    · split at h
      · split at h
        · cases h
        · next hn =>
          split at h
          · cases h
          · cases h; exact parseNum_length _ _ _ _ hn
      · cases h

theorem skipSpace_length (s : List Char) : (skipSpace s).length ≤ s.length :=
  (List.dropWhile_sublist _).length_le

theorem parseEntry_length (s : List Char) (e : Nat × Int) (r : List Char)
    (h : parseEntry s = some (e, r)) : r.length < s.length := by
  unfold parseEntry at h
  split at h
  · cases h
  · next ret s1 hm =>
    have h1 := matchTok_length _ tokenReturns_ne _ _ _ hm
    have h2 := skipSpace_length s1
    split at h
    · cases h
    · next c s2 hs2 =>
      rw [hs2] at h2
      split at h
      · have h3 := skipSpace_length s2
        split at h
        · cases h
        · next d s3 hs3 =>
          rw [hs3] at h3
          split at h
          · cases h
          · next a r' hpa =>
            cases h
            have h4 := parseAction_length _ _ _ hpa
            simp only [List.length_cons] at *
            omega
      · cases h

/-- `_pam_parse_control` up to the error exit: libpam/pam_misc.c:255-346 (`none` = `parse_error`). -/
def parseControlLoop (tbl : Nat → Int) (s : List Char) : Option (Nat → Int) :=
  match hs : skipSpace s with
  | [] => some tbl
  | c :: t =>
    match h : parseEntry (c :: t) with
    | none => none
    | some ((ret, a), r) => parseControlLoop (assign tbl ret a) r
termination_by s.length
decreasing_by
  have h1 := parseEntry_length _ _ _ h
  have h2 := skipSpace_length s
  rw [hs] at h2
  omega

/-- `_pam_parse_control`: libpam/pam_misc.c:250-353. -/
def parseControl (tbl : Nat → Int) (s : List Char) : Nat → Int :=
  match parseControlLoop tbl s with
  | some t => t
  | none => fun i => if i < PAM_RETURN_VALUES then ACT_BAD else tbl i

/-- Treatment of a control that is none of the keywords: libpam/pam_handlers.c:148-154 and
193-197. -/
def bracketActions (s : List Char) : Nat → Int :=
  setDefault (parseControl (fun _ => ACT_UNDEF) s) ACT_BAD

end Pam.Config
