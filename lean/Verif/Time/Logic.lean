import Verif.Core.Text
/-
Model of the rule language of pam_time and pam_group: logic_member, logic_field, is_same, check_time.
modules/pam_group/pam_group.c:208-431 has the same text as modules/pam_time/pam_time.c:261-526, so one
model serves both; lines are cited for pam_time.c.  Character classes are those of the C locale.
A C string is a `List Char` without NUL.
-/
namespace Pam.Time

/-- text: a C string or a part of it -/
abbrev Str := List Char

/-- `isalpha` in the C locale -/
def isAlpha (c : Char) : Bool :=
  decide (('A'.toNat ≤ c.toNat ∧ c.toNat ≤ 'Z'.toNat) ∨ ('a'.toNat ≤ c.toNat ∧ c.toNat ≤ 'z'.toNat))

/-- a character of a name: modules/pam_time/pam_time.c:289-290 and 322-323 -/
def isWord (c : Char) : Bool :=
  isAlpha c || c == '*' || isDigit c || c == '_' || c == '-' || c == '.' || c == '/' || c == ':'

/-- '&', '|' or '!': modules/pam_time/pam_time.c:279-281 -/
def isOper (c : Char) : Bool := c == '&' || c == '|' || c == '!'

/-- `logic_member`: modules/pam_time/pam_time.c:261-302.  `s` is the string from `*at` on; the result is the
string from the new `*at` on and the length of the member there. -/
def member (s : Str) : Str × Nat :=
  let s' := s.dropWhile (fun c => !isWord c && !isOper c)
  match s' with
  | [] => ([], 0)
  | c :: r => if isOper c then (c :: r, 1) else (c :: r, ((c :: r).takeWhile isWord).length)

/-- `operator`: modules/pam_time/pam_time.c:54 -/
inductive Oper where
  | and
  | or
deriving DecidableEq, Repr

/-- `expect`: modules/pam_time/pam_time.c:304 -/
inductive Expect where
  | val
  | op
deriving DecidableEq, Repr

/-- `left &= right` or `left |= right`: modules/pam_time/pam_time.c:325-328 -/
def combine (o : Oper) (left right : Bool) : Bool :=
  match o with
  | .and => left && right
  | .or => left || right

/-- a member is not empty and lies inside the string -/
theorem member_lt (s : Str) (h : (member s).2 ≠ 0) : ((member s).1.drop (member s).2).length < s.length := by
  have h2 : (s.dropWhile (fun c => !isWord c && !isOper c)).length ≤ s.length :=
    (List.dropWhile_suffix _).length_le
  unfold member at h ⊢
  revert h
  generalize s.dropWhile (fun c => !isWord c && !isOper c) = s' at h2
  cases s' with
  | nil => intro h; exact absurd rfl h
  | cons c r =>
    intro h
    rw [List.length_drop]
    have : 0 < ((if isOper c then (c :: r, 1) else (c :: r, ((c :: r).takeWhile isWord).length)) : Str × Nat).2 :=
      Nat.pos_of_ne_zero h
    have h3 : ((if isOper c then (c :: r, 1) else (c :: r, ((c :: r).takeWhile isWord).length)) : Str × Nat).1 = c :: r := by
      split <;> rfl
    simp only [h3, List.length_cons] at *
    omega

/-- The loop of `logic_field`: modules/pam_time/pam_time.c:316-355.  `agrees` gets the text from the member on
and its length, as in C; `none` is undefined behaviour inside it. -/
def fieldLoop (agrees : Str → Nat → Option Bool) (left neg : Bool) (oper : Oper) (next : Expect) (s : Str) : Option Bool :=
  if h : (member s).2 = 0 then some left
  else
    match next with
    | .val =>
      if (member s).1.head? = some '!' then
        fieldLoop agrees left (!neg) oper .val ((member s).1.drop (member s).2)
      else if (member s).1.head?.any isWord then
        match agrees (member s).1 (member s).2 with
        | none => none
        | some b => fieldLoop agrees (combine oper left (neg ^^ b)) neg oper .op ((member s).1.drop (member s).2)
      else some false
    | .op =>
      if (member s).1.head? = some '&' then
        fieldLoop agrees left false .and .val ((member s).1.drop (member s).2)
      else if (member s).1.head? = some '|' then
        fieldLoop agrees left false .or .val ((member s).1.drop (member s).2)
      else some false
termination_by s.length
decreasing_by all_goals exact member_lt s h

/-- `logic_field`: modules/pam_time/pam_time.c:306-358 -/
def logicField (agrees : Str → Nat → Option Bool) (x : Str) : Option Bool :=
  fieldLoop agrees false false .or .val x

/-- The loop of `is_same`: modules/pam_time/pam_time.c:368-383.  `whole` is all of `a`, `a` and `b` what is
left from index `i` on.  After a star the rest of the member is compared with the end of `whole`:
if it is longer, the pointer `a+strlen(a)-len` leaves the object (`none`). -/
def sameLoop (whole : Str) : (a b : Str) → (len : Nat) → Option Bool
  | a, _, 0 => some a.isEmpty
  | x :: a, y :: b, len + 1 =>
    if y = x then sameLoop whole a b len
    else if y = '*' then
      if len = 0 then some true
      else if whole.length < len then none
      else some (b.take len == whole.drop (whole.length - len))
    else some false
  | [], y :: b, len + 1 =>
    if y = '*' then
      if len = 0 then some true
      else if whole.length < len then none
      else some (b.take len == whole.drop (whole.length - len))
    else some false
  | _, [], _ + 1 => none

/-- `is_same`: modules/pam_time/pam_time.c:360-384 -/
def isSame (a : Str) (b : Str) (len : Nat) : Option Bool := sameLoop a a b len

/-- `TIME`: modules/pam_time/pam_time.c:386-389 -/
structure Instant where
  /-- bit of the day of the week -/
  day : Nat
  /-- hour*100 + minute -/
  minute : Nat
deriving DecidableEq, Repr

/-- the table `days`: modules/pam_time/pam_time.c:391-406 -/
def days : List (Char × Char × Nat) :=
  [('s', 'u', 0o1), ('m', 'o', 0o2), ('t', 'u', 0o4), ('w', 'e', 0o10), ('t', 'h', 0o20), ('f', 'r', 0o40),
   ('s', 'a', 0o100), ('w', 'k', 0o76), ('w', 'd', 0o101), ('a', 'l', 0o177)]

/-- `time_now` for a weekday (0 is Sunday), hour and minute: modules/pam_time/pam_time.c:408-422.  (The table is
indexed by `tm_wday`.) -/
def timeNow (wday hour min : Nat) : Instant :=
  ⟨((days.map (fun d => d.2.2)).getD wday 0), hour * 100 + min⟩

/-- looking up two characters in the table: modules/pam_time/pam_time.c:456-462 -/
def dayBit (a b : Char) : Option Nat :=
  (days.find? (fun d => lower a == d.1 && lower b == d.2.1)).map (fun d => d.2.2)

/-- The loop over the days: modules/pam_time/pam_time.c:452-469.  `none`: bad day (FALSE).  A letter before
the end of the string is compared together with the NUL and found bad. -/
def dayLoop : (marked : Nat) → (s : Str) → (len : Nat) → Option (Nat × Str × Nat)
  | m, [], len => some (m, [], len)
  | m, [a], len => if 0 < len ∧ isAlpha a then none else some (m, [a], len)
  | m, a :: b :: r, len =>
    if 0 < len ∧ isAlpha a then
      match dayBit a b with
      | none => none
      | some d => dayLoop (m ^^^ d) r (len - 1)
    else some (m, a :: b :: r, len)

/-- The loops over digits: modules/pam_time/pam_time.c:477-480 and 485-488.  At most `k` digits; the number of
digits, their value, the rest and what is left of `len`. -/
def digits : (k acc : Nat) → (s : Str) → (len : Nat) → Nat × Nat × Str × Nat
  | 0, acc, s, len => (0, acc, s, len)
  | _ + 1, acc, [], len => (0, acc, [], len)
  | k + 1, acc, c :: s, len =>
    if 0 < len ∧ isDigit c then
      let r := digits k (acc * 10 + (c.toNat - '0'.toNat)) s (len - 1)
      (r.1 + 1, r.2)
    else (0, acc, c :: s, len)

/-- comparing with the time now: modules/pam_time/pam_time.c:501-523 -/
def inWindow (at_ : Instant) (marked start stop : Nat) : Bool :=
  if start < stop then
    decide (at_.day &&& marked ≠ 0) && decide (start ≤ at_.minute) && decide (at_.minute < stop)
  else if at_.day &&& marked ≠ 0 ∧ start ≤ at_.minute then true
  else
    let m := marked <<< 1
    let m := m ||| (if m &&& 0o200 ≠ 0 then 1 else 0)
    decide (at_.day &&& m ≠ 0) && decide (at_.minute ≤ stop)

/-- `check_time` after the optional '!': modules/pam_time/pam_time.c:452-525 -/
def checkRange (at_ : Instant) (neg : Bool) (s : Str) (len : Nat) : Bool :=
  match dayLoop 0 s len with
  | none => false
  | some (marked, s1, len1) =>
    if marked = 0 then false
    else
      let r := digits 4 0 s1 len1
      let s2 := r.2.2.1
      match s2 with
      | '-' :: s3 =>
        let r2 := digits 4 0 s3 r.2.2.2
        if r2.1 ≠ 4 then true
        else neg ^^ inWindow at_ marked r.2.1 r2.2.1
      | _ => true

/-- `check_time`: modules/pam_time/pam_time.c:424-526 (`times` is never NULL here) -/
def checkTime (at_ : Instant) (times : Str) (len : Nat) : Option Bool :=
  match times with
  | '!' :: s => some (checkRange at_ true s len)
  | s => some (checkRange at_ false s len)

end Pam.Time
