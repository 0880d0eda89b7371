import Verif.Time.Logic
import Verif.Core.Codes
/-
Model of reading time.conf and group.conf and of what pam_time and pam_group do with the rules:
read_field, check_account, mkgrplist, pam_sm_acct_mgmt, pam_sm_setcred.  read_field is the same text in both modules;
lines are cited for pam_time.c.
-/
namespace Pam.Time

/-- `STATE_*`: modules/pam_time/pam_time.c:126-129 -/
inductive State where
  | nl
  | comment
  | field
  | eof
deriving DecidableEq, Repr

/-- `PAM_TIME_BUFLEN`: modules/pam_time/pam_time.c:41 -/
abbrev BUFLEN : Nat := 1000

/-- `trim_spaces`: modules/pam_time/pam_time.c:114-124 -/
def trim (s : Str) : Str := (s.reverse.dropWhile (· == ' ')).reverse

/-- The loop over the buffer: modules/pam_time/pam_time.c:195-244.  What was written to the front of the buffer, the
state, and the text after the separator or newline that ended the field, if one did.  `out` never gets ahead of the
reading position, so writing it does not change the text still to be read. -/
def scan : (st : State) → (onspace : Bool) → (out : Str) → Str → Str × State × Option Str
  | st, _, out, [] => (out, st, none)
  | st, onspace, out, '\\' :: '\n' :: r =>
    if st = .comment then (out, .nl, some r)
    else scan st onspace out r
  | st, onspace, out, c :: r =>
    if st = .comment ∧ c ≠ '\n' then scan st onspace out r
    else if c = '\n' then (out, .nl, some r)
    else if c = '\t' ∨ c = ' ' then scan st true (if onspace then out else out ++ [' ']) r
    else if c = '!' then scan st true (out ++ ['!']) r
    else if c = '#' then scan .comment onspace out r
    else if c = ';' then (out, .field, some r)
    else scan st false (out ++ [c]) r

/-- `read_field`: modules/pam_time/pam_time.c:131-257, once the file is open.  `stream` is what has not been used yet: the text waiting in
the buffer and the rest of the file.  The buffer always holds its first 1000 characters, or all of it
(104-112 and 161-190; text after a NUL byte in the buffer is lost).  `err`: reading past the end of `stream` gives an error instead of
end of file.  The result is the buffer (`none` when it was dropped), the state and the new stream. -/
def readField (err : Bool) (st : State) (stream : Str) : Option Str × State × Str :=
  if err ∧ stream.length < BUFLEN then (none, .eof, [])
  else if stream = [] then (none, .eof, [])
  else
    match scan st true [] ((stream.take BUFLEN).takeWhile (· ≠ NUL)) with
    | (out, st', some rest) => (some (trim out), st', rest ++ stream.drop BUFLEN)
    | (out, st', none) =>
      if st' ≠ .comment then (some [], .comment, stream.drop BUFLEN)
      else (some (trim out), .comment, stream.drop BUFLEN)

/-- what the rules are checked against -/
structure Who where
  service : Str
  tty : Str
  user : Str
  now : Instant
  /-- `innetgr(name, NULL, user, NULL)` -/
  netgroup : Str → Bool
  /-- `pam_modutil_user_in_group_nam_nam(pamh, user, name)` -/
  unixgroup : Str → Bool

/-- the user field of pam_time: modules/pam_time/pam_time.c:579-587 (with netgroup support) -/
def userField (w : Who) (buf : Str) : Option Bool :=
  match buf with
  | '@' :: name => some (w.netgroup name)
  | _ => logicField (isSame w.user) buf

/-- the user field of pam_group: modules/pam_group/pam_group.c:668-679 -/
def groupUserField (w : Who) (buf : Str) : Option Bool :=
  match buf with
  | '@' :: name => some (w.netgroup name)
  | '%' :: name => some (w.unixgroup name)
  | _ => logicField (isSame w.user) buf

/-- a condition on a field that must be followed by another one: `logic_field` after `read_field`.
The result is `none` when the rule is given up -/
inductive Got where
  /-- `continue` -/
  | skip
  /-- undefined behaviour -/
  | ub
  | ok (good : Bool)
deriving DecidableEq, Repr

/-- Reading one of the fields that must end in a separator, and judging it:
modules/pam_time/pam_time.c:562-568, 573-587. -/
def needField (err : Bool) (judge : Str → Option Bool) (st : State) (stream : Str) : Got × State × Str :=
  match readField err st stream with
  | (some buf, .field, s) =>
    match judge buf with
    | some b => (.ok b, .field, s)
    | none => (.ub, .field, s)
  | (_, st', s) => (.skip, st', s)

/-- scanning stops inside the text -/
theorem scan_lt : ∀ (n : Nat) (x : Str), x.length ≤ n → ∀ (st : State) (onspace : Bool) (out o : Str) (st' : State) (r : Str),
    scan st onspace out x = (o, st', some r) → r.length < x.length := by
  intro n
  induction n with
  | zero =>
    intro x hx st onspace out o st' r h
    rw [List.length_eq_zero_iff.mp (Nat.le_zero.mp hx)] at h
    simp [scan] at h
  | succ n ih =>
    intro x hx st onspace out o st' r h
    unfold scan at h
    split at h
    · simp at h
    · rename_i y
      simp only [List.length_cons] at hx ⊢
      split at h
      · simp at h; obtain ⟨_, _, rfl⟩ := h; omega
      · have := ih y (by omega) _ _ _ _ _ _ h; omega
    · rename_i c y _
      simp only [List.length_cons] at hx ⊢
      have key : ∀ st onspace out, scan st onspace out y = (o, st', some r) → r.length < y.length + 1 :=
        fun st onspace out h => Nat.lt_succ_of_lt (ih y (by omega) _ _ _ _ _ _ h)
      split at h
      · exact key _ _ _ h
      · split at h
        · simp at h; obtain ⟨_, _, rfl⟩ := h; omega
        · split at h
          · exact key _ _ _ h
          · split at h
            · exact key _ _ _ h
            · split at h
              · exact key _ _ _ h
              · split at h
                · simp at h; obtain ⟨_, _, rfl⟩ := h; omega
                · exact key _ _ _ h

/-- reading a field uses up part of the stream, or ends in `STATE_EOF` with nothing left -/
theorem readField_lt (err : Bool) (st : State) (stream : Str) :
    (readField err st stream).2.2.length < stream.length ∨
      ((readField err st stream).1 = none ∧ (readField err st stream).2.1 = .eof ∧ (readField err st stream).2.2 = []) := by
  unfold readField
  split
  · exact Or.inr ⟨rfl, rfl, rfl⟩
  · split
    · exact Or.inr ⟨rfl, rfl, rfl⟩
    · rename_i h
      left
      have h0 : 0 < stream.length := List.length_pos_iff.mpr h
      have hd : (stream.drop BUFLEN).length < stream.length := by
        rw [List.length_drop]; unfold BUFLEN; omega
      split
      · rename_i out st' rest he
        have h1 := scan_lt _ _ (Nat.le_refl _) _ _ _ _ _ _ he
        have h2 : ((stream.take BUFLEN).takeWhile (· ≠ NUL)).length ≤ (stream.take BUFLEN).length :=
          (List.takeWhile_prefix _).length_le
        simp only [List.length_append, List.length_drop, List.length_take] at *
        omega
      · split <;> exact hd

theorem readField_le (err : Bool) (st : State) (stream : Str) :
    (readField err st stream).2.2.length ≤ stream.length := by
  rcases readField_lt err st stream with h | ⟨_, _, h⟩
  · exact Nat.le_of_lt h
  · rw [h]; simp

theorem needField_le (err : Bool) (judge : Str → Option Bool) (st : State) (stream : Str) :
    (needField err judge st stream).2.2.length ≤ stream.length := by
  have := readField_le err st stream
  unfold needField
  split
  · rename_i h; rw [h] at this; split <;> exact this
  · rename_i h; rw [h] at this; exact this

/-- The body of the loop of `check_account` of pam_time after the service field was read:
modules/pam_time/pam_time.c:557-610.  `none` is undefined behaviour; the Boolean says whether the rule denies. -/
def timeRule (err : Bool) (w : Who) (service : Str) (stream : Str) : Option (Bool × State × Str) :=
  match logicField (isSame w.service) service with
  | none => none
  | some g1 =>
    match needField err (logicField (isSame w.tty)) .field stream with
    | (.ub, _, _) => none
    | (.skip, st, s) => some (false, st, s)
    | (.ok g2, st2, s2) =>
      match needField err (userField w) st2 s2 with
      | (.ub, _, _) => none
      | (.skip, st, s) => some (false, st, s)
      | (.ok g3, st3, s3) =>
        match readField err st3 s3 with
        | (_, .field, s4) => some (false, .field, s4)
        | (none, _, _) => none
        | (some buf, st4, s4) =>
          match logicField (checkTime w.now) buf with
          | none => none
          | some t => some ((g1 && g2 && g3) && !t, st4, s4)

theorem timeRule_le {err : Bool} {w : Who} {service stream : Str} {r : Bool × State × Str}
    (h : timeRule err w service stream = some r) : r.2.2.length ≤ stream.length := by
  unfold timeRule at h
  have n1 := needField_le err (logicField (isSame w.tty)) .field stream
  split at h
  · cases h
  · split at h
    · cases h
    · rename_i e; rw [e] at n1; cases h; exact n1
    · rename_i g2 st2 s2 e
      rw [e] at n1
      have n2 := needField_le err (userField w) st2 s2
      split at h
      · cases h
      · rename_i e2; rw [e2] at n2; cases h; exact Nat.le_trans n2 n1
      · rename_i g3 st3 s3 e2
        rw [e2] at n2
        have n3 := readField_le err st3 s3
        have n4 : (readField err st3 s3).2.2.length ≤ stream.length := Nat.le_trans n3 (Nat.le_trans n2 n1)
        split at h
        · rename_i e3; rw [e3] at n4; cases h; exact n4
        · cases h
        · rename_i e3
          rw [e3] at n4
          split at h
          · cases h
          · cases h; exact n4

/-- The loop of `check_account` of pam_time: modules/pam_time/pam_time.c:539-611.  `none` is undefined behaviour. -/
def timeLoop (err : Bool) (w : Who) (retval : Int) (st : State) (stream : Str) : Option Int :=
  match hr : readField err st stream with
  | (none, _, _) => some retval
  | (some buf, st1, s1) =>
    if buf = [] ∨ st1 ≠ .field then timeLoop err w retval st1 s1
    else
      match ht : timeRule err w buf s1 with
      | none => none
      | some (denied, st2, s2) =>
        if st2 = .eof then some (if denied then PAM_PERM_DENIED else retval)
        else timeLoop err w (if denied then PAM_PERM_DENIED else retval) st2 s2
termination_by stream.length
decreasing_by
  · rcases readField_lt err st stream with h | ⟨h, _⟩
    · rw [hr] at h; exact h
    · rw [hr] at h; cases h
  · rcases readField_lt err st stream with h | ⟨h, _⟩
    · rw [hr] at h
      exact Nat.lt_of_le_of_lt (timeRule_le ht) h
    · rw [hr] at h; cases h

/-- what opening the configuration file and reading it gives: `none` when it cannot be opened -/
structure Conf where
  text : Option Str
  /-- reading ends in an error instead of end of file -/
  err : Bool

/-- `check_account` of pam_time: modules/pam_time/pam_time.c:528-614.  (Allocating the buffer does not fail.) -/
def timeCheck (c : Conf) (w : Who) : Option Int :=
  match c.text with
  | none => some PAM_SUCCESS
  | some t => timeLoop c.err w PAM_SUCCESS .nl t

/-- the terminal name without its directory: modules/pam_time/pam_time.c:667-673 -/
def ttyName (tty : Str) : Str :=
  match tty with
  | '/' :: t => if '/' ∈ t then (t.dropWhile (· ≠ '/')).drop 1 else t
  | t => t

/-- what the handle gives a module -/
structure Items where
  service : Option Str
  /-- what `pam_get_user` gives; `none` when it fails -/
  user : Option Str
  tty : Option Str
  /-- `ttyname(STDIN_FILENO)` -/
  stdin : Option Str
  /-- whether `pam_set_item(PAM_TTY)` succeeds -/
  setTty : Bool

/-- the part of pam_sm_acct_mgmt and pam_sm_setcred that finds out who is asking:
modules/pam_time/pam_time.c:635-673, modules/pam_group/pam_group.c:782-820 -/
def findWho (it : Items) (now : Instant) (netgroup unixgroup : Str → Bool) : Int ⊕ Who :=
  match it.service with
  | none => .inl PAM_ABORT
  | some service =>
    match it.user with
    | none => .inl PAM_USER_UNKNOWN
    | some [] => .inl PAM_USER_UNKNOWN
    | some user =>
      match it.tty with
      | some tty => .inr ⟨service, ttyName tty, user, now, netgroup, unixgroup⟩
      | none =>
        if it.setTty then .inr ⟨service, ttyName (it.stdin.getD []), user, now, netgroup, unixgroup⟩
        else .inl PAM_ABORT

/-- `pam_sm_acct_mgmt` of pam_time: modules/pam_time/pam_time.c:618-694 (logging and auditing left out) -/
def timeAcctMgmt (it : Items) (c : Conf) (now : Instant) (netgroup unixgroup : Str → Bool) : Option Int :=
  match findWho it now netgroup unixgroup with
  | .inl r => some r
  | .inr w => timeCheck c w

/-! ## pam_group -/

/-- a character of a group name: modules/pam_group/pam_group.c:500-501 -/
def isGroupChar (c : Char) : Bool := isAlpha c || isDigit c || c == '_' || c == '*' || c == '-'

/-- `find_member`: modules/pam_group/pam_group.c:473-513 -/
def findMember (s : Str) : Str × Nat :=
  match s.dropWhile (fun c => !isGroupChar c && !isOper c) with
  | [] => ([], 0)
  | c :: r => if isOper c then (c :: r, 1) else (c :: r, ((c :: r).takeWhile isGroupChar).length)

/-- the list of groups: what is in it, and how many entries the memory has room for -/
structure Groups where
  gids : List Nat
  room : Nat
deriving DecidableEq, Repr

/-- `blk_size`: modules/pam_group/pam_group.c:516 (C division rounds towards zero) -/
def blkSize (len : Nat) : Nat := ((len + 9) / 10) * 10

theorem findMember_lt (s : Str) (h : (findMember s).2 ≠ 0) : ((findMember s).1.drop (findMember s).2).length < s.length := by
  have h2 : (s.dropWhile (fun c => !isGroupChar c && !isOper c)).length ≤ s.length :=
    (List.dropWhile_suffix _).length_le
  unfold findMember at h ⊢
  revert h
  generalize s.dropWhile (fun c => !isGroupChar c && !isOper c) = s' at h2
  cases s' with
  | nil => intro h; exact absurd rfl h
  | cons c r =>
    intro h
    rw [List.length_drop]
    have : 0 < ((if isOper c then (c :: r, 1) else (c :: r, ((c :: r).takeWhile isGroupChar).length)) : Str × Nat).2 :=
      Nat.pos_of_ne_zero h
    have h3 : ((if isOper c then (c :: r, 1) else (c :: r, ((c :: r).takeWhile isGroupChar).length)) : Str × Nat).1 = c :: r := by
      split <;> rfl
    simp only [h3, List.length_cons] at *
    omega

/-- The loop of `mkgrplist`: modules/pam_group/pam_group.c:526-566.  `blks` is the local count of blocks.  A write
outside the memory is undefined behaviour (`none`).  (Memory does not run out.) -/
def grpLoop (getgrnam : Str → Option Nat) (blks : Nat) (g : Groups) (s : Str) : Option Groups :=
  if h : (findMember s).2 = 0 then some g
  else
    let blks' := if blks ≤ g.gids.length then blks + 10 else blks
    let room := if blks ≤ g.gids.length then blks + 10 else g.room
    let rest := ((findMember s).1.drop (findMember s).2).drop 1
    match getgrnam ((findMember s).1.take (findMember s).2) with
    | none => grpLoop getgrnam blks' ⟨g.gids, room⟩ rest
    | some gid =>
      if g.gids.length < room then grpLoop getgrnam blks' ⟨g.gids ++ [gid], room⟩ rest
      else none
termination_by s.length
decreasing_by
  all_goals
    have := findMember_lt s h
    rw [List.length_drop]
    omega

/-- `mkgrplist`: modules/pam_group/pam_group.c:518-569 -/
def mkgrplist (getgrnam : Str → Option Nat) (g : Groups) (buf : Str) : Option Groups :=
  grpLoop getgrnam (blkSize g.gids.length) g buf

/-- The body of the loop of `check_account` of pam_group after the service field was read:
modules/pam_group/pam_group.c:646-722 -/
def groupRule (err : Bool) (w : Who) (getgrnam : Str → Option Nat) (g : Groups) (service stream : Str) :
    Option (Groups × State × Str) :=
  match logicField (isSame w.service) service with
  | none => none
  | some g1 =>
    match needField err (logicField (isSame w.tty)) .field stream with
    | (.ub, _, _) => none
    | (.skip, st, s) => some (g, st, s)
    | (.ok g2, st2, s2) =>
      match needField err (groupUserField w) st2 s2 with
      | (.ub, _, _) => none
      | (.skip, st, s) => some (g, st, s)
      | (.ok g3, st3, s3) =>
        match needField err (logicField (checkTime w.now)) st3 s3 with
        | (.ub, _, _) => none
        | (.skip, st, s) => some (g, st, s)
        | (.ok g4, st4, s4) =>
          match readField err st4 s4 with
          | (_, .field, s5) => some (g, .field, s5)
          | (buf, st5, s5) =>
            if g1 && g2 && g3 && g4 then
              match buf with
              | none => none
              | some buf =>
                match mkgrplist getgrnam g buf with
                | none => none
                | some g' => some (g', st5, s5)
            else some (g, st5, s5)

theorem groupRule_le {err : Bool} {w : Who} {getgrnam : Str → Option Nat} {g : Groups} {service stream : Str} {r : Groups × State × Str}
    (h : groupRule err w getgrnam g service stream = some r) : r.2.2.length ≤ stream.length := by
  unfold groupRule at h
  have n1 := needField_le err (logicField (isSame w.tty)) .field stream
  split at h
  · cases h
  · split at h
    · cases h
    · rename_i e; rw [e] at n1; cases h; exact n1
    · rename_i g2 st2 s2 e
      rw [e] at n1
      have n2 := needField_le err (groupUserField w) st2 s2
      split at h
      · cases h
      · rename_i e2; rw [e2] at n2; cases h; exact Nat.le_trans n2 n1
      · rename_i g3 st3 s3 e2
        rw [e2] at n2
        have n3 := needField_le err (logicField (checkTime w.now)) st3 s3
        split at h
        · cases h
        · rename_i e3; rw [e3] at n3; cases h; exact Nat.le_trans n3 (Nat.le_trans n2 n1)
        · rename_i g4 st4 s4 e3
          rw [e3] at n3
          have n4 := readField_le err st4 s4
          have n5 : (readField err st4 s4).2.2.length ≤ stream.length :=
            Nat.le_trans n4 (Nat.le_trans n3 (Nat.le_trans n2 n1))
          split at h
          · rename_i e4; rw [e4] at n5; cases h; exact n5
          · rename_i e4
            rw [e4] at n5
            split at h
            · split at h
              · cases h
              · split at h
                · cases h
                · cases h; exact n5
            · cases h; exact n5

/-- The loop of `check_account` of pam_group: modules/pam_group/pam_group.c:627-724 -/
def groupLoop (err : Bool) (w : Who) (getgrnam : Str → Option Nat) (g : Groups) (st : State) (stream : Str) : Option Groups :=
  match hr : readField err st stream with
  | (none, _, _) => some g
  | (some buf, st1, s1) =>
    if buf = [] ∨ st1 ≠ .field then groupLoop err w getgrnam g st1 s1
    else
      match ht : groupRule err w getgrnam g buf s1 with
      | none => none
      | some (g', st2, s2) => if st2 = .eof then some g' else groupLoop err w getgrnam g' st2 s2
termination_by stream.length
decreasing_by
  · rcases readField_lt err st stream with h | ⟨h, _⟩
    · rw [hr] at h; exact h
    · rw [hr] at h; cases h
  · rcases readField_lt err st stream with h | ⟨h, _⟩
    · rw [hr] at h
      exact Nat.lt_of_le_of_lt (groupRule_le ht) h
    · rw [hr] at h; cases h

/-- The memory allocated for the groups the process already has: modules/pam_group/pam_group.c:600-622 -/
def firstGroups (groups : List Nat) : Groups := ⟨groups, blkSize groups.length⟩

/-- `check_account` of pam_group: modules/pam_group/pam_group.c:572-753.  `groups` are the groups of the process;
the result is what was asked of `setgroups` (`none`: it was not called), and the return value when `setgroups`
does what `setOk` says. -/
def groupCheck (c : Conf) (w : Who) (getgrnam : Str → Option Nat) (groups : List Nat) (setOk : Bool) :
    Option (Option (List Nat) × Int) :=
  match (match c.text with
    | none => some (firstGroups groups)
    | some t => groupLoop c.err w getgrnam (firstGroups groups) .nl t) with
  | none => none
  | some g =>
    if g.gids = [] then some (none, PAM_SUCCESS)
    else some (some g.gids, if setOk then PAM_SUCCESS else PAM_CRED_ERR)

/-- `PAM_ESTABLISH_CRED` and `PAM_REINITIALIZE_CRED`: libpam/include/security/_pam_types.h:108-114 -/
def forCred (flags : Nat) : Bool := flags &&& 0x2 ≠ 0 || flags &&& 0x8 ≠ 0

/-- `pam_sm_setcred` of pam_group: modules/pam_group/pam_group.c:764-831 -/
def groupSetcred (flags : Nat) (it : Items) (c : Conf) (now : Instant) (netgroup unixgroup : Str → Bool)
    (getgrnam : Str → Option Nat) (groups : List Nat) (setOk : Bool) : Option (Option (List Nat) × Int) :=
  if forCred flags then
    match findWho it now netgroup unixgroup with
    | .inl r => some (none, r)
    | .inr w => groupCheck c w getgrnam groups setOk
  else some (none, PAM_SUCCESS)

end Pam.Time
