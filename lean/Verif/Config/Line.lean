import Verif.Core.Text
/-
Model of libpam_internal/pam_line.c: assembling configuration lines.
A file is a list of bytes; `getline` hands out its physical lines (with their newline).
Memory allocation failure and read errors (which `getline` reports like end of file) are not
modelled.
-/
namespace Pam.Config

/-- The physical lines `getline` returns one after the other (libpam_internal/pam_line.c:210). -/
def physLines : List Char → List (List Char)
  | [] => []
  | c :: t =>
    if c = '\n' then ['\n'] :: physLines t
    else match physLines t with
      | [] => [[c]]
      | l :: ls => (c :: l) :: ls

/-- trailing characters skipped when looking for a backslash: libpam_internal/pam_line.c:148 -/
def isTrail (c : Char) : Bool := c == ' ' || c == '\t' || c == '\n'

/-- leading characters skipped: `strspn(str, " \t")`, libpam_internal/pam_line.c:116 -/
def isLead (c : Char) : Bool := c == ' ' || c == '\t'

/-- `l` without its trailing blanks and newline -/
def stripTrail (l : List Char) : List Char := (l.reverse.dropWhile isTrail).reverse

/-- `_pam_str_unescnl`: libpam_internal/pam_line.c:138-160.  Result: is the newline escaped, and
the bytes up to `*end`. -/
def unescnl (repl : Char) (l : List Char) : Bool × List Char :=
  match l.reverse.dropWhile isTrail with
  | '\\' :: r => (true, r.reverse ++ (if repl ≠ NUL then [repl] else []))
  | _ => (false, l)

/-- the C string at the beginning of a buffer -/
def cstr (l : List Char) : List Char := l.takeWhile (· ≠ NUL)

/-- `str[strcspn(str, "#")] = '\0'`: libpam_internal/pam_line.c:121. (If neither `#` nor NUL
occurs the terminating NUL is overwritten by itself.) -/
def cutComment : List Char → List Char
  | [] => []
  | c :: t => if c = '#' ∨ c = NUL then NUL :: t else c :: cutComment t

/-- `_pam_str_prepare` with `_pam_str_trim`: libpam_internal/pam_line.c:113-124, 171-184.
Result: end of line reached, and the bytes from `*start` to `*end`. -/
def prepare (repl : Char) (l : List Char) : Bool × List Char :=
  let u := unescnl repl l
  (!u.1 || (cstr u.2).contains '#', cutComment (u.2.dropWhile isLead))

/-- `buffer->assembled` (`none` = NULL) after `_pam_line_buffer_add`:
libpam_internal/pam_line.c:8-51. -/
def bufAdd (acc : Option (List Char)) (seg : List Char) : Option (List Char) :=
  if seg = [] then acc else some (acc.getD [] ++ seg)

/-- `_pam_line_buffer_add_eol`: libpam_internal/pam_line.c:53-59. -/
def bufAddEol (acc : Option (List Char)) (seg : List Char) : Option (List Char) :=
  if acc.isSome ∨ (seg.headD NUL ≠ NUL ∧ seg.headD NUL ≠ '\n') then bufAdd acc seg else acc

/-- outcome of one call of `_pam_line_assemble`: 0, -1 or 1 with the line and the unread rest -/
inductive Assembled
  | eof
  | error
  | line (l : List Char) (rest : List (List Char))
deriving Repr, DecidableEq

/-- The loop of `_pam_line_assemble`: libpam_internal/pam_line.c:204-251.  `pend` is `ret != 0`.
The line is the C string at `buffer->assembled`. -/
def assembleLoop (repl : Char) : Option (List Char) → Bool → List (List Char) → Assembled
  | _, pend, [] => if pend then .error else .eof
  | acc, _, l :: ls =>
    let p := prepare repl l
    if p.1 then
      let acc' := bufAddEol acc p.2
      -- _pam_line_buffer_valid: lines 100-103
      if cstr (acc'.getD []) ≠ [] then .line (cstr (acc'.getD [])) ls
      else assembleLoop repl none false ls
    else assembleLoop repl (bufAdd acc p.2) true ls

/-- `_pam_line_assemble`: libpam_internal/pam_line.c:195-253.  (The buffer is empty at entry:
what `_pam_line_buffer_shift` leaves in `chunk` is overwritten by `getline`.) -/
def assemble (repl : Char) (ls : List (List Char)) : Assembled := assembleLoop repl none false ls

theorem assembleLoop_rest (repl : Char) (acc : Option (List Char)) (pend : Bool) (ls : List (List Char))
    (l : List Char) (rest : List (List Char)) (h : assembleLoop repl acc pend ls = .line l rest) :
    rest.length < ls.length := by
  induction ls generalizing acc pend with
  | nil => simp only [assembleLoop] at h; split at h <;> cases h
  | cons x xs ih =>
    simp only [assembleLoop] at h
    split at h
    · split at h
      · cases h; simp
      · have := ih _ _ h; simp; omega
    · have := ih _ _ h; simp; omega

/-- `while ((x = _pam_line_assemble(f, &buffer, repl)) > 0)` as used by the configuration readers,
e.g. libpam/pam_handlers.c:71: the lines, and whether the loop ended with an error. -/
def logicalLines (repl : Char) (ls : List (List Char)) : List (List Char) × Bool :=
  match h : assemble repl ls with
  | .eof => ([], false)
  | .error => ([], true)
  | .line l rest => (l :: (logicalLines repl rest).1, (logicalLines repl rest).2)
termination_by ls.length
decreasing_by all_goals exact assembleLoop_rest _ _ _ _ _ _ h

/-- the logical lines of a file -/
def fileLines (repl : Char) (file : List Char) : List (List Char) × Bool :=
  logicalLines repl (physLines file)

end Pam.Config
