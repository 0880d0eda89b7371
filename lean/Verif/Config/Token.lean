import Verif.Core.Text
/-
Model of the tokenizer: libpam/pam_misc.c `_pam_tokenize`, `_pam_mkargv`.

Two levels: `tokenize`/`mkargv` on C strings as lists, and `tokenizeMem`/`mkargvMem` on memory
with in-place writes and bounds-checked accesses (`none` = access outside the buffer).
-/
namespace Pam.Config

/-- `DELIMITERS`: libpam/pam_misc.c:49. -/
def isDelim (c : Char) : Bool := c == ' ' || c == '\n' || c == '\t'

/-! ### Memory level -/

/-- memory: one char buffer -/
abbrev Mem := List Char

/-- `from += strspn(from, DELIMITERS)`: libpam/pam_misc.c:64.  (NUL is not a delimiter.) -/
def spanDelimMem (m : Mem) (i : Nat) : Option Nat :=
  match h : m[i]? with
  | none => none
  | some c => if isDelim c then spanDelimMem m (i + 1) else some i
termination_by m.length - i
decreasing_by
  have := (List.getElem?_eq_some_iff.1 h).1; omega

/-- `from + strcspn(from, DELIMITERS)`: libpam/pam_misc.c:90. -/
def cspanDelimMem (m : Mem) (i : Nat) : Option Nat :=
  match h : m[i]? with
  | none => none
  | some c => if c = NUL ∨ isDelim c then some i else cspanDelimMem m (i + 1)
termination_by m.length - i
decreasing_by
  have := (List.getElem?_eq_some_iff.1 h).1; omega

/-- bounds-checked store -/
def wr (m : Mem) (i : Nat) (c : Char) : Option Mem :=
  if i < m.length then some (m.set i c) else none

/-- The copy loop of a bracketed token: libpam/pam_misc.c:76-82.  Result: memory, `to`, `end`. -/
def bracketLoopMem (m : Mem) (to e : Nat) : Option (Mem × Nat × Nat) :=
  match h : m[e]? with
  | none => none
  | some c =>
    if c = NUL ∨ c = ']' then some (m, to, e)
    else
      -- if (*end == '\\' && end[1] == ']') ++end;
      match (if c = '\\' then (m[e + 1]?).map (fun d => if d = ']' then e + 1 else e) else some e) with
      | none => none
      | some e' =>
        if e ≤ e' then
          match m[e']? with
          | none => none
          | some d =>
            match (if to ≠ e' then wr m to d else some m) with
            | none => none
            | some m' =>
              if m'.length = m.length then bracketLoopMem m' (to + 1) (e' + 1)
              else none
        else none
termination_by m.length - e
decreasing_by
  have h1 := (List.getElem?_eq_some_iff.1 h).1
  simp_all; omega

/-- `_pam_tokenize` with `from` already resolved (`from == NULL` uses `*next`):
libpam/pam_misc.c:51-108.  Result: memory, and the token pointer with the new `*next`. -/
def tokenizeMem (m : Mem) (p : Nat) : Option (Mem × Option (Nat × Option Nat)) :=
  match spanDelimMem m p with
  | none => none
  | some p =>
  match m[p]? with
  | none => none
  | some c =>
    if c = '[' then
      match bracketLoopMem m (p + 1) (p + 1) with
      | none => none
      | some (m, to, e) =>
        match (if to ≠ e then wr m to NUL else some m) with
        | none => none
        | some m => finishMem m (p + 1) e
    else if c ≠ NUL then
      match cspanDelimMem m p with
      | none => none
      | some e => finishMem m p e
    else some (m, none)
where
  /-- libpam/pam_misc.c:96-104 -/
  finishMem (m : Mem) (tok e : Nat) : Option (Mem × Option (Nat × Option Nat)) :=
    match m[e]? with
    | none => none
    | some c =>
      match (if c ≠ NUL then (wr m e NUL).map (fun m => (m, e + 1)) else some (m, e)) with
      | none => none
      | some (m, e) =>
        match m[e]? with
        | none => none
        | some c => some (m, some (tok, if c ≠ NUL then some e else none))

/-! ### String level -/

/-- Text of a bracketed token and what follows it (from the closing bracket on):
libpam/pam_misc.c:66-89. -/
def bracket : List Char → List Char × List Char
  | [] => ([], [])
  | c :: t =>
    if c = ']' then ([], c :: t)
    else
      match t with
      | d :: t' =>
        if c = '\\' ∧ d = ']' then (']' :: (bracket t').1, (bracket t').2)
        else (c :: (bracket (d :: t')).1, (bracket (d :: t')).2)
      | [] => ([c], [])

/-- `_pam_tokenize` on a C string: the token and the new `*next`. libpam/pam_misc.c:51-108. -/
def tokenize (s : List Char) : Option (List Char × Option (List Char)) :=
  match s.dropWhile isDelim with
  | [] => none
  | c :: t =>
    if c = '[' then some ((bracket t).1, next (bracket t).2)
    else some ((c :: t).takeWhile (fun c => !isDelim c), next ((c :: t).dropWhile (fun c => !isDelim c)))
where
  /-- libpam/pam_misc.c:96-104: step over the terminator; an empty rest is a NULL pointer -/
  next : List Char → Option (List Char)
    | [] => none
    | _ :: t => if t = [] then none else some t

theorem bracket_length (s : List Char) : (bracket s).2.length ≤ s.length := by
  fun_induction bracket s <;> simp_all <;> omega

theorem next_length (s r : List Char) (h : tokenize.next s = some r) : r.length < s.length := by
  cases s with
  | nil => simp [tokenize.next] at h
  | cons c t =>
    simp only [tokenize.next] at h
    split at h
    · cases h
    · injection h with h; subst h; simp

theorem tokenize_length (s tok r : List Char) (h : tokenize s = some (tok, some r)) :
    r.length < s.length := by
  unfold tokenize at h
  have hd := (List.dropWhile_sublist isDelim (l := s)).length_le
  split at h
  · cases h
  · next c t hc =>
    rw [hc] at hd
    split at h
    · injection h with h; injection h with h1 h2
      have := next_length _ _ h2
      have := bracket_length t
      simp at hd; omega
    · injection h with h; injection h with h1 h2
      have := next_length _ _ h2
      have := (List.dropWhile_sublist (fun c => !isDelim c) (l := c :: t)).length_le
      omega

/-- `_pam_mkargv` as the list of arguments: libpam/pam_misc.c:154-205.  (The INT_MAX limit on the
number of arguments and allocation failure, which give an empty vector and length 0, are not
modelled.) -/
def mkargv (s : List Char) : List (List Char) :=
  match h : tokenize s with
  | none => []
  | some (tok, none) => [tok]
  | some (tok, some r) => tok :: mkargv r
termination_by s.length
decreasing_by exact tokenize_length s tok r h

/-- The loop of `_pam_mkargv`, libpam/pam_misc.c:182-196, on memory: the argument pointers.
`slots` is the number of pointer slots of the block that are before the copied text. -/
def mkargvMem (slots : Nat) : Nat → Mem → Nat → Option (Mem × List Nat)
  | 0, _, _ => none
  | fuel + 1, m, p =>
    match tokenizeMem m p with
    | none => none
    | some (m, none) => some (m, [])
    | some (m, some (tok, nx)) =>
      if slots = 0 then none   -- *argvbuf++ = tok would run into the text
      else match nx with
        | none => some (m, [tok])
        | some p' => (mkargvMem (slots - 1) fuel m p').map (fun r => (r.1, tok :: r.2))

end Pam.Config
