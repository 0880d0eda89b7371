import Verif.Core.Codes
import Verif.Core.Text
/-
Model of libpam/pam_modutil_check_user.c and libpam/pam_modutil_searchkey.c.
-/
namespace Pam.Util

/-- `fgetc`: `none` is EOF -/
def getc : List Char → Option Char × List Char
  | [] => (none, [])
  | y :: f => (some y, f)

/-- The loop comparing the start of a line with the user name: libpam/pam_modutil_check_user.c:52-56.
`p` is what is left of the name, `c` the last character read. -/
def matchName : (p : List Char) → (c : Option Char) → (file : List Char) → List Char × Option Char × List Char
  | [], c, f => ([], c, f)
  | x :: p, _, [] => (x :: p, none, [])
  | x :: p, _, y :: f => if y = '\n' ∨ y ≠ x then (x :: p, some y, f) else matchName p (some y) f

/-- "Read till the end of this line": libpam/pam_modutil_check_user.c:69-70 -/
def skipLine : (c : Option Char) → (file : List Char) → Option Char × List Char
  | none, f => (none, f)
  | some c, [] => if c = '\n' then (some c, []) else (none, [])
  | some c, y :: f => if c = '\n' then (some c, y :: f) else skipLine (some y) f

/-- One line: libpam/pam_modutil_check_user.c:52-70.  The result tells whether `rc` became
PAM_SUCCESS, the last character read and what is left of the file. -/
def oneLine (name : List Char) (file : List Char) : Bool × Option Char × List Char :=
  let m := matchName name none file
  let n := if m.2.1 ≠ none ∧ m.2.1 ≠ some '\n' then getc m.2.2 else m.2
  let hit := decide (m.1 = [] ∧ n.1 = some ':')
  (hit, skipLine n.1 n.2)

/-- `n` bounds the number of lines; `do ... while (c != EOF)`: libpam/pam_modutil_check_user.c:45-73.
A line takes at least one character unless it meets EOF, so `file.length + 1` iterations are enough
(`scan_spec`). -/
def scan (name : List Char) : (n : Nat) → (rc : Bool) → (file : List Char) → Bool
  | 0, rc, _ => rc
  | n + 1, rc, file =>
    let l := oneLine name file
    match l.2.1 with
    | none => rc || l.1
    | some _ => scan name n (rc || l.1) l.2.2

/-- `pam_modutil_check_user_in_passwd`: libpam/pam_modutil_check_user.c:8-77.  `file` is `none` if the
file cannot be opened. -/
def checkUser (name : List Char) (file : Option (List Char)) : Int :=
  if name = [] then PAM_SERVICE_ERR
  else if ':' ∈ name then PAM_PERM_DENIED
  else match file with
    | none => PAM_SERVICE_ERR
    | some f => if scan name (f.length + 1) false f then PAM_SUCCESS else PAM_PERM_DENIED

/-- `getline`: the next line, with its newline, and the rest -/
def getline : List Char → List Char × List Char
  | [] => ([], [])
  | c :: f => if c = '\n' then ([c], f) else (c :: (getline f).1, (getline f).2)

/-- the delimiters of `strsep`: libpam/pam_modutil_searchkey.c:91 -/
def isSep (c : Char) : Bool := c == ' ' || c == '\t' || c == '='

/-- The C string in the buffer after the newline and the comment are cut off:
libpam/pam_modutil_searchkey.c:81-86.  (A NUL in the file ends the string.) -/
def cutLine (line : List Char) : List Char :=
  let l := if line.getLast? = some '\n' then line.dropLast else line
  (l.takeWhile (fun c => c != NUL)).takeWhile (fun c => c != '#')

/-- What one line says: `none` if it is blank, else the word and the value:
libpam/pam_modutil_searchkey.c:87-96 -/
def keyValue (line : List Char) : Option (List Char × List Char) :=
  let cp := (cutLine line).dropWhile isSpace
  if cp = [] then none
  else
    let tmp := cp.takeWhile (fun c => !isSep c)
    let cp' := cp.dropWhile (fun c => !isSep c)
    -- `strsep` found a delimiter, or set cp to NULL
    if cp' = [] then some (tmp, [])
    else some (tmp, (cp'.drop 1).dropWhile (fun c => isSpace c || c == '='))

/-- The loop over the lines; `n` bounds their number: libpam/pam_modutil_searchkey.c:72-102 -/
def searchLines (key : List Char) : (n : Nat) → (file : List Char) → Option (List Char)
  | 0, _ => none
  | n + 1, file =>
    let g := getline file
    if g.1 = [] then none
    else match keyValue g.1 with
      | none => searchLines key n g.2
      | some (k, v) => if ieq k key then some v else searchLines key n g.2

/-- `pam_modutil_search_key`: libpam/pam_modutil_searchkey.c:53-108, without econf.  `file` is `none`
if the file cannot be opened; allocation failure is not modelled. -/
def searchKey (file : Option (List Char)) (key : List Char) : Option (List Char) :=
  match file with
  | none => none
  | some f => searchLines key (f.length + 1) f

end Pam.Util
