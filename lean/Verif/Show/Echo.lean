import Verif.Core.Codes
import Verif.Small.Basics
/-
modules/pam_echo and modules/pam_issue.

Left out: messages to the log; memory is available.  A character is a byte.
-/
namespace Pam.Show
open Pam
open Pam.Small (skipPrefix cstr)

/-- a C string, without its NUL -/
abbrev Str := List Char

/-! ### pam_echo -/

/-- the items and the name of the host -/
structure Items where
  rhost : Option Str
  service : Option Str
  tty : Option Str
  ruser : Option Str
  user : Option Str
  /-- `gethostname`, if it succeeds -/
  host : Option Str
deriving DecidableEq, Repr

/-- write one character to a buffer of `cap` bytes; `none` if it is written outside -/
def put (cap : Nat) (buf : Str) (c : Char) : Option Str := if buf.length < cap then some (buf ++ [c]) else none

/-- write a text as long as there is room: modules/pam_echo/pam_echo.c:123-124 and 163-164; the last byte of the buffer is kept for the NUL -/
def puts (cap : Nat) (buf : Str) : Str → Option Str
  | [] => some buf
  | c :: r =>
    if buf.length < cap - 1 then
      match put cap buf c with
      | none => none
      | some b => puts cap b r
    else some buf

/-- what a `%` and a letter stand for; `none` if the letter stands for itself: modules/pam_echo/pam_echo.c:85-120 -/
def item (it : Items) (c : Char) : Option Str :=
  if c = 'H' then some (it.rhost.getD "(null)".toList)
  else if c = 'h' then some (it.host.getD "(null)".toList)
  else if c = 's' then some (it.service.getD "(null)".toList)
  else if c = 't' then some (it.tty.getD "(null)".toList)
  else if c = 'U' then some (it.ruser.getD "(null)".toList)
  else if c = 'u' then some (it.user.getD "(null)".toList)
  else none

/-- the loop of `replace_and_print`: modules/pam_echo/pam_echo.c:78-125 -/
def replaceLoop (it : Items) (cap : Nat) : (buf : Str) → (p : Str) → Option Str
  | buf, [] => some buf
  | buf, [c] => if buf.length < cap - 1 then put cap buf c else some buf
  | buf, c :: d :: r =>
    if buf.length < cap - 1 then
      if c ≠ '%' then
        match put cap buf c with
        | none => none
        | some b => replaceLoop it cap b (d :: r)
      else
        match item it d with
        | none =>
          match put cap buf d with
          | none => none
          | some b => replaceLoop it cap b r
        | some s =>
          match puts cap buf s with
          | none => none
          | some b => replaceLoop it cap b r
    else some buf

/-- `replace_and_print`: modules/pam_echo/pam_echo.c:60-132; what the application is told -/
def replaceAndPrint (it : Items) (mesg : Str) : Option Str :=
  let length := mesg.length + 512
  match replaceLoop it length [] mesg with
  | none => none
  | some b => (put length b NUL).map (fun _ => b)

/-- the arguments as one text: modules/pam_echo/pam_echo.c:161-168; `first`: `i` is 0 -/
def joinLoop (cap : Nat) : (first : Bool) → (buf : Str) → List Str → Option Str
  | _, buf, [] => some buf
  | first, buf, a :: r =>
    if buf.length < cap - 1 then
      match (if first then some buf else put cap buf ' ') with
      | none => none
      | some b =>
        match puts cap b a with
        | none => none
        | some b => joinLoop cap false b r
    else some buf

/-- a file: `size` of `fstat` (if it succeeds) and what can be read -/
structure File where
  size : Option Nat
  text : Str
deriving DecidableEq, Repr

/-- without a newline at its end: modules/pam_echo/pam_echo.c:205-208 -/
def noNewline (s : Str) : Str := if s.getLast? = some '\n' then s.dropLast else s

/-- the file of the last file= argument: modules/pam_echo/pam_echo.c:146-151 -/
def fileArg (f : Option Str) (a : Str) : Option Str :=
  match skipPrefix a "file=".toList with
  | some v => some v
  | none => f

/-- what `pam_echo` gives: a result and what the application is told; `none` is a write outside a buffer -/
abbrev Told := Option (Int × Option Str)

/-- tell a text: the result of the conversation is not looked at -/
def tell (it : Items) (mesg : Str) : Told := (replaceAndPrint it mesg).map (fun s => (PAM_SUCCESS, some s))

/-- `pam_echo`: modules/pam_echo/pam_echo.c:134-219.  `pam_modutil_read` reads the first `size` bytes, if there are as many. -/
def echo (it : Items) (silent : Bool) (file : Str → Option File) (argv : List Str) : Told :=
  if silent then some (PAM_IGNORE, none)
  else
    let f := argv.foldl fileArg none
    if f.getD [] = [] then
      match joinLoop 512 true [] argv with
      | none => none
      | some b =>
        match put 512 b NUL with
        | none => none
        | some _ => tell it b
    else
      match file (f.getD []) with
      | none => some (PAM_IGNORE, none)
      | some fl =>
        match fl.size with
        | none => some (PAM_IGNORE, none)
        | some n =>
          if n = 0 then some (PAM_IGNORE, none)
          else if n > 2147483647 then some (PAM_BUF_ERR, none)
          else if fl.text.length < n then some (PAM_IGNORE, none)
          else tell it (cstr (noNewline (fl.text.take n)))

/-- the six functions of a module -/
inductive Fn | auth | setcred | account | openS | closeS | chauthtok
deriving DecidableEq, Repr

/-- modules/pam_echo/pam_echo.c:222-265 -/
def echoFn (it : Items) (fn : Fn) (silent prelim : Bool) (file : Str → Option File) (argv : List Str) : Told :=
  match fn with
  | .setcred => some (PAM_IGNORE, none)
  | .closeS => some (PAM_IGNORE, none)
  | .chauthtok => if prelim then echo it silent file argv else some (PAM_IGNORE, none)
  | _ => echo it silent file argv

end Pam.Show
