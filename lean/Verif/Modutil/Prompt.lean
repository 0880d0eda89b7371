import Verif.Core.Codes
import Verif.Core.Text
/-
pam_vprompt and pam_prompt: libpam/pam_vprompt.c.  Memory is a list of events on blocks: what the conversation function allocated, and the text of the message, are named
by numbers.  Logging is left out.
-/
namespace Pam.Modutil.Prompt
open Pam

/-- what is done to a block of memory -/
inductive Mem
  | wipe (b : Nat)
  | free (b : Nat)
deriving DecidableEq, Repr

/-- what the conversation function gives back: its result, and the response: the block of the structure and that of the answer -/
structure Answer where
  code : Int
  resp : Option (Nat × Option Nat)
deriving DecidableEq, Repr

structure World where
  /-- `pam_get_item(PAM_CONV)`: the result, and whether there is a conversation function -/
  item : Int
  conv : Bool
  /-- the block of the formatted message, `none` if memory runs out -/
  msg : Option Nat
  answer : Answer
deriving DecidableEq, Repr

structure Result where
  code : Int
  /-- `*response` -/
  response : Option Nat
  mem : List Mem
  /-- the conversation function was called -/
  asked : Bool
deriving DecidableEq, Repr

/-- `pam_vprompt`: libpam/pam_vprompt.c:46-99; `want`: `response` is not NULL -/
def vprompt (w : World) (want : Bool) : Result :=
  if w.item ≠ PAM_SUCCESS then ⟨w.item, none, [], false⟩
  else if w.conv = false then ⟨PAM_SYSTEM_ERR, none, [], false⟩
  else
    match w.msg with
    | none => ⟨PAM_BUF_ERR, none, [], false⟩
    | some m =>
      let out := if want then (match w.answer.resp with | none => none | some (_, s) => s) else none
      let dropped := if want then [] else (match w.answer.resp with | some (_, some s) => [Mem.wipe s, .free s] | _ => [])
      let block := match w.answer.resp with | some (r, _) => [Mem.free r] | none => []
      ⟨w.answer.code, out, dropped ++ [.wipe m] ++ block ++ [.free m], true⟩

end Pam.Modutil.Prompt
