import Verif.Handle.Lift
/-
A small concrete library, used beside the theorems to show that their hypotheses can be met: one
service file, a module whose arguments are a script, and an application that answers questions from
a list.  Everything is computed with the model; no theorem depends on this file.
-/
namespace Pam.Handle.Ex
open Pam.Config (Fn Sys)

/-- a system with one service `x` and the fallback `other` -/
def sys (file other : String) : Sys where
  fs := fun p =>
    if p = "/etc/pam.d/x".toList then some file.toList
    else if p = "/etc/pam.d/other".toList then some other.toList
    else none
  confdir := none
  dirs := ["/etc/pam.d/".toList]
  haveDir := true

/-- the module: each argument is one action -/
def prog (flags : Nat) : List Str → Prog (List String)
  | [] => .ret PAM_SUCCESS
  | a :: rest =>
    if a = "user".toList then
      .api (.getUser none true true) (fun r =>
        if r.code = PAM_SUCCESS then prog flags rest else .ret (if r.code = PAM_CONV_AGAIN then PAM_INCOMPLETE else r.code))
    else if a = "token".toList then
      .api (.getAuthtok false none false {}) (fun r => if r.code = PAM_SUCCESS then prog flags rest else .ret r.code)
    else if a = "confirm".toList then
      -- ask once with an own prompt, then let it be repeated
      .api (.getAuthtok false (some "pw:".toList) true {}) (fun r =>
        match r.value with
        | .str t => .api (.getAuthtokVerify t (some "pw:".toList) true true) (fun r =>
            if r.code = PAM_SUCCESS then prog flags rest else .ret r.code)
        | _ => .ret r.code)
    else if a = "env".toList then .api (.putenv (some "A=b".toList) true true) (fun _ => prog flags rest)
    else if a = "data".toList then .api (.setData (some "d".toList) 7 true true) (fun _ => prog flags rest)
    else if a = "delay5".toList then .api (.failDelay 5) (fun _ => prog flags rest)
    else if a = "delay3".toList then .api (.failDelay 3) (fun _ => prog flags rest)
    else if a = "delay0".toList then .api (.failDelay 0) (fun _ => prog flags rest)
    else if a = "reenter".toList then .api (.run .authenticate 0) (fun _ => prog flags rest)
    else if a = "fail".toList then .ret PAM_AUTH_ERR
    else if a = "update".toList then (if flags.testBit 13 then prog flags rest else .ret PAM_SUCCESS)
    else if a = "wait".toList then
      -- suspends once for every "wait" at the head of the application's list
      .ext id (fun w => if w.head? = some "wait" then .ext (List.drop 1) (fun _ => .ret PAM_INCOMPLETE) else prog flags rest)
    else prog flags rest

/-- the application's conversation function -/
def conv : Convs (List String) := fun _ _ _ w =>
  match w with
  | [] => ((PAM_CONV_ERR, none), [])
  | a :: rest => if a = "again" then ((PAM_CONV_AGAIN, none), rest)
    else if a = "convfail" then ((PAM_CONV_ERR, none), rest)
    else ((PAM_SUCCESS, some (some a.toList)), rest)

/-- the library -/
def lib (file : String) (other : String := "") : Lib (List String) :=
  { conv := conv, sys := sys file other, modules := fun _ _ => some (fun flags argv => prog flags argv) }

/-- a library whose configuration cannot be read -/
def badLib : Lib (List String) :=
  { conv := conv, sys := { fs := fun _ => none, confdir := none, dirs := [], haveDir := false }, modules := fun _ _ => none }

/-- steps of an application, each with the library as it is at that time -/
def steps (h : Handle (List String)) (as : List Ans) :
    List (Lib (List String) × Act (List String)) → Option (Handle (List String) × List Ans)
  | [] => some (h, as)
  | (l, a) :: rest =>
    match a.apply l h with
    | none => none
    | some (ans, h1) => steps h1 (as ++ [ans]) rest

/-- an application session: start, then a list of steps -/
def session (lib : Lib (List String)) (answers : List String) (acts : List (Lib (List String) × Act (List String))) :
    Option (Handle (List String) × List Ans) :=
  match start lib "x".toList none 0 answers with
  | none => none
  | some h => steps h [] acts

theorem steps_reach {acts : List (Lib (List String) × Act (List String))} :
    ∀ {h : Handle (List String)} {as : List Ans} {r : Handle (List String) × List Ans},
      Reach h → steps h as acts = some r → Reach r.1 := by
  induction acts with
  | nil =>
    intro h as r hr hs
    simp only [steps, Option.some.injEq] at hs
    rw [← hs]; exact hr
  | cons a acts ih =>
    intro h as r hr hs
    obtain ⟨l, a⟩ := a
    simp only [steps] at hs
    split at hs
    · exact absurd hs (by simp)
    · next ans h1 he => exact ih (.step h h1 l a ans hr he) hs

theorem session_reach {lib : Lib (List String)} {answers : List String} {acts : List (Lib (List String) × Act (List String))}
    {r : Handle (List String) × List Ans} (h : session lib answers acts = some r) : Reach r.1 := by
  unfold session at h
  split at h
  · exact absurd h (by simp)
  · next h0 hs => exact steps_reach (.start _ _ _ _ _ _ hs) h

/-- what a witness needs: a session whose result, seen through `f`, has the value `v` -/
theorem session_spec {α : Type} {lib : Lib (List String)} {answers : List String} {acts : List (Lib (List String) × Act (List String))}
    {f : Handle (List String) × List Ans → α} {v : α} (h : (session lib answers acts).map f = some v) :
    ∃ r, session lib answers acts = some r ∧ Reach r.1 ∧ f r = v := by
  rw [Option.map_eq_some_iff] at h
  obtain ⟨r, h1, h2⟩ := h
  exact ⟨r, h1, session_reach h1, h2⟩

/-- a session of calls with one configuration -/
def calls (file : String) (answers : List String) (ops : List Op) : Option (Handle (List String) × List Ans) :=
  session (lib file) answers (ops.map (fun o => (lib file, .call o)))

theorem calls_spec {α : Type} {file : String} {answers : List String} {ops : List Op}
    {f : Handle (List String) × List Ans → α} {v : α} (h : (calls file answers ops).map f = some v) :
    ∃ r, calls file answers ops = some r ∧ Reach r.1 ∧ f r = v := session_spec h

end Pam.Handle.Ex
