import Verif.Pamc.Model
/-
Specification of libpamc used in the theorems: the wire format of binary prompts, histories of calls,
the syntax of agent names.
-/
namespace Pam.Pamc.Spec

/-- four bytes, most significant first -/
def be32 (n : Nat) : Bytes :=
  [UInt8.ofNat (n / 16777216), UInt8.ofNat (n / 65536), UInt8.ofNat (n / 256), UInt8.ofNat n]

/-- a binary prompt on the wire: total length, control byte, data -/
def frame (control : UInt8) (data : Bytes) : Bytes := be32 (5 + data.length) ++ [control] ++ data

/-- a prompt in memory as the client may pass it on: the object is as long as its length field says -/
def Sound (p : Bytes) : Prop := ∃ n, bpSize p = some n ∧ n ≤ p.length ∧ 5 ≤ p.length

/-- number of answers of the kernel that are not EINTR -/
def answers (sched : List Util.Ev) : Nat := (sched.filter (fun e => decide (e ≠ .intr))).length

/-- a call of the application -/
inductive Op where
  | load (id : Bytes)
  | disable (id : Bytes)
  | converse (prompt : Option (Option Bytes))

/-- one call: value, handle, world; `none` if the process did not survive it or is still inside -/
def step (pch : Pch) (w : World) (op : Op) (env : Env) : Option (Int × Pch × World) :=
  match op with
  | .load id => some (load pch id env w)
  | .disable id =>
    match disable (some pch) (some id) env with
    | (v, some pch') => some (v, pch', w)
    | (_, none) => none
  | .converse pp =>
    match converse (some pch) pp env w with
    | .ret r => r.pch.map fun q => (r.value, q, r.world)
    | _ => none

/-- a history of calls on one handle, with the system's answers; the handle and the world after it -/
inductive Run (pch : Pch) (w : World) : List (Op × Env × Int) → Pch → World → Prop where
  | nil : Run pch w [] pch w
  | snoc {h pch' w' op env v pch'' w''} : Run pch w h pch' w' →
      step pch' w' op env = some (v, pch'', w'') → Run pch w (h ++ [(op, env, v)]) pch'' w''

/-- the file executed for agent `id` in directory `dir` -/
def agentFile (dir id : Bytes) : Bytes := dir ++ 47 :: id

/-- a letter, a digit or an underscore -/
def Word (c : UInt8) : Prop :=
  (65 ≤ c.toNat ∧ c.toNat ≤ 90) ∨ (97 ≤ c.toNat ∧ c.toNat ≤ 122) ∨ (48 ≤ c.toNat ∧ c.toNat ≤ 57) ∨ c.toNat = 95

/-- a name, or a name and a domain joined by '@' -/
def AgentName (id : Bytes) : Prop :=
  ∃ name domain, (id = name ∧ domain = [] ∨ id = name ++ 64 :: domain) ∧ name ≠ [] ∧
    (∀ c ∈ name, Word c) ∧ (∀ c ∈ domain, Word c ∨ c = 46)

end Pam.Pamc.Spec
