import Verif.Util.IO
/-
Model of libpamc: pamc_client.c (pamc_start, pamc_end), pamc_load.c (pamc_load, pamc_disable,
pamc_list_agents) and pamc_converse.c (pamc_converse), and the macros of
libpamc/include/security/pam_client.h.

Bytes are `UInt8`; the library is taken as built without NDEBUG, so `PAM_BP_ASSERT` ends the
process (pam_client.h:74-81).  Not modelled: what the child process does between fork and exec
(closing descriptors), the heuristic `highest_fd_to_close`, SIGPIPE (a write to an agent that is
gone shows up as an error).
-/
namespace Pam.Pamc
open Pam.Util (Ev Res sysRead sysWrite storeAt)

/-- C string (without its NUL) or block of bytes -/
abbrev Bytes := List UInt8

/-- the bytes of an ASCII literal -/
def ascii (s : String) : Bytes := s.toList.map (fun c => c.toNat.toUInt8)

/-- what a call comes to: undefined behaviour, waiting in a system call when the schedule ends, the
process ended by PAM_BP_ASSERT, or a return -/
inductive Fate (α : Type) where
  | ub
  | wait
  | exit
  | ret (a : α)
deriving DecidableEq, Repr

/-- `PAM_BP_SIZE` on a block of at least four bytes: pam_client.h:98-101.  (The C expression shifts an
`int`; the result is taken modulo 2^32 as gcc does.)  `none`: the block is shorter. -/
def bpSize : Bytes → Option Nat
  | a :: b :: c :: d :: _ => some (a.toNat * 2 ^ 24 + b.toNat * 2 ^ 16 + c.toNat * 2 ^ 8 + d.toNat)
  | _ => none

/-- `PAM_BP_RCONTROL`: pam_client.h:97 -/
def bpControl (p : Bytes) : Option UInt8 := p[4]?

/-- PAM_BP_MIN_SIZE: pam_client.h:94 -/
def minSize : Nat := 5

/-- PAM_BPC_SELECT, PAM_BPC_FAIL, PAM_BPC_OK: pam_client.h:166-169 -/
def bpcOk : UInt8 := 1
def bpcSelect : UInt8 := 2
def bpcFail : UInt8 := 4

/-- the five bytes the macro stores: pam_client.h:122-126 -/
def header (size : Nat) (control : UInt8) : Bytes :=
  [(size / 2 ^ 24 % 256).toUInt8, (size / 2 ^ 16 % 256).toUInt8, (size / 2 ^ 8 % 256).toUInt8,
    (size % 256).toUInt8, control]

/-- would `memset(*(old_p), 0, PAM_BP_SIZE(*(old_p)))` leave the object?  pam_client.h:111-113 -/
def overruns (old : Option Bytes) : Bool :=
  match old with
  | none => false
  | some p =>
    match bpSize p with
    | none => true
    | some n => decide (p.length < n)

/-- `PAM_BP_RENEW(old_p, cntrl, data_length)`: pam_client.h:107-137.  The old prompt is wiped and freed
(undefined if it is shorter than its size field says), then a new one of `data_length` bytes and one
more is allocated; all sizes are `uint32_t`.  `old_p`: `none` is a NULL pointer to pointer.
`size` is PAM_BP_MIN_SIZE + data_length modulo 2^32 (the sum is formed in `size_t`, so
`size - PAM_BP_MIN_SIZE` below 0 comes back as `size`). -/
def renew (old : Option (Option Bytes)) (cntrl : UInt8) (size : Nat) (mem : Bool) :
    Fate (Option Bytes) :=
  match old with
  | none => .exit
  | some old =>
    if overruns old then .ub
    else if cntrl = 0 then .ret none
    else if !mem then .exit
    else
      match storeAt (List.replicate ((1 + size) % 2 ^ 32) 0) 0 (header size cntrl) with
      | none => .ub
      | some p => .ret (some p)

/-- an agent in the chain; its pid and its two pipes are one number: libpamc/libpamc.h:46-53 -/
structure Agent where
  id : Bytes
  conn : Nat
deriving DecidableEq, Repr

/-- `struct pamc_handle_s`: libpamc/libpamc.h:31-39 (`max_path`, `combined_status` and
`highest_fd_to_close` are not modelled) -/
structure Pch where
  current : Option Agent
  chain : List Agent
  blocked : List Bytes
  paths : List Bytes
deriving DecidableEq, Repr

/-- what the library does to the outside -/
inductive Event where
  /-- fork and exec of the file, connected by pipes -/
  | exec (path : Bytes) (conn : Nat)
  /-- bytes written to the agent -/
  | sent (conn : Nat) (bs : Bytes)
  /-- both pipes closed -/
  | closed (conn : Nat)
  /-- waitpid for the agent -/
  | reaped (conn : Nat)
deriving DecidableEq, Repr

/-- the process, as far as it matters: number of the next agent process, and what happened -/
structure World where
  next : Nat
  trace : List Event
deriving DecidableEq, Repr

/-- the answers of the system during one call -/
structure Env where
  /-- does the file exist (`stat`)? -/
  stat : Bytes → Bool
  /-- memory for the agent structure, its id, and the path tried for each directory -/
  memAgent : Bool
  memId : Bool
  memPath : Bytes → Bool
  /-- both pipes and the fork succeed -/
  spawn : Bool
  /-- memory for the block of pamc_disable and for a prompt -/
  memBlock : Bool
  memPrompt : Bool
  /-- what the agent sends (then it closes its output), and the kernel's choices -/
  stream : Bytes
  sched : List Ev

/-! ### agents -/

/-- the directory search of `__pamc_exec_agent`: pamc_load.c:32-52 -/
def findAgent (env : Env) (id : Bytes) : List Bytes → Option Bytes
  | [] => none
  | p :: ps =>
    if !env.memPath (p ++ ascii "/" ++ id) then none
    else if env.stat (p ++ ascii "/" ++ id) then some (p ++ ascii "/" ++ id)
    else findAgent env id ps

/-- `__pamc_exec_agent`: pamc_load.c:12-143; the new connection, or `none` for PAM_BPC_FAIL -/
def execAgent (pch : Pch) (id : Bytes) (env : Env) (w : World) : Option Nat × World :=
  if 47 ∈ id then (none, w)
  else
    match findAgent env id pch.paths with
    | none => (none, w)
    | some path =>
      if !env.spawn then (none, w)
      else (some w.next, ⟨w.next + 1, w.trace ++ [.exec path w.next]⟩)

/-- `__pamc_agent_is_enabled`: pamc_load.c:149-162 -/
def isEnabled (pch : Pch) (id : Bytes) : Bool := pch.chain.any (fun a => a.id == id)

/-- `__pamc_agent_is_disabled`: pamc_load.c:168-181 -/
def isDisabled (pch : Pch) (id : Bytes) : Bool := pch.blocked.any (fun b => id == b)

/-- `pamc_disable`: pamc_load.c:187-227; 1 is PAM_BPC_TRUE, 0 PAM_BPC_FALSE.  NULL arguments are
`none`. -/
def disable (pch : Option Pch) (id : Option Bytes) (env : Env) : Int × Option Pch :=
  match pch, id with
  | none, _ => (0, none)
  | some pch, none => (0, some pch)
  | some pch, some id =>
    if isEnabled pch id then (0, some pch)
    else if isDisabled pch id then (1, some pch)
    else if !env.memBlock then (0, some pch)
    else (1, some { pch with blocked := id :: pch.blocked })

/-- `pamc_load` with arguments that are not NULL: pamc_load.c:233-303 -/
def load (pch : Pch) (id : Bytes) (env : Env) (w : World) : Int × Pch × World :=
  if isDisabled pch id then (0, pch, w)
  else if isEnabled pch id then (1, pch, w)
  else if !env.memAgent then (0, pch, w)
  else if !env.memId then (0, pch, w)
  else
    let r := execAgent pch id env w
    match r.1 with
    | none => (0, pch, r.2)
    | some c => (1, { pch with chain := ⟨id, c⟩ :: pch.chain }, r.2)

/-- isalpha or isdigit of the C locale, or '_': pamc_load.c:316 -/
def isIdChar (c : UInt8) : Bool :=
  (65 ≤ c && c ≤ 90) || (97 ≤ c && c ≤ 122) || (48 ≤ c && c ≤ 57) || c == 95

/-- The loop of `__pamc_valid_agent_id`: pamc_load.c:313-327.  `i` is incremented by the subscript and
by the loop, so every second character is skipped: `rest` is the id from position `i` on. -/
def validLoop (i : Nat) (post : Bool) : Bytes → Bool
  | [] => i != 0
  | ch :: rest =>
    if isIdChar ch || (post && ch == 46) then
      match rest with
      | [] => true
      | _ :: rest' => validLoop (i + 2) post rest'
    else if 1 < i + 1 && !post && ch == 64 then
      match rest with
      | [] => true
      | _ :: rest' => validLoop (i + 2) true rest'
    else false

/-- `__pamc_valid_agent_id`: pamc_load.c:309-335 -/
def validAgentId (id : Bytes) : Bool := validLoop 0 false id

/-! ### binary prompts -/

/-- The loop that sends the prompt: pamc_converse.c:114-129 (a do-while; `size` is at least five and
`offset` starts at 0, so testing first is the same).  Result: success or not, the number of bytes
sent, the rest of the schedule. -/
def sendAll (p : Bytes) (size : Nat) : (offset : Nat) → List Ev → Fate (Bool × Nat × List Ev)
  | offset, [] => if offset < size then .wait else .ret (true, offset, [])
  | offset, e :: es =>
    if offset < size then
      if p.length < size then .ub
      else
        match sysWrite e ((p.drop offset).take (size - offset)) with
        | .intr => sendAll p size offset es
        | .err => .ret (false, offset, es)
        | .got bs => sendAll p size (offset + bs.length) es
    else .ret (true, offset, e :: es)

/-- how a reading loop ends -/
inductive RecvEnd where
  | ok
  | err
  | eof
deriving DecidableEq, Repr

/-- The loops that read the header (pamc_converse.c:135-159, a do-while starting below its bound) and
the rest (pamc_converse.c:182-203) of the reply: `read` to `buf + offset` until `want` bytes are there.
Result: how it ended, the buffer, what stays unread, the rest of the schedule. -/
def recvAll (want : Nat) : (buf : Bytes) → (offset : Nat) → (stream : Bytes) → List Ev →
    Fate (RecvEnd × Bytes × Bytes × List Ev)
  | buf, offset, stream, [] => if offset < want then .wait else .ret (.ok, buf, stream, [])
  | buf, offset, stream, e :: es =>
    if offset < want then
      let r := sysRead e stream (want - offset)
      match r.1 with
      | .intr => recvAll want buf offset r.2 es
      | .err => .ret (.err, buf, r.2, es)
      | .got bs =>
        match storeAt buf offset bs with
        | none => .ub
        | some buf' =>
          if bs.length ≠ 0 then recvAll want buf' (offset + bs.length) r.2 es
          else .ret (.eof, buf', r.2, es)
    else .ret (.ok, buf, stream, e :: es)

/-- result of pamc_converse: value, the prompt pointer, the handle, the world, what the agent has sent
and nobody has read -/
structure Conv where
  value : Int
  prompt : Option Bytes
  pch : Option Pch
  world : World
  unread : Bytes
deriving DecidableEq, Repr

/-- `pamc_converse_failure:` pamc_converse.c:208-212 -/
def convFailure (pp : Option (Option Bytes)) (pch : Option Pch) (w : World) (unread : Bytes) : Fate Conv :=
  match renew pp 0 5 true with
  | .ret p => .ret ⟨0, p, pch, w, unread⟩
  | .ub => .ub
  | .wait => .wait
  | .exit => .exit

/-- `pamc_unknown_prompt:` pamc_converse.c:214-219 -/
def convUnknown (p : Bytes) (pch : Pch) (w : World) (env : Env) (unread : Bytes) : Fate Conv :=
  match renew (some (some p)) bpcFail 5 env.memPrompt with
  | .ret p => .ret ⟨1, p, some pch, w, unread⟩
  | .ub => .ub
  | .wait => .wait
  | .exit => .exit

/-- reading the reply: pamc_converse.c:133-206.  `p` is the prompt that was sent. -/
def readReply (p : Bytes) (pch : Pch) (w : World) (env : Env) (sched : List Ev) : Fate Conv :=
  match recvAll minSize (List.replicate minSize 0) 0 env.stream sched with
  | .ub => .ub
  | .wait => .wait
  | .exit => .exit
  | .ret (.err, _, unread, _) => convUnknown p pch w env unread
  | .ret (.eof, _, unread, _) => convFailure (some (some p)) (some pch) w unread
  | .ret (.ok, raw, unread, sched) =>
    match bpSize raw, bpControl raw with
    | some size, some control =>
      match renew (some (some p)) control size env.memPrompt with
      | .ub => .ub
      | .wait => .wait
      | .exit => .exit
      | .ret none =>
        match renew (some none) bpcFail 5 env.memPrompt with
        | .ret p => .ret ⟨1, p, some pch, w, unread⟩
        | .ub => .ub
        | .wait => .wait
        | .exit => .exit
      | .ret (some reply) =>
        match recvAll size reply minSize unread sched with
        | .ub => .ub
        | .wait => .wait
        | .exit => .exit
        | .ret (.err, reply, unread, _) => convUnknown reply pch w env unread
        | .ret (.eof, reply, unread, _) => convFailure (some (some reply)) (some pch) w unread
        | .ret (.ok, reply, unread, _) => .ret ⟨1, some reply, some pch, w, unread⟩
    | _, _ => .ub

/-- passing the prompt on to the current agent: pamc_converse.c:107-131 -/
def passOn (p : Bytes) (size : Nat) (pch : Pch) (w : World) (env : Env) : Fate Conv :=
  match pch.current with
  | none => convUnknown p pch w env env.stream
  | some a =>
    match sendAll p size 0 env.sched with
    | .ub => .ub
    | .wait => .wait
    | .exit => .exit
    | .ret (false, n, _) =>
      convUnknown p pch { w with trace := w.trace ++ [.sent a.conn (p.take n)] } env env.stream
    | .ret (true, n, sched) =>
      readReply p pch { w with trace := w.trace ++ [.sent a.conn (p.take n)] } env sched

/-- `__pamc_select_agent`: pamc_converse.c:16-30 -/
def selectAgent (pch : Pch) (id : Bytes) : Bool × Pch :=
  match pch.chain.find? (fun a => a.id == id) with
  | some a => (true, { pch with current := some a })
  | none => (false, { pch with current := none })

/-- The agent name of a PAM_BPC_SELECT prompt: pamc_converse.c:73-89.  The bytes up to the first '/'
inside the prompt, if there is one and the name is valid. -/
def selectName (p : Bytes) (size : Nat) : Option Bytes :=
  let data := (p.take size).drop minSize
  let id := data.takeWhile (fun c => c != 47)
  if data.length ≤ id.length then none
  else if validAgentId id then some id
  else none

/-- `pamc_converse`: pamc_converse.c:36-220.  While the agent is loaded the '/' is replaced by NUL, so
a NUL inside the name ends it (the name reaching pamc_load is a C string). -/
def converse (pch : Option Pch) (pp : Option (Option Bytes)) (env : Env) (w : World) : Fate Conv :=
  match pch, pp with
  | none, pp => convFailure pp none w env.stream
  | some pch, none => convFailure none (some pch) w env.stream
  | some pch, some none => convFailure (some none) (some pch) w env.stream
  | some pch, some (some p) =>
    match bpSize p with
    | none => .ub
    | some size =>
      if size < minSize then convUnknown p pch w env env.stream
      else
        match bpControl p with
        | none => .ub
        | some control =>
          if ¬ (control ≤ bpcFail ∧ bpcOk ≤ control) then convUnknown p pch w env env.stream
          else if control = bpcSelect then
            if p.length < size then .ub
            else
              match selectName p size with
              | none => convUnknown p pch w env env.stream
              | some name =>
                let id := name.takeWhile (fun c => c != 0)
                let r := load pch id env w
                if r.1 ≠ 1 then convUnknown p r.2.1 r.2.2 env env.stream
                else
                  let s := selectAgent r.2.1 id
                  if s.1 then passOn p size s.2 r.2.2 env
                  else convUnknown p s.2 r.2.2 env env.stream
          else passOn p size pch w env

/-! ### starting and ending -/

/-- The loop of `pamc_start`: pamc_client.c:64-90.  `cur` is the component from `last` to `i`,
`left` the number of components still to be stored (`count - this`).  Memory is available. -/
def startLoop (left : Nat) (cur : Bytes) : Bytes → List Bytes
  | [] => if cur = [] then [] else [cur]
  | c :: rest =>
    if c = 58 then
      if left = 1 then [cur]
      else cur :: startLoop (left - 1) [] rest
    else startLoop left (cur ++ [c]) rest

/-- `pamc_start` when there is memory: pamc_client.c:32-99; `path` is PAMC_AGENT_PATH or the default -/
def start (path : Bytes) : Pch :=
  ⟨none, [], [], startLoop (1 + (path.filter (fun c => c == 58)).length) [] path⟩

/-- PAMC_SYSTEM_AGENT_PATH: libpamc/libpamc.h:65 -/
def defaultPath : Bytes := ascii "/lib/pamc:/usr/lib/pamc"

/-- `__pamc_shutdown_agents`: pamc_client.c:105-153.  `status conn`: waitpid succeeded and the agent
exited with 0. -/
def shutdown (status : Nat → Bool) : List Agent → World → Int × World
  | [], w => (1, w)
  | a :: as, w =>
    let r := shutdown status as { w with trace := w.trace ++ [.closed a.conn, .reaped a.conn] }
    (if status a.conn then r.1 else 0, r.2)

/-- `pamc_end`: pamc_client.c:159-190 -/
def pend (pch : Option (Option Pch)) (status : Nat → Bool) (w : World) : Int × World :=
  match pch with
  | none => (0, w)
  | some none => (0, w)
  | some (some pch) => shutdown status pch.chain w

/-! ### the list of agents -/

/-- the tree of `pamc_list_agents`: libpamc/libpamc.h:56-60 -/
inductive Tree where
  | nil
  | node (left : Tree) (id : Bytes) (right : Tree) (childCount : Nat)
deriving DecidableEq, Repr

/-- `strcmp` on byte strings, as an order: less -/
def blt : Bytes → Bytes → Bool
  | [], [] => false
  | [], _ :: _ => true
  | _ :: _, [] => false
  | a :: as, b :: bs => if a < b then true else if b < a then false else blt as bs

/-- `__pamc_add_node` when there is memory: pamc_load.c:341-377.  Returns the tree and how far the
counter given to this call advances. -/
def addNode : Tree → Bytes → Tree × Nat
  | .nil, id => (.node .nil id .nil 0, 1)
  | .node l x r n, id =>
    if id = x then (.node l x r n, 0)
    else if blt x id then
      let s := addNode r id
      (.node l x s.1 (n + s.2), 0)
    else
      let s := addNode l id
      (.node s.1 x r (n + s.2), 0)

/-- the loop over directories and their entries: pamc_load.c:427-451; the tree and
`total_agent_count` -/
def collect : Tree → Nat → List Bytes → Tree × Nat
  | t, n, [] => (t, n)
  | t, n, d :: ds =>
    if validAgentId d then
      let s := addNode t d
      collect s.1 (n + s.2) ds
    else collect t n ds

/-- `__pamc_fill_list_from_tree`: pamc_load.c:403-412; `none`: a store outside the list -/
def fillList : Tree → List (Option Bytes) → Nat → Option (List (Option Bytes) × Nat)
  | .nil, l, i => some (l, i)
  | .node a x b _, l, i =>
    match fillList a l i with
    | none => none
    | some (l, i) =>
      match storeAt l i [some x] with
      | none => none
      | some l => fillList b l (i + 1)

/-- `pamc_list_agents`: pamc_load.c:418-468.  `entries`: the names found in the directories that could be
opened, in order; `none` in the result list is a NULL pointer. -/
def listAgents (entries : List Bytes) (memList : Bool) : Fate (Option (List (Option Bytes))) :=
  let r := collect .nil 0 entries
  if !memList then .ret none
  else
    match fillList r.1 (List.replicate (r.2 + 1) none) 0 with
    | none => .ub
    | some (l, n) => if n ≠ r.2 then .exit else .ret (some l)

end Pam.Pamc
