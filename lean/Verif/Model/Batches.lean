import Verif.Model.Filter
import Verif.Model.GoStr

/-! # Model of the batches clients get

downstream.go:551-571 (`SendBatch`) and what is sent in batches: the missed messages at 1684-1695, the list of networks
at 1570-1580 and 3085-3095, the replies to CHATHISTORY at 2754, 2770, 2852-2877 and to SEARCH at 3066-3071; conn.go:118-160
(the goroutine of each client that writes); upstream.go:2184-2203 (a message that arrives is kept in the store and sent).

A message is written by the goroutine of the client after the user goroutine has put a pointer to it into the channel.  The
store in memory (msgstore/memory.go:84-102, 147-171) keeps a pointer to the message that is sent to the clients and returns
the same pointer for the missed messages; the other stores make new messages.

Simplifications: the channel of a connection is not bounded (C33); a message is read in one step when the goroutine starts
to write it. -/

namespace Verif.Model

/-- One client. -/
structure BatClient where
  /-- the capabilities that are enabled -/
  caps : List Str
  /-- `dc.lastBatchRef` -/
  lastRef : Nat
  /-- the channel: pointers to messages -/
  queue : List Nat
  /-- the message being written: the pointer, and what is written -/
  writing : Option (Nat × TMsg)
  /-- what has been written -/
  wire : List TMsg
deriving DecidableEq, Repr

structure BatSys where
  heap : Heap
  /-- the messages kept by the store in memory -/
  store : List Nat
  clients : List BatClient
  /-- tags were changed of a message some client has not got yet -/
  clash : Bool
  /-- tags were changed of a message while a goroutine was reading it -/
  raced : Bool
deriving DecidableEq, Repr

/-- A new message. -/
def Heap.new (h : Heap) (m : TMsg) : Heap × Nat :=
  ({ msgs := h.msgs ++ [⟨h.maps.length, m.source, m.command, m.params⟩], maps := h.maps ++ [m.tags] }, h.msgs.length)

/-- `msg.Tags[name] = value`: a write to the map the message points to. -/
def Heap.setTag (h : Heap) (p : Nat) (name value : Str) : Heap :=
  { h with maps := h.maps.set (h.msg p).tags (GoMap.set (h.map (h.msg p).tags) name value) }

/-- downstream.go:487-549 — `SendMessage` to the client at index `c`. -/
def batSend (srv : Prefix) (st : BatSys) (c p : Nat) : BatSys :=
  match st.clients[c]? with
  | none => st
  | some cl =>
    let r := sendHeap (fun n => decide (n ∈ cl.caps)) srv st.heap p
    { st with heap := r.1, clients := st.clients.set c { cl with queue := cl.queue ++ r.2.toList } }

/-- `SendMessage` of a message made for it. -/
def batSendNew (srv : Prefix) (st : BatSys) (c : Nat) (m : TMsg) : BatSys :=
  batSend srv { st with heap := (st.heap.new m).1 } c (st.heap.new m).2

/-- downstream.go:1691, 2875, 3068 — `msg.Tags["batch"] = batchRef`. -/
def batTag (st : BatSys) (p : Nat) (ref : Str) : BatSys :=
  { st with
    heap := st.heap.setTag p b!"batch" ref
    clash := st.clash || st.clients.any (fun cl => cl.queue.any (fun q => (st.heap.msg q).tags == (st.heap.msg p).tags))
    raced := st.raced || st.clients.any (fun cl =>
      match cl.writing with | some (q, _) => (st.heap.msg q).tags == (st.heap.msg p).tags | none => false) }

/-- What is sent within a batch. -/
inductive BatPart where
  /-- a message of the store in memory -/
  | kept (i : Nat)
  /-- a message that was made for this batch -/
  | loaded (m : TMsg)
  /-- downstream.go:1686-1689 — a notice of the service about a message of a detached channel; not part of the batch -/
  | aside (m : TMsg)
deriving DecidableEq, Repr

/-- downstream.go:1684-1695, 1571-1579, 2855-2867, 2873-2877, 3066-3071, 3085-3095 — one round of the loop in the callback. -/
def batPart (srv : Prefix) (c : Nat) (ref : Str) (st : BatSys) : BatPart → BatSys
  | .kept i =>
    match st.store[i]? with
    | none => st
    | some p => batSend srv (batTag st p ref) c p
  | .loaded m =>
    let r := st.heap.new m
    batSend srv (batTag { st with heap := r.1 } r.2 ref) c r.2
  | .aside m => batSendNew srv st c m

/-- downstream.go:551-571 — `SendBatch` without tags, as in all its calls. -/
def batSendBatch (srv : Prefix) (st : BatSys) (c : Nat) (typ : Str) (params : List Str) (parts : List BatPart) : BatSys :=
  match st.clients[c]? with
  | none => st
  | some cl =>
    let st := { st with clients := st.clients.set c { cl with lastRef := cl.lastRef + 1 } }
    let ref := itoa (cl.lastRef + 1)
    let st := if b!"batch" ∈ cl.caps then batSendNew srv st c ⟨[], none, b!"BATCH", [b!"+" ++ ref, typ] ++ params⟩ else st
    let st := parts.foldl (batPart srv c ref) st
    if b!"batch" ∈ cl.caps then batSendNew srv st c ⟨[], none, b!"BATCH", [b!"-" ++ ref]⟩ else st

inductive BatOp where
  /-- a client connects -/
  | connect
  /-- downstream.go:837, 900 — the capabilities of a client change -/
  | caps (c : Nat) (caps : List Str)
  /-- upstream.go:2184-2203 — any message not in a batch, to some of the clients; `keep`: it is kept by the store in memory -/
  | message (m : TMsg) (keep : Bool) (to : List Nat)
  /-- a batch to a client -/
  | batch (c : Nat) (typ : Str) (params : List Str) (parts : List BatPart)
  /-- the goroutine of a client takes a message and starts to write it -/
  | take (c : Nat)
  /-- it has written it -/
  | written (c : Nat)
deriving DecidableEq, Repr

/-- One step; `none`: it is not possible now. -/
def batStep (srv : Prefix) (st : BatSys) : BatOp → Option BatSys
  | .connect => some { st with clients := st.clients ++ [⟨[], 0, [], none, []⟩] }
  | .caps c caps =>
    match st.clients[c]? with
    | none => none
    | some cl => some { st with clients := st.clients.set c { cl with caps := caps } }
  | .message m keep to =>
    let r := st.heap.new m
    let st := { st with heap := r.1, store := st.store ++ (if keep then [r.2] else []) }
    some (to.foldl (fun st c => batSend srv st c r.2) st)
  | .batch c typ params parts => some (batSendBatch srv st c typ params parts)
  | .take c =>
    match st.clients[c]? with
    | none => none
    | some cl =>
      match cl.writing, cl.queue with
      | none, p :: rest =>
        some { st with clients := st.clients.set c { cl with queue := rest, writing := some (p, st.heap.deref p) } }
      | _, _ => none
  | .written c =>
    match st.clients[c]? with
    | none => none
    | some cl =>
      match cl.writing with
      | some (_, m) => some { st with clients := st.clients.set c { cl with writing := none, wire := cl.wire ++ [m] } }
      | none => none

/-- At first there are no clients and no messages. -/
def BatSys.init : BatSys := ⟨⟨[], []⟩, [], [], false, false⟩

/-- A schedule: every step must be possible when it is made. -/
def batRun (srv : Prefix) (st : BatSys) : List BatOp → Option BatSys
  | [] => some st
  | op :: ops => (batStep srv st op).bind (fun st' => batRun srv st' ops)

end Verif.Model
