import Verif.Model.MsgId

/-! # Model of receipts and backlog when the message store is changed

user.go:426-446, 626-636, 876-888; downstream.go:1612-1625, 1662-1696; msgstore/memory.go:104-121, fs.go:395-409, db.go:66-70.

One conversation and one client, and any number of restarts, each with any message store.  Messages are numbered in the order they
come.  Simplifications: a message ID is the kind of its store and a position (`n`: after the first `n` messages); an ID of another
kind is refused (`C11_msgid_typed`).  A client acknowledges a message as it receives it; there is no limit on the backlog and
there are no crashes: C21 is about those.  The client does not use draft/chathistory. -/

namespace Verif.Model

/-- The message store in use, what is in each store, the number of messages so far, the receipt of the client in memory and the
one in the database, whether the client is connected, and what it has seen. -/
structure SwiState where
  kind : MsgIdType
  logs : MsgIdType → List Nat
  count : Nat
  receipt : Option (MsgIdType × Nat)
  saved : Option (MsgIdType × Nat)
  online : Bool
  seen : List Nat

/-- What can happen. -/
inductive SwiOp where
  | message
  | connect
  | disconnect
  | restart (kind : MsgIdType)

/-- user.go:1287-1292 — `hasPersistentMsgStore`. -/
def swiPersistent (k : MsgIdType) : Bool := decide (k ≠ .memory)

/-- The bouncer is started for the first time: the client is not known. -/
def swiInit (kind : MsgIdType) : SwiState := ⟨kind, fun _ => [], 0, none, none, false, []⟩

/-- user.go:426-446 — `storeClientDeliveryReceipts`: the receipt in the database after it. -/
def swiSave (st : SwiState) : Option (MsgIdType × Nat) :=
  if swiPersistent st.kind then st.receipt.or st.saved else st.saved

/-- downstream.go:1679-1683, msgstore/memory.go:109-112, fs.go:402-405, db.go:67-70 — what `LoadLatestID` returns for the
receipt; `none` is an error. -/
def swiLoad (st : SwiState) (id : MsgIdType × Nat) : Option (List Nat) :=
  if id.1 = st.kind then some ((st.logs st.kind).drop id.2) else none

/-- One step.
* `message`: it is stored (upstream.go:2169), and sent to the client if it is connected.
* `connect`: downstream.go:1612-1652, 1662-1696.  Without a receipt nothing is sent; after an error neither.
* `disconnect`: user.go:778-800.
* `restart`: user.go:876-888 (the receipts are saved) and 626-636 (they are loaded); what was in memory is gone. -/
def swiStep (st : SwiState) : SwiOp → SwiState
  | .message =>
    let log := st.logs st.kind ++ [st.count]
    let st' := { st with logs := fun k => if k = st.kind then log else st.logs k, count := st.count + 1 }
    if st.online then { st' with seen := st.seen ++ [st.count], receipt := some (st.kind, log.length) } else st'
  | .connect =>
    if st.online then st
    else
      match st.receipt.bind (swiLoad st) with
      | none => { st with online := true }
      | some [] => { st with online := true }
      | some new => { st with online := true, seen := st.seen ++ new, receipt := some (st.kind, (st.logs st.kind).length) }
  | .disconnect => if st.online then { st with online := false, saved := swiSave st } else st
  | .restart k =>
    { st with
      kind := k, online := false, saved := swiSave st, receipt := if swiPersistent k then swiSave st else none,
      logs := fun k' => if k' = .memory then [] else st.logs k' }

/-- Many steps. -/
def swiRun (st : SwiState) (ops : List SwiOp) : SwiState := ops.foldl swiStep st

end Verif.Model
