import Verif.Model.PgDb

/-! # What the account data in a PostgreSQL database must be (C82)

Stated on the calls made and on what they returned. -/

namespace Verif.Spec
open Verif.Model

/-- The records that should be there: the users with the time they were created, the networks with the user they are
of, the channels and receipts with their network, the push subscriptions with their user and network (0: none). -/
structure PdKept where
  users : List (PdUserRec × Int) := []
  networks : List (Nat × NetRec) := []
  channels : List (Nat × ChanRec) := []
  receipts : List (Nat × PdReceipt) := []
  reads : List (Nat × PdRead) := []
  subs : List (Nat × Nat × PdSub) := []
  configs : List PdConfig := []
deriving DecidableEq, Repr

/-- Some networks disappear, with everything that belongs to them. -/
def pdForget (k : PdKept) (gone : Nat × NetRec → Bool) : PdKept :=
  let here (n : Nat) : Bool := !((k.networks.filter gone).any (fun p => decide (p.2.id = n)))
  { k with
    networks := k.networks.filter (fun p => !gone p)
    channels := k.channels.filter (fun p => here p.1)
    receipts := k.receipts.filter (fun p => here p.1)
    reads := k.reads.filter (fun p => here p.1)
    subs := k.subs.filter (fun p => here p.2.1) }

/-- The effect of a call that returned `some` identifier; a call that failed has no effect. -/
def pdKeep (k : PdKept) : PdOp × Option Nat → PdKept
  | (_, none) => k
  | (.storeUser now r, some id) =>
    if r.id = 0 then { k with users := k.users ++ [({ r with id := id }, now)] }
    else { k with users := k.users.map (fun p => if p.1.id = r.id then ({ r with username := p.1.username }, p.2) else p) }
  | (.deleteUser id, some _) =>
    let k := pdForget k (fun p => decide (p.1 = id))
    { k with
      users := k.users.filter (fun p => decide (p.1.id ≠ id))
      subs := k.subs.filter (fun p => decide (p.1 ≠ id)) }
  | (.storeNetwork user r, some id) =>
    if r.id = 0 then { k with networks := k.networks ++ [(user, { r with id := id })] }
    else { k with networks := k.networks.map (fun p => if p.2.id = r.id then (p.1, r) else p) }
  | (.deleteNetwork id, some _) => pdForget k (fun p => decide (p.2.id = id))
  | (.storeChannel network c, some id) =>
    if c.id = 0 then { k with channels := k.channels ++ [(network, { c with id := id })] }
    else { k with channels := k.channels.map (fun p => if p.2.id = c.id then (p.1, c) else p) }
  | (.deleteChannel id, some _) => { k with channels := k.channels.filter (fun p => decide (p.2.id ≠ id)) }
  | (.storeReceipts network client rs, some _) =>
    { k with receipts := k.receipts.filter (fun p => !(decide (p.1 = network) && decide (p.2.client = client))) ++
        rs.map (fun r => (network, ⟨0, r.target, client, r.msgID⟩)) }
  | (.storeRead network r, some id) =>
    if r.id = 0 then { k with reads := k.reads ++ [(network, { r with id := id })] }
    else { k with reads := k.reads.map (fun p => if p.2.id = r.id then (p.1, { p.2 with timestamp := r.timestamp }) else p) }
  | (.storeSub now user network s, some id) =>
    if s.id = 0 then
      { k with subs := k.subs ++ [(user, network, { s with id := id, createdAt := now, updatedAt := now })] }
    else { k with subs := k.subs.map (fun p => if p.2.2.id = s.id then
        (p.1, p.2.1, { s with endpoint := p.2.2.endpoint, createdAt := p.2.2.createdAt, updatedAt := now }) else p) }
  | (.deleteSub id, some _) => { k with subs := k.subs.filter (fun p => decide (p.2.2.id ≠ id)) }
  | (.storeConfig c, some id) => { k with configs := k.configs ++ [{ c with id := id }] }

/-- The records that should be there after the calls. -/
def pdKept (trace : List (PdOp × Option Nat)) : PdKept := trace.foldl pdKeep {}

/-- A text is accepted by a column of `n` characters at most; an empty one always is. -/
def PdFits (ok : Nat → Str → Bool) (n : Nat) (s : Str) : Prop := s = [] ∨ ok n s = true

/-- The texts of a user are accepted. -/
def PdUserFits (ok : Nat → Str → Bool) (r : PdUserRec) : Prop :=
  PdFits ok 255 r.password ∧ PdFits ok 255 r.nick ∧ PdFits ok 255 r.realname

/-- The texts of a network are accepted, and its SASL mechanism is one that is supported. -/
def PdNetFits (ok : Nat → Str → Bool) (r : NetRec) : Prop :=
  PdFits ok 255 r.name ∧ ok 255 r.addr = true ∧ PdFits ok 255 r.nick ∧ PdFits ok 255 r.username ∧
  PdFits ok 255 r.realname ∧ PdFits ok 0 r.certFP ∧ PdFits ok 255 r.pass ∧
  PdFits ok 1023 (joinStr [13, 10] r.connectCommands) ∧
  (r.sasl.mechanism = [] ∨ r.sasl.mechanism = b!"EXTERNAL" ∨
    r.sasl.mechanism = b!"PLAIN" ∧ PdFits ok 255 r.sasl.plainUsername ∧ PdFits ok 255 r.sasl.plainPassword)

/-- No other network of the user has the name, nor both the address and the nick; an empty name or nick does not
count. -/
def PdNetFree (k : PdKept) (user : Nat) (r : NetRec) : Prop :=
  ∀ p ∈ k.networks, p.1 = user → p.2.id ≠ r.id →
    (p.2.name = r.name → r.name = []) ∧ (p.2.addr = r.addr → p.2.nick = r.nick → r.nick = [])

/-- The texts of a channel are accepted. -/
def PdChanFits (ok : Nat → Str → Bool) (c : ChanRec) : Prop :=
  ok 255 c.name = true ∧ PdFits ok 255 c.key ∧ PdFits ok 255 c.detachedMsgID

/-- A user exists. -/
def PdUser (k : PdKept) (id : Nat) : Prop := ∃ p ∈ k.users, p.1.id = id

/-- A network exists. -/
def PdNet (k : PdKept) (id : Nat) : Prop := ∃ p ∈ k.networks, p.2.id = id

/-- When a call succeeds. -/
def PdAllowed (ok : Nat → Str → Bool) (k : PdKept) : PdOp → Prop
  | .storeUser _ r =>
    PdUserFits ok r ∧ (r.id = 0 → ok 255 r.username = true ∧ ∀ p ∈ k.users, p.1.username ≠ r.username)
  | .storeNetwork user r =>
    PdNetFits ok r ∧ (r.id = 0 → PdUser k user ∧ PdNetFree k user r) ∧
    (r.id ≠ 0 → ∀ p ∈ k.networks, p.2.id = r.id → PdNetFree k p.1 r)
  | .storeChannel network c =>
    PdChanFits ok c ∧ (c.id = 0 → PdNet k network ∧ ∀ p ∈ k.channels, p.1 = network → p.2.name ≠ c.name) ∧
    (c.id ≠ 0 → ∀ p ∈ k.channels, p.2.id = c.id → ∀ q ∈ k.channels, q.1 = p.1 → q.2.id ≠ c.id → q.2.name ≠ c.name)
  | .storeReceipts network client rs =>
    ok 0 client = true ∧
    (rs ≠ [] → PdNet k network ∧ ok 255 client = true ∧ (∀ r ∈ rs, ok 255 r.target = true ∧ ok 255 r.msgID = true) ∧
      (rs.map (·.target)).Nodup)
  | .storeRead network r =>
    r.id = 0 → ok 255 r.target = true ∧ PdNet k network ∧ ∀ p ∈ k.reads, p.1 = network → p.2.target ≠ r.target
  | .storeSub _ user network s =>
    (ok 0 s.auth = true ∧ ok 0 s.p256dh = true ∧ ok 0 s.vapid = true) ∧
    (s.id = 0 → ok 0 s.endpoint = true ∧ PdUser k user ∧
      (network ≠ 0 → PdNet k network ∧ ∀ p ∈ k.subs, p.2.1 = network → p.2.2.endpoint ≠ s.endpoint))
  | .deleteUser _ => True
  | .deleteNetwork _ => True
  | .deleteChannel _ => True
  | .deleteSub _ => True
  | .storeConfig c => c.id = 0 ∧ ok 0 c.pub = true ∧ ok 0 c.priv = true ∧ ∀ o ∈ k.configs, o.pub ≠ c.pub

/-- The identifier a call gave to a new record, with the table (users, networks, channels, read receipts, push
subscriptions, push configurations). -/
def pdGiven : PdOp × Option Nat → Option (Nat × Nat)
  | (.storeUser _ r, some id) => if r.id = 0 then some (0, id) else none
  | (.storeNetwork _ r, some id) => if r.id = 0 then some (1, id) else none
  | (.storeChannel _ c, some id) => if c.id = 0 then some (2, id) else none
  | (.storeRead _ r, some id) => if r.id = 0 then some (3, id) else none
  | (.storeSub _ _ _ s, some id) => if s.id = 0 then some (4, id) else none
  | (.storeConfig _, some id) => some (5, id)
  | _ => none

/-- What is read back of an instant: the zero time is kept as such. -/
def pdInstant (tm : Int → Int) (t : Int) : Int := if t = 0 then 0 else tm t

end Verif.Spec
