import Verif.Model.SqDb
import Verif.Spec.PgDb

/-! # What the account data in an SQLite database must be (C84)

Stated on the calls made and on what they returned; the records are kept as in `Spec.PgDb`, except where SQLite
differs. -/

namespace Verif.Spec
open Verif.Model

/-- The effect of a call that returned `some` identifier; a call that failed has no effect.  The clock is read to the
millisecond, a user is updated by name and a channel can be moved to another network. -/
def sqKeep (k : PdKept) : PdOp × Option Nat → PdKept
  | (.storeUser now r, some id) =>
    if r.id = 0 then { k with users := k.users ++ [({ r with id := id }, toMillis now)] }
    else { k with users := k.users.map (fun p => if p.1.username = r.username then ({ r with id := p.1.id }, p.2) else p) }
  | (.storeChannel network c, some id) =>
    if c.id = 0 then { k with channels := k.channels ++ [(network, { c with id := id })] }
    else { k with channels := k.channels.map (fun p => if p.2.id = c.id then (network, c) else p) }
  | (.storeSub now user network s, res) => pdKeep k (.storeSub (toMillis now) user network s, res)
  | call => pdKeep k call

/-- The records that should be there after the calls. -/
def sqKept (trace : List (PdOp × Option Nat)) : PdKept := trace.foldl sqKeep {}

/-- When a call succeeds. -/
def SqAllowed (k : PdKept) : PdOp → Prop
  | .storeUser _ r => r.id = 0 → ∀ p ∈ k.users, p.1.username ≠ r.username
  | .storeNetwork user r =>
    (r.sasl.mechanism = [] ∨ r.sasl.mechanism = b!"EXTERNAL" ∨ r.sasl.mechanism = b!"PLAIN") ∧
    (r.id = 0 → PdUser k user ∧ PdNetFree k user r) ∧
    (r.id ≠ 0 → ∀ p ∈ k.networks, p.2.id = r.id → PdNetFree k p.1 r)
  | .storeChannel network c =>
    (c.id = 0 → PdNet k network ∧ ∀ p ∈ k.channels, p.1 = network → p.2.name ≠ c.name) ∧
    (c.id ≠ 0 → ∀ p ∈ k.channels, p.2.id = c.id →
      PdNet k network ∧ ∀ q ∈ k.channels, q.1 = network → q.2.id ≠ c.id → q.2.name ≠ c.name)
  | .storeReceipts network client rs =>
    rs ≠ [] → PdNet k network ∧ (client ≠ [] → (rs.map (·.target)).Nodup)
  | .storeRead network r =>
    (r.id = 0 → r.timestamp ≠ 0 ∧ PdNet k network ∧ ∀ p ∈ k.reads, p.1 = network → p.2.target ≠ r.target) ∧
    (r.id ≠ 0 → r.timestamp = 0 → ∀ p ∈ k.reads, p.2.id ≠ r.id)
  | .storeSub _ user network s =>
    s.id = 0 → PdUser k user ∧
      (network ≠ 0 → PdNet k network ∧ ∀ p ∈ k.subs, p.2.1 = network → p.2.2.endpoint ≠ s.endpoint)
  | .deleteUser id => ∀ p ∈ k.subs, p.1 ≠ id → ∀ n ∈ k.networks, n.1 = id → n.2.id ≠ p.2.1
  | .deleteNetwork _ => True
  | .deleteChannel _ => True
  | .deleteSub _ => True
  | .storeConfig c => c.id = 0 ∧ ∀ o ∈ k.configs, o.pub ≠ c.pub

end Verif.Spec
