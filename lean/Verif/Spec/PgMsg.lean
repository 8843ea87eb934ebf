import Verif.Model.PgMsg

/-! # What the history in a PostgreSQL database must be (C81)

Stated on the calls made and on what they returned. -/

namespace Verif.Spec
open Verif.Model

/-- A message that has been stored, with the identifier that was returned for it. -/
structure PgKept where
  id : Nat
  net : Nat
  name : Str
  m : MsgIn
deriving DecidableEq, Repr

/-- The messages that should be there after the calls: those of the successful calls to store messages, in that
order, without those of networks deleted since. -/
def pgKept (trace : List (PgMsgOp × Option (List Nat))) : List PgKept :=
  trace.foldl (fun kept c => match c with
    | (.store net name msgs _, some ids) => kept ++ (ids.zip msgs).map (fun p => ⟨p.1, net, name, p.2.m⟩)
    | (.deleteNetwork net, _) => kept.filter (fun k => decide (k.net ≠ net))
    | _ => kept) []

/-- The networks that exist after the calls. -/
def pgNetworks (trace : List (PgMsgOp × Option (List Nat))) : List Nat :=
  trace.foldl (fun nets c => match c.1 with
    | .addNetwork n => n :: nets
    | .deleteNetwork n => nets.filter (fun x => decide (x ≠ n))
    | _ => nets) []

/-- All the identifiers that were ever returned, in order. -/
def pgIds (trace : List (PgMsgOp × Option (List Nat))) : List Nat :=
  trace.flatMap (fun c => c.2.getD [])

/-- How a column stores an instant: in order, and a whole number of microseconds exactly. -/
structure PgTime (col : Int → Int) : Prop where
  mono : ∀ a b, a ≤ b → col a ≤ col b
  exact : ∀ k, col (1000 * k) = k

/-- A whole number of milliseconds, like every time tag. -/
def WholeMs (t : Int) : Prop := ∃ k, t = 1000000 * k

/-- What `ORDER BY time` (descending if `d`) promises. -/
def PgOrd (ord : Bool → List PgRow → List PgRow) : Prop :=
  ∀ d l, (ord d l).Perm l ∧ (ord d l).Pairwise (fun a b => if d then b.time ≤ a.time else a.time ≤ b.time)

/-- What `ORDER BY latest` promises. -/
def PgOrdT (ordT : Bool → List (Str × Int) → List (Str × Int)) : Prop :=
  ∀ d l, (ordT d l).Perm l ∧ (ordT d l).Pairwise (fun a b => if d then b.2 ≤ a.2 else a.2 ≤ b.2)

/-- A message of the conversation; only PRIVMSG and NOTICE unless `events`. -/
def PgConv (net : Nat) (name : Str) (events : Bool) (k : PgKept) : Prop :=
  k.net = net ∧ k.name = name ∧ (events = true ∨ k.m.text ≠ none)

/-- Strictly after the bound, as the column stores them; no bound if it is the zero time. -/
def PgAfter (col : Int → Int) (bound t : Int) : Prop := bound = 0 ∨ col bound < col t

/-- Strictly before the bound. -/
def PgBefore (col : Int → Int) (bound t : Int) : Prop := bound = 0 ∨ col t < col bound

instance (net : Nat) (name : Str) (events : Bool) (k : PgKept) : Decidable (PgConv net name events k) := by
  unfold PgConv; infer_instance
instance (col : Int → Int) (b t : Int) : Decidable (PgAfter col b t) := by unfold PgAfter; infer_instance
instance (col : Int → Int) (b t : Int) : Decidable (PgBefore col b t) := by unfold PgBefore; infer_instance

/-- Is a stored message one the query asks for? -/
def PgWanted (fts : Str → Option Str → Bool) (col : Int → Int) (net : Nat) (name : Str) (o : MsgOptions)
    (k : PgKept) : Bool :=
  decide (PgConv net name o.events k ∧ (o.afterID = 0 ∨ k.id > o.afterID) ∧ PgAfter col o.afterTime k.m.t ∧
    PgBefore col o.beforeTime k.m.t ∧ (o.sender = [] ∨ k.m.sender = o.sender) ∧
    (o.text = [] ∨ fts o.text k.m.text = true))

/-- `t` is the time of the latest message of a conversation (of the latest text message unless `events`). -/
def PgLatest (col : Int → Int) (kept : List PgKept) (net : Nat) (events : Bool) (name : Str) (t : Int) : Prop :=
  (∃ k ∈ kept, PgConv net name events k ∧ col k.m.t = t) ∧
  ∀ k ∈ kept, PgConv net name events k → col k.m.t ≤ t

/-- Can the messages be stored?  The network exists, the database accepts every text, the time tags can be read
and the transaction can be committed. -/
def PgStorable (ok : Str → Bool) (nets : List Nat) (net : Nat) (name : Str) (msgs : List PgIn) (commit : Bool) : Prop :=
  net ∈ nets ∧ ok name = true ∧ commit = true ∧
  ∀ p ∈ msgs, p.timeOK = true ∧ ok p.m.raw = true ∧ ok p.m.sender = true ∧ ∀ x, p.m.text = some x → ok x = true

end Verif.Spec
