import Verif.Model.GoMap
import Verif.Model.Url
import Verif.Model.UserIp

/-! # Model of the push subscriptions

The table of subscriptions, the WEBPUSH commands and the broadcasts that run beside them.

Simplifications: the keys parsed from the REGISTER command are given (downstream.go:3222-3230); errors of
the database other than the UNIQUE constraint are left out; times are integers, in seconds. -/

namespace Verif.Model

/-- database/database.go:278-288 and database/sqlite_schema.sql:79-92 — a row of WebPushSubscription;
network 0 stands for NULL. -/
structure PushSub where
  id : Nat
  user : Nat
  net : Nat
  endpoint : Str
  auth : Str
  p256 : Str
  vapid : Str
  updated : Int
  deriving DecidableEq, Repr

/-- database/sqlite.go:971-1002 — `ListWebPushSubscriptions`. -/
def listSubs (tbl : List PushSub) (u n : Nat) : List PushSub :=
  tbl.filter (fun s => s.user = u ∧ s.net = n)

/-- The identifier of a new row (`INTEGER PRIMARY KEY` without `AUTOINCREMENT`): one more than the
largest in use. -/
def nextRowid (tbl : List PushSub) : Nat := tbl.foldl (fun m s => max m s.id) 0 + 1

/-- database/sqlite.go:1004-1046 — `StoreWebPushSubscription`; `none` is the violation of
`UNIQUE(network, endpoint)`, which NULL networks never violate. -/
def storeSub (tbl : List PushSub) (u n : Nat) (sub : PushSub) (now : Int) : Option (List PushSub) :=
  if sub.id ≠ 0 then
    some (tbl.map (fun s => if s.id = sub.id then
      { s with updated := now, auth := sub.auth, p256 := sub.p256, vapid := sub.vapid } else s))
  else if n ≠ 0 ∧ tbl.any (fun s => s.net = n ∧ s.endpoint = sub.endpoint) then none
  else some (tbl ++ [{ sub with id := nextRowid tbl, user := u, net := n, updated := now }])

/-- database/sqlite.go:1048-1054 — `DeleteWebPushSubscription`. -/
def deleteSub (tbl : List PushSub) (id : Nat) : List PushSub := tbl.filter (fun s => s.id ≠ id)

/-- downstream.go:3387-3394 — `findWebPushSubscription`. -/
def findSub (subs : List PushSub) (endpoint : Str) : Option PushSub :=
  subs.find? (fun s => s.endpoint = endpoint)

/-- server.go:41-42 — the delays, in seconds. -/
def pushCheckDelay : Int := 24 * 3600
/-- server.go:42. -/
def pushPruneDelay : Int := 30 * 24 * 3600

/-- What REGISTER decides after listing the subscriptions. -/
inductive RegDecision
  /-- "Too many subscriptions" -/
  | tooMany
  /-- the subscription is there and was checked recently: nothing to do -/
  | keep
  /-- check the endpoint, then store -/
  | check (sub : PushSub)
  deriving DecidableEq, Repr

/-- downstream.go:3232-3263 — REGISTER, up to the check of the endpoint. -/
def registerDecide (tbl : List PushSub) (u n : Nat) (endpoint auth p256 vapid : Str) (now : Int) :
    RegDecision :=
  let newSub : PushSub := ⟨0, u, n, endpoint, auth, p256, vapid, 0⟩
  let subs := listSubs tbl u n
  if subs.length > 25 then .tooMany
  else match findSub subs endpoint with
    | none => .check newSub
    | some old =>
      if now - old.updated > pushCheckDelay ∨ (old.auth, old.p256, old.vapid) ≠ (auth, p256, vapid) then
        .check { newSub with id := old.id }
      else .keep

/-- What the event loop of a user is doing, between two accesses to the database. -/
inductive PushPend
  | store (net : Nat) (sub : PushSub)
  | delete (id : Nat)
  deriving DecidableEq, Repr

/-- The table, what the event loops are doing, and the subscriptions the running broadcasts have still
to send to. -/
structure PushWorld where
  tbl : List PushSub := []
  pend : GoMap Nat PushPend := []
  bcasts : List (List PushSub) := []
  deriving DecidableEq, Repr

/-- server.go:364-378 — the outcome of `sendWebPush`. -/
inductive SendResult | ok | expired | failed
  deriving DecidableEq, Repr

/-- user.go:500-526 — one iteration of `broadcastWebPush`. -/
def bcastOne (tbl : List PushSub) (sub : PushSub) (r : SendResult) (now : Int) : List PushSub :=
  match r with
  | .ok => tbl
  | .expired => deleteSub tbl sub.id
  | .failed => if now - sub.updated > pushPruneDelay then deleteSub tbl sub.id else tbl

/-- The steps of the system; each is atomic in the database. -/
inductive PushOp
  /-- REGISTER lists the subscriptions of its user -/
  | register (u n : Nat) (endpoint auth p256 vapid : Str) (now : Int)
  /-- UNREGISTER lists the subscriptions of its user -/
  | unregister (u n : Nat) (endpoint : Str)
  /-- the event loop of a user goes on: the endpoint was found good or not -/
  | resume (u : Nat) (good : Bool) (now : Int)
  /-- a broadcast starts -/
  | bcast (u n : Nat)
  /-- a broadcast sends to its next subscription -/
  | deliver (i : Nat) (r : SendResult) (now : Int)
  /-- a network is deleted -/
  | delNet (n : Nat)
  /-- a user is deleted -/
  | delUser (u : Nat)
  deriving Repr

/-- downstream.go:3211-3346 (WEBPUSH), user.go:489-528 (`broadcastWebPush`), database/sqlite.go:528-530,
695-697 (deletions).  The event loop of a user does one thing at a time. -/
def pushStep (w : PushWorld) : PushOp → PushWorld
  | .register u n endpoint auth p256 vapid now =>
    if (GoMap.get w.pend u).isSome then w
    else match registerDecide w.tbl u n endpoint auth p256 vapid now with
      | .check sub => { w with pend := GoMap.set w.pend u (.store n sub) }
      | _ => w
  | .unregister u n endpoint =>
    if (GoMap.get w.pend u).isSome then w
    else match findSub (listSubs w.tbl u n) endpoint with
      | none => w
      | some old => { w with pend := GoMap.set w.pend u (.delete old.id) }
  | .resume u good now =>
    match GoMap.get w.pend u with
    | none => w
    | some (.store n sub) =>
      let tbl := if good then (storeSub w.tbl u n sub now).getD w.tbl else w.tbl
      { w with tbl := tbl, pend := GoMap.del w.pend u }
    | some (.delete id) => { w with tbl := deleteSub w.tbl id, pend := GoMap.del w.pend u }
  | .bcast u n => { w with bcasts := w.bcasts ++ [listSubs w.tbl u n] }
  | .deliver i r now =>
    match w.bcasts[i]? with
    | some (sub :: rest) => { w with tbl := bcastOne w.tbl sub r now, bcasts := w.bcasts.set i rest }
    | _ => w
  | .delNet n => if n = 0 then w else { w with tbl := w.tbl.filter (fun s => s.net ≠ n) }
  | .delUser u =>
    { w with tbl := w.tbl.filter (fun s => s.user ≠ u), pend := GoMap.del w.pend u }

/-- An interleaving. -/
def pushRun (w : PushWorld) (ops : List PushOp) : PushWorld := ops.foldl pushStep w

/-- REGISTER without anything happening beside it (downstream.go:3211-3300); the second component says
whether the client is told that it is registered. -/
def registerAlone (tbl : List PushSub) (u n : Nat) (endpoint auth p256 vapid : Str) (now : Int)
    (good : Bool) : List PushSub × Bool :=
  match registerDecide tbl u n endpoint auth p256 vapid now with
  | .tooMany => (tbl, false)
  | .keep => (tbl, true)
  | .check sub =>
    if good then
      match storeSub tbl u n sub now with
      | none => (tbl, false)
      | some tbl' => (tbl', true)
    else (tbl, false)

/-- UNREGISTER without anything happening beside it (downstream.go:3301-3340). -/
def unregisterAlone (tbl : List PushSub) (u n : Nat) (endpoint : Str) : List PushSub :=
  match findSub (listSubs tbl u n) endpoint with
  | none => tbl
  | some old => deleteSub tbl old.id

/-- A broadcast without anything happening beside it (user.go:489-528): `res` is the outcome for each
subscription. -/
def broadcastAlone (tbl : List PushSub) (u n : Nat) (res : PushSub → SendResult) (now : Int) :
    List PushSub :=
  (listSubs tbl u n).foldl (fun t s => bcastOne t s (res s) now) tbl

/-! ## The check of the endpoint -/

/-- `net.IP.IsLoopback`. -/
def ipIsLoopback (ip : List Byte) : Bool :=
  match ipTo4 ip with
  | some ip4 => ip4.head? = some 127
  | none => ip = [0, 0, 0, 0, 0, 0, 0, 0, 0, 0, 0, 0, 0, 0, 0, 1]

/-- `net.IP.IsMulticast`. -/
def ipIsMulticast (ip : List Byte) : Bool :=
  match ipTo4 ip with
  | some ip4 => ip4.head?.any (fun b => 224 ≤ b ∧ b < 240)
  | none => ip.length = 16 ∧ ip.head? = some 255

/-- `net.IP.IsPrivate`. -/
def ipIsPrivate (ip : List Byte) : Bool :=
  match ipTo4 ip with
  | some (a :: b :: _) => a = 10 ∨ (a = 172 ∧ 16 ≤ b ∧ b < 32) ∨ (a = 192 ∧ b = 168)
  | some _ => false
  | none => ip.length = 16 ∧ (ip.head? = some 252 ∨ ip.head? = some 253)

/-- downstream.go:3499-3520 — `sanityCheckWebPushEndpoint`; `lookup` is the resolver. -/
def sanityCheckPush (lib : UrlLib) (lookup : Str → Option (List (List Byte))) (endpoint : Str) : Bool :=
  match urlParse lib endpoint with
  | none => false
  | some u =>
    if u.scheme ≠ b!"https" then false
    else match lookup u.host with
      | none => false
      | some ips => !(ips.any (fun ip => ipIsLoopback ip || ipIsMulticast ip || ipIsPrivate ip))

end Verif.Model
