import Verif.Model.GoMap

/-! # Model of automatic away (upstream.go:2205-2236; user.go:643-649, 768-774, 778-800; downstream.go:611-623)

One user.  Networks are known by their ID.  A registered client is bound to a network or to none. -/

namespace Verif.Model

/-- A registered client (user.downstreamConns). -/
structure AwClient where
  id : Nat
  network : Option Nat
  /-- dc.away != nil -/
  away : Bool
deriving DecidableEq, Repr

/-- A connected upstream (network.conn). -/
structure AwUp where
  net : Nat
  /-- network.AutoAway; changing it replaces the connection (user.go:1087-1165) -/
  autoAway : Bool
  /-- the server supports draft/pre-away -/
  preAway : Bool
  /-- uc.away -/
  away : Bool
deriving DecidableEq, Repr

/-- An AWAY command sent to the server of a network: its reason, none when coming back. -/
structure AwMsg where
  net : Nat
  reason : Option Str
deriving DecidableEq, Repr

/-- One user. -/
structure AwState where
  clients : List AwClient
  ups : List AwUp
deriving DecidableEq, Repr

/-- upstream.go:2205-2236 — `updateAway`. -/
def updateAway (clients : List AwClient) (u : AwUp) : AwUp × List AwMsg :=
  if !u.autoAway then (u, [])
  else
    -- user.go:188-195: the clients of the network
    let away := (clients.filter (fun c => decide (c.network = some u.net))).all (fun c => c.away)
    if away = u.away then (u, [])
    else
      ({ u with away := away },
        [⟨u.net, if away then some (if u.preAway then b!"*" else b!"Auto away") else none⟩])

/-- `u.forEachUpstream(func(uc) { uc.updateAway() })`. -/
def updateAwayAll (st : AwState) : AwState × List AwMsg :=
  ({ st with ups := st.ups.map (fun u => (updateAway st.clients u).1) },
    st.ups.flatMap (fun u => (updateAway st.clients u).2))

/-- What happens. -/
inductive AwOp where
  /-- a network gets connected -/
  | upConnect (net : Nat) (autoAway preAway : Bool)
  | upDisconnect (net : Nat)
  /-- a client registers (possibly away already, downstream.go:780-787) -/
  | connect (c : AwClient)
  | disconnect (id : Nat)
  /-- AWAY by a registered client -/
  | away (id : Nat) (away : Bool)

/-- One event. -/
def awStep (st : AwState) : AwOp → AwState × List AwMsg
  -- user.go:643-648: network.conn is set (there was none), then updateAway
  | .upConnect net autoAway preAway =>
    if st.ups.any (fun u => decide (u.net = net)) then (st, [])
    else
      let r := updateAway st.clients ⟨net, autoAway, preAway, false⟩
      ({ st with ups := st.ups ++ [r.1] }, r.2)
  -- user.go:896
  | .upDisconnect net => ({ st with ups := st.ups.filter (fun u => decide (u.net ≠ net)) }, [])
  -- user.go:763, 772-774
  | .connect c => updateAwayAll { st with clients := st.clients ++ [c] }
  -- user.go:782-798
  | .disconnect id => updateAwayAll { st with clients := st.clients.filter (fun c => decide (c.id ≠ id)) }
  -- downstream.go:2611-2623: only the upstream of the client's network is updated
  | .away id a =>
    let clients := st.clients.map (fun c => if c.id = id then { c with away := a } else c)
    match (st.clients.find? (fun c => decide (c.id = id))).bind (·.network) with
    | none => ({ st with clients := clients }, [])
    | some net =>
      ({ clients := clients
         ups := st.ups.map (fun u => if u.net = net then (updateAway clients u).1 else u) },
        st.ups.flatMap (fun u => if u.net = net then (updateAway clients u).2 else []))

/-- downstream.go:780-785, 2611-2616 — whether a client is away after an AWAY command with these parameters. -/
def awayCommand (params : List Str) : Bool := params.length > 0

/-- irc.go:315-326 — `generateAwayReply`: the command of the reply. -/
def awayReply (away : Bool) : Str := if away then b!"306" else b!"305"

/-- A history. -/
def awRun (st : AwState) : List AwOp → AwState × List (AwOp × List AwMsg)
  | [] => (st, [])
  | op :: ops =>
    let r := awStep st op
    let r' := awRun r.1 ops
    (r'.1, (op, r.2) :: r'.2)

end Verif.Model
