import Verif.Model.GoMap
import Verif.Model.ReadMarker

/-! # Model of MONITOR (downstream.go:2645-2735; upstream.go:1653-1715, 2250-2317)

One network whose server supports MONITOR.  Nicks are folded names: every map involved is keyed by the
network's case mapping (user.go:419, 724-726).  The splitting of a list over several MONITOR commands is
modelled in GenMsg; here a command carries one list. -/

namespace Verif.Model

/-- MONITOR commands sent to the server. -/
inductive MonCmd where
  | add (nicks : List Str)
  | remove (nicks : List Str)
  | clear
deriving DecidableEq, Repr

/-- The bouncer's side of one network. -/
structure MonState where
  /-- dc.monitored of each client of the network, by client ID -/
  clients : GoMap Nat (List Str)
  /-- uc.monitored: nick ↦ online -/
  monitored : GoMap Str Bool
  /-- uc.nick -/
  nick : Str
  /-- the nick the user has configured -/
  wantNick : Str
  /-- uc.hasDesiredNick -/
  hasDesiredNick : Bool
deriving DecidableEq, Repr

/-- downstream.go:2667: the limit on the list of a client. -/
def monitorLimit : Nat := 1000

/-- downstream.go:2664-2681, 2698-2700 — the effect of `MONITOR + nick` on the client's list, and whether it is
accepted. -/
def monAdd (l : List Str) (nick : Str) : List Str × Bool :=
  if monitorLimit ≤ l.length then (l, false)
  else (if nick ∈ l then l else l ++ [nick], true)

/-- downstream.go:2698-2700 — `MONITOR - nick`. -/
def monDel (l : List Str) (nick : Str) : List Str := l.filter (fun n => decide (n ≠ nick))

/-- upstream.go:2258-2276, first loop: the nicks to add, and those already monitored that some client wants.
`lists`: the lists of all clients of the network, one after the other. -/
def monCollect (monitored : GoMap Str Bool) : List Str → List Str × List Str → List Str × List Str
  | [], acc => acc
  | t :: ts, (add, seen) =>
    if t = serviceNickCM then monCollect monitored ts (add, seen)
    else if (GoMap.get monitored t).isNone then monCollect monitored ts (if t ∈ add then add else add ++ [t], seen)
    else monCollect monitored ts (add, t :: seen)

/-- upstream.go:2250-2317 — `updateMonitor`. -/
def updateMonitor (st : MonState) : MonState × List MonCmd :=
  let r := monCollect st.monitored (st.clients.flatMap (·.2)) ([], [])
  let add := if st.wantNick ∉ r.1 ∧ (GoMap.get st.monitored st.wantNick).isNone ∧ st.wantNick ≠ st.nick ∧
      st.hasDesiredNick = false then r.1 ++ [st.wantNick] else r.1
  let keys := st.monitored.map (·.1)
  let remove := keys.filter (fun n => decide (n ∉ r.2))
  let removeAll := keys.all (fun n => decide (n ∉ r.2))
  let cmds := if removeAll && decide (add = []) && decide (remove ≠ []) then [MonCmd.clear]
    else (if remove = [] then [] else [MonCmd.remove remove]) ++ (if add = [] then [] else [MonCmd.add add])
  ({ st with monitored := remove.foldl (fun m n => GoMap.del m n) st.monitored }, cmds)

/-- What the clients do. -/
inductive MonOp where
  | connect (id : Nat)
  | disconnect (id : Nat)
  | add (id : Nat) (nicks : List Str)
  | del (id : Nat) (nicks : List Str)
  | clear (id : Nat)
  /-- the connection to the server is lost and there is a new one.  Without a connection MONITOR is refused
  (downstream.go:438-446), so that all that can happen in between is that clients come and go -/
  | reconnect

/-- The list of a client. -/
def MonState.listOf (st : MonState) (id : Nat) : List Str := (GoMap.get st.clients id).getD []

/-- A client event, with the commands it makes the bouncer send. -/
def monStep (st : MonState) : MonOp → MonState × List MonCmd
  -- downstream.go:380: a new client has an empty list
  | .connect id => if (GoMap.get st.clients id).isSome then (st, []) else ({ st with clients := GoMap.set st.clients id [] }, [])
  -- user.go:782-798
  | .disconnect id => updateMonitor { st with clients := GoMap.del st.clients id }
  | .add id nicks =>
    if (GoMap.get st.clients id).isNone then (st, [])
    else updateMonitor { st with clients := GoMap.set st.clients id (nicks.foldl (fun l n => (monAdd l n).1) (st.listOf id)) }
  | .del id nicks =>
    if (GoMap.get st.clients id).isNone then (st, [])
    else updateMonitor { st with clients := GoMap.set st.clients id (nicks.foldl monDel (st.listOf id)) }
  | .clear id =>
    if (GoMap.get st.clients id).isNone then (st, [])
    else updateMonitor { st with clients := GoMap.set st.clients id [] }
  -- upstream.go:370, 1019: the update comes with the ISUPPORT message of the server
  | .reconnect => updateMonitor { st with monitored := [] }

/-- upstream.go:1662-1664 — RPL_MONONLINE or RPL_MONOFFLINE. -/
def monReply (st : MonState) (nicks : List Str) (online : Bool) : MonState :=
  { st with monitored := nicks.foldl (fun m n => GoMap.set m n online) st.monitored }

/-- Messages about nicks to a client. -/
inductive MonMsg where
  /-- RPL_MONONLINE or RPL_MONOFFLINE -/
  | status (nick : Str) (online : Bool)
  /-- ERR_MONLISTFULL of the bouncer -/
  | full (nick : Str)
  /-- ERR_MONLISTFULL of the server, with its limit -/
  | refused (limit nick : Str)
  /-- RPL_MONLIST -/
  | listed (nick : Str)
  /-- RPL_ENDOFMONLIST -/
  | listEnd
deriving DecidableEq, Repr

/-- downstream.go:2665-2701 — what the client that sends `MONITOR +` is told by the bouncer; `l`: its list. -/
def monAddTell (monitored : GoMap Str Bool) (l : List Str) : List Str → List MonMsg
  | [] => []
  | n :: ns =>
    let r := monAdd l n
    (if r.2 = false then [.full n]
     else if n = serviceNickCM then [.status n true]
     else match GoMap.get monitored n with
       | some online => [.status n online]
       | none => []) ++ monAddTell monitored r.1 ns

/-- downstream.go:2706-2717 — `MONITOR L`, in some order. -/
def monListTell (l : List Str) : List MonMsg := l.map .listed ++ [.listEnd]

/-- downstream.go:2718-2734 — `MONITOR S`, in some order. -/
def monStatusTell (st : MonState) (l : List Str) : List MonMsg :=
  l.map (fun n => .status n (if n = serviceNickCM then true else (GoMap.get st.monitored n).getD false))

/-- upstream.go:1688-1698 — what a client with this list is told when the server reports on these nicks. -/
def monForward (l nicks : List Str) (online : Bool) : List MonMsg :=
  (nicks.filter (fun n => decide (n ∈ l))).map (fun n => .status n online)

/-- upstream.go:1699-1714 — what a client with this list is told when the server refuses these nicks. -/
def monRefuse (l : List Str) (limit : Str) (nicks : List Str) : List MonMsg :=
  (nicks.filter (fun n => decide (n ∈ l))).map (.refused limit)

end Verif.Model
