import Verif.Model.MsgDb
import Verif.Model.Caps
import Verif.Model.ReadMarker

/-! # Model of the history commands: CHATHISTORY and SEARCH

downstream.go:2736-2878 and 2987-3071.  `time.Parse(ServerTimeLayout, …)` and the clock are parameters.  The
messages of a reply are those handed to `SendMessage`, whose filter is modelled elsewhere (Model/Filter). -/

namespace Verif.Model

/-- server.go:43 -/
def chatHistoryLimit : Int := 1000

/-- What the handlers read from the connection: the identifier and the case mapping of its network (if it is bound
to one), its own case mapping, whether the message store can load history, whether `draft/event-playback` is
enabled, the current time, and the parser of times. -/
structure HistEnv where
  network : Option (Nat × CaseMapping)
  cm : CaseMapping
  hasStore : Bool
  events : Bool
  now : Int
  parseTime : Str → Option Int

/-- A call of the message store: `LoadBeforeTime`, `LoadAfterTime` or `ListTargets`. -/
inductive HistQuery where
  | before (net : Nat) (entity : Str) (start stop : Int) (limit : Nat) (events : Bool)
  | after (net : Nat) (entity : Str) (start stop : Int) (limit : Nat) (events : Bool)
  | targets (net : Nat) (start stop : Int) (limit : Nat) (events : Bool)
deriving DecidableEq, Repr

/-- How a command ends: with an error, with an empty batch, or with a call of the store. -/
inductive HistReply where
  | needMoreParams
  | invalid (what : Str)
  | disabled
  | noNetwork
  | emptyBatch
  | query (q : HistQuery)
deriving DecidableEq, Repr

/-- irc.go:286-301 — `parseChatHistoryBound`; 0 is the zero time. -/
def parseChatHistoryBound (parse : Str → Option Int) (param : Str) : Int :=
  match cutStr b!"=" param with
  | none => 0
  | some (k, v) => if k = b!"timestamp" then (parse v).getD 0 else 0

/-- downstream.go:2829-2845 — the choice of the store's function. -/
def histQuery (env : HistEnv) (sub : Str) (net : Nat) (entity : Str) (t0 t1 : Int) (limit : Nat) : HistQuery :=
  if sub = b!"BEFORE" then .before net entity t0 0 limit env.events
  else if sub = b!"LATEST" then .before net entity env.now t0 limit env.events
  else if sub = b!"AFTER" then .after net entity t0 env.now limit env.events
  else if sub = b!"BETWEEN" then
    if t0 < t1 then .after net entity t0 t1 limit env.events else .before net entity t0 t1 limit env.events
  else .targets net t0 t1 limit env.events

/-- downstream.go:2767-2846 — the part of CHATHISTORY after the parameters have been taken apart. -/
def histRun (env : HistEnv) (sub target b0 b1 limitStr : Str) : HistReply :=
  if casemap env.cm target = serviceNickCM then .emptyBatch
  else if env.hasStore = false then .disabled
  else match env.network with
    | none => .noNetwork
    | some (net, cm) =>
      let t0 := if sub = b!"LATEST" ∧ b0 = b!"*" then 0 else parseChatHistoryBound env.parseTime b0
      if ¬ (sub = b!"LATEST" ∧ b0 = b!"*") ∧ t0 = 0 then .invalid b0
      else
        let t1 := if b1 ≠ [] then parseChatHistoryBound env.parseTime b1 else 0
        if b1 ≠ [] ∧ t1 = 0 then .invalid b1
        else if (atoi limitStr).2 = false ∨ (atoi limitStr).1 < 0 ∨ (atoi limitStr).1 > chatHistoryLimit then
          .invalid limitStr
        else .query (histQuery env sub net (casemap cm target) t0 t1 (atoi limitStr).1.toNat)

/-- downstream.go:2736-2766 — the parameters of CHATHISTORY. -/
def chatHistory (env : HistEnv) (params : List Str) : HistReply :=
  match params with
  | [] => .needMoreParams
  | sub :: args =>
    if sub = b!"AFTER" ∨ sub = b!"BEFORE" ∨ sub = b!"LATEST" then
      match args with
      | target :: b0 :: limit :: _ => histRun env sub target b0 [] limit
      | _ => .needMoreParams
    else if sub = b!"BETWEEN" then
      match args with
      | target :: b0 :: b1 :: limit :: _ => histRun env sub target b0 b1 limit
      | _ => .needMoreParams
    else if sub = b!"TARGETS" then
      if env.network = none then .emptyBatch
      else match args with
        | b0 :: b1 :: limit :: _ => histRun env sub [] b0 b1 limit
        | _ => .needMoreParams
    else .invalid sub

/-- downstream.go:2872-2877 with the database store (msgstore/db.go:123-148): the messages of the batch. -/
def histMessages (fts : Str → Option Str → Bool) (ord : Bool → List MsgRow → List MsgRow) (db : MsgDb) :
    HistQuery → List Str
  | .before net entity start stop limit events => listMessages fts ord db net entity (dbLoadBefore start stop limit events)
  | .after net entity start stop limit events => listMessages fts ord db net entity (dbLoadAfter start stop limit events)
  | .targets .. => []

/-- downstream.go:2855-2867 with the database store (msgstore/db.go:91-121): the conversations of the batch and
their times; `detached name` says whether there is a detached channel of this name. -/
def histTargets (ord : Bool → List MsgRow → List MsgRow)
    (ordT : Bool → List (Str × Option Str) → List (Str × Option Str)) (db : MsgDb) (detached : Str → Bool) :
    HistQuery → List (Str × Option Int)
  | .targets net start stop limit events =>
    ((listLastPerTarget ord ordT db net (dbListTargets start stop limit events)).map
      (fun p => (p.1, sqliteScan p.2))).filter (fun p => !detached p.1)
  | _ => []

/-- msgstore `SearchMessageOptions` and the network found so far. -/
structure SearchOpts where
  network : Option Nat := none
  start : Int := 0
  stop : Int := 0
  sender : Str := []
  conv : Str := []
  text : Str := []
  limit : Int := 100
deriving DecidableEq, Repr

/-- How SEARCH ends. -/
inductive SearchReply where
  | unknownCommand
  | invalid (name : Str)
  | query (net : Nat) (conv : Str) (o : MsgOptions)
deriving DecidableEq, Repr

/-- downstream.go:3006-3047 — one attribute; `Sum.inl` is an error. -/
def searchAttr (env : HistEnv) (o : SearchOpts) (a : Str × Str) : Str ⊕ SearchOpts :=
  if a.1 = b!"before" ∨ a.1 = b!"after" then
    match env.parseTime a.2 with
    | none => .inl a.1
    | some t => .inr (if a.1 = b!"after" then { o with start := t } else { o with stop := t })
  else if a.1 = b!"from" then .inr { o with sender := a.2 }
  else if a.1 = b!"in" then
    match env.network with
    | none => .inl a.1
    | some (net, cm) => .inr { o with network := some net, conv := casemap cm a.2 }
  else if a.1 = b!"text" then .inr { o with text := a.2 }
  else if a.1 = b!"limit" then
    if (atoi a.2).2 = false ∨ (atoi a.2).1 ≤ 0 then .inl a.1 else .inr { o with limit := (atoi a.2).1 }
  else .inr o

/-- downstream.go:3006-3047 — the loop over the attributes, in the order the map gives. -/
def searchAttrs (env : HistEnv) : SearchOpts → List (Str × Str) → Str ⊕ SearchOpts
  | o, [] => .inr o
  | o, a :: l => match searchAttr env o a with
    | .inl e => .inl e
    | .inr o => searchAttrs env o l

/-- downstream.go:2987-3071 — SEARCH; `attrs` is the map of attributes in the order of its iteration. -/
def search (env : HistEnv) (attrs : List (Str × Str)) : SearchReply :=
  if env.hasStore = false then .unknownCommand
  else match searchAttrs env {} attrs with
    | .inl e => .invalid e
    | .inr o => match o.network with
      | none => .invalid b!"in"
      | some net =>
        .query net o.conv (dbSearch o.start o.stop (if o.limit > 100 then 100 else o.limit).toNat o.sender o.text)

end Verif.Model
