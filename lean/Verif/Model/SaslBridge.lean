import Verif.Model.Creds
import Verif.Model.GenMsg
import Verif.Model.Register
import Verif.Model.UpReg

/-! # Model of logging in to a network through the bouncer (downstream.go:930-1052, 2528-2593,
upstream.go:452-566, 782-825, 877-925, 1757-1791)

The connection to one network, and the registered clients of that network, as far as SASL is concerned.  What is
saved of the credentials is in `Model/Creds`, the login of the bouncer itself while it registers with the server
in `Model/UpReg`. -/

namespace Verif.Model

/-- downstream.go:300-312 — `downstreamSASL`: the mechanism, the response so far, and the credentials once the
SASL server has taken them. -/
structure SbExchange where
  mech : Str
  pending : Str
  got : Option (Str × Str)
deriving DecidableEq, Repr

/-- A client: is its capability `sasl` enabled, and `dc.sasl`. -/
structure SbClient where
  cap : Bool
  sasl : Option SbExchange
deriving DecidableEq, Repr

/-- The connection and the clients. -/
structure SbState where
  /-- there is a connection, and its capability `sasl` is enabled -/
  ready : Bool
  /-- `uc.saslClient` -/
  client : Option SaslClient
  /-- `uc.saslStarted` -/
  started : Bool
  /-- `uc.pendingCmds["AUTHENTICATE"]`, the clients -/
  queue : List Nat
  clients : Nat → Option SbClient

/-- What happens. -/
inductive SbOp where
  | connect (c : Nat)
  | disconnect (c : Nat)
  /-- a client enables or disables `sasl`, or it is withdrawn -/
  | cap (c : Nat) (on : Bool)
  /-- AUTHENTICATE by a client -/
  | auth (c : Nat) (params : List Str)
  /-- a message of the server other than CAP, with the client its label names, if there is one -/
  | server (m : Msg) (label : Option Nat)
  /-- the server acknowledges `sasl`; the login of the bouncer by its settings, if there is one -/
  | granted (own : Option SaslClient)
  /-- the server refuses or withdraws `sasl` -/
  | withdrawn
  /-- the connection is lost -/
  | lost
  /-- there is a new connection, registered; does it have `sasl`? -/
  | made (sasl : Bool)
deriving DecidableEq, Repr

/-- What is sent: to the server, and to clients.  Of the replies the bouncer makes itself the nick and the text are
left out. -/
structure SbOut where
  server : List Msg
  clients : List (Nat × Msg)
deriving DecidableEq, Repr

/-- Nothing is sent (no code: the empty output). -/
def SbOut.none : SbOut := ⟨[], []⟩

/-- Set `dc.sasl` of a client that is there (downstream.go:933, 985, 1042: the assignments). -/
def SbState.setSasl (st : SbState) (c : Nat) (v : Option SbExchange) : SbState :=
  { st with clients := fun d => if d = c then (st.clients c).map (fun cl => { cl with sasl := v }) else st.clients d }

/-- user.go:754-779, upstream.go:556-566 — a client leaves: of its pending commands the one that was sent stays. -/
def SbState.leave (st : SbState) (c : Nat) : SbState :=
  { st with
    clients := fun d => if d = c then Option.none else st.clients d
    queue := st.queue.take 1 ++ (st.queue.drop 1).filter (fun d => decide (d ≠ c)) }

/-- A reply of the bouncer to a client. -/
def SbOut.tell (c : Nat) (m : Msg) : SbOut := ⟨[], [(c, m)]⟩

/-- upstream.go:510-532, 501-508 — `enqueueCommand` for `AUTHENTICATE PLAIN`; that a command is given up after 30
seconds is left out (the queue is empty then: `C116_alone`). -/
def sbEnqueue (st : SbState) (c : Nat) : SbState × List Msg :=
  ({ st with queue := st.queue ++ [c] },
   if st.queue = [] then [⟨b!"AUTHENTICATE", [b!"PLAIN"]⟩] else [])

/-- downstream.go:2539-2593 — the end of AUTHENTICATE by a client, with the credentials of the exchange `ex`.
Clearing the saved credentials (2571-2589) is in `Model/Creds`. -/
def sbFinish (st : SbState) (c : Nat) (ex : SbExchange) (cr : Creds) : SbState × SbOut :=
  if st.client.isSome then (st.setSasl c none, .tell c ⟨b!"904", []⟩)
  else match cr with
    | .plain identity user password =>
      let st := st.setSasl c (some { ex with pending := [], got := some (user, password) })
      if identity ≠ [] ∧ identity ≠ user then (st, .tell c ⟨b!"904", []⟩)
      else
        let r := sbEnqueue st c
        ({ r.1 with client := some (.plain user password) }, ⟨r.2, []⟩)
    | .anonymous => (st.setSasl c none, .tell c ⟨b!"903", []⟩)
    | .oauth _ _ => (st.setSasl c none, .tell c ⟨b!"904", []⟩)

/-- downstream.go:2528-2593, 930-1035 — AUTHENTICATE by a registered client; `oauth` is the parser of go-sasl.  A
failing SASL server closes the connection (user.go:814-817). -/
def sbAuth (oauth : Str → Option (Str × Str)) (st : SbState) (c : Nat) (cl : SbClient) (params : List Str) :
    SbState × SbOut :=
  if st.ready = false then (st, .tell c ⟨b!"904", []⟩)
  else if cl.cap = false then (st.setSasl c none, .tell c ⟨b!"904", []⟩)
  else match params with
  | [] => (st.setSasl c none, .tell c ⟨b!"904", []⟩)
  | p :: _ =>
    if p = b!"*" then (st.setSasl c none, .tell c ⟨b!"906", []⟩)
    else match cl.sasl with
    | none =>
      let mech := asciiUpper p
      if mech = b!"PLAIN" ∨ mech = b!"OAUTHBEARER" ∨ mech = b!"ANONYMOUS" then
        (st.setSasl c (some ⟨mech, [], none⟩), .tell c ⟨b!"AUTHENTICATE", [b!"+"]⟩)
      else (st.setSasl c none, .tell c ⟨b!"904", []⟩)
    | some ex =>
      match saslReceive ex.pending p with
      | (pending, .wait) => (st.setSasl c (some { ex with pending := pending }), .none)
      | (_, .tooLong) => (st.setSasl c none, .tell c ⟨b!"904", []⟩)
      | (_, .badBase64) => (st.setSasl c none, .tell c ⟨b!"904", []⟩)
      | (_, .response resp) =>
        -- go-sasl refuses a second response
        if ex.got.isSome then (st.leave c, .none)
        else
          match (if ex.mech = b!"PLAIN" then plainParse resp
            else if ex.mech = b!"OAUTHBEARER" then (oauth resp).map (fun q => .oauth q.1 q.2)
            else some .anonymous) with
          | none => (st.leave c, .none)
          | some cr => sbFinish st c ex cr

/-- upstream.go:782-825 — AUTHENTICATE by the server. -/
def sbChallenge (st : SbState) (params : List Str) : SbState × SbOut :=
  match st.client with
  | none => (st, .none)
  | some cl =>
    match params with
    | [] => (st, ⟨[saslAbort], []⟩)
    | ch :: _ =>
      if ch ≠ b!"+" ∧ (Base64.decode .std ch).isNone = true then (st, ⟨[saslAbort], []⟩)
      else if st.started then (st, ⟨[saslAbort], []⟩)
      else ({ st with started := true }, ⟨generateSASL cl.start, []⟩)

/-- upstream.go:534-554 — `dequeueCommand`: the client that was first, if it is still there, and what is sent for
the next one. -/
def sbDequeue (st : SbState) : SbState × Option Nat × List Msg :=
  ({ st with queue := st.queue.drop 1 },
   match st.queue with
    | [] => none
    | c :: _ => if (st.clients c).isSome then some c else none,
   if st.queue.drop 1 = [] then [] else [⟨b!"AUTHENTICATE", [b!"PLAIN"]⟩])

/-- upstream.go:877-908, downstream.go:1037-1052 — the server ends the exchange. -/
def sbEnded (st : SbState) (num : Str) (params : List Str) : SbState × SbOut :=
  if params.length < 2 then (st, .none)
  else
    let r := sbDequeue { st with client := none, started := false }
    match r.2.1 with
    | none => (r.1, ⟨r.2.2, []⟩)
    | some c =>
      match (st.clients c).bind (·.sasl) with
      | none => (r.1, ⟨r.2.2, []⟩)
      | some _ => (r.1.setSasl c none, ⟨r.2.2, [(c, ⟨num, params⟩)]⟩)

/-- upstream.go:1757-1776 — the server refuses AUTHENTICATE with a numeric; without label and without the client
that asked it is sent to all the clients (upstream.go:430-450), which is left out. -/
def sbRefused (st : SbState) (num : Str) (params : List Str) (label : Option Nat) : SbState × SbOut :=
  if params.length < 3 then (st, .none)
  else
    let r := sbDequeue st
    let dest := match label with
      | some d => some d
      | none => r.2.1
    ({ r.1 with client := none, started := false }, ⟨r.2.2, (dest.map (fun c => (c, ⟨num, params⟩))).toList⟩)

/-- upstream.go:1777-1791 — the server refuses AUTHENTICATE with FAIL. -/
def sbFail (st : SbState) (params : List Str) (label : Option Nat) : SbState × SbOut :=
  if params.length < 2 then (st, .none)
  else
    let r := sbDequeue st
    let dest := match label with
      | some d => some d
      | none => r.2.1
    (r.1, ⟨r.2.2, (dest.map (fun c => (c, ⟨b!"FAIL", params⟩))).toList⟩)

/-- upstream.go:583-1855 — `handleMessage`, as far as it concerns SASL. -/
def sbServer (st : SbState) (m : Msg) (label : Option Nat) : SbState × SbOut :=
  if m.command = b!"AUTHENTICATE" then sbChallenge st m.params
  else if m.command ∈ saslEndNumerics then sbEnded st m.command m.params
  else if m.command = b!"400" ∨ m.command = b!"421" ∨ m.command = b!"461" ∨ m.command = b!"263" then
    if m.params[1]? = some b!"AUTHENTICATE" then sbRefused st m.command m.params label else (st, .none)
  else if m.command = b!"FAIL" then
    if m.params[0]? = some b!"AUTHENTICATE" then sbFail st m.params label else (st, .none)
  else (st, .none)

/-- upstream.go:452-499 — `abortPendingCommands`: the clients that wait are told, and their exchanges end. -/
def sbAbort (st : SbState) : SbState × SbOut :=
  (st.queue.foldl (fun s c => s.setSasl c none) { st with ready := false, client := none, started := false, queue := [] },
   ⟨[], (st.queue.filter (fun c => ((st.clients c).bind (·.sasl)).isSome)).map (fun c => (c, ⟨b!"906", []⟩))⟩)

/-- One event.  `granted` is upstream.go:1973-2003 (`handleCapAck`), `withdrawn` upstream.go:741-777; a new connection
(`made`) has no exchange open. -/
def sbStep (oauth : Str → Option (Str × Str)) (st : SbState) : SbOp → SbState × SbOut
  | .connect c => ({ st with clients := fun d => if d = c then some ⟨false, none⟩ else st.clients d }, .none)
  | .disconnect c => (st.leave c, .none)
  | .cap c on => ({ st with clients := fun d => if d = c then (st.clients c).map (fun cl => { cl with cap := on }) else st.clients d }, .none)
  | .auth c params => match st.clients c with
    | none => (st, .none)
    | some cl => sbAuth oauth st c cl params
  | .server m label => sbServer st m label
  | .granted own => match own with
    | none => ({ st with ready := true }, .none)
    | some cl => ({ st with ready := true, client := some cl },
        ⟨[⟨b!"AUTHENTICATE", [match cl with | .plain _ _ => b!"PLAIN" | .external => b!"EXTERNAL"]⟩], []⟩)
  | .withdrawn => ({ st with ready := false }, .none)
  | .lost => sbAbort st
  | .made sasl => ({ st with ready := sasl, client := none, started := false, queue := [] }, .none)

/-- No connection and no clients. -/
def sbInit : SbState := ⟨false, none, false, [], fun _ => none⟩

/-- A history. -/
def sbRun (oauth : Str → Option (Str × Str)) (ops : List SbOp) : SbState :=
  ops.foldl (fun st op => (sbStep oauth st op).1) sbInit

end Verif.Model
