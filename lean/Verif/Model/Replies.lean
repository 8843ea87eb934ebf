import Verif.Model.Casemap
import Verif.Model.PendingCmds

/-! # Model of the replies to queued commands

upstream.go:406-450, 500-566, 908-922, 1459-1476, 1524-1615, 1714-1715, 1741-1791, 1850-1852: LIST, WHO, WHOIS, REGISTER
and VERIFY of the clients of one network, and what the server says in return, on one connection.

Simplifications: a message of the server comes with the client its label names, 0 if it has none (C18).  Tags are left
out.  Only the clients of the network are there.  Replies are also used for the cache (C56) and for credentials (C51).
Messages of the server that have a case of their own elsewhere are not considered; every other one is forwarded.  For AUTHENTICATE see
C116. -/

namespace Verif.Model

structure QrState where
  pending : PendingCmds
  /-- the connected clients, and what each was sent -/
  clients : List (Nat × List Msg)
deriving DecidableEq, Repr

/-- upstream.go:415-422, 534-541 — `downstreamByID`, for the client of a pending command. -/
def qrConnected (st : QrState) (c : Nat) : Bool := st.clients.any (fun p => p.1 = c)

/-- Send a message to the clients with this number. -/
def qrSend (st : QrState) (c : Nat) (m : Msg) : QrState :=
  { st with clients := st.clients.map (fun p => if p.1 = c then (p.1, p.2 ++ [m]) else p) }

/-- upstream.go:406-413, 446-450 — `forwardMsgByID`. -/
def qrForward (st : QrState) (id : Nat) (m : Msg) : QrState :=
  { st with clients := st.clients.map (fun p => if id ≠ 0 ∧ id ≠ p.1 then p else (p.1, p.2 ++ [m])) }

/-- upstream.go:1459-1467, 1598-1606 — a line of a reply. -/
def qrLine (st : QrState) (kind : Str) (m : Msg) : QrState :=
  match pendingOf st.pending kind with
  | [] => st
  | c :: _ => qrSend st c.downstreamID m

/-- upstream.go:1468-1476, 1587-1597, 1607-1615 — the end of a reply. -/
def qrEnd (st : QrState) (kind : Str) (m : Msg) (now : Nat) : QrState × List Sent :=
  let r := dequeueCommand st.pending kind now
  let st := { st with pending := r.1 }
  match r.2.1 with
  | none => (st, r.2.2)
  | some c => (qrSend st c.downstreamID m, r.2.2)

/-- upstream.go:908-922 — the end of REGISTER or VERIFY. -/
def qrRegistered (st : QrState) (m : Msg) (now : Nat) : QrState × List Sent :=
  let r := dequeueCommand st.pending m.command now
  let st := { st with pending := r.1 }
  match r.2.1 with
  | none => (st, r.2.2)
  | some c =>
    if m.command = b!"REGISTER" ∧ (m.params.length < 2 ∨ c.msg.params.length < 3) then (st, r.2.2)
    else (qrSend st c.downstreamID m, r.2.2)

/-- upstream.go:1743-1760 — ERR_NOSUCHNICK and ERR_NOSUCHSERVER. -/
def qrNoSuchNick (cm : CaseMapping) (st : QrState) (id : Nat) (m : Msg) (now : Nat) : QrState × List Sent :=
  if m.params.length < 3 then (st, [])
  else
    match pendingOf st.pending b!"WHOIS" with
    | [] => (qrForward st id m, [])
    | c :: _ =>
      if casemap cm (c.msg.params.getLast?.getD []) = casemap cm (m.params.tail.headD []) then
        let r := dequeueCommand st.pending b!"WHOIS" now
        (qrSend { st with pending := r.1 } c.downstreamID m, r.2.2)
      else (qrForward st id m, [])

/-- upstream.go:1769-1775, 1787-1791 — a command is refused. -/
def qrRefused (st : QrState) (id : Nat) (command : Str) (m : Msg) (now : Nat) : QrState × List Sent :=
  let r := dequeueCommand st.pending command now
  let st := { st with pending := r.1 }
  let id := match r.2.1 with
    | some c => if qrConnected st c.downstreamID ∧ id = 0 then c.downstreamID else id
    | none => id
  (qrForward st id m, r.2.2)

/-- upstream.go:1598 — the lines of the reply to WHOIS. -/
def qrWhoisLines : List Str :=
  [b!"276", b!"307", b!"311", b!"312", b!"319", b!"313", b!"317", b!"320", b!"330", b!"338", b!"378", b!"379", b!"671"]

/-- upstream.go:624-1855 — `handleMessage`. -/
def qrHandle (cm : CaseMapping) (st : QrState) (id : Nat) (m : Msg) (now : Nat) : QrState × List Sent :=
  if m.command = b!"321" ∨ m.command = b!"322" then (qrLine st b!"LIST" m, [])
  else if m.command = b!"323" then qrEnd st b!"LIST" m now
  else if m.command = b!"352" then
    -- 1525-1543: the real name follows a space
    if m.params.length < 8 ∨ (m.params.getD 7 []).contains 32 = false then (st, []) else (qrLine st b!"WHO" m, [])
  else if m.command = b!"354" then (qrLine st b!"WHO" m, [])
  else if m.command = b!"315" then qrEnd st b!"WHO" m now
  else if m.command ∈ qrWhoisLines then (qrLine st b!"WHOIS" m, [])
  else if m.command = b!"318" then qrEnd st b!"WHOIS" m now
  else if m.command = b!"REGISTER" ∨ m.command = b!"VERIFY" then qrRegistered st m now
  else if m.command = b!"401" ∨ m.command = b!"402" then qrNoSuchNick cm st id m now
  else if m.command = b!"400" ∨ m.command = b!"421" ∨ m.command = b!"461" ∨ m.command = b!"263" then
    if m.params.length < 3 then (st, []) else qrRefused st id (m.params.tail.headD []) m now
  else if m.command = b!"FAIL" then
    if m.params.length < 2 then (st, []) else qrRefused st id (m.params.headD []) m now
  else (qrForward st id m, [])

inductive QrOp where
  /-- a client logs in (server.go:478: numbers begin with 1) -/
  | login (c : Nat)
  /-- its connection ends -/
  | gone (c : Nat)
  /-- a client asks for something -/
  | query (c : Nat) (m : Msg) (now : Nat)
  /-- the server says something -/
  | says (id : Nat) (m : Msg) (now : Nat)
deriving DecidableEq, Repr

/-- One event, and what is sent to the server. -/
def qrStep (cm : CaseMapping) (st : QrState) : QrOp → QrState × List Sent
  | .login c => ({ st with clients := st.clients ++ [(c, [])] }, [])
  -- user.go:778-797
  | .gone c => (⟨cancelPending st.pending c, st.clients.filter (fun p => p.1 ≠ c)⟩, [])
  -- upstream.go:510-532; the command can be queued (C117)
  | .query c m now =>
    match enqueueCommand st.pending c m now with
    | none => (st, [])
    | some r => ({ st with pending := r.1 }, r.2)
  | .says id m now => qrHandle cm st id m now

end Verif.Model
