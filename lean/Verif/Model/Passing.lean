import Verif.Model.Casemap
import Verif.Model.GenMsg

/-! # Model of the messages of a server that the bouncer passes on

upstream.go:406-450, 923-929, 1027-1048, 1616-1652, 1714-1742, 1792-1817, 1845-1855: INVITE, the lines of the greeting, AWAY and
ACCOUNT, the lists of channels, and everything the bouncer knows nothing about.

Simplifications: a message comes with the client its label names, 0 if it has none (C18).  Tags and the source are left out
(C26, C113).  The nick and the channels are parameters of each message (C58, C75, C80).  The messages named in
`psElsewhere` are modelled in other modules (433: C69, C80).  Caches (C56) and the case mapping (C92) are left out. -/

namespace Verif.Model

structure PsClient where
  id : Nat
  /-- `invite-notify` is enabled -/
  inviteNotify : Bool
  heard : List Msg
deriving DecidableEq, Repr

structure PsState where
  registered : Bool
  gotMotd : Bool
  clients : List PsClient
deriving DecidableEq, Repr

/-- What else the bouncer knows when a message comes: case mapping, its nick, the channels it is in, and the saved channels
with their keys. -/
structure PsEnv where
  cm : CaseMapping
  nick : Str
  joined : List Str
  saved : List (Str × Str)
deriving DecidableEq, Repr

/-- What comes of a message: what is sent to the server and to push services, and whether the connection ends. -/
structure PsOut where
  server : List Msg
  push : List Msg
  fatal : Bool
deriving DecidableEq, Repr

def PsOut.none : PsOut := ⟨[], [], false⟩

/-- upstream.go:446-450 — `forwardMsgByID`. -/
def psForward (st : PsState) (id : Nat) (m : Msg) : PsState :=
  { st with clients := st.clients.map (fun c => if id ≠ 0 ∧ id ≠ c.id then c else { c with heard := c.heard ++ [m] }) }

/-- upstream.go:628-1840 — the messages with a case of their own that is modelled elsewhere. -/
def psElsewhere : List Str :=
  [b!"PING", b!"NOTICE", b!"PRIVMSG", b!"TAGMSG", b!"CAP", b!"AUTHENTICATE", b!"900", b!"901", b!"396", b!"902", b!"903", b!"904",
   b!"905", b!"906", b!"REGISTER", b!"VERIFY", b!"004", b!"005", b!"BATCH", b!"NICK", b!"SETNAME", b!"CHGHOST", b!"JOIN",
   b!"PART", b!"KICK", b!"QUIT", b!"332", b!"331", b!"TOPIC", b!"MODE", b!"221", b!"324", b!"329", b!"333", b!"321", b!"322",
   b!"323", b!"353", b!"366", b!"352", b!"354", b!"315", b!"276", b!"307", b!"311", b!"312", b!"319", b!"313", b!"317", b!"320",
   b!"330", b!"338", b!"378", b!"379", b!"671", b!"318", b!"730", b!"731", b!"734", b!"401", b!"402", b!"400", b!"421", b!"461",
   b!"263", b!"FAIL", b!"433"]

/-- upstream.go:1798-1804 — lines of the greeting: RPL_LUSERCLIENT, RPL_LUSEROP, RPL_LUSERUNKNOWN, RPL_LUSERCHANNELS,
RPL_LUSERME, RPL_STATSVLINE, RPL_STATSPING, RPL_STATSBLINE, RPL_STATSDLINE, RPL_LOCALUSERS, RPL_GLOBALUSERS, RPL_MOTDSTART,
RPL_MOTD; the numbers are those of RFC 2812 (section 5.1). -/
def psBurst : List Str :=
  [b!"251", b!"252", b!"253", b!"254", b!"255", b!"240", b!"246", b!"247", b!"250", b!"265", b!"266", b!"375", b!"372"]

/-- upstream.go:1616-1645 — INVITE. -/
def psInvite (env : PsEnv) (st : PsState) (m : Msg) : PsState × PsOut :=
  match m.params with
  | nick :: channel :: _ =>
    let us := casemap env.cm env.nick = casemap env.cm nick
    let joined := env.joined.any (fun c => casemap env.cm c = casemap env.cm channel)
    let saved := env.saved.find? (fun c => casemap env.cm c.1 = casemap env.cm channel)
    let pass : PsState × PsOut :=
      ({ st with clients := st.clients.map (fun c => if ¬us ∧ c.inviteNotify = false then c else { c with heard := c.heard ++ [m] }) },
       ⟨[], if us then [m] else [], false⟩)
    if us ∧ joined = false then
      match saved with
      | some c => (st, ⟨generateJoin [c], [], false⟩)
      | none => pass
    else pass
  | _ => (st, .none)

/-- upstream.go:582-1855 — `handleMessage`; `none` if the message is modelled elsewhere.  An error before registration
ends the connection (upstream.go:2056-2070), afterwards it is only logged (user.go:701-709); ERROR is an error as well. -/
def psHandle (env : PsEnv) (st : PsState) (id : Nat) (m : Msg) : Option (PsState × PsOut) :=
  let failed : PsState × PsOut := (st, ⟨[], [], !st.registered⟩)
  if m.command ∈ psElsewhere then none
  else if m.command = b!"001" then
    -- 923-929; the channels are joined (C07)
    if m.params = [] then some failed else some ({ st with registered := true }, .none)
  else if m.command = b!"422" ∨ m.command = b!"376" then
    if st.gotMotd = false then some ({ st with gotMotd := true }, .none) else some (psForward st id m, .none)
  else if m.command = b!"INVITE" then
    if m.params.length < 2 then some failed else some (psInvite env st m)
  else if m.command = b!"341" then
    if m.params.length < 3 then some failed else some (psForward st id m, .none)
  else if m.command = b!"AWAY" then some (psForward st 0 m, .none)
  else if m.command = b!"ACCOUNT" then
    if m.params = [] then some failed else some (psForward st 0 m, .none)
  -- 1792-1797
  else if m.command ∈ [b!"ACK", b!"306", b!"305", b!"002", b!"003"] then some (st, .none)
  else if m.command ∈ psBurst then
    if st.gotMotd = false then some (st, .none) else some (psForward st id m, .none)
  else if m.command = b!"ERROR" then some failed
  else if m.command ∈ [b!"464", b!"432", b!"436", b!"437", b!"463", b!"465"] then
    if st.registered = false then some failed else some (psForward st id m, .none)
  -- 1714-1715, 1741-1742, 1850-1853
  else some (psForward st id m, .none)

inductive PsOp where
  | login (id : Nat) (inviteNotify : Bool)
  | gone (id : Nat)
  | msg (env : PsEnv) (id : Nat) (m : Msg)
deriving DecidableEq, Repr

/-- One event; messages modelled elsewhere change nothing here. -/
def psStep (st : PsState) : PsOp → PsState × PsOut
  | .login id n => ({ st with clients := st.clients ++ [⟨id, n, []⟩] }, .none)
  | .gone id => ({ st with clients := st.clients.filter (fun c => c.id ≠ id) }, .none)
  | .msg env id m => (psHandle env st id m).getD (st, .none)

/-- A history, from a new connection. -/
def psRun (clients : List PsClient) (ops : List PsOp) : PsState :=
  ops.foldl (fun st op => (psStep st op).1) ⟨false, false, clients⟩

end Verif.Model
