import Verif.Model.GoMap
import Verif.Model.GoNum
import Verif.Model.Whox

/-! # Model of downstream capability negotiation

xirc/caps.go, downstream.go:220-256 (tables), 380-400, 795-928 (`handleCap`), 1054-1135
(`setSupportedCap`, `unsetSupportedCap`, `updateSupportedCaps`). -/

namespace Verif.Model

/-- xirc/caps.go:3-6 — `CapRegistry`; `Enabled`, a `map[string]struct{}`, as a list of names without
regard to order or repetition. -/
structure CapReg where
  available : GoMap Str Str
  enabled : List Str
deriving DecidableEq, Repr

/-- xirc/caps.go:15-18 -/
def CapReg.isAvailable (cr : CapReg) (name : Str) : Bool := (GoMap.get cr.available name).isSome

/-- xirc/caps.go:20-23 -/
def CapReg.isEnabled (cr : CapReg) (name : Str) : Bool := decide (name ∈ cr.enabled)

/-- xirc/caps.go:25-28 -/
def CapReg.del (cr : CapReg) (name : Str) : CapReg :=
  ⟨GoMap.del cr.available name, cr.enabled.filter (fun n => decide (n ≠ name))⟩

/-- xirc/caps.go:30-36 -/
def CapReg.setEnabled (cr : CapReg) (name : Str) (enabled : Bool) : CapReg :=
  if enabled then
    { cr with enabled := if name ∈ cr.enabled then cr.enabled else name :: cr.enabled }
  else { cr with enabled := cr.enabled.filter (fun n => decide (n ≠ name)) }

/-- downstream.go:220-241 — `permanentDownstreamCaps` (every value is empty). -/
def permanentDownstreamCaps : List Str :=
  [b!"batch", b!"cap-notify", b!"echo-message", b!"invite-notify", b!"server-time", b!"setname",
   b!"draft/pre-away", b!"draft/read-marker", b!"draft/no-implicit-names",
   b!"soju.im/account-required", b!"soju.im/bouncer-networks", b!"soju.im/bouncer-networks-notify",
   b!"soju.im/no-implicit-names", b!"soju.im/read", b!"soju.im/webpush"]

/-- downstream.go:243-256 — `needAllDownstreamCaps` (every value is empty). -/
def needAllDownstreamCaps : List Str :=
  [b!"account-notify", b!"account-tag", b!"away-notify", b!"chghost", b!"extended-join",
   b!"extended-monitor", b!"message-tags", b!"multi-prefix", b!"draft/extended-monitor"]

/-- The fields of `downstreamConn` that negotiation uses: `caps`, `capVersion`, `registered` and
`registration.negotiatingCaps`. -/
structure DCaps where
  reg : CapReg
  version : Int
  registered : Bool
  negotiating : Bool
deriving DecidableEq, Repr

/-- What the bouncer sends back: the sub-command of CAP and its last parameter, before joining words with
spaces (`ACK`/`NAK` echo the parameter of the client). -/
inductive CapReply
  | ls (caps : List (Str × Option Str))
  | list (caps : List Str)
  | ack (arg : Str)
  | nak (arg : Str)
  | new (name : Str) (value : Option Str)
  | delete (name : Str)
  | invalid
  | failed
deriving DecidableEq, Repr

/-- `strings.Fields` (simplification: the ASCII white space only). -/
def isSpaceByte (c : Byte) : Bool := decide (c = 32 ∨ (9 ≤ c ∧ c ≤ 13))

/-- `strings.Fields`: the loop, with the current word. -/
def fieldsAux (cur : Str) : Str → List Str
  | [] => if cur = [] then [] else [cur]
  | c :: s =>
    if isSpaceByte c then (if cur = [] then fieldsAux [] s else cur :: fieldsAux [] s)
    else fieldsAux (cur ++ [c]) s

/-- `strings.Fields`. -/
def fields (s : Str) : List Str := fieldsAux [] s

/-- The two results of `strconv.Atoi`: the value, and whether there was no error.  A syntax error gives
0, a number out of range the nearest one in range. -/
def atoi (s : Str) : Int × Bool :=
  match parseInt64 s with
  | some n => (n, true)
  | none =>
    let (neg, ds) := match s with
      | 45 :: r => (true, r)
      | 43 :: r => (false, r)
      | r => (false, r)
    if ds ≠ [] ∧ ds.all isDigit = true then (if neg then -(2 ^ 63) else 2 ^ 63 - 1, false)
    else (0, false)

/-- downstream.go:388-399 — the capabilities of a new connection; `sasl` is the value of that capability,
`history` says whether the message store driver is "fs" or "db". -/
def newDCaps (sasl : Str) (history : Bool) : DCaps :=
  { reg := ⟨permanentDownstreamCaps.map (fun c => (c, [])) ++ [(b!"sasl", sasl)] ++
      (if history then [(b!"draft/chathistory", []), (b!"soju.im/search", [])] else []), []⟩
    version := 0, registered := false, negotiating := false }

/-- downstream.go:803-842 — CAP LS. -/
def capLS (st : DCaps) (args : List Str) : DCaps × List CapReply :=
  let (st, ok) := match args with
    | [] => (st, true)
    | a :: _ => ({ st with version := (atoi a).1 }, (atoi a).2)
  if ok = false then (st, [.failed])
  else
    let st := if st.registered = false ∧ st.version ≥ 302 then
        { st with reg := { st.reg with available :=
            needAllDownstreamCaps.foldl (fun m k => GoMap.set m k []) st.reg.available } }
      else st
    let out := st.reg.available.map (fun p =>
      (p.1, if st.version ≥ 302 ∧ p.2 ≠ [] then some p.2 else none))
    let st := if st.version ≥ 302 then { st with reg := st.reg.setEnabled b!"cap-notify" true } else st
    let st := if st.registered = false then { st with negotiating := true } else st
    (st, [.ls out])

/-- downstream.go:865-871 — one word of CAP REQ: the lower-case name and whether it is to be enabled. -/
def capToken (w : Str) : Str × Bool :=
  let name := asciiLower w
  if hasPrefix b!"-" name then (trimPrefix b!"-" name, false) else (name, true)

/-- downstream.go:864-895 — the loop over the words of CAP REQ; `none` means it stopped with
`ack = false`, otherwise the map `m`. -/
def capReqLoop (st : DCaps) : List Str → GoMap Str Bool → Option (GoMap Str Bool)
  | [], m => some m
  | w :: ws, m =>
    let (name, enable) := capToken w
    if enable = st.reg.isEnabled name then capReqLoop st ws m
    else if st.reg.isAvailable name = false then none
    else if name = b!"cap-notify" ∧ st.version ≥ 302 ∧ enable = false then none
    else if name = b!"soju.im/account-required" then none
    else capReqLoop st ws (GoMap.set m name enable)

/-- downstream.go:854-916 — CAP REQ. -/
def capREQ (st : DCaps) (args : List Str) : DCaps × List CapReply :=
  match args with
  | [] => (st, [.invalid])
  | a :: _ =>
    let (st, reply) := match capReqLoop st (fields a) [] with
      | none => (st, CapReply.nak a)
      | some m =>
        ({ st with reg := m.foldl (fun (r : CapReg) (p : Str × Bool) => r.setEnabled p.1 p.2) st.reg }, CapReply.ack a)
    (if st.registered = false then { st with negotiating := true } else st, [reply])

/-- downstream.go:795-928 — `handleCap` with at least one parameter. -/
def handleCap (st : DCaps) (cmd : Str) (args : List Str) : DCaps × List CapReply :=
  let cmd := asciiUpper cmd
  if cmd = b!"LS" then capLS st args
  else if cmd = b!"LIST" then (st, [.list st.reg.enabled])
  else if cmd = b!"REQ" then capREQ st args
  else if cmd = b!"END" then
    (if st.registered = false then { st with negotiating := false } else st, [])
  else (st, [.invalid])

/-- downstream.go:1054-1073 — `setSupportedCap`. -/
def setSupportedCap (st : DCaps) (name value : Str) : DCaps × List CapReply :=
  let changed := decide (GoMap.get st.reg.available name ≠ some value)
  let st := { st with reg := { st.reg with available := GoMap.set st.reg.available name value } }
  if st.reg.isEnabled b!"cap-notify" = false ∨ changed = false then (st, [])
  else (st, [.new name (if value ≠ [] ∧ st.version ≥ 302 then some value else none)])

/-- downstream.go:1075-1088 — `unsetSupportedCap`. -/
def unsetSupportedCap (st : DCaps) (name : Str) : DCaps × List CapReply :=
  let hasPrev := st.reg.isAvailable name
  let st := { st with reg := st.reg.del name }
  if st.reg.isEnabled b!"cap-notify" = false ∨ hasPrev = false then (st, [])
  else (st, [.delete name])

/-- What `updateSupportedCaps` reads of an upstream connection: its enabled capabilities, the value of
draft/account-registration, and `supportsSASL("PLAIN")` (upstream.go:1949-1966). -/
structure UpCapState where
  enabled : List Str
  registration : Str
  saslPlain : Bool
deriving DecidableEq, Repr

/-- The surroundings of `updateSupportedCaps`: the upstream connections of this client, its own upstream
connection (`dc.upstream()`), whether it is bound to a network, and whether the message store is a
`ChatHistoryStore`. -/
structure CapEnv where
  ups : List UpCapState
  up : Option UpCapState
  bound : Bool
  history : Bool
deriving DecidableEq, Repr

/-- Run two steps, concatenating what they send. -/
def capSeq (r : DCaps × List CapReply) (f : DCaps → DCaps × List CapReply) : DCaps × List CapReply :=
  ((f r.1).1, r.2 ++ (f r.1).2)

/-- downstream.go:1102-1108 — the loop body over `supportedCaps`. -/
def updateNeedAll (env : CapEnv) (st : DCaps) (cap : Str) : DCaps × List CapReply :=
  if env.ups.all (fun uc => decide (cap ∈ uc.enabled)) then setSupportedCap st cap []
  else unsetSupportedCap st cap

/-- downstream.go:1119-1126 — drop the first "before-connect". -/
def stripBeforeConnect (v : Str) : Str :=
  joinStr b!"," ((splitByte 44 v).erase b!"before-connect")

/-- downstream.go:1110-1114 — the "sasl" capability. -/
def updateSasl (env : CapEnv) (st : DCaps) : DCaps × List CapReply :=
  match env.up with
  | some uc =>
    if uc.saslPlain then setSupportedCap st b!"sasl" b!"PLAIN,ANONYMOUS"
    else if env.bound then unsetSupportedCap st b!"sasl" else (st, [])
  | none => if env.bound then unsetSupportedCap st b!"sasl" else (st, [])

/-- downstream.go:1116-1129 — the "draft/account-registration" capability. -/
def updateRegCap (env : CapEnv) (st : DCaps) : DCaps × List CapReply :=
  match env.up with
  | some uc =>
    if b!"draft/account-registration" ∈ uc.enabled then
      setSupportedCap st b!"draft/account-registration" (stripBeforeConnect uc.registration)
    else unsetSupportedCap st b!"draft/account-registration"
  | none => unsetSupportedCap st b!"draft/account-registration"

/-- downstream.go:1131-1135 — the "draft/event-playback" capability. -/
def updatePlayback (env : CapEnv) (st : DCaps) : DCaps × List CapReply :=
  if env.history ∧ env.bound then setSupportedCap st b!"draft/event-playback" []
  else unsetSupportedCap st b!"draft/event-playback"

/-- downstream.go:1090-1135 — `updateSupportedCaps`; `order` is the order in which the map of the
capabilities that need all upstreams is iterated. -/
def updateSupportedCaps (st : DCaps) (order : List Str) (env : CapEnv) : DCaps × List CapReply :=
  capSeq (capSeq (capSeq
    (order.foldl (fun r cap => capSeq r (fun st => updateNeedAll env st cap)) (st, []))
    (updateSasl env)) (updateRegCap env)) (updatePlayback env)

/-- What happens to a connection, as far as capabilities go. -/
inductive CapOp
  /-- A CAP command from the client. -/
  | cap (cmd : Str) (args : List Str)
  /-- `updateSupportedCaps`, called whenever upstream connections come, go or change. -/
  | update (order : List Str) (env : CapEnv)
  /-- Registration completes (downstream.go:1364). -/
  | registered
deriving DecidableEq, Repr

/-- One step, with what is sent to the client. -/
def capStep (st : DCaps) : CapOp → DCaps × List CapReply
  | .cap cmd args => handleCap st cmd args
  | .update order env => updateSupportedCaps st order env
  | .registered => ({ st with registered := true }, [])

/-- A whole history, with all that is sent to the client. -/
def capRun (st : DCaps) (ops : List CapOp) : DCaps × List CapReply :=
  ops.foldl (fun r op => capSeq r (fun st => capStep st op)) (st, [])

end Verif.Model
