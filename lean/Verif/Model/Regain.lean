import Verif.Model.Casemap

/-! # Model of getting the wanted nick back

upstream.go:2319-2380 (the timer), 1037-1043, 1085-1125, 1653-1685, 1822-1854, 2279; user.go:847-848, 895-899; one
network. The case mapping is fixed for a history. -/

namespace Verif.Model

/-- upstream.go:232, 2345 — a timer with the nick its function was made for; `armed` is whether it will fire. -/
structure GnTimer where
  nick : Str
  armed : Bool
deriving DecidableEq, Repr

/-- upstream.go:231-237 — what a connection knows about its nick. -/
structure GnConn where
  num : Nat
  nick : Str
  hasDesired : Bool
  pending : Str
  timer : Option GnTimer
  /-- whether the server supports MONITOR (`uc.isupport["MONITOR"]`) -/
  monitor : Bool
  gotMotd : Bool
deriving DecidableEq, Repr

/-- A network: its configured nick (`database.GetNick`), its connection, the goroutines of timers that have fired but
not yet delivered, and the events for the loop of the user (user.go:85-88). -/
structure GnState where
  want : Str
  conn : Option GnConn
  nextNum : Nat
  firing : List (Nat × Str)
  queue : List (Nat × Str)
deriving DecidableEq, Repr

/-- What happens. -/
inductive GnOp
  /-- a new connection is registered, under `nick`; `taken` is whether the server refused the wanted one -/
  | registered (taken : Bool) (nick : Str)
  | disconnected
  | isupport (monitor : Bool)
  | motdEnd
  /-- `:old NICK new` from the server -/
  | serverNick (old new : Str)
  /-- ERR_NICKNAMEINUSE -/
  | inUse (nick : Str)
  /-- another error about a nick: ERR_ERRONEUSNICKNAME, ERR_NICKCOLLISION, ERR_UNAVAILRESOURCE -/
  | refused (nick : Str)
  | monReply (online : Bool) (targets : List Str)
  | clientNick (nick : Str)
  /-- the nick is changed in the settings -/
  | setWant (nick : Str)
  | fire
  /-- a goroutine of a timer delivers its event, if there is room -/
  | deliver (room : Bool)
  | handle
deriving DecidableEq, Repr

/-- What the bouncer does: sends NICK to the server of its own accord, or on behalf of a client, or shows an error to
the clients. -/
inductive GnOut
  | regain (nick : Str)
  | relay (nick : Str)
  | shown (nick : Str)
deriving DecidableEq, Repr

/-- user.go:206-208 — `equalCasemap`. -/
def gnSame (cm : CaseMapping) (a b : Str) : Bool := decide (casemap cm a = casemap cm b)

/-- upstream.go:2319-2327 — `stopRegainNickTimer`. -/
def stopRegain (c : GnConn) : GnConn := { c with timer := none }

/-- upstream.go:2329-2354 — `startRegainNickTimer`; `none` is the panic. -/
def startRegain (cm : CaseMapping) (want : Str) (c : GnConn) : Option GnConn :=
  if c.timer.isSome then none
  else if gnSame cm c.nick want then some c
  else some { c with timer := some ⟨want, true⟩ }

/-- upstream.go:2356-2380 — `tryRegainNick`. -/
def tryRegain (cm : CaseMapping) (want nick : Str) (c : GnConn) : GnConn × List GnOut :=
  match c.timer with
  | none => (c, [])
  | some t =>
    if want ≠ nick ∨ gnSame cm c.nick want then (stopRegain c, [])
    else
      let c := { c with timer := some { t with armed := true } }
      if c.pending ≠ [] then (c, [])
      else ({ c with pending := want }, [.regain want])

/-- upstream.go:1085-1103 — the server changes a nick. -/
def gnServerNick (cm : CaseMapping) (want old new : Str) (c : GnConn) : GnConn :=
  if gnSame cm c.nick old then
    let c := { c with nick := new }
    let c := if gnSame cm c.pending new then stopRegain { c with pending := [] } else c
    if gnSame cm want new then { c with hasDesired := true } else c
  else c

/-- A step; `none` is a panic. -/
def gnStep (cm : CaseMapping) (st : GnState) : GnOp → Option (GnState × List GnOut)
  -- upstream.go:366-372, 923-928, 1822-1832
  | .registered taken nick =>
    match st.conn with
    | some _ => some (st, [])
    | none =>
      some ({ st with conn := some ⟨st.nextNum, nick, !taken, [], none, false, false⟩, nextNum := st.nextNum + 1 }, [])
  -- user.go:895-898
  | .disconnected => some ({ st with conn := none }, [])
  -- upstream.go:957-975
  | .isupport monitor => some ({ st with conn := st.conn.map fun c => { c with monitor := monitor } }, [])
  -- upstream.go:1026-1045
  | .motdEnd =>
    match st.conn with
    | none => some (st, [])
    | some c =>
      if c.gotMotd then some (st, [])
      else
        let c := { c with gotMotd := true }
        if c.monitor then some ({ st with conn := some c }, [])
        else (startRegain cm st.want c).map fun c => ({ st with conn := some c }, [])
  | .serverNick old new => some ({ st with conn := st.conn.map (gnServerNick cm st.want old new) }, [])
  -- upstream.go:1833-1854, after registration
  | .inUse nick =>
    match st.conn with
    | none => some (st, [])
    | some c =>
      if gnSame cm c.pending nick then some ({ st with conn := some { c with pending := [] } }, [])
      else some (st, [.shown nick])
  | .refused nick =>
    match st.conn with
    | none => some (st, [])
    | some _ => some (st, [.shown nick])
  -- upstream.go:1666-1685
  | .monReply online targets =>
    match st.conn with
    | none => some (st, [])
    | some c =>
      if !online ∧ !gnSame cm c.nick st.want ∧ !c.hasDesired ∧ targets.any (fun t => gnSame cm t st.want) then
        some (st, [.regain st.want])
      else some (st, [])
  -- downstream.go:1820-1846
  | .clientNick nick =>
    match st.conn with
    | none => some ({ st with want := nick }, [])
    | some _ => some ({ st with want := nick }, [.relay nick])
  | .setWant nick => some ({ st with want := nick }, [])
  -- upstream.go:2345: the timer fires
  | .fire =>
    match st.conn with
    | none => some (st, [])
    | some c =>
      match c.timer with
      | none => some (st, [])
      | some t =>
        if t.armed then
          some ({ st with conn := some { c with timer := some { t with armed := false } }, firing := st.firing ++ [(c.num, t.nick)] }, [])
        else some (st, [])
  -- upstream.go:2346-2352: the function of the timer
  | .deliver room =>
    match st.firing with
    | [] => some (st, [])
    | e :: rest =>
      if room then some ({ st with firing := rest, queue := st.queue ++ [e] }, [])
      else some ({ st with firing := rest }, [])
  -- user.go:847-848
  | .handle =>
    match st.queue with
    | [] => some (st, [])
    | (num, nick) :: rest =>
      let st := { st with queue := rest }
      match st.conn with
      | none => some (st, [])
      | some c =>
        if c.num = num then
          let r := tryRegain cm st.want nick c
          some ({ st with conn := some r.1 }, r.2)
        else some (st, [])

/-- A history: each event with what the bouncer does about it; `none` is a panic. -/
def gnRun (cm : CaseMapping) : GnState → List GnOp → Option (GnState × List (GnOp × List GnOut))
  | st, [] => some (st, [])
  | st, op :: ops =>
    match gnStep cm st op with
    | none => none
    | some (st', outs) => (gnRun cm st' ops).map fun r => (r.1, (op, outs) :: r.2)

/-- Before the first connection. -/
def gnInit (want : Str) : GnState := ⟨want, none, 0, [], []⟩

end Verif.Model
