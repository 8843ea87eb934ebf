import Verif.Model.GoStr
import Verif.Model.Caps

/-! # Model of the saved credentials of a network (downstream.go:2387-2610, 3371-3424, upstream.go:782-925,
user.go:469-483)

One connected network and its clients; the exchange of a client with SASL is reduced to its decoded responses
(handleAuthenticate itself is in `Model/Register`). Errors of the database are left out. -/

namespace Verif.Model

/-- downstream.go:3396-3424: `parseNickServCredentials`. -/
def parseNickServ (text nick : Str) : Option (Str × Str) :=
  match fields text with
  | cmd :: p :: rest =>
    if asciiUpper cmd = b!"REGISTER" then some (nick, p)
    else if asciiUpper cmd = b!"IDENTIFY" then
      match rest with
      | [] => some (nick, p)
      | q :: _ => some (p, q)
    else if asciiUpper cmd = b!"SET" then
      match rest with
      | [q] => if asciiUpper p = b!"PASSWORD" then some (nick, q) else some ([], [])
      | _ => some ([], [])
    else none
  | _ => none

/-- The `SASL` field of a network record (database/database.go:158-170); the certificate is left out. -/
structure SavedSasl where
  mechanism : Str
  username : Str
  password : Str
  deriving DecidableEq, Repr

/-- user.go:469-483: `autoSaveSASLPlain`. -/
def autoSave (r : SavedSasl) (username password : Str) : SavedSasl :=
  if r.mechanism ≠ [] ∧ r.mechanism ≠ b!"PLAIN" then r else ⟨b!"PLAIN", username, password⟩

/-- `dc.sasl` (downstream.go:330-340): the mechanism, and the credentials once they are known. -/
structure ClientSasl where
  mechanism : Str
  plain : Option (Str × Str)
  deriving DecidableEq, Repr

/-- The connection to the network, with the SASL state of the clients that are there. -/
structure CredState where
  saved : SavedSasl
  nick : Str
  /-- `uc.saslClient`. -/
  busy : Bool
  /-- `uc.pendingCmds["AUTHENTICATE"]`: the clients. -/
  auth : List Nat
  /-- `uc.pendingCmds["REGISTER"]`: the clients, and the passwords of the commands. -/
  register : List (Nat × Str)
  /-- The clients that are connected. -/
  clients : Nat → Bool
  sasl : Nat → Option ClientSasl

/-- What happens to it. -/
inductive CredOp
  /-- A PRIVMSG, NOTICE or TAGMSG of a client (downstream.go:2387-2520). -/
  | message (command target text : Str)
  /-- AUTHENTICATE with a mechanism, by a client that is in no exchange. -/
  | authStart (c : Nat) (mechanism : Str)
  /-- AUTHENTICATE with the last part of a response of the client, decoded: the credentials. `late` says that
  the first pending command has got no reply for long. -/
  | authResp (c : Nat) (identity username password : Str) (late : Bool)
  /-- AUTHENTICATE that ends in an error, such as `AUTHENTICATE *`. -/
  | authError (c : Nat)
  /-- REGISTER of a client, with the password. -/
  | register (c : Nat) (password : Str) (late : Bool)
  /-- The server says that SASL is over, successfully or not. -/
  | saslDone (success : Bool)
  /-- The server answers REGISTER, with the name of the account. -/
  | registered (account : Str)
  /-- FAIL (upstream.go:1777-1791) or an error numeric (upstream.go:1761-1776) for a pending command. -/
  | fail (command : Str) (numeric : Bool)
  /-- CAP ACK for "sasl": the bouncer logs in by itself. -/
  | capAck
  /-- A change of nick. -/
  | nick (n : Str)
  | connect (c : Nat)
  | disconnect (c : Nat)
  /-- The connection to the server is lost, and made again (upstream.go:453-499). -/
  | lost

/-- Set the SASL state of a client. -/
def CredState.setSasl (st : CredState) (c : Nat) (v : Option ClientSasl) : CredState :=
  { st with sasl := fun d => if d = c then v else st.sasl d }

/-- upstream.go:511-534: `enqueueCommand` on one queue. If the first command is late, `copy` moves the others
one place to the front and leaves the last one where it is. -/
def enqueuePending {α : Type} (l : List α) (x : α) (late : Bool) : List α :=
  let l := l ++ [x]
  if late then l.drop 1 ++ [x] else l

/-- downstream.go:2528-2593: the end of an AUTHENTICATE of a registered client, with the result of the exchange
`ex`; `endSASL` is downstream.go:1037-1052. -/
def finishAuth (st : CredState) (c : Nat) (ex : ClientSasl) (identity username password : Str) (late : Bool) : CredState :=
  if st.busy then st.setSasl c none
  else if ex.mechanism = b!"PLAIN" then
    if identity ≠ [] ∧ identity ≠ username then st.setSasl c (some { ex with plain := some (username, password) })
    else
      { (st.setSasl c (some { ex with plain := some (username, password) })) with
          busy := true, auth := enqueuePending st.auth c late }
  else if ex.mechanism = b!"ANONYMOUS" then
    { (st.setSasl c none) with saved := if st.saved.mechanism ≠ [] then ⟨[], [], []⟩ else st.saved }
  else st.setSasl c none

/-- One event; `none` is a panic. -/
def credStep (casemap : Str → Str) (st : CredState) : CredOp → Option CredState
  | .message command target text =>
    if command = b!"PRIVMSG" ∧ casemap target = b!"nickserv" then
      match parseNickServ text st.nick with
      | some (u, p) => some { st with saved := autoSave st.saved u p }
      | none => some st
    else some st
  | .authStart c mech =>
    if st.clients c = false then some st
    else match st.sasl c with
      | none =>
        if mech = b!"PLAIN" ∨ mech = b!"OAUTHBEARER" ∨ mech = b!"ANONYMOUS" then some (st.setSasl c (some ⟨mech, none⟩))
        else some st
      | some _ => some st
  | .authResp c identity username password late =>
    if st.clients c = false then some st
    else match st.sasl c with
      | none => some st
      -- go-sasl refuses a second response
      | some ex => if ex.plain.isSome then some (st.setSasl c none) else some (finishAuth st c ex identity username password late)
  | .authError c => some (st.setSasl c none)
  | .register c password late =>
    if st.clients c = false then some st
    else some { st with register := enqueuePending st.register (c, password) late }
  | .saslDone success =>
    let st' := { st with busy := false, auth := st.auth.drop 1 }
    match st.auth with
    | [] => some st'
    | c :: _ =>
      if st.clients c = false then some st'
      else match st.sasl c with
        | none => some st'
        | some ex =>
          if success then
            match ex.plain with
            | none => none
            | some (u, p) => some { (st'.setSasl c none) with saved := autoSave st.saved u p }
          else some (st'.setSasl c none)
  | .registered account =>
    match st.register with
    | [] => some st
    | (c, password) :: rest =>
      if st.clients c then some { st with register := rest, saved := autoSave st.saved account password }
      else some { st with register := rest }
  | .fail command numeric =>
    if command = b!"AUTHENTICATE" then some { st with auth := st.auth.drop 1, busy := st.busy && !numeric }
    else if command = b!"REGISTER" then some { st with register := st.register.drop 1 }
    else some st
  | .capAck => some { st with busy := st.busy || decide (st.saved.mechanism ≠ []) }
  | .nick n => some { st with nick := n }
  | .connect c => some { (st.setSasl c none) with clients := fun d => if d = c then true else st.clients d }
  | .disconnect c =>
    -- upstream.go:555-566: the command that has been sent stays
    some { (st.setSasl c none) with
             clients := fun d => if d = c then false else st.clients d,
             auth := st.auth.take 1 ++ (st.auth.drop 1).filter (fun d => decide (d ≠ c)),
             register := st.register.take 1 ++ (st.register.drop 1).filter (fun d => decide (d.1 ≠ c)) }

  | .lost =>
    some { st with busy := false, auth := [], register := [],
                   sasl := fun c => if c ∈ st.auth ∧ st.clients c = true then none else st.sasl c }

/-- A run of events, until a panic. -/
def credRun (casemap : Str → Str) (st : CredState) : List CredOp → Option CredState
  | [] => some st
  | op :: ops =>
    match credStep casemap st op with
    | none => none
    | some st => credRun casemap st ops

end Verif.Model
