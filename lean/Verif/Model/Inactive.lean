import Verif.Model.GoMap

/-! # Model of the disabling of inactive accounts

server.go:722-805 (the loop that looks for inactive accounts every four hours), database/sqlite.go:402-427 (the
query) and user.go:721-806, 1334-1341 (the activity of the clients).  Two goroutines matter: the one that scans,
and the event loop of a user, to which it sends an event; other events are handled in between.

Simplifications: times are natural numbers; the database does not fail; accounts are not deleted.  Clients are
identified by a number (server.go:478). -/

namespace Verif.Model

/-- What is known about an account. -/
structure IaUser where
  /-- the column `created_at` -/
  created : Nat
  /-- the column `downstream_interacted_at` -/
  stored : Option Nat
  enabled : Bool
  /-- `u.downstreamConns`: the client and whether an administrator logged in for the user -/
  conns : List (Nat × Bool)
  /-- clients that were told that the account is disabled (user.go:738-745) -/
  refused : List (Nat × Bool)
deriving DecidableEq, Repr

structure IaState where
  now : Nat
  users : GoMap Str IaUser
  /-- the users the scan still has to disable (server.go:753-771) -/
  pending : List Str
deriving DecidableEq, Repr

/-- What happens. -/
inductive IaOp where
  | create (name : Str)
  /-- a client has authenticated; `accepted`: it is let in -/
  | login (name : Str) (id : Nat) (imp accepted : Bool)
  | message (name : Str) (id : Nat) (imp : Bool)
  | logout (name : Str) (id : Nat) (imp : Bool)
  /-- a client that was not let in goes away -/
  | refusedLeft (name : Str) (id : Nat) (imp : Bool)
  /-- `user update -enabled` -/
  | setEnabled (name : Str) (b : Bool)
  /-- the scan, with the configured delay -/
  | scan (delay : Nat)
  /-- the loop of the next user gets the event of the scan -/
  | deliver
  /-- a minute has passed, or an error has been returned (server.go:785-799) -/
  | giveUp
  /-- the bouncer is stopped and started again -/
  | restart
deriving DecidableEq, Repr

/-- user.go:777, 802 and 1334-1341 — the time of the interaction is stored, unless an administrator has logged in
for the user. -/
def iaBump (t : Nat) (imp : Bool) (u : IaUser) : IaUser := if imp then u else { u with stored := some t }

/-- database/sqlite.go:407 — `coalesce(downstream_interacted_at, created_at) < limit`. -/
def iaStale (t delay : Nat) (u : IaUser) : Bool := decide (u.stored.getD u.created + delay < t)

/-- server.go:739-771 — the users to disable. -/
def iaScan (t delay : Nat) (users : GoMap Str IaUser) : List Str :=
  if delay = 0 then []
  else ((users.filter (fun p => iaStale t delay p.2)).filter (fun p => decide (¬ p.2.conns.length > 0))).map (·.1)

/-- user.go:876-888, server.go:221-246 — when the loops stop, the clients are closed without any other event; the
records are then read from the database. -/
def iaRestart (u : IaUser) : IaUser := { u with conns := [], refused := [] }

/-- One event at time `t`; `onAuth` is `EnableUsersOnAuth`.  `none`: this cannot happen. -/
def iaStep (onAuth : Bool) (st : IaState) (t : Nat) (op : IaOp) : Option IaState :=
  if t < st.now then none
  else
    let st := { st with now := t }
    match op with
    | .create name =>
      -- server.go:404-418
      match GoMap.get st.users name with
      | some _ => none
      | none => some { st with users := GoMap.set st.users name ⟨t, none, true, [], []⟩ }
    | .login name id imp accepted =>
      -- user.go:721-779
      match GoMap.get st.users name with
      | none => none
      | some u =>
        let u1 := if !u.enabled && onAuth then { u with enabled := true } else u
        if accepted ≠ u1.enabled then none
        else if !u1.enabled then
          some { st with users := GoMap.set st.users name { u1 with refused := u1.refused ++ [(id, imp)] } }
        else
          some { st with users := GoMap.set st.users name (iaBump t imp { u1 with conns := u1.conns ++ [(id, imp)] }) }
    | .message name id imp =>
      match GoMap.get st.users name with
      | none => none
      | some u => if (id, imp) ∈ u.conns then some st else none
    | .logout name id imp =>
      -- user.go:780-804
      match GoMap.get st.users name with
      | none => none
      | some u =>
        if (id, imp) ∈ u.conns then
          some { st with users := GoMap.set st.users name (iaBump t imp { u with conns := u.conns.erase (id, imp) }) }
        else none
    | .refusedLeft name id imp =>
      match GoMap.get st.users name with
      | none => none
      | some u =>
        if (id, imp) ∈ u.refused then
          let u1 := iaBump t imp { u with refused := u.refused.erase (id, imp) }
          some { st with users := GoMap.set st.users name u1 }
        else none
    | .setEnabled name b =>
      match GoMap.get st.users name with
      | none => none
      | some u => some { st with users := GoMap.set st.users name { u with enabled := b } }
    | .scan delay =>
      -- the loop scans again only when it is done
      if st.pending ≠ [] then none else some { st with pending := iaScan t delay st.users }
    | .deliver =>
      -- server.go:774-799, user.go:823-845
      match st.pending with
      | [] => none
      | name :: rest =>
        match GoMap.get st.users name with
        | none => none
        | some u => some { st with users := GoMap.set st.users name { u with enabled := false }, pending := rest }
    | .giveUp => some { st with pending := [] }
    | .restart => some { st with users := st.users.map (fun p => (p.1, iaRestart p.2)), pending := [] }

/-- A history, with the times of its events. -/
def iaRun (onAuth : Bool) : IaState → List (Nat × IaOp) → Option IaState
  | st, [] => some st
  | st, (t, op) :: ops =>
    match iaStep onAuth st t op with
    | none => none
    | some st' => iaRun onAuth st' ops

end Verif.Model
