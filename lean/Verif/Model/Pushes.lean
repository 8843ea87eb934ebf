import Verif.Model.Delivery
import Verif.Model.Detach
import Verif.Model.Highlight
import Verif.Model.WebPush

/-! # Model of the push messages: which are sent, to whom and with which keys

One network of a user. Simplifications: texts are characters as in `Highlight`; the case mapping stays the same; the
database fails only where it is said; re-attaching a channel succeeds (see `Detach`); a push message is the IRC message
it contains, the encryption is that of the library. -/

namespace Verif.Model

/-- database/database.go:244-256 — the settings of a saved channel that matter here. -/
structure PuChan where
  detached : Bool
  relay : MsgFilter
  reattach : MsgFilter
deriving DecidableEq, Repr

/-- The IRC messages pushed. -/
inductive PushMsg where
  /-- a PRIVMSG, NOTICE or TAGMSG with its time; `buffer` is the folded name of its conversation, which is not sent -/
  | chat (m : ChatMsg) (time : Int) (buffer : Str)
  | invite (nick channel : Str)
  /-- MARKREAD; `none` is `*` -/
  | marker (target : Str) (time : Option Int)
deriving DecidableEq, Repr

/-- user.go:143-160 — what the network knows. -/
structure PuState where
  env : UpEnv
  net : Nat
  /-- network.channels, by folded name -/
  saved : GoMap Str PuChan
  /-- network.pushTargets, by folded name -/
  targets : GoMap Str Int
  /-- the read markers in the database -/
  receipts : ReceiptTable

/-- What happens. -/
inductive PuOp where
  /-- a PRIVMSG, NOTICE or TAGMSG of the server -/
  | recv (m : ChatMsg) (time : Int)
  /-- an INVITE of the server -/
  | invite (nick channel : Str)
  /-- READ or MARKREAD of a client -/
  | mark (q : MarkRead)
  /-- PART of a client, not to detach -/
  | part (name : Str)
  /-- the server changes what is known: nicks, members, … -/
  | server (nick : Str) (registered : Bool) (joined : GoMap Str (Str × List Str))
  /-- channels are saved, deleted, attached, detached, … -/
  | channels (saved : GoMap Str PuChan)
  /-- the bouncer restarts, or the settings of the network are changed (user.go:162-195: a new network) -/
  | restart

/-- user.go:448-462 with upstream.go:684 — `highlight`. -/
def puHighlight (lib : RuneLib) (env : UpEnv) (m : ChatMsg) : Bool :=
  decide (networkIsHighlight lib m.command m.sender [m.target, m.text] env.nick = some true)

/-- upstream.go:1857-1869 — `handleDetachedMessage`: the channel may be attached. -/
def puReattach (c : PuChan) (highlight : Bool) : PuChan :=
  if c.detached ∧ (c.reattach = .message ∨ (c.reattach = .highlight ∧ highlight)) then { c with detached := false } else c

/-- upstream.go:676-696 — a message for a saved channel: the state, `highlight`, and whether the channel lets a push
message through. -/
def puConsider (lib : RuneLib) (st : PuState) (m : ChatMsg) (key : Str) (self : Bool) : PuState × Bool × Bool :=
  match GoMap.get st.saved key with
  | none => (st, false, true)
  | some c =>
    if m.command ≠ b!"TAGMSG" ∧ self = false then
      let highlight := puHighlight lib st.env m
      let c := puReattach c highlight
      ({ st with saved := GoMap.set st.saved key c }, highlight, !(c.detached && decide (c.relay = .none)))
    else (st, false, true)

/-- upstream.go:618-625, 634-704 — a message of the server: the pushes. -/
def puRecv (lib : RuneLib) (st : PuState) (m : ChatMsg) (time : Int) : PuState × List PushMsg :=
  match routeMessage st.env m with
  | .skip => (st, [])
  | .server => (st, [])
  | .buffer name direct =>
    let key := casemap st.env.cm name
    let self := st.env.same m.sender st.env.nick
    let r := puConsider lib st m key self
    if (!self && r.2.2) && (r.2.1 || direct) then
      let t := toMillis time
      ({ r.1 with targets := GoMap.set r.1.targets key t }, [.chat m t key])
    else (r.1, [])

/-- upstream.go:1616-1645 — an invitation. -/
def puInvite (st : PuState) (nick channel : Str) : List PushMsg :=
  if st.env.same nick st.env.nick then
    let key := casemap st.env.cm channel
    if (GoMap.get st.env.joined key).isNone && (GoMap.get st.saved key).isSome then [] else [.invite nick channel]
  else []

/-- downstream.go:2879-2986 — MARKREAD: the new table as in `markRead`, and the push. -/
def puMark (st : PuState) (q : MarkRead) : PuState × List PushMsg :=
  let tbl := (markRead st.env.cm [] st.receipts q).1
  let key := casemap st.env.cm q.target
  if key = serviceNickCM ∨ q.client.network ≠ some st.net then (st, [])
  else match markCriteria (getReceipt st.receipts st.net key) q with
    | some (t, true) =>
      match GoMap.get st.targets key with
      | some pushed =>
        ({ st with receipts := tbl, targets := if t < pushed then st.targets else GoMap.del st.targets key },
          [.marker q.target (if t = 0 then none else some (toMillis t))])
      | none => ({ st with receipts := tbl }, [])
    | _ => ({ st with receipts := tbl }, [])

/-- One event: the new state and what is pushed. -/
def puStep (lib : RuneLib) (st : PuState) : PuOp → PuState × List PushMsg
  | .recv m time => puRecv lib st m time
  | .invite nick channel => (st, puInvite st nick channel)
  | .mark q => puMark st q
  -- downstream.go:2030
  | .part name => ({ st with targets := GoMap.del st.targets (casemap st.env.cm name) }, [])
  | .server nick registered joined =>
    ({ st with env := { st.env with nick := nick, registered := registered, joined := joined } }, [])
  | .channels saved => ({ st with saved := saved }, [])
  -- user.go:183
  | .restart => ({ st with targets := [] }, [])

/-- A history: the state and everything pushed. -/
def puRun (lib : RuneLib) (st : PuState) (ops : List PuOp) : PuState × List PushMsg :=
  ops.foldl (fun s op => let r := puStep lib s.1 op; (r.1, s.2 ++ r.2)) (st, [])

/-! ## Sending -/

/-- database/database.go:265-271 — a pair of VAPID keys. -/
structure VapidKeys where
  pub : Str
  priv : Str
deriving DecidableEq, Repr

/-- A request to a push server. -/
structure PushReq where
  endpoint : Str
  auth : Str
  p256 : Str
  keys : VapidKeys
  /-- server.go:336-342 — the urgency is high -/
  high : Bool
  /-- server.go:354, in seconds -/
  ttl : Nat
  payload : PushMsg
deriving DecidableEq, Repr

/-- server.go:336-342 — the urgency. -/
def pushHigh (command : Str) : Bool :=
  decide (command = b!"PRIVMSG" ∨ command = b!"NOTICE" ∨ command = b!"INVITE")

/-- The command of the IRC message pushed (upstream.go:698, 1644; downstream.go:2982). -/
def PushMsg.command : PushMsg → Str
  | .chat m _ _ => m.command
  | .invite .. => b!"INVITE"
  | .marker .. => b!"MARKREAD"

/-- server.go:332-378 — `sendWebPush`: the request, if one is made, and the result. `http`: the status of the answer,
`none` for an error. -/
def sendWebPush (keys : VapidKeys) (sub : PushSub) (msg : PushMsg) (http : PushReq → Option Nat) :
    Option PushReq × SendResult :=
  let req : PushReq := ⟨sub.endpoint, sub.auth, sub.p256, keys, pushHigh msg.command, 7 * 24 * 60 * 60, msg⟩
  if sub.vapid ≠ keys.pub then (none, .failed)
  else match http req with
    | none => (some req, .failed)
    | some status =>
      if status = 404 then (some req, .expired)
      else if status / 100 ≠ 2 then (some req, .failed)
      else (some req, .ok)

/-- user.go:489-525 — `broadcastWebPush`: the requests it makes. -/
def broadcastReqs (keys : VapidKeys) (tbl : List PushSub) (u n : Nat) (msg : PushMsg) (http : PushReq → Option Nat) :
    List PushReq :=
  (listSubs tbl u n).filterMap (fun s => (sendWebPush keys s msg http).1)

/-- server.go:302-330 — `loadWebPushConfig`: the keys, and those in the database afterwards; `none`: the bouncer does
not start. `listOk`, `storeOk`: the database answers; `gen`: the new keys. -/
def loadWebPushConfig (db : List VapidKeys) (listOk : Bool) (gen : Option VapidKeys) (storeOk : Bool) :
    Option (VapidKeys × List VapidKeys) :=
  if !listOk then none
  else match db with
    | _ :: _ :: _ => none
    | [k] => some (k, [k])
    | [] => match gen with
      | none => none
      | some k => if storeOk then some (k, [k]) else none

/-- The life of a bouncer: keys in the database, keys in use (`none`: not running), public keys of the subscriptions. -/
structure VkState where
  db : List VapidKeys := []
  running : Option VapidKeys := none
  subs : List Str := []
deriving DecidableEq, Repr

/-- Starts, stops, subscriptions. -/
inductive VkOp where
  | start (listOk : Bool) (gen : Option VapidKeys) (storeOk : Bool)
  | stop
  /-- downstream.go:3234, 3296 — a subscription is stored, with the key in use -/
  | subscribe
  | unsubscribe (i : Nat)

/-- One step. -/
def vkStep (st : VkState) : VkOp → VkState
  | .start listOk gen storeOk =>
    match st.running with
    | some _ => st
    | none => match loadWebPushConfig st.db listOk gen storeOk with
      | none => st
      | some (k, db) => { st with db := db, running := some k }
  | .stop => { st with running := none }
  | .subscribe => match st.running with
    | some k => { st with subs := st.subs ++ [k.pub] }
    | none => st
  | .unsubscribe i => { st with subs := st.subs.eraseIdx i }

/-- downstream.go:3214-3350 — the WEBPUSH subcommands: `none` is "Unknown command". -/
def webPushSubcommand (s : Str) : Option Bool :=
  if s = b!"REGISTER" then some true else if s = b!"UNREGISTER" then some false else none

end Verif.Model
