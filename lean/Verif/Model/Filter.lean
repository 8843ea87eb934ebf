import Verif.Model.GoMap
import Verif.Model.GoNum

/-! # Model of the filter every message to a client goes through

downstream.go:487-549 (`downstreamConn.SendMessage`).  Messages are shared: the same `*irc.Message` is
handed to the `SendMessage` of every client, so the function is modelled on a heap of messages and tag
maps, where a write is visible through every pointer to the same cell. -/

namespace Verif.Model

/-- `irc.Prefix` (library). -/
structure Prefix where
  name : Str
  user : Str
  host : Str
deriving DecidableEq, Repr

/-- The value of an `irc.Message` (library), tags included. -/
structure TMsg where
  tags : GoMap Str Str
  source : Option Prefix
  command : Str
  params : List Str
deriving DecidableEq, Repr

/-- An `irc.Message` in memory: the tags are a pointer to a map. -/
structure HMsg where
  tags : Nat
  source : Option Prefix
  command : Str
  params : List Str
deriving DecidableEq, Repr

/-- Memory: the cells holding messages and those holding tag maps; a pointer is an index. -/
structure Heap where
  msgs : List HMsg
  maps : List (GoMap Str Str)
deriving DecidableEq, Repr

/-- Read a message. -/
def Heap.msg (h : Heap) (p : Nat) : HMsg := (h.msgs[p]?).getD ⟨0, none, [], []⟩

/-- Read a tag map. -/
def Heap.map (h : Heap) (p : Nat) : GoMap Str Str := (h.maps[p]?).getD []

/-- What a reader of the message sees. -/
def Heap.deref (h : Heap) (p : Nat) : TMsg :=
  ⟨h.map (h.msg p).tags, (h.msg p).source, (h.msg p).command, (h.msg p).params⟩

/-- `msg.Copy()` (library): a new message with a new tag map. -/
def Heap.copy (h : Heap) (p : Nat) : Heap × Nat :=
  ({ msgs := h.msgs ++ [{ h.msg p with tags := h.maps.length }]
     maps := h.maps ++ [h.map (h.msg p).tags] }, h.msgs.length)

/-- `msgCopy := *msg`: a new message with the same tag map. -/
def Heap.shallow (h : Heap) (p : Nat) : Heap × Nat :=
  ({ h with msgs := h.msgs ++ [h.msg p] }, h.msgs.length)

/-- `delete(msg.Tags, name)`: a write to the map the message points to. -/
def Heap.deleteTag (h : Heap) (p : Nat) (name : Str) : Heap :=
  { h with maps := h.maps.set (h.msg p).tags (GoMap.del (h.map (h.msg p).tags) name) }

/-- `msg.F = ...`: a write to the message. -/
def Heap.write (h : Heap) (p : Nat) (m : HMsg) : Heap := { h with msgs := h.msgs.set p m }

/-- irc.go:303-313 — `isNumeric`. -/
def isNumericCmd (cmd : Str) : Bool := decide (cmd.length = 3) && cmd.all isDigit

/-- downstream.go:494-506 — is this tag supported by a client without message-tags? -/
def tagSupported (caps : Str → Bool) (name : Str) : Bool :=
  if name = b!"time" then caps b!"server-time"
  else if name = b!"account" then caps b!"account-tag"
  else if name = b!"batch" then caps b!"batch"
  else false

/-- downstream.go:493-506 — the loop over the tags (of the copy): deleting from a map while ranging over
it visits each key once. -/
def deleteUnsupported (caps : Str → Bool) (h : Heap) (p : Nat) : Heap :=
  (h.map (h.msg p).tags).foldl
    (fun h t => if tagSupported caps t.1 then h else h.deleteTag p t.1) h

/-- downstream.go:516-533 — is the command dropped? -/
def cmdDropped (caps : Str → Bool) (cmd : Str) : Bool :=
  (cmd == b!"SETNAME" && !caps b!"setname") || (cmd == b!"CHGHOST" && !caps b!"chghost") ||
  (cmd == b!"AWAY" && !caps b!"away-notify") || (cmd == b!"ACCOUNT" && !caps b!"account-notify") ||
  (cmd == b!"MARKREAD" && !caps b!"draft/read-marker") || (cmd == b!"READ" && !caps b!"soju.im/read")

/-- downstream.go:487-549 — `SendMessage` up to the call to `conn.SendMessage`: the memory afterwards,
and the message given to the connection if any.  `msg.Params[:1]` panics on a JOIN without parameters,
which no caller sends; here it is `take 1`. -/
def sendHeap (caps : Str → Bool) (srv : Prefix) (h : Heap) (p : Nat) : Heap × Option Nat :=
  if !caps b!"message-tags" && (h.msg p).command == b!"TAGMSG" then (h, none)
  else
    let (h, p) := if caps b!"message-tags" then (h, p)
      else ((deleteUnsupported caps (h.copy p).1 (h.copy p).2), (h.copy p).2)
    let (h, p) := if !caps b!"batch" && ((GoMap.get (h.map (h.msg p).tags) b!"batch").getD [] != []) then
        ((h.copy p).1.deleteTag (h.copy p).2 b!"batch", (h.copy p).2) else (h, p)
    let (h, p) := if (h.msg p).command == b!"JOIN" && !caps b!"extended-join" then
        ((h.copy p).1.write (h.copy p).2
          { (h.copy p).1.msg (h.copy p).2 with params := ((h.copy p).1.msg (h.copy p).2).params.take 1 },
          (h.copy p).2) else (h, p)
    if cmdDropped caps (h.msg p).command then (h, none)
    else
      let (h, p) := if ((h.msg p).source.map Prefix.name) == some b!"*" then
          ((h.shallow p).1.write (h.shallow p).2
            { (h.shallow p).1.msg (h.shallow p).2 with source := none }, (h.shallow p).2) else (h, p)
      let (h, p) := if (h.msg p).source == none && isNumericCmd (h.msg p).command then
          ((h.shallow p).1.write (h.shallow p).2
            { (h.shallow p).1.msg (h.shallow p).2 with source := some srv }, (h.shallow p).2) else (h, p)
      (h, some p)

end Verif.Model
