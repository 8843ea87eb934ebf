import Verif.Model.Casemap
import Verif.Model.GoStr

/-! # Model of irc.go (modes) and xirc/xirc.go (membership sets) -/

namespace Verif.Model

/-- xirc/xirc.go:92-96 — `Membership`. -/
structure Membership where
  mode : Byte
  pfx : Byte
deriving DecidableEq, Repr

/-- xirc/xirc.go:98-99 — `MembershipSet`, a slice. -/
abbrev MembershipSet := List Membership

namespace MembershipSet

/-- xirc/xirc.go:104-119 — the search loop of `Add`: `none` is the early `return`, `some i` the
insertion index. -/
def addLoop : List Membership → MembershipSet → Membership → Nat → Option Nat
  | [], _, _, i => some i
  | a :: as, l, new, i =>
    match l[i]? with
    | none => some i                         -- i >= len(l): break
    | some x =>
      if x = a then
        if a = new then none else addLoop as l new (i + 1)
      else if a = new then some i
      else addLoop as l new i

/-- xirc/xirc.go:101-125 — `Add`. -/
def add (avail : List Membership) (l : MembershipSet) (new : Membership) : MembershipSet :=
  match addLoop avail l new 0 with
  | none => l
  | some i => l.take i ++ new :: l.drop i

/-- xirc/xirc.go:127-135 — `Remove`: the first match only.  Simplification: the Go code shifts the
backing array in place; the set is reached through one pointer only, so no alias observes it. -/
def remove : MembershipSet → Membership → MembershipSet
  | [], _ => []
  | x :: l, m => if x = m then l else x :: remove l m

end MembershipSet

/-- irc.go:183-195 — `formatMemberPrefix`; `multiPrefix` is `dc.caps.IsEnabled("multi-prefix")`. -/
def formatMemberPrefix (ms : MembershipSet) (multiPrefix : Bool) : Str :=
  if !multiPrefix then
    match ms with
    | [] => []
    | m :: _ => [m.pfx]
  else ms.map (·.pfx)

/-- upstream.go:568-581 — loop of `parseMembershipPrefix`. -/
def parseMembershipPrefix : List Membership → Str → MembershipSet × Str
  | [], s => ([], s)
  | _ :: _, [] => ([], [])
  | m :: as, c :: s =>
    if c = m.pfx then
      let r := parseMembershipPrefix as s
      (m :: r.1, r.2)
    else parseMembershipPrefix as (c :: s)

/-- irc.go:175-181 — `stdMemberships`: founder, protected, operator, halfop, voice. -/
def stdMemberships : List Membership := [⟨113, 126⟩, ⟨97, 38⟩, ⟨111, 64⟩, ⟨104, 37⟩, ⟨118, 43⟩]

/-- upstream.go:1887-1909 — `handleMemberships`: `none` is an error return. -/
def handleMemberships (s : Str) : Option (List Membership) :=
  match s with
  | [] => some []
  | c :: _ =>
    if c ≠ 40 then none            -- '('
    else
      match s.findIdx? (· = 41) with   -- strings.IndexByte(s, ')')
      | none => none
      | some sep =>
        if s.length ≠ sep * 2 then none
        else some ((List.range (s.length / 2 - 1)).map
          (fun i => ⟨(s[i + 1]?).getD 0, (s[sep + i + 1]?).getD 0⟩))

/-- irc.go:25, 163, 166 — `string(mode)` or `userModes(c)` of a byte: the UTF-8 encoding of the character with that number. -/
def letterString (c : Byte) : Str :=
  if c < 128 then [c] else [192 + c / 64, 128 + c % 64]

/-- irc.go:17-54 — `userModes`, a string of mode letters. -/
abbrev UserModes := List Byte

namespace UserModes

/-- irc.go:19-21 — `Has`. -/
def has (ms : UserModes) (c : Byte) : Bool := ms.contains c

/-- irc.go:23-27 — `Add`. -/
def add (ms : UserModes) (c : Byte) : UserModes :=
  if !has ms c then ms ++ letterString c else ms

/-- irc.go:29-34 — `Del`: removes the first occurrence. -/
def del (ms : UserModes) (c : Byte) : UserModes :=
  match ms with
  | [] => []
  | x :: l => if x = c then l else x :: del l c

/-- irc.go:36-54 — `Apply`'s loop; `pm` is `plusMinus`.  The Boolean is "no error". -/
def applyLoop (ms : UserModes) (pm : Option Bool) : Str → UserModes × Bool
  | [] => (ms, true)
  | c :: s =>
    if c = 43 then applyLoop ms (some true) s
    else if c = 45 then applyLoop ms (some false) s
    else
      match pm with
      | some true => applyLoop (add ms c) pm s
      | some false => applyLoop (del ms c) pm s
      | none => (ms, false)

/-- irc.go:36-54 — `Apply`. -/
def apply (ms : UserModes) (s : Str) : UserModes × Bool := applyLoop ms none s

end UserModes

/-- irc.go:56-68 — `channelModeType`. -/
inductive ModeType where | A | B | C | D
deriving DecidableEq, Repr

/-- The part of `upstreamConn` read by `applyChannelModes` (upstream.go:205-206). -/
structure ModeEnv where
  availableMemberships : List Membership
  availableChannelModes : GoMap Byte ModeType

/-- The part of `upstreamChannel` written by `applyChannelModes` (upstream.go:86-97); `modes = none`
is the nil map. -/
structure ChanModeState where
  members : CMMap MembershipSet
  modes : Option (GoMap Byte Str)

/-- irc.go:103-104 — the inner loop looking for a membership with this mode letter. -/
def findMembership (env : ModeEnv) (mode : Byte) : Option Membership :=
  env.availableMemberships.find? (fun m => m.mode = mode)

/-- irc.go:108-117 — membership change of `member`. -/
def applyMembership (env : ModeEnv) (ch : ChanModeState) (plus : Bool) (ms : Membership)
    (member : Str) : ChanModeState :=
  match ch.members.get member with
  | none => ch
  | some m =>
    let m' := if plus then MembershipSet.add env.availableMemberships m ms
              else MembershipSet.remove m ms
    { ch with members := ch.members.set member m' }

/-- irc.go:137-139/146-148 — `if ch.modes != nil { ch.modes[mode] = v }`. -/
def setMode (ch : ChanModeState) (mode : Byte) (v : Str) : ChanModeState :=
  { ch with modes := ch.modes.map (fun m => GoMap.set m mode v) }

/-- irc.go:141/150 — `delete(ch.modes, mode)` (a no-op on a nil map). -/
def delMode (ch : ChanModeState) (mode : Byte) : ChanModeState :=
  { ch with modes := ch.modes.map (fun m => GoMap.del m mode) }

/-- irc.go:89-155 — the loop of `applyChannelModes`, with the sign and the argument cursor.  The
Boolean is "no error"; on an error the changes made so far remain. -/
def applyChannelModesLoop (env : ModeEnv) (args : List Str) (ch : ChanModeState)
    (pm : Option Bool) (next : Nat) : Str → ChanModeState × Bool
  | [] => (ch, true)
  | mode :: rest =>
    if mode = 43 then applyChannelModesLoop env args ch (some true) next rest
    else if mode = 45 then applyChannelModesLoop env args ch (some false) next rest
    else
      match pm with
      | none => (ch, false)
      | some plus =>
        match findMembership env mode with
        | some ms =>
          match args[next]? with
          | none => (ch, false)
          | some member =>
            applyChannelModesLoop env args (applyMembership env ch plus ms member) pm (next + 1) rest
        | none =>
          match GoMap.get env.availableChannelModes mode with
          | none => applyChannelModesLoop env args ch pm next rest
          | some .A => applyChannelModesLoop env args ch pm (next + 1) rest
          | some mt =>
            if mt = .B ∨ (mt = .C ∧ plus = true) then
              let ch' :=
                if plus then
                  setMode ch mode (if next < args.length then args[next]?.getD [] else [])
                else delMode ch mode
              applyChannelModesLoop env args ch' pm (next + 1) rest
            else
              let ch' := if plus then setMode ch mode [] else delMode ch mode
              applyChannelModesLoop env args ch' pm next rest

/-- irc.go:89-155 — `applyChannelModes`. -/
def applyChannelModes (env : ModeEnv) (ch : ChanModeState) (modeStr : Str) (args : List Str) :
    ChanModeState × Bool :=
  applyChannelModesLoop env args ch none 0 modeStr

/-- upstream.go:1873-1885 — inner loops of `handleChanModes`: each part's letters get the type of
its position; later entries overwrite earlier ones. -/
def addChanModes (m : GoMap Byte ModeType) (mt : ModeType) (part : Str) : GoMap Byte ModeType :=
  part.foldl (fun m c => GoMap.set m c mt) m

/-- upstream.go:1871-1885 — `handleChanModes`: `none` is an error return.  `SplitN(s, ",", 5)` and a split at every
comma have the same first four parts. -/
def handleChanModes (s : Str) : Option (GoMap Byte ModeType) :=
  match splitByte 44 s with
  | a :: b :: c :: d :: _ => some (addChanModes (addChanModes (addChanModes (addChanModes [] .A a) .B b) .C c) .D d)
  | _ => none

/-- irc.go:70-81 — `stdChannelModes`. -/
def stdChannelModes : GoMap Byte ModeType :=
  [(98, .A), (101, .A), (73, .A), (107, .B), (108, .C), (105, .D), (109, .D), (110, .D), (115, .D), (116, .D)]

/-- irc.go:157-171 — `channelModes.Format`, for the iteration order given by the list. -/
def formatChannelModes (cm : GoMap Byte Str) : Str × List Str :=
  let withV := cm.filter (fun p => decide (p.2 ≠ []))
  let without := cm.filter (fun p => decide (p.2 = []))
  (43 :: (withV.flatMap (fun p => letterString p.1) ++ without.flatMap (fun p => letterString p.1)),
    withV.map (·.2))

end Verif.Model
