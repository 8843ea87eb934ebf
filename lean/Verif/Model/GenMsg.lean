import Verif.Model.Base64

/-! # Model of xirc/genmsg.go -/

namespace Verif.Model

/-- xirc/xirc.go — `maxMessageLength`. -/
def maxMessageLength : Nat := 512
/-- xirc/xirc.go — `maxMessageParams`. -/
def maxMessageParams : Nat := 15
/-- xirc/xirc.go — `MaxSASLLength`. -/
def maxSASLLength : Nat := 400

/-- The part of `irc.Message` these generators fill in. -/
structure Msg where
  command : Str
  params : List Str
deriving DecidableEq, Repr

/-- Go byte-wise string comparison `a < b`. -/
def strLt : Str → Str → Bool
  | _, [] => false
  | [], _ :: _ => true
  | a :: s, b :: t => if a < b then true else if b < a then false else strLt s t

/-- xirc/genmsg.go:72-78 — `joinSorter.Less` on (channel, key) pairs. -/
def joinLess (a b : Str × Str) : Bool :=
  if decide (a.2 ≠ []) ≠ decide (b.2 ≠ []) then decide (a.2 ≠ [])
  else strLt a.1 b.1

/-- Builder state of `GenerateJoin`. -/
structure JoinState where
  msgs : List Msg
  chans : Str
  keys : Str

/-- xirc/genmsg.go:32-36/49-54 — emit the current message. -/
def joinFlush (chans keys : Str) : Msg :=
  ⟨b!"JOIN", if keys.length > 0 then [chans, keys] else [chans]⟩

/-- xirc/genmsg.go:22-52 — loop body of `GenerateJoin`. -/
def joinStep (st : JoinState) (ck : Str × Str) : JoinState :=
  let (channel, key) := ck
  let maxLength := maxMessageLength - (b!"JOIN".length + 2)
  let n := st.chans.length + st.keys.length + 1 + channel.length
    + (if key ≠ [] then 1 + key.length else 0)
  let st := if st.chans.length > 0 ∧ n > maxLength then
      { msgs := st.msgs ++ [joinFlush st.chans st.keys], chans := [], keys := [] }
    else st
  let chans := (if st.chans.length > 0 then st.chans ++ [44] else st.chans) ++ channel
  let keys := if key ≠ [] then
      (if st.keys.length > 0 then st.keys ++ [44] else st.keys) ++ key
    else st.keys
  { st with chans := chans, keys := keys }

/-- xirc/genmsg.go:12-61 — `GenerateJoin` after `sort.Sort(&js)`: the argument is the sorted list of
(channel, key) pairs.  `sort.Sort` itself is the library's: theorems take any permutation of the input
that is sorted for `joinLess`. -/
def generateJoin (sorted : List (Str × Str)) : List Msg :=
  let st := sorted.foldl joinStep ⟨[], [], []⟩
  if st.chans.length > 0 then st.msgs ++ [joinFlush st.chans st.keys] else st.msgs

/-- xirc/genmsg.go:114 — `isupportEncoder.Replace`: one left-to-right pass. -/
def isupportEncode : Str → Str
  | [] => []
  | c :: s =>
    if c = 32 then b!"\\x20" ++ isupportEncode s
    else if c = 92 then b!"\\x5C" ++ isupportEncode s
    else c :: isupportEncode s

/-- xirc/genmsg.go:85-112 — `GenerateIsupport`. -/
def generateIsupport (tokens : List Str) : List Msg :=
  let maxTokens := maxMessageParams - 2
  if tokens = [] then []
  else if tokens.length > maxTokens then
    ⟨b!"005", b!"*" :: (tokens.take maxTokens).map isupportEncode ++ [b!"are supported"]⟩ ::
      generateIsupport (tokens.drop maxTokens)
  else [⟨b!"005", b!"*" :: tokens.map isupportEncode ++ [b!"are supported"]⟩]
termination_by tokens.length
decreasing_by simp [maxMessageParams] at *; omega

/-- Go `strings.Join(l, sep)` for a one-byte separator. -/
def joinSep (sep : Byte) : List Str → Str
  | [] => []
  | [x] => x
  | x :: y :: l => x ++ sep :: joinSep sep (y :: l)

/-- Builder state of `GenerateMonitor`. -/
structure MonitorState where
  msgs : List Msg
  buf : List Str
  n : Nat

/-- xirc/genmsg.go:144-157 — loop body.  `maxLength` is an `int` in Go and may be negative; the
comparison is the same with truncated subtraction because its left side is positive. -/
def monitorStep (subcmd : Str) (st : MonitorState) (target : Str) : MonitorState :=
  let maxLength := maxMessageLength - (b!"MONITOR " ++ subcmd ++ b!" ").length
  let st := if st.n + target.length + 1 > maxLength then
      { msgs := st.msgs ++ [⟨b!"MONITOR", [subcmd, joinSep 44 st.buf]⟩], buf := [], n := 0 }
    else st
  { st with buf := st.buf ++ [target], n := st.n + target.length + 1 }

/-- xirc/genmsg.go:138-166 — `GenerateMonitor`. -/
def generateMonitor (subcmd : Str) (targets : List Str) : List Msg :=
  let st := targets.foldl (monitorStep subcmd) ⟨[], [], 0⟩
  if st.buf.length > 0 then st.msgs ++ [⟨b!"MONITOR", [subcmd, joinSep 44 st.buf]⟩] else st.msgs

/-- irc.v4 `Message.String` for a message without tags and prefix: the last parameter gets a colon
if it is empty, contains a space or starts with a colon (library behaviour, used for the length
computation at xirc/genmsg.go:173). -/
def msgString (m : Msg) : Str :=
  m.command ++ go m.params
where
  go : List Str → Str
  | [] => []
  | [p] =>
    if p = [] ∨ 32 ∈ p ∨ p.head? = some 58 then b!" :" ++ p else 32 :: p
  | p :: q :: l => 32 :: p ++ go (q :: l)

/-- xirc/genmsg.go:176-189 — one RPL_NAMREPLY. -/
def namesMsg (channel : Str) (status : Byte) (names : Str) : Msg :=
  ⟨b!"353", [b!"*", [status], channel, names]⟩

/-- xirc/genmsg.go:177-194 — loop body of `GenerateNamesReply` (state: messages, buffer). -/
def namesStep (channel : Str) (status : Byte) (st : List Msg × Str) (s : Str) : List Msg × Str :=
  let maxLength := maxMessageLength - (msgString (namesMsg channel status [])).length
  let n := st.2.length + 1 + s.length
  let st := if st.2.length ≠ 0 ∧ n > maxLength then
      (st.1 ++ [namesMsg channel status st.2], [])
    else st
  (st.1, (if st.2.length ≠ 0 then st.2 ++ [32] else st.2) ++ s)

/-- xirc/genmsg.go:168-206 — `GenerateNamesReply`. -/
def generateNamesReply (channel : Str) (status : Byte) (members : List Str) : List Msg :=
  let st := members.foldl (namesStep channel status) ([], [])
  let msgs := if st.2.length ≠ 0 then st.1 ++ [namesMsg channel status st.2] else st.1
  msgs ++ [⟨b!"366", [b!"*", channel, b!"End of /NAMES list"]⟩]

/-- xirc/genmsg.go:213-229 — the chunk loop of `GenerateSASL`, on the remaining encoded text: chunks
of at most 400 bytes, `i <= len(encoded)`, an empty chunk being sent as "+". -/
def saslChunks (encoded : Str) : List Str :=
  if encoded.length < maxSASLLength then
    [if encoded = [] then b!"+" else encoded]
  else encoded.take maxSASLLength :: saslChunks (encoded.drop maxSASLLength)
termination_by encoded.length
decreasing_by simp [maxSASLLength] at *; omega

/-- xirc/genmsg.go:208-231 — `GenerateSASL`. -/
def generateSASL (resp : List Byte) : List Msg :=
  (saslChunks (Base64.encode .std resp)).map (fun c => ⟨b!"AUTHENTICATE", [c]⟩)

/-- Outcome of feeding one AUTHENTICATE line to `handleAuthenticate` while an exchange is under way. -/
inductive SaslOut where
  | wait                          -- multi-line response, wait for the next command
  | tooLong
  | badBase64
  | response (r : List Byte)      -- handed to the SASL mechanism
deriving DecidableEq, Repr

/-- downstream.go:987-1010 — the continuation branch of `handleAuthenticate`; the state is
`dc.sasl.pendingResp`. On an error the exchange is dropped (downstream.go:931-935). -/
def saslReceive (pending : Str) (param : Str) : Str × SaslOut :=
  let chunk := if param = b!"+" then [] else param
  if pending.length + chunk.length > 10 * 1024 then (pending, .tooLong)
  else
    let pending := pending ++ chunk
    if chunk.length = maxSASLLength then (pending, .wait)
    else
      match Base64.decode .std pending with
      | none => (pending, .badBase64)
      | some r => ([], .response r)

/-- Feed several AUTHENTICATE lines, stopping at the first one that ends the exchange or hands over a
response; returns the outcomes. -/
def saslReceiveAll (pending : Str) : List Str → List SaslOut
  | [] => []
  | p :: ps =>
    match saslReceive pending p with
    | (pending', .wait) => .wait :: saslReceiveAll pending' ps
    | (_, o) => [o]

end Verif.Model
