import Verif.Props.UpReg

/-! # C69: the bouncer and the server agree on the capabilities -/

namespace Verif.Props
open Verif.Model Verif.Proof

/-! ## Specification: a server, and the messages on the way -/

/-- A connection with a server: the state of the bouncer, the capabilities the server offers and those it considers
enabled, and the CAP messages on the way to the server and to the bouncer. -/
structure CapSys where
  b : UrState
  offered : List Str
  on : List Str
  up : List Msg
  down : List Msg

/-- A capability as servers spell it: lower case, without white space and equals sign, not starting with a minus. -/
def CapName (w : Str) : Prop :=
  w ≠ [] ∧ (∀ c ∈ w, isSpaceByte c = false) ∧ 61 ∉ w ∧ asciiLower w = w ∧ w.head? ≠ some 45

/-- One word of an accepted request, for the server. -/
def applyWord (on : List Str) (w : Str) : List Str :=
  if w.head? = some 45 then on.filter (fun n => decide (n ≠ w.tail)) else w :: on

/-- The server accepts a request as a whole if all capabilities to be enabled are on offer. -/
def Acceptable (offered ws : List Str) : Prop := ∀ w ∈ ws, w.head? = some 45 ∨ w ∈ offered

instance (offered ws : List Str) : Decidable (Acceptable offered ws) := by unfold Acceptable; infer_instance

/-- The reply of the server to a request, with the same text. -/
def replyTo (us : Str) (accepted : Bool) (m : Msg) : Msg :=
  ⟨b!"CAP", [us, if accepted then b!"ACK" else b!"NAK", (m.params.getLast?).getD []]⟩

/-- `labeled-response` is on offer together with `echo-message` only. -/
def EchoToo (offered : List Str) : Prop := b!"labeled-response" ∈ offered → b!"echo-message" ∈ offered

/-- The network asks for no login, or for a mechanism the bouncer knows. -/
def KnownMech (net : UrNet) : Prop := net.mech = [] ∨ net.mech = b!"PLAIN" ∨ net.mech = b!"EXTERNAL"

/-- The bouncer has handled a CAP message; its requests are on the way. -/
def sysHear (s : CapSys) (op : UrOp) (rest : List Msg) : CapSys :=
  { b := (urStep s.b op).1, offered := s.offered, on := s.on, down := rest,
    up := s.up ++ (urStep s.b op).2.1.filter (fun m => (reqWords m).isSome) }

/-- The server has accepted a request. -/
def sysAccept (s : CapSys) (us : Str) (m : Msg) (ws : List Str) (rest : List Msg) : CapSys :=
  { s with up := rest, on := ws.foldl applyWord s.on, down := s.down ++ [replyTo us true m] }

/-- The server has refused a request. -/
def sysRefuse (s : CapSys) (us : Str) (m : Msg) (rest : List Msg) : CapSys :=
  { s with up := rest, down := s.down ++ [replyTo us false m] }

/-- The server offers more capabilities. -/
def sysAnnounce (s : CapSys) (us : Str) (names : List Str) : CapSys :=
  { s with offered := s.offered ++ names, down := s.down ++ [⟨b!"CAP", [us, b!"NEW", joinSep 32 names]⟩] }

/-- The server withdraws capabilities; they are no longer enabled. -/
def sysWithdraw (s : CapSys) (us : Str) (names : List Str) : CapSys :=
  { s with offered := s.offered.filter (fun c => decide (c ∉ names)), on := s.on.filter (fun c => decide (c ∉ names)),
           down := s.down ++ [⟨b!"CAP", [us, b!"DEL", joinSep 32 names]⟩] }

/-- What can happen.  `calm`: the server changes its offer only when no CAP message is on the way.  `echo`: its offers
satisfy `EchoToo`. -/
inductive CapSysStep (calm echo : Bool) : CapSys → CapSys → Prop
  | hear {s : CapSys} {op : UrOp} {rest : List Msg} (hd : s.down = op.msg :: rest)
      (ho : op.ord.Perm permanentUpstreamCaps) (hk : KnownMech op.net) : CapSysStep calm echo s (sysHear s op rest)
  | other {s : CapSys} {op : UrOp} (hm : op.msg.command ≠ b!"CAP") :
      CapSysStep calm echo s { s with b := (urStep s.b op).1 }
  | accept {s : CapSys} {us : Str} {m : Msg} {rest : List Msg} {ws : List Str} (hu : s.up = m :: rest)
      (hw : reqWords m = some ws) (ha : Acceptable s.offered ws) : CapSysStep calm echo s (sysAccept s us m ws rest)
  | refuse {s : CapSys} {us : Str} {m : Msg} {rest : List Msg} {ws : List Str} (hu : s.up = m :: rest)
      (hw : reqWords m = some ws) (ha : ¬ Acceptable s.offered ws) : CapSysStep calm echo s (sysRefuse s us m rest)
  | announce {s : CapSys} {us : Str} {names : List Str} (hn : ∀ w ∈ names, CapName w)
      (hc : calm = true → s.up = [] ∧ s.down = []) (he : echo = true → EchoToo (s.offered ++ names)) :
      CapSysStep calm echo s (sysAnnounce s us names)
  | withdraw {s : CapSys} {us : Str} {names : List Str} (hn : ∀ w ∈ names, CapName w)
      (hc : calm = true → s.up = [] ∧ s.down = [])
      (he : echo = true → EchoToo (s.offered.filter (fun c => decide (c ∉ names)))) :
      CapSysStep calm echo s (sysWithdraw s us names)

/-- A new connection: the list of the capabilities is on the way. -/
def capSysStart (net : UrNet) (names : List Str) : CapSys :=
  { b := (urStart net).1, offered := names, on := [], up := [], down := [⟨b!"CAP", [b!"*", b!"LS", joinSep 32 names]⟩] }

/-- What can be reached from a new connection. -/
inductive CapSysReach (calm echo : Bool) : CapSys → Prop
  | start (net : UrNet) {names : List Str} (hn : ∀ w ∈ names, CapName w) (he : echo = true → EchoToo names) :
      CapSysReach calm echo (capSysStart net names)
  | step {s t : CapSys} (h : CapSysReach calm echo s) (hs : CapSysStep calm echo s t) : CapSysReach calm echo t

/-! ## Proof -/

/-- The bouncer and the server agree on the enabled capabilities. -/
def CapAgree (s : CapSys) : Prop := ∀ c, c ∈ s.b.caps.enabled ↔ c ∈ s.on
/-- The bouncer knows what is on offer. -/
def OfferKnown (s : CapSys) : Prop := ∀ c, s.b.caps.isAvailable c = true ↔ c ∈ s.offered

private theorem fields_names {names : List Str} (hn : ∀ w ∈ names, CapName w) : fields (joinSep 32 names) = names :=
  fields_joinSep names (fun w hw => ⟨(hn w hw).1, (hn w hw).2.1⟩)

private theorem takeWhile_free {x : Byte} {s : Str} (h : x ∉ s) : s.takeWhile (fun c => decide (c ≠ x)) = s := by
  induction s with
  | nil => rfl
  | cons a s ih =>
    simp only [List.mem_cons, not_or] at h
    have ha : a ≠ x := fun e => h.1 e.symm
    rw [List.takeWhile_cons_of_pos (by simp [ha]), ih h.2]

private theorem offerName_name {w : Str} (h : CapName w) : offerName w = w := by
  unfold offerName; rw [takeWhile_free h.2.2.1, h.2.2.2.1]

private theorem offer_saysOf {m : Msg} {names : List Str} (hn : ∀ w ∈ names, CapName w)
    (hs : capSays m = .offer names) (c : Str) :
    (∃ v, saysOf c m = some (some v)) ∧ c ∈ names ∨ saysOf c m = none ∧ c ∉ names := by
  unfold saysOf
  rw [hs]
  dsimp only
  cases hf : names.reverse.find? (fun w => offerName w == c) with
  | none =>
    right
    refine ⟨rfl, fun hc => ?_⟩
    have := List.find?_eq_none.1 hf c (by simpa using hc)
    rw [offerName_name (hn c hc)] at this
    simp at this
  | some w =>
    left
    have h1 := List.mem_of_find?_eq_some hf
    have h2 := List.find?_some hf
    simp only [List.mem_reverse] at h1
    rw [offerName_name (hn w h1)] at h2
    simp only [beq_iff_eq] at h2
    exact ⟨⟨_, rfl⟩, h2 ▸ h1⟩

private theorem reqWords_request (l : List Str) : (capRequest l).filter (fun m => (reqWords m).isSome) = capRequest l := by
  unfold capRequest
  split
  · rfl
  · simp [reqWords]

private theorem hear_offer {b : UrState} {op : UrOp} {us sub text : Str} (hm : op.msg = ⟨b!"CAP", [us, sub, text]⟩)
    (hs : sub = b!"LS" ∨ sub = b!"NEW") :
    (urStep b op).1.caps = handleSupportedCaps b.caps text ∧
    (urStep b op).2.1.filter (fun m => (reqWords m).isSome) =
      capRequest (requestedCaps op.ord (handleSupportedCaps b.caps text)) := by
  show (upRegister op.net op.ord b op.msg).1.caps = _ ∧ (upRegister op.net op.ord b op.msg).2.1.filter _ = _
  rw [hm]
  rcases hs with rfl | rfl
  · have hu : upRegister op.net op.ord b ⟨b!"CAP", [us, b!"LS", text]⟩ = upCapLS op.net op.ord b [us, b!"LS", text] := by
      simp [upRegister, upCap, asciiUpper, upperByte]
    rw [hu]
    unfold upCapLS
    simp only [List.drop_succ_cons, List.drop_zero, List.getLast?_singleton, List.length_singleton]
    rw [if_neg (by simp)]
    split
    · exact ⟨rfl, reqWords_request _⟩
    · refine ⟨rfl, ?_⟩
      rw [List.filter_append, reqWords_request]
      simp [reqWords, capEnd]
  · have hu : upRegister op.net op.ord b ⟨b!"CAP", [us, b!"NEW", text]⟩ =
        ({ b with caps := handleSupportedCaps b.caps text }, capRequest (requestedCaps op.ord (handleSupportedCaps b.caps text)), true) := by
      simp [upRegister, upCap, asciiUpper, upperByte]
    rw [hu]
    exact ⟨rfl, reqWords_request _⟩

private theorem hear_ack {b : UrState} {op : UrOp} {us text : Str} {ack : Bool}
    (hm : op.msg = ⟨b!"CAP", [us, if ack then b!"ACK" else b!"NAK", text]⟩) :
    (urStep b op).1.caps = (ackLoop op.net ack b (fields text)).1.caps ∧
    (urStep b op).2.1.filter (fun m => (reqWords m).isSome) = [] := by
  have hu : upRegister op.net op.ord b op.msg = ackLoop op.net ack b (fields text) := by
    rw [hm]
    cases ack <;> simp [upRegister, upCap, asciiUpper, upperByte]
  refine ⟨by show (upRegister op.net op.ord b op.msg).1.caps = _; rw [hu], ?_⟩
  show (upRegister op.net op.ord b op.msg).2.1.filter _ = []
  rw [hu, List.filter_eq_nil_iff]
  intro m hm'
  have : (ackLoop op.net ack b (fields text)).2.1 = (urStep b op).2.1 := by
    show _ = (upRegister op.net op.ord b op.msg).2.1; rw [hu]
  rw [this] at hm'
  rcases step_out hm' with ⟨_, ws, h2⟩ | ⟨h1, _⟩ | ⟨h1, _⟩ | ⟨h1, _⟩ | ⟨h0, _⟩ | ⟨_, h0, _⟩
  · rw [hm] at h2
    cases ack <;> simp [capSays, asciiUpper, upperByte] at h2
  · subst h1; simp [reqWords, capEnd]
  · subst h1; simp [reqWords, capEnd]
  · subst h1; simp [reqWords]
  · rw [hm] at h0; simp at h0
  · rw [hm] at h0; simp at h0

private theorem hear_del {b : UrState} {op : UrOp} {us text : Str} (hm : op.msg = ⟨b!"CAP", [us, b!"DEL", text]⟩) :
    (urStep b op).1.caps = (fields text).foldl CapReg.del b.caps ∧ (urStep b op).2.1 = [] := by
  have hu : upRegister op.net op.ord b op.msg = ({ b with caps := (fields text).foldl CapReg.del b.caps }, [], true) := by
    rw [hm]
    simp [upRegister, upCap, asciiUpper, upperByte]
  refine ⟨?_, ?_⟩
  · show (upRegister op.net op.ord b op.msg).1.caps = _; rw [hu]
  · show (upRegister op.net op.ord b op.msg).2.1 = _; rw [hu]

private theorem dels_mem (ws : List Str) (cr : CapReg) (c : Str) :
    (c ∈ (ws.foldl CapReg.del cr).enabled ↔ c ∈ cr.enabled ∧ c ∉ ws) ∧
    ((ws.foldl CapReg.del cr).isAvailable c = true ↔ cr.isAvailable c = true ∧ c ∉ ws) := by
  induction ws generalizing cr with
  | nil => simp
  | cons w ws ih =>
    rw [List.foldl_cons, (ih _).1, (ih _).2, mem_del]
    have : (cr.del w).isAvailable c = true ↔ cr.isAvailable c = true ∧ c ≠ w := by
      simp only [CapReg.isAvailable, CapReg.del, mget_mdel]
      grind
    rw [this]
    simp only [List.mem_cons, not_or]
    grind

private theorem known_ok {net : UrNet} (hk : KnownMech net) (b : UrState) (n : Str) (ok : Bool) :
    (handleCapAck net b n ok).2.2 = true ∧ (handleCapAck net b n ok).1.caps = b.caps.setEnabled n ok := by
  unfold handleCapAck
  dsimp only
  split
  · split
    · exact ⟨rfl, rfl⟩
    · rename_i hq
      split
      · exact ⟨rfl, rfl⟩
      · cases hc : saslClientFor net with
        | some cl => exact ⟨rfl, rfl⟩
        | none =>
          exfalso
          unfold saslClientFor at hc
          rcases hk with h | h | h
          · apply hq; unfold requestSASL; rw [if_pos h]
          · simp [h] at hc
          · simp [h] at hc
  · exact ⟨rfl, rfl⟩

private theorem ackLoop_caps {net : UrNet} (hk : KnownMech net) (ack : Bool) (ws : List Str) (b : UrState) :
    (ackLoop net ack b ws).1.caps = ws.foldl (fun cr w => cr.setEnabled (ackWord ack w).1 (ackWord ack w).2) b.caps := by
  induction ws generalizing b with
  | nil => rfl
  | cons w ws ih =>
    have h := known_ok hk b (ackWord ack w).1 (ackWord ack w).2
    unfold ackLoop
    dsimp only
    rw [h.1, if_neg (by simp), ih, h.2]
    rfl

private theorem minus_iff (w : Str) : hasPrefix b!"-" w = true ↔ w.head? = some 45 := by
  cases w with
  | nil => simp [hasPrefix]
  | cons a w => simp only [hasPrefix]; simp; exact ⟨Eq.symm, Eq.symm⟩

/-- Both sides treat an accepted request alike. -/
private theorem ack_agree (ws : List Str) (hw : ∀ w ∈ ws, asciiLower w = w) (cr : CapReg) (on : List Str)
    (h : ∀ c, c ∈ cr.enabled ↔ c ∈ on) (c : Str) :
    c ∈ (ws.foldl (fun cr w => cr.setEnabled (ackWord true w).1 (ackWord true w).2) cr).enabled ↔ c ∈ ws.foldl applyWord on := by
  induction ws generalizing cr on with
  | nil => exact h c
  | cons w ws ih =>
    rw [List.foldl_cons, List.foldl_cons]
    apply ih (fun x hx => hw x (by simp [hx]))
    intro c
    have hlw := hw w (by simp)
    by_cases hm : w.head? = some 45
    · match w, hm with
      | _ :: t, hm =>
        simp only [List.head?_cons, Option.some.injEq] at hm
        subst hm
        have hlt : asciiLower t = t := by
          have : asciiLower (45 :: t) = asciiLower [45] ++ asciiLower t := by simp [asciiLower]
          rw [this] at hlw
          simpa [asciiLower] using hlw
        have : ackWord true (45 :: t) = (t, false) := by
          simp [ackWord, hasPrefix, trimPrefix, hlt]
        rw [this, mem_setEnabled]
        simp only [applyWord, List.head?_cons, if_true, List.tail_cons, List.mem_filter]
        have := h c
        grind
    · have : ackWord true w = (w, true) := by
        unfold ackWord
        rw [if_neg (by rw [minus_iff]; exact hm), hlw]
      rw [this, mem_setEnabled]
      unfold applyWord
      rw [if_neg hm]
      have := h c
      simp only [List.mem_cons]
      grind

/-- A refusal changes nothing if nothing in the request was enabled. -/
private theorem nak_same (ws : List Str) (hw : ∀ w ∈ ws, asciiLower w = w ∧ w.head? ≠ some 45) (cr : CapReg)
    (hn : ∀ w ∈ ws, w ∉ cr.enabled) (c : Str) :
    c ∈ (ws.foldl (fun cr w => cr.setEnabled (ackWord false w).1 (ackWord false w).2) cr).enabled ↔ c ∈ cr.enabled := by
  induction ws generalizing cr with
  | nil => rfl
  | cons w ws ih =>
    have hlw := hw w (by simp)
    have haw : ackWord false w = (w, false) := by
      unfold ackWord
      rw [if_neg (by rw [minus_iff]; exact hlw.2), hlw.1]
    have hw0 := hn w (by simp)
    have hset : ∀ c, c ∈ (cr.setEnabled w false).enabled ↔ c ∈ cr.enabled := by
      intro c; rw [mem_setEnabled]
      grind
    rw [List.foldl_cons, haw, ih (fun x hx => hw x (by simp [hx])) _ (fun x hx => by rw [hset]; exact hn x (by simp [hx])), hset]

private theorem folds_available (f : Str → Str × Bool) (ws : List Str) (cr : CapReg) :
    (ws.foldl (fun cr w => cr.setEnabled (f w).1 (f w).2) cr).available = cr.available := by
  induction ws generalizing cr with
  | nil => rfl
  | cons w ws ih => rw [List.foldl_cons, ih, setEnabled_available]

/-- Everything the bouncer wants and the server offers is enabled. -/
def AllWanted (s : CapSys) : Prop := ∀ c ∈ permanentUpstreamCaps, c ∈ s.offered → c ∈ s.on

/-- The request of these capabilities. -/
private def reqMsg (l : List Str) : Msg := ⟨b!"CAP", [b!"REQ", joinSep 32 l]⟩

/-- What an accepted request makes of the table. -/
private def acked (cr : CapReg) (l : List Str) : CapReg :=
  l.foldl (fun cr w => cr.setEnabled (ackWord true w).1 (ackWord true w).2) cr

private inductive CapPhase (echo : Bool) (s : CapSys) : Prop
  | idle (hu : s.up = []) (hd : s.down = []) (ha : CapAgree s) (ho : OfferKnown s) (he : echo = true → AllWanted s)
  | offer {us sub : Str} {names : List Str} (hu : s.up = []) (hd : s.down = [⟨b!"CAP", [us, sub, joinSep 32 names]⟩])
      (hs : sub = b!"LS" ∨ sub = b!"NEW") (hn : ∀ w ∈ names, CapName w) (ha : CapAgree s)
      (ho : ∀ c, c ∈ s.offered ↔ s.b.caps.isAvailable c = true ∨ c ∈ names)
  | req {ord : List Str} (hp : ord.Perm permanentUpstreamCaps) (hu : s.up = [reqMsg (requestedCaps ord s.b.caps)])
      (hd : s.down = []) (ha : CapAgree s) (ho : OfferKnown s)
  | ack {us : Str} {ord : List Str} (hp : ord.Perm permanentUpstreamCaps) (hu : s.up = [])
      (hd : s.down = [replyTo us true (reqMsg (requestedCaps ord s.b.caps))])
      (ha : ∀ c, c ∈ (acked s.b.caps (requestedCaps ord s.b.caps)).enabled ↔ c ∈ s.on) (ho : OfferKnown s)
      (he : echo = true → AllWanted s)
  | nak {us : Str} {ord : List Str} (hp : ord.Perm permanentUpstreamCaps) (hu : s.up = [])
      (hd : s.down = [replyTo us false (reqMsg (requestedCaps ord s.b.caps))])
      (hm : b!"-echo-message" ∉ requestedCaps ord s.b.caps) (ha : CapAgree s) (ho : OfferKnown s) (he : echo = false)
  | del {us : Str} {names : List Str} (hu : s.up = []) (hd : s.down = [⟨b!"CAP", [us, b!"DEL", joinSep 32 names]⟩])
      (hn : ∀ w ∈ names, CapName w) (ha : ∀ c, c ∈ s.on ↔ c ∈ s.b.caps.enabled ∧ c ∉ names)
      (ho : ∀ c, c ∈ s.offered ↔ s.b.caps.isAvailable c = true ∧ c ∉ names) (he : echo = true → AllWanted s)

private theorem perm_names : ∀ w ∈ permanentUpstreamCaps ++ [b!"echo-message", b!"-echo-message"], asciiLower w = w := by decide +kernel
private theorem perm_plain : ∀ w ∈ permanentUpstreamCaps ++ [b!"echo-message"], w.head? ≠ some 45 := by decide +kernel
private theorem perm_echo : b!"echo-message" ∉ permanentUpstreamCaps := by decide +kernel

private theorem req_lower {ord : List Str} (hp : ord.Perm permanentUpstreamCaps) (cr : CapReg) :
    ∀ w ∈ requestedCaps ord cr, asciiLower w = w := by
  intro w hw
  apply perm_names
  rcases (mem_requested hp cr w).1 hw with ⟨h, _⟩ | ⟨h, _⟩ | ⟨h, _⟩ <;> simp [h]

private theorem req_plain {ord : List Str} (hp : ord.Perm permanentUpstreamCaps) (cr : CapReg)
    {w : Str} (hw : w ∈ requestedCaps ord cr) (hne : w ≠ b!"-echo-message") : w.head? ≠ some 45 ∧ w ∉ cr.enabled := by
  rcases (mem_requested hp cr w).1 hw with ⟨h, _, h2⟩ | ⟨h, h2, _⟩ | ⟨h, _⟩
  · exact ⟨perm_plain _ (by simp [h]), h2⟩
  · exact ⟨perm_plain _ (by simp [h]), h ▸ h2⟩
  · exact absurd h hne

private theorem reqWords_reqMsg {ord : List Str} (hp : ord.Perm permanentUpstreamCaps) {cr : CapReg} {ws : List Str}
    (h : reqWords (reqMsg (requestedCaps ord cr)) = some ws) : ws = requestedCaps ord cr := by
  simp only [reqMsg, reqWords, and_self, if_true, Option.some.injEq] at h
  rw [← h, fields_joinSep _ (request_words hp cr)]

private theorem support_available (names : List Str) (hn : ∀ w ∈ names, CapName w) (cr : CapReg) (c : Str) :
    (handleSupportedCaps cr (joinSep 32 names)).isAvailable c = true ↔ cr.isAvailable c = true ∨ c ∈ names := by
  unfold handleSupportedCaps CapReg.isAvailable
  rw [fields_names hn, support_get]
  cases hf : names.reverse.find? (fun w => offerName w == c) with
  | none =>
    have : c ∉ names := fun hc => by
      have := List.find?_eq_none.1 hf c (by simpa using hc)
      rw [offerName_name (hn c hc)] at this
      simp at this
    simp [this]
  | some w =>
    have h1 := List.mem_of_find?_eq_some hf
    have h2 := List.find?_some hf
    simp only [List.mem_reverse] at h1
    rw [offerName_name (hn w h1)] at h2
    simp only [beq_iff_eq] at h2
    subst h2
    simp [h1]

private theorem applied_mem (ws : List Str) (on : List Str) (c : Str) (h1 : c ∈ on ∨ (c ∈ ws ∧ c.head? ≠ some 45))
    (h2 : (45 :: c) ∉ ws) : c ∈ ws.foldl applyWord on := by
  induction ws generalizing on with
  | nil => simpa using h1
  | cons w ws ih =>
    rw [List.foldl_cons]
    simp only [List.mem_cons, not_or] at h2 h1
    apply ih _ _ h2.2
    by_cases hw : w.head? = some 45
    · match w, hw with
      | a :: t, hw =>
        simp only [List.head?_cons, Option.some.injEq] at hw
        subst hw
        rcases h1 with h | ⟨h | h, h'⟩
        · left
          unfold applyWord
          rw [if_pos (by rfl), List.mem_filter]
          refine ⟨h, ?_⟩
          have : c ≠ t := fun e => h2.1 (by rw [e])
          simp [this]
        · subst h; simp at h'
        · exact .inr ⟨h, h'⟩
    · unfold applyWord
      rw [if_neg hw]
      rcases h1 with h | ⟨h | h, h'⟩
      · left; simp [h]
      · left; simp [h]
      · exact .inr ⟨h, h'⟩

private theorem phase_step {echo : Bool} {s t : CapSys} (hi : CapPhase echo s) (he0 : echo = true → EchoToo s.offered)
    (hs : CapSysStep true echo s t) : CapPhase echo t := by
  cases hs with
  | @hear op rest hd ho hk =>
    cases hi with
    | idle _ hd' => rw [hd'] at hd; simp at hd
    | @offer us sub names hu hd' hs hn ha hoff =>
      rw [hd'] at hd
      simp only [List.cons.injEq] at hd
      obtain ⟨hm, rfl⟩ := hd
      obtain ⟨h1, h2⟩ := hear_offer (b := s.b) hm.symm hs
      have hen : (urStep s.b op).1.caps.enabled = s.b.caps.enabled := by
        rw [h1]; exact support_enabled _ _
      have hag : CapAgree (sysHear s op []) := by
        intro c
        show c ∈ (urStep s.b op).1.caps.enabled ↔ c ∈ s.on
        rw [hen]; exact ha c
      have hok : OfferKnown (sysHear s op []) := by
        intro c
        show (urStep s.b op).1.caps.isAvailable c = true ↔ c ∈ s.offered
        rw [h1, support_available names hn, hoff]
      have hup : (sysHear s op []).up = capRequest (requestedCaps op.ord (urStep s.b op).1.caps) := by
        show s.up ++ _ = _
        rw [hu, h2, h1]; rfl
      by_cases hr : requestedCaps op.ord (urStep s.b op).1.caps = []
      · refine .idle ?_ rfl hag hok ?_
        · rw [hup, hr]; rfl
        · intro _ c hc hof
          apply Classical.byContradiction
          intro hnon
          have : c ∈ requestedCaps op.ord (urStep s.b op).1.caps :=
            (mem_requested ho _ c).2 (.inl ⟨hc, (hok c).2 hof, fun h => hnon ((hag c).1 h)⟩)
          rw [hr] at this; simp at this
      · refine .req ho ?_ rfl hag hok
        rw [hup]
        unfold capRequest
        rw [if_neg hr]; rfl
    | req _ _ hd' => rw [hd'] at hd; simp at hd
    | @ack us ord hp hu hd' ha hoff he =>
      rw [hd'] at hd
      simp only [List.cons.injEq] at hd
      obtain ⟨hm, rfl⟩ := hd
      obtain ⟨h1, h2⟩ := hear_ack (b := s.b) (ack := true) hm.symm
      have hcaps : (urStep s.b op).1.caps = acked s.b.caps (requestedCaps ord s.b.caps) := by
        rw [h1, ackLoop_caps hk]
        simp only [reqMsg, List.getLast?_cons_cons, List.getLast?_singleton, Option.getD_some]
        rw [fields_joinSep _ (request_words hp _)]; rfl
      refine .idle ?_ rfl ?_ ?_ he
      · show s.up ++ _ = _; rw [hu, h2]; rfl
      · intro c
        show c ∈ (urStep s.b op).1.caps.enabled ↔ _
        rw [hcaps]; exact ha c
      · intro c
        show (urStep s.b op).1.caps.isAvailable c = true ↔ _
        rw [hcaps]
        have : (acked s.b.caps (requestedCaps ord s.b.caps)).isAvailable c = s.b.caps.isAvailable c := by
          unfold CapReg.isAvailable acked; rw [folds_available]
        rw [this]; exact hoff c
    | @nak us ord hp hu hd' hm0 ha hoff he =>
      rw [hd'] at hd
      simp only [List.cons.injEq] at hd
      obtain ⟨hm, rfl⟩ := hd
      obtain ⟨h1, h2⟩ := hear_ack (b := s.b) (ack := false) hm.symm
      have hcaps : (urStep s.b op).1.caps =
          (requestedCaps ord s.b.caps).foldl (fun cr w => cr.setEnabled (ackWord false w).1 (ackWord false w).2) s.b.caps := by
        rw [h1, ackLoop_caps hk]
        simp only [reqMsg, List.getLast?_cons_cons, List.getLast?_singleton, Option.getD_some]
        rw [fields_joinSep _ (request_words hp _)]
      have hpl : ∀ w ∈ requestedCaps ord s.b.caps, w.head? ≠ some 45 ∧ w ∉ s.b.caps.enabled :=
        fun w hw => req_plain hp _ hw (fun e => hm0 (e ▸ hw))
      refine .idle ?_ rfl ?_ ?_ ?_
      · show s.up ++ _ = _; rw [hu, h2]; rfl
      · intro c
        show c ∈ (urStep s.b op).1.caps.enabled ↔ _
        rw [hcaps, nak_same _ (fun w hw => ⟨req_lower hp _ w hw, (hpl w hw).1⟩) _ (fun w hw => (hpl w hw).2)]
        exact ha c
      · intro c
        show (urStep s.b op).1.caps.isAvailable c = true ↔ _
        rw [hcaps]
        unfold CapReg.isAvailable; rw [folds_available]; exact hoff c
      · intro h; rw [he] at h; simp at h
    | @del us names hu hd' hn ha hoff he =>
      rw [hd'] at hd
      simp only [List.cons.injEq] at hd
      obtain ⟨hm, rfl⟩ := hd
      obtain ⟨h1, h2⟩ := hear_del (b := s.b) hm.symm
      rw [fields_names hn] at h1
      refine .idle ?_ rfl ?_ ?_ he
      · show s.up ++ _ = _; rw [hu, h2]; rfl
      · intro c
        show c ∈ (urStep s.b op).1.caps.enabled ↔ c ∈ s.on
        rw [h1, (dels_mem ..).1, ha]
      · intro c
        show (urStep s.b op).1.caps.isAvailable c = true ↔ c ∈ s.offered
        rw [h1, (dels_mem ..).2, hoff]
  | @other op hm =>
    have hc : (urStep s.b op).1.caps = s.b.caps := noncap_caps hm
    cases hi with
    | idle hu hd ha ho he =>
      exact .idle hu hd (by unfold CapAgree; rw [hc]; exact ha) (by unfold OfferKnown; rw [hc]; exact ho) he
    | offer hu hd hs hn ha ho =>
      exact .offer hu hd hs hn (by unfold CapAgree; rw [hc]; exact ha) (by dsimp only; rw [hc]; exact ho)
    | req hp hu hd ha ho =>
      exact .req hp (by dsimp only; rw [hc]; exact hu) hd (by unfold CapAgree; rw [hc]; exact ha) (by unfold OfferKnown; rw [hc]; exact ho)
    | ack hp hu hd ha ho he =>
      exact .ack hp hu (by dsimp only; rw [hc]; exact hd) (by dsimp only; rw [hc]; exact ha) (by unfold OfferKnown; rw [hc]; exact ho) he
    | nak hp hu hd hm ha ho he =>
      exact .nak hp hu (by dsimp only; rw [hc]; exact hd) (by dsimp only; rw [hc]; exact hm)
        (by unfold CapAgree; rw [hc]; exact ha) (by unfold OfferKnown; rw [hc]; exact ho) he
    | del hu hd hn ha ho he =>
      exact .del hu hd hn (by dsimp only; rw [hc]; exact ha) (by dsimp only; rw [hc]; exact ho) he
  | @accept us m rest ws hu hw ha =>
    cases hi with
    | @req ord hp hu' hd hag ho =>
      rw [hu'] at hu
      simp only [List.cons.injEq] at hu
      obtain ⟨rfl, rfl⟩ := hu
      have hws := reqWords_reqMsg hp hw
      subst hws
      refine .ack (us := us) hp rfl ?_ ?_ ho ?_
      · show s.down ++ _ = _; rw [hd]; rfl
      · intro c
        exact ack_agree _ (req_lower hp _) _ _ hag c
      · intro h c hc hof
        show c ∈ (requestedCaps ord s.b.caps).foldl applyWord s.on
        apply applied_mem
        · by_cases hcon : c ∈ s.on
          · exact .inl hcon
          · right
            refine ⟨(mem_requested hp _ c).2 (.inl ⟨hc, (ho c).2 hof, fun hh => hcon ((hag c).1 hh)⟩), perm_plain c (by simp [hc])⟩
        · intro hmin
          rcases (mem_requested hp _ _).1 hmin with ⟨h1, _⟩ | ⟨h1, _⟩ | ⟨h1, _⟩
          · exact perm_plain _ (List.mem_append_left _ h1) rfl
          · simp at h1
          · have : c = b!"echo-message" := by simpa using h1
            exact perm_echo (this ▸ hc)
    | idle hu' => rw [hu'] at hu; simp at hu
    | offer hu' => rw [hu'] at hu; simp at hu
    | ack _ hu' => rw [hu'] at hu; simp at hu
    | nak _ hu' => rw [hu'] at hu; simp at hu
    | del hu' => rw [hu'] at hu; simp at hu
  | @refuse us m rest ws hu hw ha =>
    cases hi with
    | @req ord hp hu' hd hag ho =>
      rw [hu'] at hu
      simp only [List.cons.injEq] at hu
      obtain ⟨rfl, rfl⟩ := hu
      have hws := reqWords_reqMsg hp hw
      subst hws
      have hbad : b!"labeled-response" ∈ s.offered ∧ b!"echo-message" ∉ s.offered ∧ b!"echo-message" ∉ s.b.caps.enabled := by
        apply Classical.byContradiction
        intro hno
        apply ha
        intro w hw'
        rcases (mem_requested hp _ w).1 hw' with ⟨_, h1, _⟩ | ⟨h1, h2, h3⟩ | ⟨h1, _⟩
        · exact .inr ((ho w).1 h1)
        · right
          apply Classical.byContradiction
          intro hne
          exact hno ⟨(ho _).1 h3, h1 ▸ hne, h2⟩
        · left; rw [h1]; rfl
      refine .nak (us := us) hp rfl ?_ ?_ hag ho ?_
      · show s.down ++ _ = _; rw [hd]; rfl
      · intro hmin
        rcases (mem_requested hp _ _).1 hmin with ⟨h1, _⟩ | ⟨h1, _⟩ | ⟨_, h1, _⟩
        · exact perm_plain _ (List.mem_append_left _ h1) rfl
        · simp at h1
        · exact hbad.2.2 h1
      · cases echo with
        | false => rfl
        | true => exact absurd (he0 rfl hbad.1) hbad.2.1
    | idle hu' => rw [hu'] at hu; simp at hu
    | offer hu' => rw [hu'] at hu; simp at hu
    | ack _ hu' => rw [hu'] at hu; simp at hu
    | nak _ hu' => rw [hu'] at hu; simp at hu
    | del hu' => rw [hu'] at hu; simp at hu
  | @announce us names hn hc he =>
    obtain ⟨hu, hd⟩ := hc rfl
    cases hi with
    | idle _ _ ha ho _ =>
      refine .offer (us := us) (names := names) hu ?_ (.inr rfl) hn ha ?_
      · show s.down ++ _ = _; rw [hd]; rfl
      · intro c
        show c ∈ s.offered ++ names ↔ s.b.caps.isAvailable c = true ∨ _
        rw [List.mem_append, ← ho c]
    | req _ hu' => rw [hu'] at hu; simp at hu
    | offer _ hd' => rw [hd'] at hd; simp at hd
    | ack _ _ hd' => rw [hd'] at hd; simp at hd
    | nak _ _ hd' => rw [hd'] at hd; simp at hd
    | del _ hd' => rw [hd'] at hd; simp at hd
  | @withdraw us names hn hc he =>
    obtain ⟨hu, hd⟩ := hc rfl
    cases hi with
    | idle _ _ ha ho hall =>
      refine .del (us := us) (names := names) hu ?_ hn ?_ ?_ ?_
      · show s.down ++ _ = _; rw [hd]; rfl
      · intro c
        show c ∈ s.on.filter _ ↔ c ∈ s.b.caps.enabled ∧ _
        rw [List.mem_filter, ha c, decide_eq_true_eq]
      · intro c
        show c ∈ s.offered.filter _ ↔ s.b.caps.isAvailable c = true ∧ _
        rw [List.mem_filter, ho c, decide_eq_true_eq]
      · intro h c hcp hof
        have hof : c ∈ s.offered.filter (fun c => decide (c ∉ names)) := hof
        show c ∈ s.on.filter (fun c => decide (c ∉ names))
        rw [List.mem_filter] at hof ⊢
        exact ⟨hall h c hcp hof.1, hof.2⟩
    | req _ hu' => rw [hu'] at hu; simp at hu
    | offer _ hd' => rw [hd'] at hd; simp at hd
    | ack _ _ hd' => rw [hd'] at hd; simp at hd
    | nak _ _ hd' => rw [hd'] at hd; simp at hd
    | del _ hd' => rw [hd'] at hd; simp at hd

private theorem reach_echo {calm : Bool} {s : CapSys} (h : CapSysReach calm true s) : EchoToo s.offered := by
  induction h with
  | start _ _ he => exact he rfl
  | step _ hs ih =>
    cases hs with
    | announce _ _ he => exact he rfl
    | withdraw _ _ he => exact he rfl
    | _ => exact ih

private theorem reach_phase {echo : Bool} {s : CapSys} (h : CapSysReach true echo s) : CapPhase echo s := by
  induction h with
  | @start net names hn _ =>
    refine .offer (names := names) rfl rfl (.inl rfl) hn ?_ ?_
    · intro c
      simp [capSysStart, urStart]
    · intro c
      simp [capSysStart, urStart, CapReg.isAvailable, GoMap.get]
  | @step s t h hs ih =>
    refine phase_step ih ?_ hs
    intro he; subst he; exact reach_echo h

/-- C69, in part: with a server that waits for the end of a negotiation before it changes its offer, whenever no CAP
message is on the way the bouncer and the server agree on what is on offer and on what is enabled. -/
theorem C69_agree_partial {echo : Bool} {s : CapSys} (h : CapSysReach true echo s) (hu : s.up = []) (hd : s.down = []) :
    CapAgree s ∧ OfferKnown s := by
  cases reach_phase h with
  | idle _ _ ha ho _ => exact ⟨ha, ho⟩
  | offer _ hd' => rw [hd'] at hd; simp at hd
  | req _ hu' => rw [hu'] at hu; simp at hu
  | ack _ _ hd' => rw [hd'] at hd; simp at hd
  | nak _ _ hd' => rw [hd'] at hd; simp at hd
  | del _ hd' => rw [hd'] at hd; simp at hd

/-- C69, in part: with such a server that never offers `labeled-response` without `echo-message`, whenever no CAP message
is on the way every capability the bouncer wants and the server offers is enabled. -/
theorem C69_wanted_partial {s : CapSys} (h : CapSysReach true true s) (hu : s.up = []) (hd : s.down = []) : AllWanted s := by
  cases reach_phase h with
  | idle _ _ _ _ he => exact he rfl
  | offer _ hd' => rw [hd'] at hd; simp at hd
  | req _ hu' => rw [hu'] at hu; simp at hu
  | ack _ _ hd' => rw [hd'] at hd; simp at hd
  | nak _ _ hd' => rw [hd'] at hd; simp at hd
  | del _ hd' => rw [hd'] at hd; simp at hd

/-! ## Examples and disagreement -/

/-- A message heard by the bouncer of `exNet`. -/
private def hearOp (ps : List Str) : UrOp := { net := exNet, ord := permanentUpstreamCaps, msg := ⟨b!"CAP", ps⟩ }

private theorem hearOp_step {calm echo : Bool} {s : CapSys} (h : CapSysReach calm echo s) (ps : List Str) (rest : List Msg)
    (hd : s.down = ⟨b!"CAP", ps⟩ :: rest) : CapSysReach calm echo (sysHear s (hearOp ps) rest) :=
  .step h (.hear hd (List.Perm.refl _) (by unfold KnownMech hearOp exNet; simp))

instance (w : Str) : Decidable (CapName w) := by unfold CapName; infer_instance

private def n1 : CapSys := capSysStart exNet [b!"batch", b!"sts"]
private def n2 : CapSys := sysHear n1 (hearOp [b!"*", b!"LS", b!"batch sts"]) []
private def n3 : CapSys := sysAccept n2 b!"*" ⟨b!"CAP", [b!"REQ", b!"batch"]⟩ [b!"batch"] []
private def n4 : CapSys := sysHear n3 (hearOp [b!"*", b!"ACK", b!"batch"]) []
private def n5 : CapSys := sysAnnounce n4 b!"bob" [b!"setname"]
private def n6 : CapSys := sysHear n5 (hearOp [b!"bob", b!"NEW", b!"setname"]) []
private def n7 : CapSys := sysAccept n6 b!"bob" ⟨b!"CAP", [b!"REQ", b!"setname"]⟩ [b!"setname"] []
private def n8 : CapSys := sysHear n7 (hearOp [b!"bob", b!"ACK", b!"setname"]) []

private theorem n8_reach : CapSysReach true true n8 := by
  have h1 : CapSysReach true true n1 := .start exNet (by decide +kernel) (fun _ h => absurd h (by decide +kernel))
  have h2 : CapSysReach true true n2 := hearOp_step h1 _ _ (by decide +kernel)
  have h3 : CapSysReach true true n3 := .step h2 (.accept (by decide +kernel) (by decide +kernel) (by decide +kernel))
  have h4 : CapSysReach true true n4 := hearOp_step h3 _ _ (by decide +kernel)
  have h5 : CapSysReach true true n5 :=
    .step h4 (.announce (by decide +kernel) (fun _ => by decide +kernel) (fun _ h => absurd h (by decide +kernel)))
  have h6 : CapSysReach true true n6 := hearOp_step h5 _ _ (by decide +kernel)
  have h7 : CapSysReach true true n7 := .step h6 (.accept (by decide +kernel) (by decide +kernel) (by decide +kernel))
  exact hearOp_step h7 _ _ (by decide +kernel)

example : CapSysReach true true n8 ∧ n8.up = [] ∧ n8.down = [] ∧ n8.on = [b!"setname", b!"batch"] ∧
    n8.offered = [b!"batch", b!"sts", b!"setname"] :=
  ⟨n8_reach, by decide +kernel⟩

private def v1 : CapSys := capSysStart exNet [b!"batch"]
private def v2 : CapSys := sysHear v1 (hearOp [b!"*", b!"LS", b!"batch"]) []
private def v3 : CapSys := sysAnnounce v2 b!"*" [b!"setname"]
private def v4 : CapSys := sysHear v3 (hearOp [b!"*", b!"NEW", b!"setname"]) []
private def v5 : CapSys := sysWithdraw v4 b!"*" [b!"setname"]
private def v6 : CapSys := sysAccept v5 b!"*" ⟨b!"CAP", [b!"REQ", b!"batch"]⟩ [b!"batch"] [⟨b!"CAP", [b!"REQ", b!"batch setname"]⟩]
private def v7 : CapSys := sysRefuse v6 b!"*" ⟨b!"CAP", [b!"REQ", b!"batch setname"]⟩ []
private def v8 : CapSys := sysHear v7 (hearOp [b!"*", b!"DEL", b!"setname"]) [⟨b!"CAP", [b!"*", b!"ACK", b!"batch"]⟩, ⟨b!"CAP", [b!"*", b!"NAK", b!"batch setname"]⟩]
private def v9 : CapSys := sysHear v8 (hearOp [b!"*", b!"ACK", b!"batch"]) [⟨b!"CAP", [b!"*", b!"NAK", b!"batch setname"]⟩]
private def v10 : CapSys := sysHear v9 (hearOp [b!"*", b!"NAK", b!"batch setname"]) []

/-- C69, disagreement: if the server adds a capability and withdraws it while a request is under way, the bouncer asks
twice for another capability; the refusal of the second request makes it treat that capability as disabled, although the
server has enabled it. -/
theorem C69_agree_violated : ∃ s : CapSys, CapSysReach false true s ∧ s.up = [] ∧ s.down = [] ∧
    b!"batch" ∈ s.on ∧ b!"batch" ∉ s.b.caps.enabled := by
  refine ⟨v10, ?_, by decide +kernel⟩
  have h1 : CapSysReach false true v1 := .start exNet (by decide +kernel) (fun _ h => absurd h (by decide +kernel))
  have h2 : CapSysReach false true v2 := hearOp_step h1 _ _ (by decide +kernel)
  have h3 : CapSysReach false true v3 :=
    .step h2 (.announce (by decide +kernel) (fun h => by simp at h) (fun _ h => absurd h (by decide +kernel)))
  have h4 : CapSysReach false true v4 := hearOp_step h3 _ _ (by decide +kernel)
  have h5 : CapSysReach false true v5 :=
    .step h4 (.withdraw (by decide +kernel) (fun h => by simp at h) (fun _ h => absurd h (by decide +kernel)))
  have h6 : CapSysReach false true v6 := .step h5 (.accept (by decide +kernel) (by decide +kernel) (by decide +kernel))
  have h7 : CapSysReach false true v7 := .step h6 (.refuse (ws := [b!"batch", b!"setname"]) (by decide +kernel) (by decide +kernel) (by decide +kernel))
  have h8 : CapSysReach false true v8 := hearOp_step h7 _ _ (by decide +kernel)
  have h9 : CapSysReach false true v9 := hearOp_step h8 _ _ (by decide +kernel)
  exact hearOp_step h9 _ _ (by decide +kernel)

end Verif.Props
