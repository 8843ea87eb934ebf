import Verif.Model.UpReg
import Verif.Proof.Caps
import Verif.Proof.GoMap
import Verif.Proof.GoStr
import Verif.Proof.Util

/-! # C69: the bouncer registers with a server -/

namespace Verif.Props
open Verif.Model Verif.Proof

/-! ## Specification: what the server says about capabilities -/

/-- What a CAP message of the server is about; the words are separated by white space. -/
inductive SrvCap where
  | offer (words : List Str)
  | withdraw (words : List Str)
  | grant (words : List Str)
  | refuse (words : List Str)
  | other

/-- The messages `CAP us LS [*] :…`, `CAP us NEW :…`, `CAP us DEL :…`, `CAP us ACK :…`, `CAP us NAK :…`. -/
def capSays (m : Msg) : SrvCap :=
  match m.command == b!"CAP", m.params with
  | true, _ :: sub :: t :: ts =>
    if asciiUpper sub = b!"LS" then .offer (fields ((t :: ts).getLast (by simp)))
    else if asciiUpper sub = b!"NEW" then .offer (fields t)
    else if asciiUpper sub = b!"DEL" then .withdraw (fields t)
    else if asciiUpper sub = b!"ACK" then .grant (fields t)
    else if asciiUpper sub = b!"NAK" then .refuse (fields t)
    else .other
  | _, _ => .other

/-- The name of a capability on offer: what precedes the equals sign, in lower case. -/
def offerName (w : Str) : Str := asciiLower (w.takeWhile (fun c => decide (c ≠ 61)))
/-- The value of a capability on offer: what follows the equals sign. -/
def offerValue (w : Str) : Str := (w.dropWhile (fun c => decide (c ≠ 61))).drop 1

/-- What one message says about the offer of the capability `c`: nothing, or its value, or that it is no
longer on offer. -/
def saysOf (c : Str) (m : Msg) : Option (Option Str) :=
  match capSays m with
  | .offer ws => (ws.reverse.find? (fun w => offerName w == c)).map (fun w => some (offerValue w))
  | .withdraw ws => if c ∈ ws.map asciiLower then some none else none
  | _ => none

/-- The value with which the capability `c` is on offer after these messages: the last thing said about it. -/
def onOffer (c : Str) (h : List Msg) : Option Str := (h.reverse.findSome? (saysOf c)).join

/-- Capabilities are withdrawn in lower case. -/
def LowerDel (m : Msg) : Prop := ∀ ws, capSays m = .withdraw ws → ∀ w ∈ ws, asciiLower w = w

/-- The server accepts the mechanism: it has offered `sasl`, without list of mechanisms or naming this one. -/
def AcceptsMech (h : List Msg) (mech : Str) : Prop :=
  ∃ v, onOffer b!"sasl" h = some v ∧ (v = [] ∨ ∃ m ∈ splitByte 44 v, asciiLower m = asciiLower mech)

/-- The messages of the server in a history. -/
def heard (ops : List UrOp) : List Msg := ops.map (·.msg)

/-- The connection to the server, made with the settings `net`, is open after the messages `ops`. -/
def OpenAfter (net : UrNet) (ops : List UrOp) (st : UrState) : Prop := (urRun (urStart net).1 ops).1 = some st

/-! ## The table of capabilities on offer -/

theorem urRun_snoc (st : UrState) (ops : List UrOp) (op : UrOp) :
    urRun st (ops ++ [op]) = match (urRun st ops).1 with
      | none => urRun st ops
      | some s => (if (urStep s op).2.2 then some (urStep s op).1 else none, (urRun st ops).2 ++ (urStep s op).2.1) := by
  induction ops generalizing st with
  | nil => simp [urRun]
           split <;> simp_all
  | cons o ops ih =>
    simp only [List.cons_append, urRun]
    by_cases hg : (urStep st o).2.2 = true
    · simp only [hg, if_true, ih]
      cases h : (urRun (urStep st o).1 ops).1 with
      | none => simp [h]
      | some s => simp
    · simp [hg]

/-- Induction over the histories of a connection that is still open. -/
theorem open_ind {net : UrNet} {P : List UrOp → UrState → Prop} (h0 : P [] (urStart net).1)
    (hs : ∀ ops op st, OpenAfter net ops st → P ops st → (urStep st op).2.2 = true → P (ops ++ [op]) (urStep st op).1)
    {ops : List UrOp} {st : UrState} (h : OpenAfter net ops st) : P ops st := by
  induction ops using snocInd generalizing st with
  | nil => simp only [OpenAfter, urRun, Option.some.injEq] at h; rw [← h]; exact h0
  | snoc ops op ih =>
    unfold OpenAfter at h
    rw [urRun_snoc] at h
    cases hr : (urRun (urStart net).1 ops).1 with
    | none => simp [hr] at h
    | some s =>
      simp only [hr] at h
      by_cases hg : (urStep s op).2.2 = true
      · simp only [hg, if_true, Option.some.injEq] at h
        rw [← h]
        exact hs ops op s hr (ih hr) hg
      · simp [hg] at h


private theorem take_ne_of_not_mem {x : Byte} {s : Str} (h : x ∉ s) :
    s.takeWhile (fun c => decide (c ≠ x)) = s ∧ s.dropWhile (fun c => decide (c ≠ x)) = [] := by
  induction s with
  | nil => simp
  | cons a s ih =>
    simp only [List.mem_cons, not_or] at h
    have ha : a ≠ x := fun e => h.1 e.symm
    simp only [List.takeWhile_cons, List.dropWhile_cons, ha, ne_eq, not_false_eq_true, decide_true, if_true]
    exact ⟨by rw [(ih h.2).1], (ih h.2).2⟩

private theorem take_ne_append {x : Byte} {a b : Str} (h : x ∉ a) :
    (a ++ x :: b).takeWhile (fun c => decide (c ≠ x)) = a ∧ (a ++ x :: b).dropWhile (fun c => decide (c ≠ x)) = x :: b := by
  induction a with
  | nil => simp
  | cons c a ih =>
    simp only [List.mem_cons, not_or] at h
    have ha : c ≠ x := fun e => h.1 e.symm
    simp only [List.cons_append, List.takeWhile_cons, List.dropWhile_cons, ha, ne_eq, not_false_eq_true, decide_true, if_true]
    exact ⟨by rw [(ih h.2).1], (ih h.2).2⟩

private theorem split_first {x : Byte} {s : Str} (h : x ∈ s) : ∃ a b, x ∉ a ∧ s = a ++ x :: b := by
  induction s with
  | nil => simp at h
  | cons c s ih =>
    by_cases hc : c = x
    · exact ⟨[], s, by simp, by simp [hc]⟩
    · rcases List.mem_cons.1 h with h | h
      · exact absurd h.symm hc
      · obtain ⟨a, b, ha, hb⟩ := ih h
        exact ⟨c :: a, b, by simp [ha]; exact fun e => hc e.symm, by simp [hb]⟩

private theorem supportCap_available (cr : CapReg) (w : Str) :
    (supportCap cr w).available = GoMap.set cr.available (offerName w) (offerValue w) := by
  by_cases h : (61 : Byte) ∈ w
  · obtain ⟨a, b, ha, rfl⟩ := split_first h
    have h1 := take_ne_append (b := b) ha
    unfold supportCap offerName offerValue
    rw [show b!"=" = [61] from rfl, cutStr_byte _ _ _ ha, h1.1, h1.2]
    rfl
  · have h1 := take_ne_of_not_mem h
    unfold supportCap offerName offerValue
    rw [show b!"=" = [61] from rfl, cutStr_byte_none _ _ h, h1.1, h1.2]
    rfl

private theorem supportCap_enabled (cr : CapReg) (w : Str) : (supportCap cr w).enabled = cr.enabled := by
  unfold supportCap; split <;> rfl

theorem support_get (ws : List Str) (cr : CapReg) (c : Str) :
    GoMap.get (ws.foldl supportCap cr).available c =
      ((ws.reverse.find? (fun w => offerName w == c)).map (fun w => some (offerValue w))).getD (GoMap.get cr.available c) := by
  induction ws using snocInd generalizing cr with
  | nil => rfl
  | snoc ws w ih =>
    rw [List.foldl_append, List.reverse_append]
    simp only [List.foldl_cons, List.foldl_nil, List.reverse_cons, List.reverse_nil, List.nil_append, List.singleton_append,
      List.find?_cons, supportCap_available, mget_mset]
    by_cases h : offerName w = c
    · simp [h]
    · simp only [h, if_false, ih, beq_eq_false_iff_ne.2 h]

theorem support_enabled (ws : List Str) (cr : CapReg) : (ws.foldl supportCap cr).enabled = cr.enabled := by
  induction ws generalizing cr with
  | nil => rfl
  | cons w ws ih => rw [List.foldl_cons, ih, supportCap_enabled]

private theorem handleCapAck_available (net : UrNet) (st : UrState) (n : Str) (ok : Bool) :
    (handleCapAck net st n ok).1.caps.available = st.caps.available := by
  unfold handleCapAck
  dsimp only
  split
  · split
    · exact setEnabled_available
    · split
      · exact setEnabled_available
      · split <;> exact setEnabled_available
  · exact setEnabled_available

private theorem ackLoop_available (net : UrNet) (ack : Bool) (ws : List Str) (st : UrState) :
    (ackLoop net ack st ws).1.caps.available = st.caps.available := by
  induction ws generalizing st with
  | nil => rfl
  | cons w ws ih =>
    unfold ackLoop
    dsimp only
    split
    · exact handleCapAck_available ..
    · rw [ih]; exact handleCapAck_available ..

private theorem dels_get (ws : List Str) (cr : CapReg) (c : Str) :
    GoMap.get (ws.foldl CapReg.del cr).available c = if c ∈ ws then none else GoMap.get cr.available c := by
  induction ws generalizing cr with
  | nil => rfl
  | cons w ws ih =>
    rw [List.foldl_cons, ih]
    simp only [CapReg.del, mget_mdel, List.mem_cons]
    grind

theorem noncap_caps {net : UrNet} {ord : List Str} {st : UrState} {m : Msg} (h : m.command ≠ b!"CAP") :
    (upRegister net ord st m).1.caps = st.caps := by
  unfold upRegister
  rw [if_neg h]
  unfold upRegOther
  split
  · unfold upAuthenticate
    split
    · rfl
    · split
      · rfl
      · split
        · rfl
        · split <;> rfl
  · split
    · unfold upSaslEnd; split <;> rfl
    · split
      · split <;> rfl
      · split
        · split
          · rfl
          · unfold upNickInUse; split <;> rfl
        · split
          · rfl
          · split
            · unfold upRefused
              split
              · split <;> rfl
              · rfl
            · split
              · split <;> rfl
              · rfl

private theorem saysOf_noncap {c : Str} {m : Msg} (h : m.command ≠ b!"CAP") : saysOf c m = none := by
  unfold saysOf capSays
  rw [beq_eq_false_iff_ne.2 h]

private theorem upCap_available {net : UrNet} {ord : List Str} {st : UrState} {ps : List Str} {c : Str}
    (hl : LowerDel ⟨b!"CAP", ps⟩) :
    GoMap.get (upCap net ord st ps).1.caps.available c =
      (saysOf c ⟨b!"CAP", ps⟩).getD (GoMap.get st.caps.available c) := by
  match ps with
  | [] => rfl
  | [_] => rfl
  | [_, sub] =>
    unfold upCap
    dsimp only
    split
    · rfl
    · split
      · rfl
      · split
        · rfl
        · split <;> rfl
  | u :: sub :: t :: ts =>
    unfold upCap
    dsimp only
    by_cases h1 : asciiUpper sub = b!"LS"
    · have hs : saysOf c ⟨b!"CAP", u :: sub :: t :: ts⟩ =
          ((fields ((t :: ts).getLast (by simp))).reverse.find? (fun w => offerName w == c)).map (fun w => some (offerValue w)) := by
        simp [saysOf, capSays, h1]
      rw [if_pos h1, hs, ← support_get]
      unfold upCapLS
      have hg : (List.drop 2 (u :: sub :: t :: ts)).getLast? = some ((t :: ts).getLast (by simp)) := by
        show (t :: ts).getLast? = _
        exact List.getLast?_eq_some_getLast (by simp)
      dsimp only
      rw [hg]
      dsimp only
      split
      · rfl
      · split <;> rfl
    · rw [if_neg h1]
      by_cases h2 : asciiUpper sub = b!"ACK" ∨ asciiUpper sub = b!"NAK"
      · rw [if_pos h2, ackLoop_available]
        have hs : saysOf c ⟨b!"CAP", u :: sub :: t :: ts⟩ = none := by
          rcases h2 with h2 | h2 <;> simp [saysOf, capSays, h2]
        rw [hs]; rfl
      · rw [if_neg h2]
        by_cases h3 : asciiUpper sub = b!"NEW"
        · have hs : saysOf c ⟨b!"CAP", u :: sub :: t :: ts⟩ =
              ((fields t).reverse.find? (fun w => offerName w == c)).map (fun w => some (offerValue w)) := by
            simp [saysOf, capSays, h3]
          rw [if_pos h3, hs, ← support_get]; rfl
        · rw [if_neg h3]
          by_cases h4 : asciiUpper sub = b!"DEL"
          · have hs : capSays ⟨b!"CAP", u :: sub :: t :: ts⟩ = .withdraw (fields t) := by simp [capSays, h4]
            have hm : (fields t).map asciiLower = fields t := by
              have := hl _ hs
              exact (List.map_congr_left this).trans (List.map_id _)
            rw [if_pos h4]
            unfold saysOf
            rw [hs]
            dsimp only
            rw [dels_get, hm]
            split <;> rfl
          · rw [if_neg h4]
            have hs : saysOf c ⟨b!"CAP", u :: sub :: t :: ts⟩ = none := by
              have h2' := not_or.1 h2
              simp [saysOf, capSays, h1, h2'.1, h2'.2, h3, h4]
            rw [hs]; rfl

theorem step_available (st : UrState) (op : UrOp) (c : Str) (hl : LowerDel op.msg) :
    GoMap.get (urStep st op).1.caps.available c = (saysOf c op.msg).getD (GoMap.get st.caps.available c) := by
  show GoMap.get (upRegister op.net op.ord st op.msg).1.caps.available c = _
  by_cases h : op.msg.command = b!"CAP"
  · obtain ⟨net, ord, ⟨cmd, ps⟩⟩ := op
    simp only at h
    subst h
    exact upCap_available hl
  · rw [noncap_caps h, saysOf_noncap h]; rfl

private theorem onOffer_snoc (c : Str) (h : List Msg) (m : Msg) :
    onOffer c (h ++ [m]) = (saysOf c m).getD (onOffer c h) := by
  unfold onOffer
  rw [List.reverse_append]
  simp only [List.reverse_cons, List.reverse_nil, List.nil_append, List.singleton_append, List.findSome?_cons]
  cases saysOf c m <;> rfl

/-- The table of the capabilities on offer is what the server says. -/
theorem table_onOffer {net : UrNet} {ops : List UrOp} {st : UrState} (h : OpenAfter net ops st)
    (hl : ∀ op ∈ ops, LowerDel op.msg) (c : Str) : GoMap.get st.caps.available c = onOffer c (heard ops) := by
  have := open_ind (net := net) (P := fun ops st => (∀ op ∈ ops, LowerDel op.msg) →
    GoMap.get st.caps.available c = onOffer c (heard ops)) (fun _ => rfl) ?_ h
  · exact this hl
  · intro ops op st _ ih _ hl
    rw [step_available st op c (hl op (by simp)), ih (fun o ho => hl o (by simp [ho]))]
    simp only [heard, List.map_append, List.map_cons, List.map_nil, onOffer_snoc]

private theorem supports_iff {st : UrState} {h : List Msg} (ht : GoMap.get st.caps.available b!"sasl" = onOffer b!"sasl" h)
    (mech : Str) : supportsSASL st.caps mech = true ↔ AcceptsMech h mech := by
  unfold supportsSASL AcceptsMech
  rw [ht]
  cases onOffer b!"sasl" h with
  | none => simp
  | some v =>
    by_cases hv : v = []
    · simp [hv]
    · simp [hv]

/-! ## Requests -/

private theorem fieldsAux_words (w : Str) (hs : ∀ c ∈ w, isSpaceByte c = false) (cur rest : Str) :
    fieldsAux cur (w ++ rest) = fieldsAux (cur ++ w) rest := by
  induction w generalizing cur with
  | nil => simp
  | cons c w ih =>
    have hc := hs c (by simp)
    rw [List.cons_append, fieldsAux, if_neg (by simp [hc]), ih (fun x hx => hs x (by simp [hx]))]
    simp

/-- Words without white space, joined with spaces, are split again into the same words. -/
theorem fields_joinSep (l : List Str) (h : ∀ w ∈ l, w ≠ [] ∧ ∀ c ∈ w, isSpaceByte c = false) :
    fields (joinSep 32 l) = l := by
  unfold fields
  induction l with
  | nil => rfl
  | cons w l ih =>
    have hw := h w (by simp)
    cases l with
    | nil =>
      have := fieldsAux_words w hw.2 [] []
      simp only [List.append_nil, List.nil_append] at this
      simp [joinSep, this, fieldsAux, hw.1]
    | cons v l =>
      rw [joinSep, fieldsAux_words w hw.2, List.nil_append, fieldsAux, if_pos (by decide), if_neg hw.1,
        ih (fun x hx => h x (by simp [hx]))]

/-- The words the bouncer uses in requests. -/
theorem request_words {ord : List Str} (ho : ord.Perm permanentUpstreamCaps) (cr : CapReg) :
    ∀ w ∈ requestedCaps ord cr, w ≠ [] ∧ ∀ c ∈ w, isSpaceByte c = false := by
  have hp : ∀ w ∈ permanentUpstreamCaps ++ [b!"echo-message", b!"-echo-message"], w ≠ [] ∧ ∀ c ∈ w, isSpaceByte c = false := by
    decide
  intro w hw
  apply hp
  unfold requestedCaps at hw
  have h1 : ∀ x ∈ ord.filter (fun c => cr.isAvailable c && !cr.isEnabled c), x ∈ permanentUpstreamCaps :=
    fun x hx => ho.mem_iff.1 (List.mem_filter.1 hx).1
  dsimp only at hw
  split at hw
  · rcases List.mem_append.1 hw with h | h
    · simp [h1 w h]
    · simp at h; simp [h]
  · split at hw
    · rcases List.mem_append.1 hw with h | h
      · simp [h1 w h]
      · simp at h; simp [h]
    · simp [h1 w hw]

theorem mem_requested {ord : List Str} (ho : ord.Perm permanentUpstreamCaps) (cr : CapReg) (w : Str) :
    w ∈ requestedCaps ord cr ↔
      (w ∈ permanentUpstreamCaps ∧ cr.isAvailable w = true ∧ w ∉ cr.enabled) ∨
      (w = b!"echo-message" ∧ b!"echo-message" ∉ cr.enabled ∧ cr.isAvailable b!"labeled-response" = true) ∨
      (w = b!"-echo-message" ∧ b!"echo-message" ∈ cr.enabled ∧ cr.isAvailable b!"labeled-response" = false) := by
  have hf : ∀ w, w ∈ ord.filter (fun c => cr.isAvailable c && !cr.isEnabled c) ↔
      (w ∈ permanentUpstreamCaps ∧ cr.isAvailable w = true ∧ w ∉ cr.enabled) := by
    intro w
    simp [List.mem_filter, ho.mem_iff, CapReg.isEnabled]
  unfold requestedCaps
  dsimp only
  have he : (cr.isEnabled b!"echo-message" = true) ↔ b!"echo-message" ∈ cr.enabled := isEnabled_iff
  by_cases h1 : b!"echo-message" ∈ cr.enabled
  · rw [he.2 h1]
    cases h2 : cr.isAvailable b!"labeled-response" <;> simp [hf, h1]
  · have he' : cr.isEnabled b!"echo-message" = false := by simpa [CapReg.isEnabled] using h1
    rw [he']
    cases h2 : cr.isAvailable b!"labeled-response" <;> simp [hf, h1]

/-- The words of a CAP REQ message. -/
def reqWords (m : Msg) : Option (List Str) :=
  match m.params with
  | [sub, t] => if m.command = b!"CAP" ∧ sub = b!"REQ" then some (fields t) else none
  | _ => none

/-- The words of an acknowledgement that name `sasl` without minus. -/
theorem ackWord_sasl {ack : Bool} {w : Str} (h : ackWord ack w = (b!"sasl", true)) :
    ack = true ∧ asciiLower w = b!"sasl" := by
  unfold ackWord at h
  split at h
  · simp at h
  · simp only [Prod.mk.injEq] at h; exact ⟨h.2, h.1⟩

theorem handleCapAck_out {net : UrNet} {st : UrState} {n : Str} {ok : Bool} {m : Msg}
    (h : m ∈ (handleCapAck net st n ok).2.1) : n = b!"sasl" ∧ ok = true ∧ m = ⟨b!"AUTHENTICATE", [net.mech]⟩ ∧
      requestSASL net st.caps = true ∧ (handleCapAck net st n ok).1.client = saslClientFor net ∧ (saslClientFor net).isSome = true := by
  have hr : ∀ (cr : CapReg) (b : Bool), requestSASL net (cr.setEnabled n b) = requestSASL net cr := by
    intro cr b
    unfold requestSASL supportsSASL
    rw [setEnabled_available]
  unfold handleCapAck at h ⊢
  dsimp only at h ⊢
  by_cases h1 : n = b!"sasl"
  · rw [if_pos h1] at h ⊢
    rw [hr] at h ⊢
    cases h2 : requestSASL net st.caps with
    | false => rw [h2] at h; simp at h
    | true =>
      rw [h2, if_neg (by simp)] at h
      rw [if_neg (by simp)]
      cases h3 : ok with
      | false => rw [h3] at h; simp at h
      | true =>
        rw [h3, if_neg (by simp)] at h
        rw [if_neg (by simp)]
        cases h4 : saslClientFor net with
        | none => rw [h4] at h; simp at h
        | some cl =>
          rw [h4] at h
          simp only [List.mem_singleton] at h
          exact ⟨h1, rfl, h, rfl, rfl, rfl⟩
  · rw [if_neg h1] at h; simp at h

private theorem requestSASL_congr {net : UrNet} {a b : CapReg} (h : a.available = b.available) :
    requestSASL net a = requestSASL net b := by
  unfold requestSASL supportsSASL; rw [h]

private theorem ackLoop_out {net : UrNet} {ack : Bool} {ws : List Str} {st : UrState} {m : Msg}
    (h : m ∈ (ackLoop net ack st ws).2.1) : ack = true ∧ (∃ w ∈ ws, asciiLower w = b!"sasl") ∧
      m = ⟨b!"AUTHENTICATE", [net.mech]⟩ ∧ requestSASL net st.caps = true ∧ (saslClientFor net).isSome = true := by
  induction ws generalizing st with
  | nil => simp [ackLoop] at h
  | cons w ws ih =>
    have hd : ∀ {m}, m ∈ (handleCapAck net st (ackWord ack w).1 (ackWord ack w).2).2.1 → ack = true ∧ (∃ v ∈ w :: ws, asciiLower v = b!"sasl") ∧
        m = ⟨b!"AUTHENTICATE", [net.mech]⟩ ∧ requestSASL net st.caps = true ∧ (saslClientFor net).isSome = true := by
      intro m hm
      obtain ⟨h1, h2, h3, h4, _, h6⟩ := handleCapAck_out hm
      have := ackWord_sasl (w := w) (ack := ack) (Prod.ext h1 h2)
      exact ⟨this.1, ⟨w, by simp, this.2⟩, h3, h4, h6⟩
    unfold ackLoop at h
    dsimp only at h
    split at h
    · exact hd h
    · rcases List.mem_append.1 h with h | h
      · exact hd h
      · obtain ⟨h1, ⟨v, hv, hv'⟩, h3, h4, h5⟩ := ih h
        refine ⟨h1, ⟨v, by simp [hv], hv'⟩, h3, ?_, h5⟩
        rwa [requestSASL_congr (handleCapAck_available ..)] at h4

private theorem handleCapAck_client (net : UrNet) (st : UrState) (n : Str) (ok : Bool) :
    (handleCapAck net st n ok).1.client = st.client ∨
      (n = b!"sasl" ∧ ok = true ∧ requestSASL net st.caps = true ∧ (handleCapAck net st n ok).1.client = saslClientFor net) := by
  have hr : ∀ (b : Bool), requestSASL net (st.caps.setEnabled n b) = requestSASL net st.caps :=
    fun b => requestSASL_congr setEnabled_available
  unfold handleCapAck
  dsimp only
  by_cases h1 : n = b!"sasl"
  · rw [if_pos h1, hr]
    cases h2 : requestSASL net st.caps with
    | false => simp
    | true =>
      cases h3 : ok with
      | false => simp
      | true =>
        cases h4 : saslClientFor net with
        | none => simp
        | some cl => simp [h1]
  · simp [h1]

private theorem ackLoop_client (net : UrNet) (ack : Bool) (ws : List Str) (st : UrState) :
    (ackLoop net ack st ws).1.client = st.client ∨
      (ack = true ∧ (∃ w ∈ ws, asciiLower w = b!"sasl") ∧ requestSASL net st.caps = true ∧
        (ackLoop net ack st ws).1.client = saslClientFor net) := by
  induction ws generalizing st with
  | nil => exact .inl rfl
  | cons w ws ih =>
    have hd := handleCapAck_client net st (ackWord ack w).1 (ackWord ack w).2
    have hd' : (handleCapAck net st (ackWord ack w).1 (ackWord ack w).2).1.client = st.client ∨
        (ack = true ∧ (∃ v ∈ w :: ws, asciiLower v = b!"sasl") ∧ requestSASL net st.caps = true ∧
          (handleCapAck net st (ackWord ack w).1 (ackWord ack w).2).1.client = saslClientFor net) := by
      rcases hd with h | ⟨h1, h2, h3, h4⟩
      · exact .inl h
      · have := ackWord_sasl (w := w) (ack := ack) (Prod.ext h1 h2)
        exact .inr ⟨this.1, ⟨w, by simp, this.2⟩, h3, h4⟩
    unfold ackLoop
    dsimp only
    split
    · exact hd'
    · rcases ih (handleCapAck net st (ackWord ack w).1 (ackWord ack w).2).1 with h | ⟨h1, ⟨v, hv, hv'⟩, h3, h4⟩
      · rw [h]; exact hd'
      · refine .inr ⟨h1, ⟨v, by simp [hv], hv'⟩, ?_, h4⟩
        rwa [requestSASL_congr (handleCapAck_available ..)] at h3

/-- Is this a `CAP us LS …` message? -/
def isLS (m : Msg) : Bool := m.command == b!"CAP" && (m.params[1]?.map asciiUpper == some b!"LS")

/-- Does the server acknowledge the capability `sasl` with this message? -/
def GrantsSasl (m : Msg) : Prop := ∃ ws, capSays m = .grant ws ∧ ∃ w ∈ ws, asciiLower w = b!"sasl"

/-- Everything the bouncer sends in answer to a message. -/
theorem step_out {st : UrState} {op : UrOp} {m : Msg} (h : m ∈ (urStep st op).2.1) :
    (m ∈ capRequest (requestedCaps op.ord (urStep st op).1.caps) ∧ ∃ ws, capSays op.msg = .offer ws) ∨
    (m = capEnd ∧ isLS op.msg = true ∧ requestSASL op.net (urStep st op).1.caps = false) ∨
    (m = capEnd ∧ op.msg.command ∈ saslEndNumerics ∧ st.registered = false) ∨
    (m = ⟨b!"AUTHENTICATE", [op.net.mech]⟩ ∧ GrantsSasl op.msg ∧ requestSASL op.net st.caps = true ∧
      (saslClientFor op.net).isSome = true) ∨
    (op.msg.command = b!"AUTHENTICATE" ∧ ∃ cl, st.client = some cl ∧
      (m = saslAbort ∨ (st.started = false ∧ m ∈ generateSASL cl.start))) ∨
    (m.command = b!"NICK" ∧ op.msg.command = b!"433" ∧ st.registered = false) := by
  change m ∈ (upRegister op.net op.ord st op.msg).2.1 at h
  show (m ∈ capRequest (requestedCaps op.ord (upRegister op.net op.ord st op.msg).1.caps) ∧ _) ∨
    (_ ∧ _ ∧ requestSASL op.net (upRegister op.net op.ord st op.msg).1.caps = false) ∨ _
  obtain ⟨net, ord, ⟨cmd, ps⟩⟩ := op
  simp only at h ⊢
  by_cases h0 : cmd = b!"CAP"
  · subst h0
    have hu : upRegister net ord st ⟨b!"CAP", ps⟩ = upCap net ord st ps := by unfold upRegister; rw [if_pos rfl]
    rw [hu] at h ⊢
    match ps with
    | [] => simp [upCap] at h
    | [_] => simp [upCap] at h
    | [_, sub] =>
      exfalso
      unfold upCap at h
      dsimp only at h
      split at h
      · simp [upCapLS] at h
      · split at h
        · simp at h
        · split at h
          · simp at h
          · split at h <;> simp at h
    | u :: sub :: t :: ts =>
      unfold upCap at h ⊢
      dsimp only at h ⊢
      by_cases h1 : asciiUpper sub = b!"LS"
      · rw [if_pos h1] at h ⊢
        unfold upCapLS at h ⊢
        have hg : (List.drop 2 (u :: sub :: t :: ts)).getLast? = some ((t :: ts).getLast (by simp)) := by
          show (t :: ts).getLast? = _
          exact List.getLast?_eq_some_getLast (by simp)
        dsimp only at h ⊢
        rw [hg] at h ⊢
        dsimp only at h ⊢
        have hls : isLS ⟨b!"CAP", u :: sub :: t :: ts⟩ = true := by simp [isLS, h1]
        have hof : ∃ ws, capSays ⟨b!"CAP", u :: sub :: t :: ts⟩ = .offer ws := by
          refine ⟨fields ((t :: ts).getLast (by simp)), ?_⟩
          simp [capSays, h1]
        split at h
        · simp at h
        · rename_i hm
          rw [if_neg hm]
          split at h
          · rename_i hq
            rw [if_pos hq]
            exact .inl ⟨h, hof⟩
          · rename_i hq
            rw [if_neg hq]
            rcases List.mem_append.1 h with h | h
            · exact .inl ⟨h, hof⟩
            · exact .inr (.inl ⟨by simpa using h, hls, by simpa using hq⟩)
      · rw [if_neg h1] at h ⊢
        by_cases h2 : asciiUpper sub = b!"ACK" ∨ asciiUpper sub = b!"NAK"
        · rw [if_pos h2] at h
          obtain ⟨ha, hw, hm, hr, hc⟩ := ackLoop_out h
          have ha' : asciiUpper sub = b!"ACK" := by simpa using ha
          exact .inr (.inr (.inr (.inl ⟨hm, ⟨fields t, by simp [capSays, ha'], hw⟩, hr, hc⟩)))
        · rw [if_neg h2] at h ⊢
          by_cases h3 : asciiUpper sub = b!"NEW"
          · rw [if_pos h3] at h ⊢
            exact .inl ⟨h, fields t, by simp [capSays, h3]⟩
          · rw [if_neg h3] at h
            split at h <;> simp at h
  · have hu : upRegister net ord st ⟨cmd, ps⟩ = upRegOther st ⟨cmd, ps⟩ := by unfold upRegister; rw [if_neg h0]
    rw [hu] at h
    unfold upRegOther at h
    dsimp only at h
    split at h
    · rename_i ha
      refine .inr (.inr (.inr (.inr (.inl ⟨ha, ?_⟩))))
      unfold upAuthenticate at h
      cases hc : st.client with
      | none => rw [hc] at h; simp at h
      | some cl =>
        rw [hc] at h
        refine ⟨cl, rfl, ?_⟩
        match ps with
        | [] => left; simpa using h
        | c :: _ =>
          dsimp only at h
          split at h
          · left; simpa using h
          · split at h
            · left; simpa using h
            · right
              rename_i hs
              exact ⟨by simpa using hs, h⟩
    · split at h
      · rename_i hn
        unfold upSaslEnd at h
        split at h
        · simp at h
        · dsimp only at h
          split at h
          · simp at h
          · rename_i hr
            exact .inr (.inr (.inl ⟨by simpa using h, hn, by simpa using hr⟩))
      · split at h
        · split at h <;> simp at h
        · split at h
          · rename_i hn
            split at h
            · simp at h
            · rename_i hr
              unfold upNickInUse at h
              split at h
              · simp only [List.mem_singleton] at h
                exact .inr (.inr (.inr (.inr (.inr ⟨by rw [h], hn, by simpa using hr⟩))))
              · simp at h
          · split at h
            · simp at h
            · split at h
              · unfold upRefused at h
                split at h
                · split at h <;> simp at h
                · simp at h
              · split at h
                · split at h <;> simp at h
                · simp at h

private theorem heard_snoc (ops : List UrOp) (op : UrOp) : heard (ops ++ [op]) = heard ops ++ [op.msg] := by
  simp [heard]

/-- After a further message the table is still what the server says, even if the connection ends. -/
private theorem table_step {net : UrNet} {ops : List UrOp} {st : UrState} (h : OpenAfter net ops st) {op : UrOp}
    (hl : ∀ o ∈ ops ++ [op], LowerDel o.msg) (c : Str) :
    GoMap.get (urStep st op).1.caps.available c = onOffer c (heard (ops ++ [op])) := by
  rw [step_available st op c (hl op (by simp)), table_onOffer h (fun o ho => hl o (by simp [ho])), heard_snoc, onOffer_snoc]

theorem capRequest_words {ord : List Str} (ho : ord.Perm permanentUpstreamCaps) {cr : CapReg} {m : Msg} {ws : List Str}
    (hm : m ∈ capRequest (requestedCaps ord cr)) (hw : reqWords m = some ws) : ws = requestedCaps ord cr := by
  unfold capRequest at hm
  split at hm
  · simp at hm
  · simp only [List.mem_singleton] at hm
    subst hm
    simp only [reqWords, and_self, if_true, Option.some.injEq] at hw
    rw [← hw, fields_joinSep _ (request_words ho cr)]

/-- C69: capabilities are requested in answer to an offer only, and only those the bouncer supports and the
server offers.  Partial: except that `echo-message` is requested as soon as `labeled-response` is offered
(`C69_echo_violated`), and provided that capabilities are withdrawn in lower case (`C69_withdrawn_violated`). -/
theorem C69_requests_partial {net : UrNet} {ops : List UrOp} {st : UrState} (h : OpenAfter net ops st) {op : UrOp}
    (hl : ∀ o ∈ ops ++ [op], LowerDel o.msg) (ho : op.ord.Perm permanentUpstreamCaps) {m : Msg}
    (hm : m ∈ (urStep st op).2.1) {ws : List Str} (hw : reqWords m = some ws) :
    (∃ l, capSays op.msg = .offer l) ∧
    ∀ w ∈ ws, (w ∈ permanentUpstreamCaps ∧ (onOffer w (heard (ops ++ [op]))).isSome = true) ∨
      (w = b!"echo-message" ∧ (onOffer b!"labeled-response" (heard (ops ++ [op]))).isSome = true) ∨
      (w = b!"-echo-message" ∧ onOffer b!"labeled-response" (heard (ops ++ [op])) = none) := by
  have hav : ∀ c, (urStep st op).1.caps.isAvailable c = (onOffer c (heard (ops ++ [op]))).isSome := by
    intro c; unfold CapReg.isAvailable; rw [table_step h hl]
  rcases step_out hm with ⟨h1, h2⟩ | ⟨h1, _⟩ | ⟨h1, _⟩ | ⟨h1, _⟩ | ⟨_, cl, _, h1⟩ | ⟨h1, _⟩
  · refine ⟨h2, ?_⟩
    rw [capRequest_words ho h1 hw]
    intro w hw
    rcases (mem_requested ho _ w).1 hw with ⟨h3, h4, _⟩ | ⟨h3, _, h4⟩ | ⟨h3, _, h4⟩
    · rw [hav] at h4; exact .inl ⟨h3, h4⟩
    · rw [hav] at h4; exact .inr (.inl ⟨h3, h4⟩)
    · rw [hav] at h4; exact .inr (.inr ⟨h3, by simpa using h4⟩)
  · subst h1; simp [reqWords, capEnd] at hw
  · subst h1; simp [reqWords, capEnd] at hw
  · subst h1; simp [reqWords] at hw
  · exfalso
    have hc : m.command = b!"AUTHENTICATE" := by
      rcases h1 with h1 | ⟨_, h1⟩
      · rw [h1]; rfl
      · obtain ⟨c, _, rfl⟩ := List.mem_map.1 h1; rfl
    unfold reqWords at hw
    split at hw
    · rw [hc] at hw; simp at hw
    · simp at hw
  · exfalso
    unfold reqWords at hw
    split at hw
    · rw [h1] at hw; simp at hw
    · simp at hw

/-- Some settings: SASL PLAIN with the account `bob`. -/
def exNet : UrNet := ⟨b!"bob", b!"bob", b!"Bob", [], b!"PLAIN", b!"bob", b!"secret"⟩
/-- A message of the server while the settings are these. -/
def srvMsg (ps : List Str) : UrOp := ⟨exNet, permanentUpstreamCaps, ⟨b!"CAP", ps⟩⟩

example : (urStep (urStart exNet).1 (srvMsg [b!"*", b!"LS", b!"sasl=PLAIN batch foo"])).2.1
    = [⟨b!"CAP", [b!"REQ", b!"batch sasl"]⟩] := by decide +kernel

/-- C69, disagreement: the server offers `labeled-response` without `echo-message`: the bouncer requests both.
A request with a capability that is not on offer is to be refused as a whole, so that none is enabled. -/
theorem C69_echo_violated :
    (urStep (urStart exNet).1 (srvMsg [b!"*", b!"LS", b!"batch labeled-response"])).2.1 =
      [⟨b!"CAP", [b!"REQ", b!"batch labeled-response echo-message"]⟩, capEnd] ∧
    onOffer b!"echo-message" [⟨b!"CAP", [b!"*", b!"LS", b!"batch labeled-response"]⟩] = none := by
  decide +kernel

/-- C69, disagreement: a capability withdrawn with a capital letter is requested all the same. -/
theorem C69_withdrawn_violated :
    let h := [srvMsg [b!"*", b!"LS", b!"Batch"], srvMsg [b!"bob", b!"DEL", b!"Batch"]]
    let op := srvMsg [b!"bob", b!"NEW", b!"setname"]
    (urRun (urStart exNet).1 (h ++ [op])).2.getLast? = some ⟨b!"CAP", [b!"REQ", b!"batch setname"]⟩ ∧
    onOffer b!"batch" (heard (h ++ [op])) = none := by
  decide +kernel

/-! ## The login -/

/-- The messages that end a login: `ERR_NICKLOCKED` (902), `RPL_SASLSUCCESS` (903), `ERR_SASLFAIL` (904),
`ERR_SASLTOOLONG` (905), `ERR_SASLABORTED` (906). -/
def endsLogin (m : Msg) : Bool :=
  decide (m.command ∈ [b!"902", b!"903", b!"904", b!"905", b!"906"]) && decide (2 ≤ m.params.length)

/-- The credentials of a network, as the mechanism sends them. -/
def credentialsOf (net : UrNet) : List Byte :=
  if net.mech = b!"PLAIN" then [0] ++ net.user ++ [0] ++ net.password else []

private theorem clientFor_start {net : UrNet} {cl : SaslClient} (h : saslClientFor net = some cl) :
    (net.mech = b!"PLAIN" ∨ net.mech = b!"EXTERNAL") ∧ cl.start = credentialsOf net := by
  unfold saslClientFor at h
  unfold credentialsOf
  split at h
  · rename_i hp
    simp only [Option.some.injEq] at h
    subst h
    exact ⟨.inl hp, by rw [if_pos hp]; rfl⟩
  · rename_i hp
    split at h
    · rename_i he
      simp only [Option.some.injEq] at h
      subst h
      exact ⟨.inr he, by rw [if_neg hp]; rfl⟩
    · simp at h

private theorem requestSASL_accepts {net : UrNet} {st : UrState} {h : List Msg}
    (ht : GoMap.get st.caps.available b!"sasl" = onOffer b!"sasl" h) :
    requestSASL net st.caps = true ↔ (net.mech ≠ [] ∧ AcceptsMech h net.mech) := by
  unfold requestSASL
  split
  · rename_i h0; simp [h0]
  · rename_i h0; rw [supports_iff ht]; simp [h0]

/-- How an exchange comes to be under way. -/
private theorem step_client {st : UrState} {op : UrOp} {cl : SaslClient} (h : (urStep st op).1.client = some cl) :
    (st.client = some cl ∧ endsLogin op.msg = false) ∨
    (GrantsSasl op.msg ∧ requestSASL op.net st.caps = true ∧ saslClientFor op.net = some cl) := by
  change (upRegister op.net op.ord st op.msg).1.client = some cl at h
  obtain ⟨net, ord, ⟨cmd, ps⟩⟩ := op
  simp only at h ⊢
  unfold upRegister at h
  by_cases h0 : cmd = b!"CAP"
  · subst h0
    rw [if_pos rfl] at h
    have hne : endsLogin ⟨b!"CAP", ps⟩ = false := by simp [endsLogin]
    rw [hne]
    simp only [and_true]
    match ps with
    | [] => left; simpa [upCap] using h
    | [_] => left; simpa [upCap] using h
    | [_, sub] =>
      left
      unfold upCap at h
      dsimp only at h
      split at h
      · simpa [upCapLS] using h
      · split at h
        · simpa using h
        · split at h
          · simpa using h
          · split at h <;> simpa using h
    | u :: sub :: t :: ts =>
      unfold upCap at h
      dsimp only at h
      by_cases h1 : asciiUpper sub = b!"LS"
      · left
        rw [if_pos h1] at h
        unfold upCapLS at h
        dsimp only at h
        split at h
        · exact h
        · split at h
          · exact h
          · split at h <;> exact h
      · rw [if_neg h1] at h
        by_cases h2 : asciiUpper sub = b!"ACK" ∨ asciiUpper sub = b!"NAK"
        · rw [if_pos h2] at h
          rcases ackLoop_client net (decide (asciiUpper sub = b!"ACK")) (fields t) st with hc | ⟨h3, h4, h5, h6⟩
          · rw [hc] at h; exact .inl h
          · rw [h6] at h
            have h3' : asciiUpper sub = b!"ACK" := by simpa using h3
            exact .inr ⟨⟨fields t, by simp [capSays, h3'], h4⟩, h5, h⟩
        · left
          rw [if_neg h2] at h
          split at h
          · exact h
          · split at h <;> exact h
  · left
    rw [if_neg h0] at h
    unfold upRegOther at h
    dsimp only at h
    split at h
    · rename_i ha
      have hne : endsLogin ⟨cmd, ps⟩ = false := by subst ha; simp [endsLogin]
      refine ⟨?_, hne⟩
      unfold upAuthenticate at h
      split at h
      · rename_i hc; rw [hc] at h; simp at h
      · split at h
        · exact h
        · split at h
          · exact h
          · split at h <;> exact h
    · split at h
      · rename_i hn
        unfold upSaslEnd at h
        split at h
        · rename_i hlen
          exact ⟨h, by simp [endsLogin]; intro _; omega⟩
        · simp at h
      · rename_i hn
        have hne : endsLogin ⟨cmd, ps⟩ = false := by
          have hn' : cmd ∉ [b!"902", b!"903", b!"904", b!"905", b!"906"] := hn
          simp only [endsLogin, hn', decide_false, Bool.false_and]
        refine ⟨?_, hne⟩
        split at h
        · split at h <;> exact h
        · split at h
          · split at h
            · exact h
            · unfold upNickInUse at h; split at h <;> exact h
          · split at h
            · exact h
            · split at h
              · unfold upRefused at h
                split at h
                · split at h
                  · simp at h
                  · exact h
                · exact h
              · split at h
                · split at h <;> exact h
                · exact h

private theorem client_origin {net : UrNet} {ops : List UrOp} {st : UrState} (h : OpenAfter net ops st)
    (hl : ∀ o ∈ ops, LowerDel o.msg) : ∀ cl, st.client = some cl → ∃ before g after, ops = before ++ g :: after ∧
      GrantsSasl g.msg ∧ AcceptsMech (heard before) g.net.mech ∧ saslClientFor g.net = some cl ∧
      ∀ o ∈ after, endsLogin o.msg = false := by
  have := open_ind (net := net) (P := fun ops st => (∀ o ∈ ops, LowerDel o.msg) → ∀ cl, st.client = some cl →
    ∃ before g after, ops = before ++ g :: after ∧ GrantsSasl g.msg ∧ AcceptsMech (heard before) g.net.mech ∧
      saslClientFor g.net = some cl ∧ ∀ o ∈ after, endsLogin o.msg = false) ?_ ?_ h
  · exact this hl
  · intro _ cl hc; simp [urStart] at hc
  · intro ops op st ho ih _ hl cl hc
    have hl' : ∀ o ∈ ops, LowerDel o.msg := fun o ho => hl o (by simp [ho])
    rcases step_client hc with ⟨h1, h2⟩ | ⟨h1, h2, h3⟩
    · obtain ⟨b, g, a, rfl, h4, h5, h6, h7⟩ := ih hl' cl h1
      refine ⟨b, g, a ++ [op], by simp, h4, h5, h6, ?_⟩
      intro o ho'
      rcases List.mem_append.1 ho' with h | h
      · exact h7 o h
      · simp only [List.mem_singleton] at h; rw [h]; exact h2
    · refine ⟨ops, op, [], by simp, h1, ?_, h3, by simp⟩
      exact ((requestSASL_accepts (table_onOffer ho hl' _)).1 h2).2

/-- C69: a login is started only when the server acknowledges `sasl`, with the mechanism of the network, PLAIN
or EXTERNAL, which the server accepts.  The credentials are sent only when the server asks for them, during a login
that was started in this way and has not ended; they are those of the network when the login started. -/
theorem C69_credentials {net : UrNet} {ops : List UrOp} {st : UrState} (h : OpenAfter net ops st) {op : UrOp}
    (hl : ∀ o ∈ ops, LowerDel o.msg) {m : Msg} (hm : m ∈ (urStep st op).2.1) (hc : m.command = b!"AUTHENTICATE") :
    (GrantsSasl op.msg ∧ m.params = [op.net.mech] ∧ (op.net.mech = b!"PLAIN" ∨ op.net.mech = b!"EXTERNAL") ∧
      AcceptsMech (heard ops) op.net.mech) ∨
    (op.msg.command = b!"AUTHENTICATE" ∧ ∃ before g after, ops = before ++ g :: after ∧ GrantsSasl g.msg ∧
      (g.net.mech = b!"PLAIN" ∨ g.net.mech = b!"EXTERNAL") ∧ AcceptsMech (heard before) g.net.mech ∧
      (∀ o ∈ after, endsLogin o.msg = false) ∧
      (m.params = [b!"*"] ∨ m ∈ generateSASL (credentialsOf g.net))) := by
  rcases step_out hm with ⟨h1, _⟩ | ⟨h1, _⟩ | ⟨h1, _⟩ | ⟨h1, h2, h3, h4⟩ | ⟨h0, cl, h1, h2⟩ | ⟨h1, _⟩
  · exfalso
    unfold capRequest at h1
    split at h1
    · simp at h1
    · simp only [List.mem_singleton] at h1; subst h1; simp at hc
  · subst h1; simp [capEnd] at hc
  · subst h1; simp [capEnd] at hc
  · left
    obtain ⟨cl, hcl⟩ := Option.isSome_iff_exists.1 h4
    exact ⟨h2, by rw [h1], (clientFor_start hcl).1, ((requestSASL_accepts (table_onOffer h hl _)).1 h3).2⟩
  · right
    obtain ⟨b, g, a, h3, h4, h5, h6, h7⟩ := client_origin h hl cl h1
    refine ⟨h0, b, g, a, h3, h4, (clientFor_start h6).1, h5, h7, ?_⟩
    rcases h2 with h2 | ⟨_, h2⟩
    · left; rw [h2]; rfl
    · right; rwa [(clientFor_start h6).2] at h2
  · rw [h1] at hc; simp at hc

example : (urRun (urStart exNet).1 [srvMsg [b!"*", b!"LS", b!"sasl=EXTERNAL,PLAIN"], srvMsg [b!"*", b!"ACK", b!"sasl"],
      ⟨exNet, permanentUpstreamCaps, ⟨b!"AUTHENTICATE", [b!"+"]⟩⟩]).2 =
    [⟨b!"CAP", [b!"REQ", b!"sasl"]⟩, ⟨b!"AUTHENTICATE", [b!"PLAIN"]⟩, ⟨b!"AUTHENTICATE", [b!"AGJvYgBzZWNyZXQ="]⟩] := by
  decide +kernel

/-- Every challenge of the server so far was followed by the end of a login. -/
def NoneAsked (ops : List UrOp) : Prop :=
  ∀ a o b, ops = a ++ o :: b → o.msg.command = b!"AUTHENTICATE" → ∃ e ∈ b, endsLogin e.msg = true

private theorem handleCapAck_started (net : UrNet) (st : UrState) (n : Str) (ok : Bool) :
    (handleCapAck net st n ok).1.started = st.started := by
  unfold handleCapAck
  dsimp only
  split
  · split
    · rfl
    · split
      · rfl
      · split <;> rfl
  · rfl

private theorem ackLoop_started (net : UrNet) (ack : Bool) (ws : List Str) (st : UrState) :
    (ackLoop net ack st ws).1.started = st.started := by
  induction ws generalizing st with
  | nil => rfl
  | cons w ws ih =>
    have hd := handleCapAck_started net st (ackWord ack w).1 (ackWord ack w).2
    unfold ackLoop
    dsimp only
    split
    · exact hd
    · exact (ih _).trans hd

private theorem step_started {st : UrState} {op : UrOp} (h : (urStep st op).1.started = true) :
    (st.started = true ∧ endsLogin op.msg = false) ∨ op.msg.command = b!"AUTHENTICATE" := by
  obtain ⟨net, ord, ⟨cmd, ps⟩⟩ := op
  simp only [urStep] at h ⊢
  unfold upRegister at h
  dsimp only at h
  by_cases h0 : cmd = b!"CAP"
  · left
    subst h0
    rw [if_pos rfl] at h
    refine ⟨?_, by simp [endsLogin]⟩
    match ps with
    | [] => exact h
    | [_] => exact h
    | u :: sub :: rest =>
      unfold upCap at h
      dsimp only at h
      split at h
      · unfold upCapLS at h
        dsimp only at h
        split at h
        · exact h
        · split at h
          · exact h
          · split at h <;> exact h
      · split at h
        · split at h
          · exact h
          · rwa [ackLoop_started] at h
        · split at h
          · split at h <;> exact h
          · split at h
            · split at h <;> exact h
            · exact h
  · rw [if_neg h0] at h
    unfold upRegOther at h
    dsimp only at h
    by_cases ha : cmd = b!"AUTHENTICATE"
    · exact .inr ha
    · left
      rw [if_neg ha] at h
      by_cases hn : cmd ∈ saslEndNumerics
      · rw [if_pos hn] at h
        unfold upSaslEnd at h
        split at h
        · rename_i hlen
          exact ⟨h, by simp [endsLogin]; intro _; omega⟩
        · simp at h
      · rw [if_neg hn] at h
        have hne : endsLogin ⟨cmd, ps⟩ = false := by
          have hn' : cmd ∉ [b!"902", b!"903", b!"904", b!"905", b!"906"] := hn
          simp only [endsLogin, hn', decide_false, Bool.false_and]
        refine ⟨?_, hne⟩
        split at h
        · split at h <;> exact h
        · split at h
          · split at h
            · exact h
            · unfold upNickInUse at h; split at h <;> exact h
          · split at h
            · exact h
            · split at h
              · unfold upRefused at h
                split at h
                · split at h
                  · simp at h
                  · exact h
                · exact h
              · split at h
                · split at h <;> exact h
                · exact h

private theorem started_origin {net : UrNet} {ops : List UrOp} {st : UrState} (h : OpenAfter net ops st) :
    st.started = true → ∃ a o b, ops = a ++ o :: b ∧ o.msg.command = b!"AUTHENTICATE" ∧ ∀ e ∈ b, endsLogin e.msg = false := by
  refine open_ind (net := net) (P := fun ops st => st.started = true →
    ∃ a o b, ops = a ++ o :: b ∧ o.msg.command = b!"AUTHENTICATE" ∧ ∀ e ∈ b, endsLogin e.msg = false) ?_ ?_ h
  · intro h; simp [urStart] at h
  · intro ops op st _ ih _ hst
    rcases step_started hst with ⟨h1, h2⟩ | h1
    · obtain ⟨a, o, b, rfl, h3, h4⟩ := ih h1
      refine ⟨a, o, b ++ [op], by simp, h3, ?_⟩
      intro e he
      rcases List.mem_append.1 he with he | he
      · exact h4 e he
      · simp only [List.mem_singleton] at he; rw [he]; exact h2
    · exact ⟨ops, op, [], by simp, h1, by simp⟩

private theorem ackLoop_grants {net : UrNet} {cl : SaslClient} (hc : saslClientFor net = some cl) (ws : List Str) (st : UrState)
    (hq : requestSASL net st.caps = true) :
    (∃ w ∈ ws, asciiLower w = b!"sasl") → ⟨b!"AUTHENTICATE", [net.mech]⟩ ∈ (ackLoop net true st ws).2.1 ∧
      (ackLoop net true st ws).1.client = some cl := by
  induction ws generalizing st with
  | nil => rintro ⟨w, hw, _⟩; simp at hw
  | cons w ws ih =>
    intro hex
    have hq' : ∀ n b, requestSASL net (st.caps.setEnabled n b) = true := by
      intro n b; rw [requestSASL_congr setEnabled_available]; exact hq
    have hok : (handleCapAck net st (ackWord true w).1 (ackWord true w).2).2.2 = true := by
      unfold handleCapAck
      dsimp only
      rw [hc]
      split
      · split
        · rfl
        · split <;> rfl
      · rfl
    have hqq : requestSASL net (handleCapAck net st (ackWord true w).1 (ackWord true w).2).1.caps = true := by
      rw [requestSASL_congr (handleCapAck_available ..)]; exact hq
    unfold ackLoop
    dsimp only
    rw [hok, if_neg (by simp)]
    by_cases hrest : ∃ v ∈ ws, asciiLower v = b!"sasl"
    · obtain ⟨h1, h2⟩ := ih _ hqq hrest
      exact ⟨List.mem_append_right _ h1, h2⟩
    · have hw : asciiLower w = b!"sasl" := by
        obtain ⟨v, hv, hl⟩ := hex
        rcases List.mem_cons.1 hv with rfl | hv
        · exact hl
        · exact absurd ⟨v, hv, hl⟩ hrest
      have haw : ackWord true w = (b!"sasl", true) := by
        unfold ackWord
        have : hasPrefix b!"-" w = false := by
          match w, hw with
          | a :: t, hw =>
            have ha : a ≠ 45 := by rintro rfl; simp [asciiLower] at hw
            simp [hasPrefix, List.isPrefixOf, Ne.symm ha]
        rw [this]
        simp [hw]
      have hh : handleCapAck net st b!"sasl" true = ({ st with caps := st.caps.setEnabled b!"sasl" true, client := some cl },
          [⟨b!"AUTHENTICATE", [net.mech]⟩], true) := by
        unfold handleCapAck
        dsimp only
        rw [if_pos rfl, hq', if_neg (by simp), if_neg (by simp), hc]
      rw [haw, hh]
      refine ⟨List.mem_append_left _ (by simp), ?_⟩
      rcases ackLoop_client net true ws { st with caps := st.caps.setEnabled b!"sasl" true, client := some cl } with h | ⟨_, h, _⟩
      · exact h
      · exact absurd h hrest

/-- C69: if the server grants `sasl` and accepts the mechanism of the network, PLAIN or EXTERNAL, the bouncer starts the
login at once, and if the next message of the server asks for the credentials it sends those of the network. -/
theorem C69_login {net : UrNet} {ops : List UrOp} {st : UrState} (h : OpenAfter net ops st) {op : UrOp}
    (hl : ∀ o ∈ ops, LowerDel o.msg) (hg : GrantsSasl op.msg) (ha : AcceptsMech (heard ops) op.net.mech)
    (hm : op.net.mech = b!"PLAIN" ∨ op.net.mech = b!"EXTERNAL") (hn : NoneAsked ops) :
    ⟨b!"AUTHENTICATE", [op.net.mech]⟩ ∈ (urStep st op).2.1 ∧
    ∀ next : UrOp, next.msg = ⟨b!"AUTHENTICATE", [b!"+"]⟩ →
      (urStep (urStep st op).1 next).2.1 = generateSASL (credentialsOf op.net) := by
  obtain ⟨cl, hcl⟩ : ∃ cl, saslClientFor op.net = some cl := by
    unfold saslClientFor
    rcases hm with h | h <;> rw [h]
    · exact ⟨_, rfl⟩
    · exact ⟨_, rfl⟩
  have hq : requestSASL op.net st.caps = true :=
    (requestSASL_accepts (table_onOffer h hl _)).2 ⟨by rcases hm with h | h <;> rw [h] <;> simp, ha⟩
  obtain ⟨ws, hs, hw⟩ := hg
  have hst : st.started = false := by
    cases hst : st.started with
    | false => rfl
    | true =>
      obtain ⟨a, o, b, h1, h2, h3⟩ := started_origin h hst
      obtain ⟨e, he, h4⟩ := hn a o b h1 h2
      rw [h3 e he] at h4; simp at h4
  have hloop : upRegister op.net op.ord st op.msg = ackLoop op.net true st ws := by
    obtain ⟨net', ord, ⟨cmd, ps⟩⟩ := op
    simp only at hs ⊢
    unfold capSays at hs
    by_cases hc : cmd = b!"CAP"
    · subst hc
      match ps, hs with
      | [], hs => simp at hs
      | [_], hs => simp at hs
      | [_, _], hs => simp at hs
      | u :: sub :: t :: ts, hs =>
        simp only [beq_self_eq_true] at hs
        split at hs
        · simp at hs
        · rename_i h1
          split at hs
          · simp at hs
          · split at hs
            · simp at hs
            · split at hs
              · rename_i h2
                simp only [SrvCap.grant.injEq] at hs
                subst hs
                unfold upRegister upCap
                simp [h2]
              · split at hs <;> simp at hs
    · rw [beq_eq_false_iff_ne.2 hc] at hs
      simp at hs
  obtain ⟨h1, h2⟩ := ackLoop_grants hcl ws st hq hw
  refine ⟨by show _ ∈ (upRegister op.net op.ord st op.msg).2.1; rw [hloop]; exact h1, ?_⟩
  intro next hnext
  have e1 : (urStep st op).1.client = some cl := by
    show (upRegister op.net op.ord st op.msg).1.client = _; rw [hloop]; exact h2
  have e2 : (urStep st op).1.started = false := by
    show (upRegister op.net op.ord st op.msg).1.started = _; rw [hloop, ackLoop_started]; exact hst
  show (upRegister next.net next.ord (urStep st op).1 next.msg).2.1 = _
  rw [hnext, ← (clientFor_start hcl).2]
  simp [upRegister, upRegOther, upAuthenticate, e1, e2]

example : let h := [srvMsg [b!"*", b!"LS", b!"sasl=EXTERNAL,PLAIN"]]
    let op := srvMsg [b!"*", b!"ACK", b!"sasl"]
    (∃ st, OpenAfter exNet h st) ∧ GrantsSasl op.msg ∧ AcceptsMech (heard h) op.net.mech ∧ NoneAsked h ∧
      generateSASL (credentialsOf op.net) = [⟨b!"AUTHENTICATE", [b!"AGJvYgBzZWNyZXQ="]⟩] := by
  refine ⟨⟨_, rfl⟩, ⟨_, rfl, b!"sasl", by decide +kernel, rfl⟩,
    ⟨b!"EXTERNAL,PLAIN", by decide +kernel, .inr ⟨b!"PLAIN", by decide +kernel, rfl⟩⟩, ?_, by decide +kernel⟩
  intro a o b hab hc
  match a, hab with
  | [], hab =>
    simp only [List.nil_append, List.cons.injEq] at hab
    rw [← hab.1] at hc
    exact absurd hc (by decide +kernel)
  | [_], hab => simp at hab

/-! ## The end of the negotiation -/

/-- C69: the negotiation is ended only once the login has ended, or, without login, after a list of the
capabilities on offer that does not allow the login the network asks for. -/
theorem C69_end {net : UrNet} {ops : List UrOp} {st : UrState} (h : OpenAfter net ops st) {op : UrOp}
    (hl : ∀ o ∈ ops ++ [op], LowerDel o.msg) (hm : capEnd ∈ (urStep st op).2.1) :
    (op.msg.command ∈ [b!"902", b!"903", b!"904", b!"905", b!"906"] ∧ st.registered = false) ∨
    (isLS op.msg = true ∧ (op.net.mech = [] ∨ ¬ AcceptsMech (heard (ops ++ [op])) op.net.mech)) := by
  rcases step_out hm with ⟨h1, _⟩ | ⟨_, h1, h2⟩ | ⟨_, h1, h2⟩ | ⟨h1, _⟩ | ⟨_, cl, _, h1⟩ | ⟨h1, _⟩
  · exfalso
    unfold capRequest at h1
    split at h1
    · simp at h1
    · simp [capEnd] at h1
  · right
    refine ⟨h1, ?_⟩
    by_cases hm : op.net.mech = []
    · exact .inl hm
    · right
      intro ha
      have := (requestSASL_accepts (net := op.net) (table_step h hl _)).2 ⟨hm, ha⟩
      rw [h2] at this; simp at this
  · exact .inl ⟨h1, h2⟩
  · simp [capEnd] at h1
  · exfalso
    rcases h1 with h1 | ⟨_, h1⟩
    · simp [capEnd, saslAbort] at h1
    · obtain ⟨c, _, h2⟩ := List.mem_map.1 h1; simp [capEnd] at h2
  · simp [capEnd] at h1

/-- C69: before registration, the negotiation is ended as soon as the login has ended, or when the capabilities on
offer, listed on one line, do not allow the login the network asks for.  Partial: if the server does not grant
`sasl`, no login is started and none ends (`C69_stalled_violated`); and the capabilities may be listed on several
lines (`C69_lines_violated`). -/
theorem C69_end_partial {net : UrNet} {ops : List UrOp} {st : UrState} (h : OpenAfter net ops st) {op : UrOp}
    (hl : ∀ o ∈ ops ++ [op], LowerDel o.msg) (hr : st.registered = false)
    (hop : endsLogin op.msg = true ∨ (isLS op.msg = true ∧ op.msg.params.length = 3 ∧
      (op.net.mech = [] ∨ ¬ AcceptsMech (heard (ops ++ [op])) op.net.mech))) :
    capEnd ∈ (urStep st op).2.1 := by
  have ht := table_step h hl b!"sasl"
  rcases hop with he | ⟨h1, h2, h3⟩
  · obtain ⟨net', ord, ⟨cmd, ps⟩⟩ := op
    simp only [endsLogin, Bool.and_eq_true, decide_eq_true_eq] at he
    have hu : upRegister net' ord st ⟨cmd, ps⟩ = upSaslEnd st ps := by
      have n1 : cmd ≠ b!"CAP" := by rintro rfl; revert he; simp
      have n2 : cmd ≠ b!"AUTHENTICATE" := by rintro rfl; revert he; simp
      have n3 : cmd ∈ saslEndNumerics := he.1
      unfold upRegister upRegOther
      simp [n1, n2, n3]
    show capEnd ∈ (upRegister net' ord st ⟨cmd, ps⟩).2.1
    rw [hu]
    unfold upSaslEnd
    rw [if_neg (by omega)]
    dsimp only
    rw [hr]; simp
  · have hq : requestSASL op.net (urStep st op).1.caps = false := by
      cases hq : requestSASL op.net (urStep st op).1.caps with
      | false => rfl
      | true =>
        have := (requestSASL_accepts (net := op.net) ht).1 hq
        rcases h3 with h3 | h3
        · exact absurd h3 this.1
        · exact absurd this.2 h3
    obtain ⟨net', ord, ⟨cmd, ps⟩⟩ := op
    simp only [isLS, Bool.and_eq_true, beq_iff_eq] at h1
    obtain ⟨rfl, h1⟩ := h1
    match ps, h2 with
    | [u, sub, t], _ =>
      simp only [List.getElem?_cons_succ, List.getElem?_cons_zero, Option.map_some, Option.some.injEq] at h1
      change requestSASL net' (upRegister net' ord st ⟨b!"CAP", [u, sub, t]⟩).1.caps = false at hq
      show capEnd ∈ (upRegister net' ord st ⟨b!"CAP", [u, sub, t]⟩).2.1
      have hu : upRegister net' ord st ⟨b!"CAP", [u, sub, t]⟩ = upCapLS net' ord st [u, sub, t] := by
        unfold upRegister upCap
        simp [h1]
      rw [hu] at hq ⊢
      unfold upCapLS at hq ⊢
      simp only [List.drop_succ_cons, List.drop_zero, List.getLast?_singleton, List.length_singleton] at hq ⊢
      rw [if_neg (by simp)] at hq ⊢
      split at hq
      · rename_i hx; rw [hx] at hq; simp at hq
      · rename_i hx; rw [if_neg hx]; simp

example : (urStep (urStart exNet).1 (srvMsg [b!"*", b!"LS", b!"batch sasl=EXTERNAL"])).2.1
    = [⟨b!"CAP", [b!"REQ", b!"batch sasl"]⟩, capEnd] := by decide +kernel
example : (urRun (urStart exNet).1 [srvMsg [b!"*", b!"LS", b!"sasl=PLAIN"], srvMsg [b!"*", b!"ACK", b!"sasl"],
      ⟨exNet, [], ⟨b!"904", [b!"*", b!"SASL authentication failed"]⟩⟩]).2 =
    [⟨b!"CAP", [b!"REQ", b!"sasl"]⟩, ⟨b!"AUTHENTICATE", [b!"PLAIN"]⟩, capEnd] := by decide +kernel

/-- Without another list of capabilities, and without the end of a login, the negotiation is not ended. -/
private theorem no_end (st : UrState) (more : List UrOp)
    (h : ∀ o ∈ more, isLS o.msg = false ∧ o.msg.command ∉ [b!"902", b!"903", b!"904", b!"905", b!"906"]) :
    capEnd ∉ (urRun st more).2 := by
  induction more generalizing st with
  | nil => simp [urRun]
  | cons o more ih =>
    have hs : capEnd ∉ (urStep st o).2.1 := by
      intro hm
      have ho := h o (by simp)
      rcases step_out hm with ⟨h1, _⟩ | ⟨_, h1, _⟩ | ⟨_, h1, _⟩ | ⟨h1, _⟩ | ⟨_, cl, _, h1⟩ | ⟨h1, _⟩
      · unfold capRequest at h1
        split at h1
        · simp at h1
        · simp [capEnd] at h1
      · rw [ho.1] at h1; simp at h1
      · exact ho.2 h1
      · simp [capEnd] at h1
      · rcases h1 with h1 | ⟨_, h1⟩
        · simp [capEnd, saslAbort] at h1
        · obtain ⟨c, _, h2⟩ := List.mem_map.1 h1; simp [capEnd] at h2
      · simp [capEnd] at h1
    unfold urRun
    dsimp only
    split
    · simp only [List.mem_append, not_or]
      exact ⟨hs, ih _ (fun o ho => h o (by simp [ho]))⟩
    · exact hs

/-- C69, disagreement: the server offers SASL PLAIN and `labeled-response` but not `echo-message`.  It refuses the
request of the bouncer, which contains a capability that is not on offer.  Whatever else it says, unless it lists its
capabilities again or ends a login that was never started, the bouncer does not end the negotiation, and so is
never registered. -/
theorem C69_stalled_violated (more : List UrOp)
    (h : ∀ o ∈ more, isLS o.msg = false ∧ o.msg.command ∉ [b!"902", b!"903", b!"904", b!"905", b!"906"]) :
    (urRun (urStart exNet).1 [srvMsg [b!"*", b!"LS", b!"sasl=PLAIN labeled-response"]]).2 =
      [⟨b!"CAP", [b!"REQ", b!"labeled-response sasl echo-message"]⟩] ∧
    capEnd ∉ (urRun (urStart exNet).1 ([srvMsg [b!"*", b!"LS", b!"sasl=PLAIN labeled-response"],
      srvMsg [b!"*", b!"NAK", b!"labeled-response sasl echo-message"]] ++ more)).2 := by
  refine ⟨by decide +kernel, ?_⟩
  have h1 : urStep (urStart exNet).1 (srvMsg [b!"*", b!"LS", b!"sasl=PLAIN labeled-response"]) =
      ({ (urStart exNet).1 with caps := ⟨[(b!"sasl", b!"PLAIN"), (b!"labeled-response", [])], []⟩ },
        [⟨b!"CAP", [b!"REQ", b!"labeled-response sasl echo-message"]⟩], true) := by decide +kernel
  rw [List.cons_append, urRun, h1]
  simp only [if_true, List.mem_append, not_or]
  refine ⟨by decide, no_end _ _ ?_⟩
  intro o ho
  rcases List.mem_append.1 ho with ho | ho
  · simp only [List.mem_singleton] at ho
    subst ho
    decide
  · exact h o ho

/-- C69, disagreement: a server that addresses the bouncer by its nick, and lists its capabilities on two lines with
`sasl` on the second one: the negotiation is ended after the first one, without login. -/
theorem C69_lines_violated :
    capEnd ∈ (urStep (urStart exNet).1 (srvMsg [b!"bob", b!"LS", b!"*", b!"batch"])).2.1 ∧
    AcceptsMech (heard [srvMsg [b!"bob", b!"LS", b!"*", b!"batch"], srvMsg [b!"bob", b!"LS", b!"sasl=PLAIN"]]) b!"PLAIN" ∧
    (urStep (urStart exNet).1 (srvMsg [b!"*", b!"LS", b!"*", b!"batch"])).2.1 = [] := by
  refine ⟨by decide +kernel, ⟨b!"PLAIN", by decide +kernel, .inr ⟨b!"PLAIN", by decide +kernel, rfl⟩⟩, by decide +kernel⟩

/-! ## The nick -/

private theorem handleCapAck_nick (net : UrNet) (st : UrState) (n : Str) (ok : Bool) :
    (handleCapAck net st n ok).1.nick = st.nick ∧ (handleCapAck net st n ok).1.registered = st.registered := by
  unfold handleCapAck
  dsimp only
  split
  · split
    · exact ⟨rfl, rfl⟩
    · split
      · exact ⟨rfl, rfl⟩
      · split <;> exact ⟨rfl, rfl⟩
  · exact ⟨rfl, rfl⟩

private theorem ackLoop_nick (net : UrNet) (ack : Bool) (ws : List Str) (st : UrState) :
    (ackLoop net ack st ws).1.nick = st.nick ∧ (ackLoop net ack st ws).1.registered = st.registered := by
  induction ws generalizing st with
  | nil => exact ⟨rfl, rfl⟩
  | cons w ws ih =>
    have hd := handleCapAck_nick net st (ackWord ack w).1 (ackWord ack w).2
    unfold ackLoop
    dsimp only
    split
    · exact hd
    · exact ⟨(ih _).1.trans hd.1, (ih _).2.trans hd.2⟩

private theorem step_nick (st : UrState) (op : UrOp) :
    ((urStep st op).1.nick = st.nick ∧ (urStep st op).1.registered = st.registered ∧
      (op.msg.command = b!"433" → st.registered = true ∨ (urStep st op).2.2 = false)) ∨
    (op.msg.command = b!"433" ∧ st.registered = false ∧ (urStep st op).1.registered = false ∧
      (urStep st op).1.nick = st.nick ++ [95] ∧ st.nick.length + 1 < 30) ∨
    (op.msg.command = b!"001" ∧ (urStep st op).1.registered = true) := by
  obtain ⟨net, ord, ⟨cmd, ps⟩⟩ := op
  simp only [urStep]
  unfold upRegister
  dsimp only
  by_cases h0 : cmd = b!"CAP"
  · left
    have hne : cmd ≠ b!"433" := by rw [h0]; decide
    rw [if_pos h0]
    refine and_assoc.1 ⟨?_, fun h => absurd h hne⟩
    match ps with
    | [] => exact ⟨rfl, rfl⟩
    | [_] => exact ⟨rfl, rfl⟩
    | u :: sub :: rest =>
      unfold upCap
      dsimp only
      split
      · unfold upCapLS
        dsimp only
        split
        · exact ⟨rfl, rfl⟩
        · split
          · exact ⟨rfl, rfl⟩
          · split <;> exact ⟨rfl, rfl⟩
      · split
        · split
          · exact ⟨rfl, rfl⟩
          · exact ackLoop_nick ..
        · split
          · split <;> exact ⟨rfl, rfl⟩
          · split
            · split <;> exact ⟨rfl, rfl⟩
            · exact ⟨rfl, rfl⟩
  · rw [if_neg h0]
    unfold upRegOther
    dsimp only
    split
    · left
      have hne : cmd ≠ b!"433" := by rename_i h; rw [h]; decide
      refine and_assoc.1 ⟨?_, fun h => absurd h hne⟩
      unfold upAuthenticate
      split
      · exact ⟨rfl, rfl⟩
      · split
        · exact ⟨rfl, rfl⟩
        · split
          · exact ⟨rfl, rfl⟩
          · split <;> exact ⟨rfl, rfl⟩
    · split
      · left
        have hne : cmd ≠ b!"433" := by rintro rfl; rename_i h; revert h; decide
        refine and_assoc.1 ⟨?_, fun h => absurd h hne⟩
        unfold upSaslEnd
        split <;> exact ⟨rfl, rfl⟩
      · split
        · rename_i h1
          have hne : cmd ≠ b!"433" := by rw [h1]; decide
          split
          · exact .inl ⟨rfl, rfl, fun h => absurd h hne⟩
          · exact .inr (.inr ⟨h1, rfl⟩)
        · split
          · rename_i h1
            cases hr : st.registered with
            | true => left; simp [hr]
            | false =>
              simp only [Bool.false_eq_true, if_false, Bool.or_false]
              unfold upNickInUse
              by_cases hn : st.nick.length + 1 < 30
              · rw [if_pos hn]
                exact .inr (.inl ⟨h1, trivial, hr, rfl, hn⟩)
              · rw [if_neg hn]
                exact .inl ⟨rfl, hr, fun _ => .inr rfl⟩
          · rename_i hne
            left
            refine and_assoc.1 ⟨?_, fun h => absurd h hne⟩
            split
            · exact ⟨rfl, rfl⟩
            · split
              · unfold upRefused
                split
                · split <;> exact ⟨rfl, rfl⟩
                · exact ⟨rfl, rfl⟩
              · split
                · split <;> exact ⟨rfl, rfl⟩
                · exact ⟨rfl, rfl⟩

/-- C69: the bouncer introduces itself with the nick of the user.  As long as the connection is not registered, it
answers every message that the nick is in use by asking for the nick with one more underscore, which has less
than 30 characters.  On registration it takes the nick the server gives it. -/
theorem C69_nick {net : UrNet} {ops : List UrOp} {st : UrState} (h : OpenAfter net ops st) (hr : st.registered = false) :
    ⟨b!"NICK", [net.nick]⟩ ∈ (urStart net).2 ∧
    st.nick = net.nick ++ List.replicate (ops.countP (fun o => o.msg.command == b!"433")) 95 ∧
    (∀ n' ord ps, (urStep st ⟨n', ord, ⟨b!"433", ps⟩⟩).2 =
      if st.nick.length < 29 then ([⟨b!"NICK", [st.nick ++ [95]]⟩], true) else ([], false)) ∧
    (∀ n' ord nick ps, (urStep st ⟨n', ord, ⟨b!"001", nick :: ps⟩⟩).1.nick = nick ∧
      (urStep st ⟨n', ord, ⟨b!"001", nick :: ps⟩⟩).1.registered = true) := by
  refine ⟨by simp [urStart], ?_, ?_, fun n' ord nick ps => ⟨rfl, rfl⟩⟩
  · refine open_ind (net := net) (P := fun ops st => st.registered = false →
      st.nick = net.nick ++ List.replicate (ops.countP (fun o => o.msg.command == b!"433")) 95) ?_ ?_ h hr
    · intro _; simp [urStart]
    · intro ops op st _ ih hgo hreg
      rcases step_nick st op with ⟨h1, h2, h3⟩ | ⟨h1, h2, _, h3, _⟩ | ⟨h1, h2⟩
      · have hne : op.msg.command ≠ b!"433" := by
          intro h433
          rcases h3 h433 with h | h
          · rw [h2, h] at hreg; simp at hreg
          · rw [hgo] at h; simp at h
        rw [h1, ih (by rw [← h2]; exact hreg), List.countP_append]
        simp [hne]
      · rw [h3, ih h2, List.countP_append]
        simp [h1, List.replicate_succ']
      · rw [h2] at hreg; simp at hreg
  · intro n' ord ps
    have : urStep st ⟨n', ord, ⟨b!"433", ps⟩⟩ = ((upNickInUse st).1, (upNickInUse st).2.1, (upNickInUse st).2.2 || st.registered) := by
      simp only [urStep, upRegister, upRegOther]
      rw [hr]
      simp [saslEndNumerics]
    rw [this, hr]
    unfold upNickInUse
    by_cases hn : st.nick.length < 29
    · rw [if_pos hn, if_pos (by omega)]; rfl
    · rw [if_neg hn, if_neg (by omega)]; rfl

example : OpenAfter exNet [⟨exNet, [], ⟨b!"433", [b!"*", b!"bob", b!"in use"]⟩⟩, ⟨exNet, [], ⟨b!"433", [b!"*", b!"bob_", b!"in use"]⟩⟩]
    { (urStart exNet).1 with nick := b!"bob__" } := by unfold OpenAfter; decide +kernel

/-! ## The identity -/

/-- C69: the bouncer introduces itself with the settings of the network: the user name and the real name
are those of the settings and are sent once, after the password; the password is sent if and only if there
is one, and never in answer to a message. -/
theorem C69_introduces (net : UrNet) :
    (∀ ps, (⟨b!"PASS", ps⟩ : Msg) ∈ (urStart net).2 ↔ net.pass ≠ [] ∧ ps = [net.pass]) ∧
    (∀ ps, (⟨b!"USER", ps⟩ : Msg) ∈ (urStart net).2 ↔ ps = [net.username, b!"0", b!"*", net.realname]) ∧
    (∀ m before after, (urStart net).2 = before ++ m :: after → m.command = b!"PASS" →
      ∀ e ∈ before, e.command ≠ b!"NICK" ∧ e.command ≠ b!"USER") ∧
    ∀ (st : UrState) (op : UrOp), ∀ m ∈ (urStep st op).2.1, m.command ≠ b!"PASS" ∧ m.command ≠ b!"USER" := by
  refine ⟨fun ps => ?_, fun ps => ?_, ?_, ?_⟩
  · by_cases h : net.pass = [] <;> simp [urStart, h]
  · by_cases h : net.pass = [] <;> simp [urStart, h]
  · intro m before after h hm e he
    by_cases hp : net.pass = []
    · have : m ∈ (urStart net).2 := by rw [h]; simp
      simp only [urStart, hp, ne_eq, not_true_eq_false, if_false, List.append_nil, List.mem_append,
        List.mem_cons, List.not_mem_nil, or_false] at this
      rcases this with rfl | rfl | rfl <;> exact absurd hm (by dsimp only; decide)
    · simp only [urStart, ne_eq, hp, not_false_eq_true, if_true, List.cons_append, List.nil_append] at h
      match before with
      | [] => simp at he
      | [a] =>
        simp only [List.cons_append, List.nil_append, List.cons.injEq] at h
        simp only [List.mem_singleton] at he
        rw [he, ← h.1]
        decide
      | a :: b :: before =>
        exfalso
        simp only [List.cons_append, List.cons.injEq] at h
        have : m ∈ [(⟨b!"NICK", [net.nick]⟩ : Msg), ⟨b!"USER", [net.username, b!"0", b!"*", net.realname]⟩] := by
          rw [h.2.2]; simp
        simp only [List.mem_cons, List.not_mem_nil, or_false] at this
        rcases this with rfl | rfl <;> revert hm <;> dsimp only <;> decide
  · intro st op m hm
    rcases step_out hm with ⟨h1, _⟩ | ⟨h1, _⟩ | ⟨h1, _⟩ | ⟨h1, _⟩ | ⟨_, cl, _, h1 | ⟨_, h1⟩⟩ | ⟨h1, _⟩
    · unfold capRequest at h1
      split at h1
      · simp at h1
      · simp only [List.mem_singleton] at h1; subst h1; dsimp only; decide
    · subst h1; decide
    · subst h1; decide
    · subst h1; dsimp only; decide
    · subst h1; decide
    · have : m.command = b!"AUTHENTICATE" := by
        unfold generateSASL at h1
        obtain ⟨c, -, rfl⟩ := List.mem_map.mp h1
        rfl
      rw [this]; decide
    · rw [h1]; decide

example : exNet.pass = [] ∧ ({ exNet with pass := b!"secret" } : UrNet).pass ≠ [] := by decide

/-! ## Logins that do not come to their end -/

/-- The server does not accept the command that begins a login. -/
def RefusesLogin (m : Msg) : Prop :=
  m.command ∈ [b!"263", b!"400", b!"421", b!"461"] ∧ ∃ nick reason l, m.params = nick :: b!"AUTHENTICATE" :: reason :: l

private theorem refused_step (st : UrState) (op : UrOp) (h : RefusesLogin op.msg) :
    urStep st op = ({ st with client := none, started := false }, [], true) := by
  obtain ⟨net, ord, ⟨cmd, ps⟩⟩ := op
  obtain ⟨h1, nick, reason, l, h2⟩ := h
  dsimp only at h1 h2
  subst h2
  simp only [List.mem_cons, List.not_mem_nil, or_false] at h1
  rcases h1 with rfl | rfl | rfl | rfl <;> rfl

/-- C69: once the server has refused the login, it is not sent the password, whatever it asks for next. -/
theorem C69_refused {net : UrNet} {ops : List UrOp} {st : UrState} (_ : OpenAfter net ops st) {op : UrOp}
    (hr : RefusesLogin op.msg) (next : UrOp) (hn : next.msg.command = b!"AUTHENTICATE") :
    (urStep (urStep st op).1 next).2.1 = [] := by
  rw [refused_step st op hr]
  obtain ⟨net', ord, ⟨cmd, ps⟩⟩ := next
  dsimp only at hn
  subst hn
  rfl

/-- C69, disagreement: the server grants `sasl` and then refuses the login, for instance because it is busy.  The bouncer
does not go on without login: unless the server lists its capabilities again, the negotiation does not end. -/
theorem C69_refused_violated (op : UrOp) (hr : RefusesLogin op.msg) (more : List UrOp)
    (h : ∀ o ∈ more, isLS o.msg = false ∧ o.msg.command ∉ [b!"902", b!"903", b!"904", b!"905", b!"906"]) :
    (urRun (urStart exNet).1 [srvMsg [b!"*", b!"LS", b!"sasl=PLAIN"], srvMsg [b!"*", b!"ACK", b!"sasl"]]).2 =
      [⟨b!"CAP", [b!"REQ", b!"sasl"]⟩, ⟨b!"AUTHENTICATE", [b!"PLAIN"]⟩] ∧
    capEnd ∉ (urRun (urStart exNet).1
      ([srvMsg [b!"*", b!"LS", b!"sasl=PLAIN"], srvMsg [b!"*", b!"ACK", b!"sasl"]] ++ op :: more)).2 := by
  refine ⟨by decide +kernel, ?_⟩
  obtain ⟨st1, h1⟩ : ∃ st1, urStep (urStart exNet).1 (srvMsg [b!"*", b!"LS", b!"sasl=PLAIN"]) =
      (st1, [⟨b!"CAP", [b!"REQ", b!"sasl"]⟩], true) := ⟨_, rfl⟩
  rw [List.cons_append, urRun, h1]
  simp only [if_true, List.mem_append, not_or]
  refine ⟨by decide, no_end _ _ ?_⟩
  intro o ho
  simp only [List.cons_append, List.nil_append, List.mem_cons] at ho
  rcases ho with rfl | rfl | ho
  · decide
  · obtain ⟨net', ord, ⟨cmd, ps⟩⟩ := o
    obtain ⟨h1, -⟩ := hr
    simp only [List.mem_cons, List.not_mem_nil, or_false] at h1
    rcases h1 with rfl | rfl | rfl | rfl <;> exact ⟨rfl, by simp⟩
  · exact h o ho

example : RefusesLogin ⟨b!"263", [b!"bob", b!"AUTHENTICATE", b!"try again"]⟩ := ⟨by simp, _, _, _, rfl⟩

/-- C69: a server that asks for the credentials a second time, or in a way that is not understood, before the connection
is registered: the login is aborted, and the connection ends. -/
theorem C69_challenge {net : UrNet} {ops : List UrOp} {st : UrState} (_ : OpenAfter net ops st) (hr : st.registered = false)
    {op next : UrOp} (h1 : op.msg = ⟨b!"AUTHENTICATE", [b!"+"]⟩) (hs : ∃ m ∈ (urStep st op).2.1, m ≠ ⟨b!"AUTHENTICATE", [b!"*"]⟩)
    (h2 : next.msg = ⟨b!"AUTHENTICATE", [b!"+"]⟩ ∨ next.msg = ⟨b!"AUTHENTICATE", []⟩) :
    (urStep (urStep st op).1 next).2.1 = [⟨b!"AUTHENTICATE", [b!"*"]⟩] ∧ (urStep (urStep st op).1 next).2.2 = false := by
  obtain ⟨net1, ord1, m1⟩ := op
  obtain ⟨net2, ord2, m2⟩ := next
  dsimp only at h1 h2
  subst h1
  have hu : ∀ (st : UrState) (n : UrNet) (o ps : List Str), urStep st ⟨n, o, ⟨b!"AUTHENTICATE", ps⟩⟩ =
      ((upAuthenticate st ps).1, (upAuthenticate st ps).2.1, (upAuthenticate st ps).2.2 || st.registered) := fun _ _ _ _ => rfl
  rw [hu] at hs ⊢
  cases hc : st.client with
  | none => simp [upAuthenticate, hc] at hs
  | some cl =>
    by_cases hst : st.started = true
    · simp [upAuthenticate, hc, hst, saslAbort] at hs
    · have hst : st.started = false := by simpa using hst
      have ha : upAuthenticate st [b!"+"] = ({ st with started := true }, generateSASL cl.start, true) := by
        simp [upAuthenticate, hc, hst]
      rw [ha]
      rcases h2 with rfl | rfl <;> rw [hu] <;> simp [upAuthenticate, hc, saslAbort, hr]

example : let st := (urRun (urStart exNet).1 [srvMsg [b!"*", b!"LS", b!"sasl=PLAIN"], srvMsg [b!"*", b!"ACK", b!"sasl"]]).1
    ∃ s, st = some s ∧ s.registered = false ∧ (urStep s ⟨exNet, [], ⟨b!"AUTHENTICATE", [b!"+"]⟩⟩).2.1 = [⟨b!"AUTHENTICATE", [b!"AGJvYgBzZWNyZXQ="]⟩] :=
  ⟨_, rfl, by decide +kernel, by decide +kernel⟩

end Verif.Props
