import Verif.Proof.MsgId

/-! # C11: message identifiers round-trip and are typed

`ok` stands for the BARE library's acceptance test on strings (valid UTF-8 below its size limit);
the theorems hold for every such test that accepts the target in question. -/

namespace Verif.Props
open Verif.Model Verif.Proof

/-- A target name as it occurs in an ID: bytes, accepted by the string decoder. -/
def TargetOK (ok : Str → Bool) (target : Str) : Prop :=
  (∀ b ∈ target, b < 256) ∧ ok target = true ∧ target.length < 2 ^ 64

/-- C11: every ID parses back, with a parser of its own kind, to the same network, target and
position. -/
theorem C11_msgid_roundtrip (ok : Str → Bool) (net : Int) (target : Str) (body : MsgIdBody)
    (hn : Int64 net) (ht : TargetOK ok target) (hb : BodyWF body) :
    parseMsgID ok body.type (formatMsgID net target body) = some (net, target, body) := by
  obtain ⟨h1, h2, h3⟩ := ht
  unfold parseMsgID formatMsgID
  rw [decode_encode _ _ (msgIdBytes_lt net target body h1)]
  simp only [Option.bind_eq_bind, Option.bind_some]
  rw [readHeader_bytes ok net target body hn h2 h3]
  simp [readBody_marshal body hb]

/-- C11: the kind-agnostic parser (used to acknowledge messages) finds the same network and target. -/
theorem C11_msgid_header (ok : Str → Bool) (net : Int) (target : Str) (body : MsgIdBody)
    (hn : Int64 net) (ht : TargetOK ok target) :
    parseMsgIDHeader ok (formatMsgID net target body) = some (net, target) := by
  obtain ⟨h1, h2, h3⟩ := ht
  unfold parseMsgIDHeader formatMsgID
  rw [decode_encode _ _ (msgIdBytes_lt net target body h1)]
  simp only [Option.bind_eq_bind, Option.bind_some]
  rw [readHeader_bytes ok net target body hn h2 h3]
  simp

/-- C11: an ID minted by one kind of store is rejected by every other kind. -/
theorem C11_msgid_typed (ok : Str → Bool) (net : Int) (target : Str) (body : MsgIdBody)
    (hn : Int64 net) (ht : TargetOK ok target) (t : MsgIdType) (hne : t ≠ body.type) :
    parseMsgID ok t (formatMsgID net target body) = none := by
  obtain ⟨h1, h2, h3⟩ := ht
  unfold parseMsgID formatMsgID
  rw [decode_encode _ _ (msgIdBytes_lt net target body h1)]
  simp only [Option.bind_eq_bind, Option.bind_some]
  rw [readHeader_bytes ok net target body hn h2 h3]
  have : body.type.num ≠ t.num := by
    revert hne
    cases t <;> cases body.type <;> decide
  simp [this]

/-- C11: IDs of different messages differ: an ID determines the network, the target, the kind of
store and the position.  (For arbitrary byte strings as targets: no validity is needed.) -/
theorem C11_msgid_injective (net net' : Int) (target target' : Str) (body body' : MsgIdBody)
    (hn : Int64 net) (hn' : Int64 net') (hb : BodyWF body) (hb' : BodyWF body')
    (ht : (∀ b ∈ target, b < 256) ∧ target.length < 2 ^ 64)
    (ht' : (∀ b ∈ target', b < 256) ∧ target'.length < 2 ^ 64)
    (h : formatMsgID net target body = formatMsgID net' target' body') :
    net = net' ∧ target = target' ∧ body = body' := by
  have htOK : TargetOK (fun _ => true) target := ⟨ht.1, rfl, ht.2⟩
  have htOK' : TargetOK (fun _ => true) target' := ⟨ht'.1, rfl, ht'.2⟩
  have e1 := C11_msgid_roundtrip _ net target body hn htOK hb
  by_cases hty : body.type = body'.type
  · have e2 := C11_msgid_roundtrip _ net' target' body' hn' htOK' hb'
    rw [h, hty, e2] at e1
    simpa [eq_comm] using e1
  · have e2 := C11_msgid_typed _ net' target' body' hn' htOK' body.type hty
    rw [h, e2] at e1
    cases e1

/-- C11: whatever follows, an ID of another format version is rejected by every parser. -/
theorem C11_msgid_version (ok : Str → Bool) (v : Nat) (hv : v < 2 ^ 64) (h0 : v ≠ 0) (rest : List Nat)
    (hr : ∀ b ∈ rest, b < 256) (t : MsgIdType) :
    parseMsgID ok t (Base64.encode .rawURL (uvarint v ++ rest)) = none ∧
    parseMsgIDHeader ok (Base64.encode .rawURL (uvarint v ++ rest)) = none := by
  have hb : ∀ b ∈ uvarint v ++ rest, b < 256 := by
    intro b hb
    rcases List.mem_append.1 hb with h | h
    · exact uvarint_lt v b h
    · exact hr b h
  have hh : readHeader ok (uvarint v ++ rest) = none := by
    unfold readHeader
    rw [readUvarint_uvarint v hv]
    simp [h0]
  unfold parseMsgID parseMsgIDHeader
  rw [decode_encode _ _ hb]
  simp [hh]

example : Base64.encode .rawURL (uvarint 1 ++ [10, 1, 97, 1, 5]) = b!"AQoBYQEF" := by decide +kernel

example : TargetOK (fun _ => true) b!"#soju" ∧ Int64 (-5) ∧ BodyWF (.fs 2024 2 29 (-1)) ∧
    BodyWF (.memory 18446744073709551615) := by
  refine ⟨⟨by decide, rfl, by decide⟩, ?_, ?_, ?_⟩ <;> simp [Proof.Int64, BodyWF]

end Verif.Props
