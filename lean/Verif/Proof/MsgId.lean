import Verif.Model.MsgId
import Verif.Proof.Base64

/-! # Lemmas on message IDs -/

namespace Verif.Proof
open Verif.Model

theorem uvarint_lt (n : Nat) : ∀ b ∈ uvarint n, b < 256 := by
  fun_induction uvarint n with
  | case1 n h => simp; omega
  | case2 n h ih =>
    intro b hb
    rcases List.mem_cons.1 hb with rfl | hb
    · omega
    · exact ih b hb

theorem readUvarint_uvarint_aux (n : Nat) : ∀ (i : Nat) (rest : List Byte), i ≤ 9 →
    n < 2 ^ (64 - 7 * i) → readUvarint i (uvarint n ++ rest) = some (n, rest) := by
  fun_induction uvarint n with
  | case1 n h =>
    intro i rest hi hn
    simp only [List.cons_append, List.nil_append, readUvarint]
    have h1 : ¬ i ≥ 10 := by omega
    simp only [h1, h, if_false, if_true]
    by_cases h9 : i = 9
    · subst h9
      have : ¬ (n > 1) := by simp at hn; omega
      simp [this]
    · simp [h9]
  | case2 n h ih =>
    intro i rest hi hn
    have hi8 : i ≤ 8 := by
      rcases Nat.lt_or_ge i 9 with h | h
      · omega
      · have : i = 9 := by omega
        subst this
        simp at hn
        omega
    have hlt : n / 128 < 2 ^ (64 - 7 * (i + 1)) := by
      have hp : 2 ^ (64 - 7 * i) = 2 ^ (64 - 7 * (i + 1)) * 128 := by
        rw [show (128 : Nat) = 2 ^ 7 by rfl, ← Nat.pow_add]
        congr 1
        omega
      rw [hp] at hn
      exact Nat.div_lt_of_lt_mul (by rw [Nat.mul_comm]; exact hn)
    have IH := ih (i + 1) rest (by omega) hlt
    have h1 : ¬ i ≥ 10 := by omega
    have h2 : ¬ (n % 128 + 128 < 128) := by omega
    simp only [List.cons_append, readUvarint, h1, h2, if_false, IH]
    simp only [Option.bind_eq_bind, Option.bind_some, Option.pure_def, Option.some.injEq, Prod.mk.injEq,
      and_true]
    omega

theorem readUvarint_uvarint (n : Nat) (h : n < 2 ^ 64) (rest : List Byte) :
    readUvarint 0 (uvarint n ++ rest) = some (n, rest) :=
  readUvarint_uvarint_aux n 0 rest (by omega) (by simpa using h)

theorem unzigzag_zigzag (x : Int) : unzigzag (zigzag x) = x := by
  unfold unzigzag zigzag
  split <;> split <;> omega

/-- The range of Go's `int64`. -/
def Int64 (x : Int) : Prop := -(2 ^ 63) ≤ x ∧ x < 2 ^ 63

theorem zigzag_lt (x : Int) (h : Int64 x) : zigzag x < 2 ^ 64 := by
  unfold Int64 at h
  unfold zigzag
  split <;> omega

theorem readBareInt_bareInt (x : Int) (h : Int64 x) (rest : List Byte) :
    readBareInt (bareInt x ++ rest) = some (x, rest) := by
  unfold readBareInt bareInt
  rw [readUvarint_uvarint _ (zigzag_lt x h)]
  simp [unzigzag_zigzag]

theorem readBareString_bareString (ok : Str → Bool) (s : Str) (hok : ok s = true)
    (hl : s.length < 2 ^ 64) (rest : List Byte) :
    readBareString ok (bareString s ++ rest) = some (s, rest) := by
  unfold readBareString bareString
  rw [List.append_assoc, readUvarint_uvarint _ hl]
  simp [hok]

/-- Values that fit the Go types of the ID bodies. -/
def BodyWF : MsgIdBody → Prop
  | .memory seq => seq < 2 ^ 64
  | .fs y m d o => Int64 y ∧ Int64 m ∧ Int64 d ∧ Int64 o
  | .db id => id < 2 ^ 64

theorem readBody_marshal (b : MsgIdBody) (h : BodyWF b) : readBody b.type b.marshal = some b := by
  cases b with
  | memory n =>
    simp only [MsgIdBody.type, MsgIdBody.marshal, readBody]
    rw [← List.append_nil (uvarint n), readUvarint_uvarint n h]; rfl
  | db n =>
    simp only [MsgIdBody.type, MsgIdBody.marshal, readBody]
    rw [← List.append_nil (uvarint n), readUvarint_uvarint n h]; rfl
  | fs y m d o =>
    obtain ⟨hy, hm, hd, ho⟩ := h
    simp only [MsgIdBody.type, MsgIdBody.marshal, readBody, List.append_assoc]
    rw [readBareInt_bareInt y hy]
    simp only [Option.bind_eq_bind, Option.bind_some]
    rw [readBareInt_bareInt m hm]
    simp only [Option.bind_some]
    rw [readBareInt_bareInt d hd]
    simp only [Option.bind_some]
    rw [← List.append_nil (bareInt o), readBareInt_bareInt o ho]
    rfl

theorem readHeader_bytes (ok : Str → Bool) (net : Int) (target : Str) (b : MsgIdBody)
    (hn : Int64 net) (hok : ok target = true) (hl : target.length < 2 ^ 64) :
    readHeader ok (msgIdBytes net target b) = some ((net, target, b.type.num), b.marshal) := by
  unfold readHeader msgIdBytes
  simp only [List.append_assoc]
  rw [readUvarint_uvarint 0 (by decide)]
  simp only [Option.bind_eq_bind, Option.bind_some]
  rw [readBareInt_bareInt net hn]
  simp only [Option.bind_some]
  rw [readBareString_bareString ok target hok hl]
  simp only [Option.bind_some]
  rw [readUvarint_uvarint _ (by cases b.type <;> decide)]
  simp

theorem marshal_lt (b : MsgIdBody) : ∀ x ∈ b.marshal, x < 256 := by
  cases b <;> simp only [MsgIdBody.marshal, bareInt, List.mem_append]
  · exact uvarint_lt _
  · rintro x (((h | h) | h) | h) <;> exact uvarint_lt _ x h
  · exact uvarint_lt _

theorem msgIdBytes_lt (net : Int) (target : Str) (b : MsgIdBody) (ht : ∀ x ∈ target, x < 256) :
    ∀ x ∈ msgIdBytes net target b, x < 256 := by
  unfold msgIdBytes bareInt bareString
  simp only [List.mem_append]
  rintro x ((((h | h) | h | h) | h) | h)
  · exact uvarint_lt _ x h
  · exact uvarint_lt _ x h
  · exact uvarint_lt _ x h
  · exact ht x h
  · exact uvarint_lt _ x h
  · exact marshal_lt b x h

end Verif.Proof
