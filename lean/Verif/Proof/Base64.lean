import Verif.Model.Base64

namespace Verif.Proof
open Verif.Model Verif.Model.Base64

theorem decChar_encChar (e : Enc) (n : Nat) (h : n < 64) : decChar e (encChar e n) = some n := by
  unfold decChar encChar
  cases e <;> simp only <;> grind (splits := 40)

theorem encChar_clean (e : Enc) (n : Nat) (h : n < 64) : encChar e n ≠ 10 ∧ encChar e n ≠ 13 ∧
    encChar e n ≠ 61 := by
  unfold encChar
  cases e <;> simp only <;> grind (splits := 40)

theorem decodeClean_encode (e : Enc) (bs : List Byte) (h : ∀ b ∈ bs, b < 256) :
    decodeClean e (encode e bs) = some bs := by
  fun_induction encode e bs with
  | case1 => rfl
  | case2 a =>
    have ha : a < 256 := h a (by simp)
    have h1 := decChar_encChar e (a / 4) (by omega)
    have h2 := decChar_encChar e (a % 4 * 16) (by omega)
    cases e <;> simp [pad, decodeClean, h1, h2] <;> omega
  | case3 a b =>
    have ha : a < 256 := h a (by simp)
    have hb : b < 256 := h b (by simp)
    have h1 := decChar_encChar e (a / 4) (by omega)
    have h2 := decChar_encChar e (a % 4 * 16 + b / 16) (by omega)
    have h3 := decChar_encChar e (b % 16 * 4) (by omega)
    have h4 := (encChar_clean e (b % 16 * 4) (by omega)).2.2
    cases e <;> simp [pad, decodeClean, h1, h2, h3, h4] <;> omega
  | case4 a b c rest ih =>
    have ha : a < 256 := h a (by simp)
    have hb : b < 256 := h b (by simp)
    have hc : c < 256 := h c (by simp)
    have h1 := decChar_encChar e (a / 4) (by omega)
    have h2 := decChar_encChar e (a % 4 * 16 + b / 16) (by omega)
    have h3 := decChar_encChar e (b % 16 * 4 + c / 64) (by omega)
    have h4 := decChar_encChar e (c % 64) (by omega)
    have h5 := (encChar_clean e (c % 64) (by omega)).2.2
    have ih := ih (fun b hb => h b (by simp [hb]))
    simp [decodeClean, h1, h2, h3, h4, h5, ih]
    omega

theorem encode_clean (e : Enc) (bs : List Byte) (h : ∀ b ∈ bs, b < 256) :
    ∀ c ∈ encode e bs, c ≠ 10 ∧ c ≠ 13 := by
  fun_induction encode e bs with
  | case1 => simp
  | case2 a =>
    have ha : a < 256 := h a (by simp)
    have h1 := encChar_clean e (a / 4) (by omega)
    have h2 := encChar_clean e (a % 4 * 16) (by omega)
    cases e <;> simp [pad] <;> omega
  | case3 a b =>
    have ha : a < 256 := h a (by simp)
    have hb : b < 256 := h b (by simp)
    have h1 := encChar_clean e (a / 4) (by omega)
    have h2 := encChar_clean e (a % 4 * 16 + b / 16) (by omega)
    have h3 := encChar_clean e (b % 16 * 4) (by omega)
    cases e <;> simp [pad] <;> omega
  | case4 a b c rest ih =>
    have ha : a < 256 := h a (by simp)
    have hb : b < 256 := h b (by simp)
    have hc : c < 256 := h c (by simp)
    have h1 := encChar_clean e (a / 4) (by omega)
    have h2 := encChar_clean e (a % 4 * 16 + b / 16) (by omega)
    have h3 := encChar_clean e (b % 16 * 4 + c / 64) (by omega)
    have h4 := encChar_clean e (c % 64) (by omega)
    have ih := ih (fun b hb => h b (by simp [hb]))
    intro x hx
    simp only [List.mem_cons] at hx
    rcases hx with rfl | rfl | rfl | rfl | hx
    · omega
    · omega
    · omega
    · omega
    · exact ih x hx

theorem decode_encode (e : Enc) (bs : List Byte) (h : ∀ b ∈ bs, b < 256) :
    decode e (encode e bs) = some bs := by
  unfold decode
  rw [List.filter_eq_self.2, decodeClean_encode e bs h]
  intro c hc
  simpa using encode_clean e bs h c hc

theorem encode_std_length (bs : List Byte) : (encode .std bs).length = (bs.length + 2) / 3 * 4 := by
  fun_induction encode Enc.std bs with
  | case1 => rfl
  | case2 a => simp [pad]
  | case3 a b => simp [pad]
  | case4 a b c rest ih => simp [ih]; omega

/-- The encoded text never is a lone `+`, and is empty only for no bytes. -/
theorem encode_eq_nil (e : Enc) (bs : List Byte) : encode e bs = [] ↔ bs = [] := by
  fun_induction encode e bs <;> simp

end Verif.Proof
