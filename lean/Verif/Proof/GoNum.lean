import Verif.Model.GoNum
import Verif.Proof.GoStr

namespace Verif.Proof
open Verif.Model

theorem digitsVal_eq (s : Str) : digitsVal s = decVal s := rfl

theorem isDigit_iff (c : Byte) : isDigit c = true ↔ 48 ≤ c ∧ c ≤ 57 := by simp [isDigit]

theorem itoa_all_digit (n : Nat) : (itoa n).all isDigit = true := by
  rw [List.all_eq_true]; intro c hc; rw [isDigit_iff]; exact itoa_digits n c hc

theorem parseUint64_itoa (n : Nat) (h : n < 2 ^ 64) : parseUint64 (itoa n) = some n := by
  unfold parseUint64
  rw [digitsVal_eq, decVal_itoa, if_pos ⟨itoa_ne_nil n, itoa_all_digit n, h⟩]

theorem parseInt64_itoaInt (n : Int) (h1 : -(2 ^ 63) ≤ n) (h2 : n < 2 ^ 63) : parseInt64 (itoaInt n) = some n := by
  unfold itoaInt
  split
  · unfold parseInt64
    simp only
    rw [parseUint64_itoa _ (by omega)]
    simp only
    rw [if_pos (by omega)]
    simp; omega
  · have hd : ∀ c r, itoa n.natAbs = c :: r → c ≠ 45 ∧ c ≠ 43 := by
      intro c r he
      have := itoa_digits n.natAbs c (by rw [he]; simp)
      omega
    have hp := parseUint64_itoa n.natAbs (by omega)
    unfold parseInt64
    split
    · rename_i r he; exact absurd rfl (hd _ _ he).1
    · rename_i r he; exact absurd rfl (hd _ _ he).2
    · rw [hp]; simp only; rw [if_pos (by omega)]; simp; omega

/-- Splitting off the digits at the front. -/
theorem span_digits (a b : Str) (ha : a.all isDigit = true) (hb : ∀ c ∈ b.head?, isDigit c = false) :
    (a ++ b).takeWhile isDigit = a ∧ (a ++ b).dropWhile isDigit = b := by
  induction a with
  | nil =>
    cases b with
    | nil => simp
    | cons c b => simp [hb c (by simp)]
  | cons c a ih =>
    simp only [List.all_cons, Bool.and_eq_true] at ha
    have := ih ha.2
    simp [ha.1, this]

end Verif.Proof
