import Verif.Model.Backoff
import Verif.Spec.Backoff

/-! # C06: reconnection backoff -/

namespace Verif.Props
open Verif.Model Verif.Spec

/-- The state of a backoffer after `k` attempts since its last reset. -/
private def After (b : Backoffer) (k : Nat) : Prop :=
  match k with
  | 0 => b.n = 0
  | k + 1 => ∃ j, b.n = 2 ^ j ∧ ((j = k ∧ (∀ i < k, 2 ^ i * b.min ≤ b.max)) ∨
      (j ≤ k ∧ 2 ^ j * b.min > b.max ∧ ∀ i < j, 2 ^ i * b.min ≤ b.max))

private theorem pow_pos' (j : Nat) : 0 < 2 ^ j := Nat.pos_of_ne_zero (by simp)

private theorem next_spec (b : Backoffer) (k r : Nat) (h : After b k) :
    After (b.next r).1 (k + 1) ∧ (b.next r).1.min = b.min ∧ (b.next r).1.max = b.max ∧
    (b.next r).1.jitter = b.jitter ∧
    (b.next r).2 = backoffDelay b.min b.max k + (if k = 0 ∨ b.jitter = 0 then 0 else r) := by
  cases k with
  | zero =>
    simp only [After] at h
    simp [Backoffer.next, h, After, backoffDelay]
    exact ⟨0, by simp, .inl rfl⟩
  | succ k =>
    obtain ⟨j, hn, hj⟩ := h
    have hne : b.n ≠ 0 := by rw [hn]; have := pow_pos' j; omega
    simp only [Backoffer.next, hne, if_false]
    rcases hj with ⟨rfl, hle⟩ | ⟨hjk, hgt, hle⟩
    · by_cases hc : b.n * b.min > b.max
      · rw [if_pos hc]
        rw [hn] at hc
        refine ⟨⟨j, hn, .inr ⟨by omega, hc, hle⟩⟩, rfl, rfl, rfl, ?_⟩
        have : Nat.min (2 ^ j * b.min) b.max = b.max := Nat.min_eq_right (by omega)
        simp [backoffDelay, this]
        split <;> simp_all
      · rw [if_neg hc]
        have hc' : 2 ^ j * b.min ≤ b.max := by rw [hn] at hc; omega
        refine ⟨⟨j + 1, by simp [hn, Nat.pow_succ], .inl ⟨rfl, ?_⟩⟩, rfl, rfl, rfl, ?_⟩
        · intro i hi
          simp only
          rcases Nat.lt_succ_iff_lt_or_eq.1 hi with hi | rfl
          · exact hle i hi
          · exact hc'
        · have : Nat.min (2 ^ j * b.min) b.max = 2 ^ j * b.min := Nat.min_eq_left hc'
          simp [backoffDelay, this, hn]
          split <;> simp_all
    · have hc : b.n * b.min > b.max := by rw [hn]; exact hgt
      rw [if_pos hc]
      refine ⟨⟨j, hn, .inr ⟨by omega, hgt, hle⟩⟩, rfl, rfl, rfl, ?_⟩
      have hmono : 2 ^ j * b.min ≤ 2 ^ k * b.min :=
        Nat.mul_le_mul_right _ (Nat.pow_le_pow_right (by omega) hjk)
      have : Nat.min (2 ^ k * b.min) b.max = b.max := Nat.min_eq_right (by omega)
      simp [backoffDelay, this]
      split <;> simp_all

/-- The attempts since the last reset, as the specification counts them: the delays expected for a
history starting at attempt `k`. -/
def expectedDelays (min max jitter k : Nat) : List Backoffer.Op → List Nat
  | [] => []
  | .reset :: ops => expectedDelays min max jitter 0 ops
  | .next r :: ops =>
    (backoffDelay min max k + (if k = 0 ∨ jitter = 0 then 0 else r)) ::
      expectedDelays min max jitter (k + 1) ops

private theorem run_spec (ops : List Backoffer.Op) (b : Backoffer) (k : Nat) (h : After b k) :
    (b.run ops).2 = expectedDelays b.min b.max b.jitter k ops := by
  induction ops generalizing b k with
  | nil => rfl
  | cons op ops ih =>
    cases op with
    | reset =>
      simp only [Backoffer.run, expectedDelays]
      exact ih b.reset 0 rfl
    | next r =>
      obtain ⟨h1, h2, h3, h4, h5⟩ := next_spec b k r h
      have IH := ih (b.next r).1 (k + 1) h1
      rw [h2, h3, h4] at IH
      simp only [Backoffer.run, expectedDelays, IH, h5]

/-- C06: for every history of attempts and resets and every choice of random numbers, the delay
before the `k`-th attempt since the last reset is the capped exponential of the specification plus
the jitter drawn (none for the first attempt). -/
theorem C06_delays (min max jitter : Nat) (ops : List Backoffer.Op) :
    ((Backoffer.new min max jitter).run ops).2 = expectedDelays min max jitter 0 ops :=
  run_spec ops (Backoffer.new min max jitter) 0 rfl

/-- C06: the first delay is zero; every later one lies in `[min, max]` before jitter, and the
sequence never decreases. -/
theorem C06_delay_bounds (min max : Nat) (h : min ≤ max) (k : Nat) :
    backoffDelay min max 0 = 0 ∧
    min ≤ backoffDelay min max (k + 1) ∧ backoffDelay min max (k + 1) ≤ max ∧
    backoffDelay min max k ≤ backoffDelay min max (k + 1) := by
  have h1 := pow_pos' k
  have hk : min ≤ 2 ^ k * min := Nat.le_mul_of_pos_left _ h1
  refine ⟨rfl, ?_, Nat.min_le_right .., ?_⟩
  · exact Nat.le_min.2 ⟨hk, h⟩
  · cases k with
    | zero => exact Nat.zero_le _
    | succ k =>
      refine Nat.le_min.2 ⟨Nat.le_trans (Nat.min_le_left ..) ?_, Nat.min_le_right ..⟩
      exact Nat.mul_le_mul_right _ (Nat.pow_le_pow_right (by omega) (by omega))

/-- C06: with a positive `min` the cap is reached, and kept. -/
theorem C06_reaches_cap (min max : Nat) (h : 0 < min) :
    ∃ k₀, ∀ k, k₀ ≤ k → backoffDelay min max k = max := by
  refine ⟨max + 1, ?_⟩
  intro k hk
  obtain ⟨j, rfl⟩ : ∃ j, k = j + 1 := ⟨k - 1, by omega⟩
  apply Nat.min_eq_right
  have h1 : max ≤ 2 ^ max := Nat.le_of_lt Nat.lt_two_pow_self
  have h2 : 2 ^ max ≤ 2 ^ j := Nat.pow_le_pow_right (by omega) (by omega)
  calc max ≤ 2 ^ j := by omega
    _ ≤ 2 ^ j * min := Nat.le_mul_of_pos_right _ h

private theorem run_inv (ops : List Backoffer.Op) (b : Backoffer) (k : Nat) (h : After b k) :
    ∃ k', After (b.run ops).1 k' ∧ (b.run ops).1.min = b.min ∧ (b.run ops).1.max = b.max := by
  induction ops generalizing b k with
  | nil => exact ⟨k, h, rfl, rfl⟩
  | cons op ops ih =>
    cases op with
    | reset => exact ih b.reset 0 rfl
    | next r =>
      obtain ⟨h1, h2, h3, h4, h5⟩ := next_spec b k r h
      obtain ⟨k', h1', h2', h3'⟩ := ih (b.next r).1 (k + 1) h1
      exact ⟨k', h1', by rw [← h2]; exact h2', by rw [← h3]; exact h3'⟩

/-- C06: for `0 < min ≤ max`, in every reachable state the counter and the product the next call
computes stay below twice the cap, so with `2·max + jitter < 2^63` no `int64` ever overflows. -/
theorem C06_no_overflow (min max jitter : Nat) (h0 : 0 < min) (h : min ≤ max)
    (ops : List Backoffer.Op) :
    let b := ((Backoffer.new min max jitter).run ops).1
    b.n * b.min ≤ 2 * max ∧ b.n ≤ 2 * max := by
  intro b
  obtain ⟨k, hk, hmin, hmax⟩ := run_inv ops (Backoffer.new min max jitter) 0 rfl
  have hmin' : b.min = min := hmin
  have hmax' : b.max = max := hmax
  have hprod : b.n * b.min ≤ 2 * max := by
    cases k with
    | zero =>
      have : b.n = 0 := hk
      simp [this]
    | succ k =>
      obtain ⟨j, hn, hj⟩ := hk
      have hn' : b.n = 2 ^ j := hn
      have hprev : ∀ i < j, 2 ^ i * b.min ≤ b.max := by
        rcases hj with ⟨rfl, hle⟩ | ⟨_, _, hle⟩
        · exact hle
        · exact hle
      cases j with
      | zero => simp [hn', hmin']; omega
      | succ j =>
        have := hprev j (by omega)
        rw [hn', hmin', Nat.pow_succ]
        rw [hmin', hmax'] at this
        calc 2 ^ j * 2 * min = 2 * (2 ^ j * min) := by rw [Nat.mul_comm (2 ^ j) 2, Nat.mul_assoc]
          _ ≤ 2 * max := by omega
  refine ⟨hprod, ?_⟩
  rw [hmin'] at hprod
  exact Nat.le_trans (Nat.le_mul_of_pos_right _ h0) hprod

/-- The constants the code uses (server.go:31-33), in seconds: delays 0, 60, 120, 240, 480, 600,
600, and 0 again after a reset. -/
example : ((Backoffer.new 60 600 60).run
    [.next 1, .next 2, .next 3, .next 4, .next 5, .next 59, .next 7, .reset, .next 8, .next 9]).2
      = [0, 62, 123, 244, 485, 659, 607, 0, 69] := by decide

end Verif.Props
