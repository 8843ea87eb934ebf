import Verif.Model.SqlTime
import Verif.Proof.GoStr
import Verif.Proof.Util

/-! # Lemmas on dates and their texts -/

namespace Verif.Proof
open Verif.Model

/-- Length of a year (counted from −399). -/
def absYearLen (y : Nat) : Nat := if isLeapYear (y + 1) then 366 else 365

theorem absYearStart_succ (y : Nat) : absYearStart (y + 1) = absYearStart y + absYearLen y := by
  unfold absYearStart absYearLen isLeapYear
  simp only [decide_eq_true_eq]
  split <;> omega

/-- The decomposition of a day computed by `absYearDay`. -/
theorem absYearDay_decomp (d : Nat) : ∃ a c e f yd, absYearDay d = (400 * a + 100 * c + 4 * e + f, yd) ∧
    c ≤ 3 ∧ e ≤ 24 ∧ f ≤ 3 ∧ d = 146097 * a + 36524 * c + 1461 * e + 365 * f + yd ∧ yd ≤ 365 ∧
    (yd = 365 → f = 3 ∧ (e = 24 → c = 3)) := by
  refine ⟨_, _, _, _, _, rfl, ?_⟩
  generalize ha : d / 146097 = a
  generalize hr : d - 146097 * a = r
  have hr' : r < 146097 := by omega
  have hd : d = 146097 * a + r := by omega
  clear hr ha
  generalize hc : r / 36524 - r / 36524 / 4 = c
  have hc3 : c ≤ 3 := by omega
  generalize hr2 : r - 36524 * c = r2
  have hrc : r = 36524 * c + r2 := by omega
  have hr2' : r2 ≤ 36524 ∧ (r2 = 36524 → c = 3) := by omega
  clear hr2 hc
  generalize he : r2 / 1461 = e
  have he' : e ≤ 24 := by omega
  generalize hr3 : r2 - 1461 * e = r3
  have hre : r2 = 1461 * e + r3 := by omega
  have hr3' : r3 ≤ 1460 := by omega
  clear hr3 he
  generalize hf : r3 / 365 - r3 / 365 / 4 = f
  have hf3 : f ≤ 3 := by omega
  generalize hy : r3 - 365 * f = yd
  have hrf : r3 = 365 * f + yd := by omega
  have hy' : yd ≤ 365 ∧ (yd = 365 → f = 3) := by omega
  clear hy hf
  refine ⟨hc3, he', hf3, by omega, hy'.1, fun h => ⟨hy'.2 h, fun h24 => hr2'.2 ?_⟩⟩
  have := hy'.2 h
  omega

theorem absYearStart_decomp (a c e f : Nat) (hc : c ≤ 3) (he : e ≤ 24) (hf : f ≤ 3) :
    absYearStart (400 * a + 100 * c + 4 * e + f) = 146097 * a + 36524 * c + 1461 * e + 365 * f := by
  unfold absYearStart
  have h1 : (400 * a + 100 * c + 4 * e + f) / 400 = a := by omega
  simp only [h1]
  have h2 : (400 * a + 100 * c + 4 * e + f - 400 * a) / 100 = c := by omega
  simp only [h2]
  have h3 : (400 * a + 100 * c + 4 * e + f - 400 * a - 100 * c) / 4 = e := by omega
  simp only [h3]
  omega

theorem absYearDay_spec (d : Nat) :
    absYearStart (absYearDay d).1 + (absYearDay d).2 = d ∧ (absYearDay d).2 < absYearLen (absYearDay d).1 := by
  obtain ⟨a, c, e, f, yd, h, hc, he, hf, hd, hy, hl⟩ := absYearDay_decomp d
  rw [h]
  simp only
  rw [absYearStart_decomp a c e f hc he hf]
  refine ⟨by omega, ?_⟩
  unfold absYearLen isLeapYear
  simp only [decide_eq_true_eq]
  split
  · omega
  · rename_i hn
    rcases Nat.lt_or_ge yd 365 with h' | h'
    · exact h'
    · exfalso
      have := hl (by omega)
      apply hn
      refine ⟨by omega, ?_⟩
      by_cases h24 : e = 24
      · right; have := this.2 h24; omega
      · left; omega

theorem absYearStart_mono {y y' : Nat} (h : y ≤ y') : absYearStart y ≤ absYearStart y' := by
  induction y' with
  | zero => have : y = 0 := by omega
            subst this; omega
  | succ n ih =>
    rcases Nat.lt_or_ge n y with h' | h'
    · have : y = n + 1 := by omega
      subst this; omega
    · have := ih h'
      rw [absYearStart_succ]; omega

theorem absYearDay_mono {a b : Nat} (h : a < b) :
    (absYearDay a).1 < (absYearDay b).1 ∨
      ((absYearDay a).1 = (absYearDay b).1 ∧ (absYearDay a).2 < (absYearDay b).2) := by
  obtain ⟨h1, h2⟩ := absYearDay_spec a
  obtain ⟨h3, h4⟩ := absYearDay_spec b
  rcases Nat.lt_trichotomy (absYearDay a).1 (absYearDay b).1 with hh | hh | hh
  · exact .inl hh
  · refine .inr ⟨hh, ?_⟩
    rw [hh] at h1; omega
  · have := absYearStart_mono (y := (absYearDay b).1 + 1) (y' := (absYearDay a).1) hh
    rw [absYearStart_succ] at this
    omega

set_option maxRecDepth 100000 in
theorem monthDay_table : ∀ leap : Bool, ∀ yd : Fin 366, (leap = true ∨ yd.val < 365) →
    let p := monthDay leap yd.val
    (1 ≤ p.1 ∧ p.1 ≤ 12 ∧ 1 ≤ p.2 ∧ p.2 ≤ daysInMonth leap p.1) ∧
    daysBeforeMonth (p.1 - 1) + (if leap && decide (p.1 ≥ 3) then 1 else 0) + (p.2 - 1) = yd.val ∧
    p.2 ≤ 31 := by
  decide +kernel

set_option maxRecDepth 100000 in
theorem monthDay_next : ∀ leap : Bool, ∀ yd : Fin 365, (leap = true ∨ yd.val < 364) →
    (monthDay leap yd.val).1 < (monthDay leap (yd.val + 1)).1 ∨
      ((monthDay leap yd.val).1 = (monthDay leap (yd.val + 1)).1 ∧
       (monthDay leap yd.val).2 < (monthDay leap (yd.val + 1)).2) := by
  decide +kernel

theorem monthDay_spec {leap : Bool} {yd : Nat} (h : yd < (if leap then 366 else 365)) :
    (1 ≤ (monthDay leap yd).1 ∧ (monthDay leap yd).1 ≤ 12 ∧ 1 ≤ (monthDay leap yd).2 ∧
      (monthDay leap yd).2 ≤ daysInMonth leap (monthDay leap yd).1) ∧
    daysBeforeMonth ((monthDay leap yd).1 - 1) + (if leap && decide ((monthDay leap yd).1 ≥ 3) then 1 else 0) +
      ((monthDay leap yd).2 - 1) = yd ∧ (monthDay leap yd).2 ≤ 31 := by
  have h1 : yd < 366 := by split at h <;> omega
  exact monthDay_table leap ⟨yd, h1⟩ (by cases leap <;> simp at h ⊢; exact h)

theorem monthDay_mono {leap : Bool} {a b : Nat} (hb : b < (if leap then 366 else 365)) (h : a < b) :
    (monthDay leap a).1 < (monthDay leap b).1 ∨
      ((monthDay leap a).1 = (monthDay leap b).1 ∧ (monthDay leap a).2 < (monthDay leap b).2) := by
  induction b with
  | zero => omega
  | succ n ih =>
    have hn : n < 365 := by split at hb <;> omega
    have step := monthDay_next leap ⟨n, hn⟩ (by cases leap <;> simp at hb ⊢; omega)
    simp only at step
    rcases Nat.lt_or_ge a n with h' | h'
    · have := ih (by omega) h'
      omega
    · have : a = n := by omega
      subst this; exact step

/-! ## Texts -/

theorem decVal_cons (c : Byte) (s : Str) : decVal (c :: s) = (c - 48) * 10 ^ s.length + decVal s := by
  induction s using snocInd with
  | nil => simp [decVal]
  | snoc s x ih =>
    rw [show c :: (s ++ [x]) = (c :: s) ++ [x] by rfl, decVal_snoc, decVal_snoc, ih]
    simp [Nat.pow_succ]
    grind

theorem decVal_lt (s : Str) (h : ∀ c ∈ s, 48 ≤ c ∧ c ≤ 57) : decVal s < 10 ^ s.length := by
  induction s with
  | nil => simp [decVal]
  | cons c s ih =>
    rw [decVal_cons]
    have := ih (fun x hx => h x (by simp [hx]))
    have := h c (by simp)
    simp only [List.length_cons, Nat.pow_succ]
    have : (c - 48) * 10 ^ s.length ≤ 9 * 10 ^ s.length := Nat.mul_le_mul_right _ (by omega)
    omega

/-- For strings of digits of the same length, the lexicographic order is the order of the values. -/
theorem digits_lt (s t : Str) (hl : s.length = t.length) (hs : ∀ c ∈ s, 48 ≤ c ∧ c ≤ 57)
    (ht : ∀ c ∈ t, 48 ≤ c ∧ c ≤ 57) (h : decVal s < decVal t) (a b : Str) : s ++ a < t ++ b := by
  induction s generalizing t with
  | nil =>
    cases t with
    | nil => simp at h
    | cons => simp at hl
  | cons c s ih =>
    cases t with
    | nil => simp at hl
    | cons d t =>
      rw [decVal_cons, decVal_cons] at h
      simp at hl
      rw [hl] at h
      have h1 := decVal_lt s (fun x hx => hs x (by simp [hx]))
      have h2 := decVal_lt t (fun x hx => ht x (by simp [hx]))
      have hc := hs c (by simp)
      have hd := ht d (by simp)
      rcases Nat.lt_trichotomy c d with hcd | hcd | hcd
      · exact List.Lex.rel hcd
      · subst hcd
        exact List.Lex.cons (ih t hl (fun x hx => hs x (by simp [hx])) (fun x hx => ht x (by simp [hx])) (by omega))
      · exfalso
        have : (d - 48 + 1) * 10 ^ t.length ≤ (c - 48) * 10 ^ t.length := Nat.mul_le_mul_right _ (by omega)
        rw [hl] at h1
        rw [Nat.add_mul] at this
        omega

theorem append_lt_append (s a b : Str) (h : a < b) : s ++ a < s ++ b := by
  induction s with
  | nil => exact h
  | cons c s ih => exact List.Lex.cons ih

/-- One field of a text: compare it first, then the rest. -/
theorem field_lt (w n n' : Nat) (r r' : Str) (hw : 0 < w) (hn : n < 10 ^ w) (hn' : n' < 10 ^ w)
    (h : n < n' ∨ (n = n' ∧ r < r')) : padDec w n ++ r < padDec w n' ++ r' := by
  rcases h with h | ⟨h1, h2⟩
  · refine digits_lt _ _ ?_ (padDec_digits w n) (padDec_digits w n') ?_ r r'
    · rw [padDec_length w n hw hn, padDec_length w n' hw hn']
    · rw [decVal_padDec, decVal_padDec]; exact h
  · rw [h1]; exact append_lt_append _ _ _ h2

theorem fixedNum_padDec (w n : Nat) (s : Str) (hw : 0 < w) (hn : n < 10 ^ w) :
    fixedNum w (padDec w n ++ s) = some (n, s) := by
  have hl := padDec_length w n hw hn
  unfold fixedNum
  have h1 : (padDec w n ++ s).take w = padDec w n := by rw [List.take_append_of_le_length (by omega), List.take_of_length_le (by omega)]
  have h2 : (padDec w n ++ s).drop w = s := by rw [List.drop_append_of_le_length (by omega), List.drop_of_length_le (by omega)]; simp
  simp only [h1, h2]
  have hall : (padDec w n).all (fun c => decide (48 ≤ c ∧ c ≤ 57)) = true := by
    simp only [List.all_eq_true, decide_eq_true_eq]
    exact padDec_digits w n
  rw [if_pos ⟨hl, hall⟩]
  have : (padDec w n).foldl (fun a c => a * 10 + (c - 48)) 0 = n := decVal_padDec w n
  rw [this]

end Verif.Proof
