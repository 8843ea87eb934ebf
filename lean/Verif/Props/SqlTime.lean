import Verif.Model.SqlTime
import Verif.Proof.SqlTime

/-! # C34: the times stored in the database -/

namespace Verif.Props
open Verif.Model Verif.Proof

/-- The instants from the beginning of year 0 (366 days before Go's zero time) to the end of year 9999. -/
def InYears (t : Int) : Prop := -366 * dayNanos ≤ t ∧ t < 3652059 * dayNanos

private theorem fields_bounds {t : Int} (h : InYears t) {a : Nat} (ha : (t / dayNanos + 146097).toNat = a) :
    399 ≤ (absYearDay a).1 ∧ (absYearDay a).1 < 10399 ∧ t / dayNanos + 146097 = a := by
  unfold InYears dayNanos at h
  unfold dayNanos at ha ⊢
  obtain ⟨s1, s2⟩ := absYearDay_spec a
  refine ⟨?_, ?_, by omega⟩
  · have hge : 145731 ≤ a := by omega
    rcases Nat.lt_or_ge (absYearDay a).1 399 with hlt | hge'
    · have := absYearStart_mono (y := (absYearDay a).1 + 1) (y' := 399) hlt
      rw [absYearStart_succ] at this
      have e : absYearStart 399 = 145731 := by decide
      omega
    · exact hge'
  · have hlt : a < 3798156 := by omega
    rcases Nat.lt_or_ge (absYearDay a).1 10399 with h' | h'
    · omega
    · have := absYearStart_mono h'
      have e : absYearStart 10399 = 3798156 := by decide
      omega

private theorem format_fields (t : Int) (a ms y m d : Nat) (ha : (t / dayNanos + 146097).toNat = a)
    (hms : (t % dayNanos / 1000000).toNat = ms) (hy : (absYearDay a).1 - 399 = y)
    (hm : (monthDay (isLeapYear ((absYearDay a).1 + 1)) (absYearDay a).2).1 = m)
    (hd : (monthDay (isLeapYear ((absYearDay a).1 + 1)) (absYearDay a).2).2 = d) :
    sqliteFormat t = padDec 4 y ++ 45 :: (padDec 2 m ++ 45 :: (padDec 2 d ++ 84 :: (padDec 2 (ms / 3600000) ++
      58 :: (padDec 2 (ms / 60000 % 60) ++ 58 :: (padDec 2 (ms / 1000 % 60) ++ 46 :: (padDec 3 (ms % 1000) ++
      [90])))))) := by
  unfold sqliteFormat absDate
  rw [ha, hms]
  simp only [hy, hm, hd]
  simp only [List.append_assoc, List.cons_append, List.nil_append]

private theorem year_leap (y : Nat) (h : y ≥ 399) : isLeapYear (y + 1) = isLeapYear (y - 399) := by
  unfold isLeapYear
  rw [decide_eq_decide]
  omega

/-- C34: reading back what was stored for an instant gives the instant truncated to milliseconds. -/
theorem C34_roundtrip (t : Int) (h : InYears t) : sqliteParse (sqliteFormat t) = some (toMillis t) := by
  rw [format_fields t _ _ _ _ _ rfl rfl rfl rfl rfl]
  generalize hA : (t / dayNanos + 146097).toNat = a
  obtain ⟨b1, b2, b3⟩ := fields_bounds h hA
  obtain ⟨s1, s2⟩ := absYearDay_spec a
  generalize hy : (absYearDay a).1 = y at *
  generalize hyd : (absYearDay a).2 = yd at *
  obtain ⟨m1, m2, m3⟩ := monthDay_spec (leap := isLeapYear (y + 1)) (yd := yd) s2
  generalize hm : (monthDay (isLeapYear (y + 1)) yd).1 = m at *
  generalize hd : (monthDay (isLeapYear (y + 1)) yd).2 = d at *
  generalize hms : (t % dayNanos / 1000000).toNat = ms
  have hms' : ms < 86400000 := by unfold dayNanos at hms; omega
  have htm : (t % dayNanos / 1000000 : Int) = ms := by unfold dayNanos at hms ⊢; omega
  unfold sqliteParse
  simp only [Option.bind_eq_bind]
  rw [fixedNum_padDec 4 _ _ (by omega) (by omega)]
  simp only [Option.bind_some, List.cons_append, List.nil_append, fixedByte, if_true]
  rw [fixedNum_padDec 2 _ _ (by omega) (by omega)]
  simp only [Option.bind_some, fixedByte, if_true]
  rw [fixedNum_padDec 2 _ _ (by omega) (by omega)]
  simp only [Option.bind_some, fixedByte, if_true]
  rw [fixedNum_padDec 2 _ _ (by omega) (by omega)]
  simp only [Option.bind_some, fixedByte, if_true]
  rw [fixedNum_padDec 2 _ _ (by omega) (by omega)]
  simp only [Option.bind_some, fixedByte, if_true]
  rw [fixedNum_padDec 2 _ _ (by omega) (by omega)]
  simp only [Option.bind_some, fixedByte, if_true]
  rw [fixedNum_padDec 3 _ _ (by omega) (by omega)]
  simp only [Option.bind_some, fixedByte, if_true]
  rw [if_pos]
  · congr 1
    have e : y - 399 + 399 = y := by omega
    rw [e]
    have hday : absDay y m d = a := by unfold absDay; omega
    rw [hday]
    have hfull : ((ms / 3600000 * 60 + ms / 60000 % 60) * 60 + ms / 1000 % 60) * 1000 + ms % 1000 = ms := by omega
    rw [hfull]
    unfold toMillis
    unfold dayNanos at *
    omega
  · refine ⟨trivial, m1.1, m1.2.1, m1.2.2.1, ?_, by omega, by omega, by omega⟩
    rw [← year_leap y b1]; exact m1.2.2.2

/-- C34: the same for the column values: NULL stands for the zero time. -/
theorem C34_stored (t : Int) (h : InYears t) : sqliteScan (sqliteValue t) = some (toMillis t) := by
  unfold sqliteValue
  split
  · rename_i h0; subst h0; rfl
  · exact C34_roundtrip t h

private theorem format_lt {t t' : Int} (h : InYears t) (h' : InYears t') (hlt : toMillis t < toMillis t') :
    sqliteFormat t < sqliteFormat t' := by
  rw [format_fields t _ _ _ _ _ rfl rfl rfl rfl rfl, format_fields t' _ _ _ _ _ rfl rfl rfl rfl rfl]
  have hday : (t / dayNanos + 146097).toNat < (t' / dayNanos + 146097).toNat ∨
      ((t / dayNanos + 146097).toNat = (t' / dayNanos + 146097).toNat ∧
        (t % dayNanos / 1000000).toNat < (t' % dayNanos / 1000000).toNat) := by
    have r1 := h.1
    have r2 := h'.1
    unfold toMillis at hlt
    unfold dayNanos at *
    omega
  generalize hA : (t / dayNanos + 146097).toNat = a at *
  generalize hA' : (t' / dayNanos + 146097).toNat = a' at *
  obtain ⟨b1, b2, b3⟩ := fields_bounds h hA
  obtain ⟨c1, c2, c3⟩ := fields_bounds h' hA'
  generalize hms : (t % dayNanos / 1000000).toNat = ms at *
  generalize hms' : (t' % dayNanos / 1000000).toNat = ms' at *
  have l1 : ms < 86400000 := by unfold dayNanos at hms; omega
  have l2 : ms' < 86400000 := by unfold dayNanos at hms'; omega
  obtain ⟨s1, s2⟩ := absYearDay_spec a
  obtain ⟨s1', s2'⟩ := absYearDay_spec a'
  obtain ⟨m1, m2, m3⟩ := monthDay_spec (leap := isLeapYear ((absYearDay a).1 + 1)) s2
  obtain ⟨m1', m2', m3'⟩ := monthDay_spec (leap := isLeapYear ((absYearDay a').1 + 1)) s2'
  -- the date
  have hdate : (absYearDay a).1 - 399 < (absYearDay a').1 - 399 ∨ ((absYearDay a).1 - 399 = (absYearDay a').1 - 399 ∧
      ((monthDay (isLeapYear ((absYearDay a).1 + 1)) (absYearDay a).2).1 < (monthDay (isLeapYear ((absYearDay a').1 + 1)) (absYearDay a').2).1 ∨
       ((monthDay (isLeapYear ((absYearDay a).1 + 1)) (absYearDay a).2).1 = (monthDay (isLeapYear ((absYearDay a').1 + 1)) (absYearDay a').2).1 ∧
        ((monthDay (isLeapYear ((absYearDay a).1 + 1)) (absYearDay a).2).2 < (monthDay (isLeapYear ((absYearDay a').1 + 1)) (absYearDay a').2).2 ∨
         ((monthDay (isLeapYear ((absYearDay a).1 + 1)) (absYearDay a).2).2 = (monthDay (isLeapYear ((absYearDay a').1 + 1)) (absYearDay a').2).2 ∧
          ms < ms'))))) := by
    rcases hday with hd | ⟨hd, hm⟩
    · rcases absYearDay_mono hd with hh | ⟨hy, hyd⟩
      · left; omega
      · right
        refine ⟨by omega, ?_⟩
        rw [hy] at s2 ⊢
        rcases monthDay_mono (leap := isLeapYear ((absYearDay a').1 + 1)) s2' hyd with h | ⟨h1, h2⟩
        · exact .inl h
        · exact .inr ⟨h1, .inl h2⟩
    · right
      rw [hd]
      exact ⟨rfl, .inr ⟨rfl, .inr ⟨rfl, hm⟩⟩⟩
  refine field_lt 4 _ _ _ _ (by omega) (by omega) (by omega) ?_
  refine hdate.imp id (fun ⟨e, hd⟩ => ⟨e, List.Lex.cons ?_⟩)
  refine field_lt 2 _ _ _ _ (by omega) (by omega) (by omega) ?_
  refine hd.imp id (fun ⟨e, hd⟩ => ⟨e, List.Lex.cons ?_⟩)
  refine field_lt 2 _ _ _ _ (by omega) (by omega) (by omega) ?_
  refine hd.imp id (fun ⟨e, hm⟩ => ⟨e, List.Lex.cons ?_⟩)
  refine field_lt 2 _ _ _ _ (by omega) (by omega) (by omega) ?_
  rcases Nat.lt_or_ge (ms / 3600000) (ms' / 3600000) with h1 | h1
  · exact .inl h1
  refine .inr ⟨by omega, List.Lex.cons ?_⟩
  refine field_lt 2 _ _ _ _ (by omega) (by omega) (by omega) ?_
  rcases Nat.lt_or_ge (ms / 60000 % 60) (ms' / 60000 % 60) with h2 | h2
  · exact .inl h2
  refine .inr ⟨by omega, List.Lex.cons ?_⟩
  refine field_lt 2 _ _ _ _ (by omega) (by omega) (by omega) ?_
  rcases Nat.lt_or_ge (ms / 1000 % 60) (ms' / 1000 % 60) with h3 | h3
  · exact .inl h3
  refine .inr ⟨by omega, List.Lex.cons ?_⟩
  refine field_lt 3 _ _ _ _ (by omega) (by omega) (by omega) (.inl (by omega))

private theorem format_eq {t t' : Int} (he : toMillis t = toMillis t') :
    sqliteFormat t = sqliteFormat t' := by
  have h1 : t / dayNanos = t' / dayNanos := by unfold toMillis at he; unfold dayNanos; omega
  have h2 : (t % dayNanos) / 1000000 = (t' % dayNanos) / 1000000 := by unfold toMillis at he; unfold dayNanos; omega
  unfold sqliteFormat
  rw [h1, h2]

private theorem str_lt_irrefl (s : Str) : ¬ s < s := by
  induction s with
  | nil => intro h; cases h
  | cons c s ih =>
    intro h
    cases h with
    | rel h => omega
    | cons h => exact ih h

private theorem str_lt_asymm {s t : Str} (h : s < t) : ¬ t < s := by
  induction h with
  | nil => intro h; cases h
  | rel h => intro h'; cases h' <;> omega
  | cons h ih =>
    intro h'
    cases h' with
    | rel h' => omega
    | cons h' => exact ih h'

/-- C34: the lexicographic order of the stored texts is the chronological order of the instants truncated to
milliseconds. -/
theorem C34_order (t t' : Int) (h : InYears t) (h' : InYears t') :
    (sqliteFormat t < sqliteFormat t' ↔ toMillis t < toMillis t') ∧
    (sqliteFormat t = sqliteFormat t' ↔ toMillis t = toMillis t') := by
  have key : ∀ a b : Int, InYears a → InYears b → sqliteFormat a < sqliteFormat b → toMillis a < toMillis b := by
    intro a b ha hb hl
    rcases Int.lt_trichotomy (toMillis a) (toMillis b) with g | g | g
    · exact g
    · rw [format_eq g] at hl; exact absurd hl (str_lt_irrefl _)
    · exact absurd hl (str_lt_asymm (format_lt hb ha g))
  refine ⟨⟨key t t' h h', format_lt h h'⟩, ⟨fun he => ?_, format_eq⟩⟩
  rcases Int.lt_trichotomy (toMillis t) (toMillis t') with g | g | g
  · have := format_lt h h' g; rw [he] at this; exact absurd this (str_lt_irrefl _)
  · exact g
  · have := format_lt h' h g; rw [he] at this; exact absurd this (str_lt_irrefl _)

/-- The bounds of the range, a leap day and the Unix epoch. -/
example : sqliteFormat (-366 * dayNanos) = b!"0000-01-01T00:00:00.000Z" ∧
    sqliteFormat (3652059 * dayNanos - 1) = b!"9999-12-31T23:59:59.999Z" ∧
    sqliteFormat (719162 * dayNanos) = b!"1970-01-01T00:00:00.000Z" ∧
    sqliteFormat (719162 * dayNanos + 1709210096789654321) = b!"2024-02-29T12:34:56.789Z" ∧
    InYears (719162 * dayNanos + 1709210096789654321) := by
  unfold InYears; decide +kernel

end Verif.Props
