import Verif.Model.FsStore
import Verif.Spec.FsStore
import Verif.Proof.Util

/-! # Lemmas on the log-file store -/

namespace Verif.Proof
open Verif.Model Verif.Spec

variable {M : Type}

/-! ## lastN -/

theorem lastN_length (n : Nat) (l : List M) : (lastN n l).length = min n l.length := by
  simp [lastN]; omega

theorem lastN_append (n : Nat) (a b : List M) :
    lastN n (a ++ b) = lastN (n - (lastN n b).length) a ++ lastN n b := by
  rw [lastN_length]
  unfold lastN
  rw [List.drop_append, List.length_append]
  congr 1
  · by_cases h : n ≤ b.length
    · rw [List.drop_eq_nil_of_le (by omega), List.drop_eq_nil_of_le (by omega)]
    · congr 1; omega
  · congr 1; omega

theorem lastN_nil (n : Nat) : lastN n ([] : List M) = [] := by simp [lastN]

theorem lastN_zero (l : List M) : lastN 0 l = [] := by simp [lastN]

theorem lastN_of_le (n : Nat) (l : List M) (h : l.length ≤ n) : lastN n l = l := by
  unfold lastN
  rw [show l.length - n = 0 by omega, List.drop_zero]

/-- Nothing more is taken from what precedes once `n` elements were found. -/
theorem lastN_append_full (n : Nat) (a b : List M) (h : n ≤ b.length) : lastN n (a ++ b) = lastN n b := by
  rw [lastN_append, lastN_length, show n - min n b.length = 0 by omega, lastN_zero, List.nil_append]

/-! ## The history ring -/

/-- The ring holds the last `limit` of `xs`. -/
def RingInv (limit : Nat) (st : List (Option M) × Nat) (xs : List M) : Prop :=
  st.1.length = limit ∧ st.2 = xs.length ∧
  ∀ i (h : i < xs.length), xs.length ≤ i + limit → st.1[i % limit]? = some (some xs[i])

theorem ringInv_init (limit : Nat) : RingInv limit (List.replicate limit none, 0) ([] : List M) := by
  refine ⟨by simp, rfl, ?_⟩
  intro i h
  simp at h

theorem ringInv_push (limit : Nat) (hl : 0 < limit) (ring : List (Option M)) (cur : Nat) (xs : List M)
    (m : M) (h : RingInv limit (ring, cur) xs) :
    RingInv limit (ring.set (cur % limit) (some m), cur + 1) (xs ++ [m]) := by
  obtain ⟨h1, h2, h3⟩ := h
  simp only at h1 h2 h3
  refine ⟨by simp [h1], by simp [h2], ?_⟩
  intro i hi hw
  simp only [List.length_append, List.length_singleton] at hi hw
  subst h2
  by_cases hlast : i = xs.length
  · subst hlast
    have : xs.length % limit < ring.length := by rw [h1]; exact Nat.mod_lt _ hl
    simp [this]
  · have hi' : i < xs.length := by omega
    have hne : xs.length % limit ≠ i % limit := by
      intro e
      have hsub := Nat.sub_mod_eq_zero_of_mod_eq e
      have hlt : xs.length - i < limit := by omega
      rw [Nat.mod_eq_of_lt hlt] at hsub
      omega
    simp only
    rw [List.getElem?_set_ne hne, h3 i hi' (by omega)]
    simp [List.getElem_append_left hi']

theorem fsUnroll_eq (limit : Nat) (hl : 0 < limit) (st : List (Option M) × Nat) (xs : List M)
    (h : RingInv limit st xs) : fsUnroll limit st = (lastN limit xs).map some := by
  obtain ⟨ring, cur⟩ := st
  obtain ⟨h1, h2, h3⟩ := h
  simp only at h1 h2 h3
  subst h2
  unfold fsUnroll
  simp only
  by_cases hlt : xs.length < limit
  · rw [if_pos hlt]
    have hs : (xs.length - xs.length + limit) % limit = 0 := by simp
    rw [hs, if_pos (by omega), lastN_of_le _ _ (by omega), List.drop_zero]
    apply List.ext_getElem?
    intro i
    by_cases hi : i < xs.length
    · rw [List.getElem?_take_of_lt hi]
      have := h3 i hi (by omega)
      rw [Nat.mod_eq_of_lt (by omega)] at this
      rw [this]
      simp [hi]
    · rw [List.getElem?_eq_none (by simp; omega), List.getElem?_eq_none (by simp; omega)]
  · rw [if_neg hlt]
    have hs : (xs.length - limit + limit) % limit = xs.length % limit := by
      rw [show xs.length - limit + limit = xs.length by omega]
    rw [hs]
    have hmod := Nat.mod_lt xs.length hl
    have key : ∀ i (hi : i < limit), ring[(xs.length % limit + i) % limit]? = some (some (xs[xs.length - limit + i]'(by omega))) := by
      intro i hi
      have := h3 (xs.length - limit + i) (by omega) (by omega)
      rw [← this]
      congr 1
      have e : (xs.length - limit + i) % limit = (xs.length - limit + i + limit) % limit := by simp
      rw [e, show xs.length - limit + i + limit = xs.length + i by omega]
      simp
    have hget : ∀ i, ((lastN limit xs).map some)[i]? =
        if h : i < limit then some (some (xs[xs.length - limit + i]'(by omega))) else none := by
      intro i
      rw [List.getElem?_map]
      unfold lastN
      rw [List.getElem?_drop]
      split
      · rw [List.getElem?_eq_getElem (by omega)]; rfl
      · rw [List.getElem?_eq_none (by omega)]; rfl
    apply List.ext_getElem?
    intro i
    rw [hget]
    split
    · rename_i hwrap
      have h0 : xs.length % limit = 0 := by omega
      rw [h0]
      by_cases hi : i < limit
      · simp only [List.drop_zero, hi, dif_pos]
        rw [List.getElem?_take_of_lt hi]
        have := key i hi
        rw [h0, Nat.zero_add, Nat.mod_eq_of_lt hi] at this
        exact this
      · rw [dif_neg hi, List.getElem?_eq_none (by simp; omega)]
    · by_cases hi : i < limit
      · rw [dif_pos hi]
        have hk := key i hi
        by_cases hfirst : i < limit - xs.length % limit
        · rw [List.getElem?_append_left (by simp [h1]; omega), List.getElem?_drop]
          rw [Nat.mod_eq_of_lt (by omega)] at hk
          exact hk
        · rw [List.getElem?_append_right (by simp [h1]; omega)]
          simp only [List.length_drop, h1]
          rw [List.getElem?_take_of_lt (by omega)]
          have : (xs.length % limit + i) % limit = i - (limit - xs.length % limit) := by
            rw [Nat.mod_eq_sub_mod (by omega), Nat.mod_eq_of_lt (by omega)]
            omega
          rw [this] at hk
          exact hk
      · rw [dif_neg hi, List.getElem?_eq_none]
        simp [h1]
        omega

/-! ## The scanning loops -/

/-- The log entries of a list of lines. -/
def entries (ls : List (FsLine M)) : List (Nat × M) := ls.filterMap (fun l => l.msg.map (fun m => (l.time, m)))

theorem window_append (lo hi : Nat) (sel : M → Bool) (a b : List (Nat × M)) :
    window lo hi sel (a ++ b) = window lo hi sel a ++ window lo hi sel b := by
  simp [window]

theorem entries_cons (l : FsLine M) (ls : List (FsLine M)) :
    entries (l :: ls) = (match l.msg with | none => [] | some m => [(l.time, m)]) ++ entries ls := by
  unfold entries
  rw [List.filterMap_cons]
  cases l.msg <;> rfl

/-- Lines in chronological order. -/
def SortedLines (ls : List (FsLine M)) : Prop := ls.Pairwise (fun a b => a.time ≤ b.time)

theorem window_nil_of_ge (lo hi : Nat) (sel : M → Bool) (log : List (Nat × M))
    (h : ∀ e ∈ log, hi ≤ e.1) : window lo hi sel log = [] := by
  unfold window
  rw [List.filter_eq_nil_iff.2]
  · rfl
  · intro e he
    have := h e he
    simp
    omega

theorem entries_mem {ls : List (FsLine M)} {e : Nat × M} (h : e ∈ entries ls) :
    ∃ l ∈ ls, l.time = e.1 ∧ l.msg = some e.2 := by
  unfold entries at h
  obtain ⟨l, hl, he⟩ := List.mem_filterMap.1 h
  cases hm : l.msg with
  | none => rw [hm] at he; simp at he
  | some m => rw [hm] at he; simp at he; subst he; exact ⟨l, hl, rfl, hm⟩

theorem fsBeforeLoop_inv (ref endT limit : Nat) (hl : 0 < limit) (sel : M → Bool) (ls : List (FsLine M))
    (hs : SortedLines ls) : ∀ (st : List (Option M) × Nat) (xs : List M), RingInv limit st xs →
    RingInv limit (fsBeforeLoop ref endT limit sel ls st) (xs ++ window endT ref sel (entries ls)) := by
  induction ls with
  | nil => intro st xs h; simpa [fsBeforeLoop, entries, window] using h
  | cons l ls ih =>
    rintro ⟨ring, cur⟩ xs h
    have hs' := (List.pairwise_cons.1 hs)
    rw [entries_cons, window_append]
    unfold fsBeforeLoop
    cases hm : l.msg with
    | none =>
      simp only
      simpa [window] using ih hs'.2 _ _ h
    | some m =>
      simp only
      by_cases h1 : l.time > endT
      · rw [if_neg (by simpa using h1)]
        by_cases h2 : l.time < ref
        · rw [if_neg (by simpa using h2)]
          by_cases h3 : sel m = true
          · rw [if_pos h3]
            have hw : window endT ref sel [(l.time, m)] = [m] := by simp [window, h1, h2, h3]
            rw [hw, ← List.append_assoc]
            exact ih hs'.2 _ _ (ringInv_push limit hl ring cur xs m h)
          · rw [if_neg h3]
            have hw : window endT ref sel [(l.time, m)] = [] := by simp [window, h3]
            rw [hw, List.nil_append]
            exact ih hs'.2 _ _ h
        · rw [if_pos (by simpa using h2)]
          have hw : window endT ref sel [(l.time, m)] = [] := by simp [window, h2]
          have hw2 : window endT ref sel (entries ls) = [] := by
            apply window_nil_of_ge
            intro e he
            obtain ⟨l', hl', ht, _⟩ := entries_mem he
            have := hs'.1 l' hl'
            omega
          rw [hw, hw2]
          simpa using h
      · rw [if_pos (by simpa using h1)]
        have hw : window endT ref sel [(l.time, m)] = [] := by simp [window, h1]
        rw [hw, List.nil_append]
        exact ih hs'.2 _ _ h

theorem fsParseBefore_eq (D : Nat) (files : FsFiles M) (ref endT limit : Nat) (hl : 0 < limit)
    (sel : M → Bool) (hs : SortedLines (files (ref / D))) :
    fsParseBefore D files ref endT limit none sel
      = (lastN limit (window endT ref sel (entries (files (ref / D))))).map some := by
  unfold fsParseBefore
  simp only
  apply fsUnroll_eq limit hl
  simpa using fsBeforeLoop_inv ref endT limit hl sel _ hs _ _ (ringInv_init limit)

theorem fsAfterLoop_eq (ref endT limit : Nat) (sel : M → Bool) (ls : List (FsLine M))
    (hs : SortedLines ls) : ∀ (hist : List M), hist.length ≤ limit →
    fsAfterLoop ref endT limit sel ls hist = (hist ++ window ref endT sel (entries ls)).take limit := by
  induction ls with
  | nil =>
    intro hist h
    simp only [fsAfterLoop, entries, window, List.filterMap_nil, List.filter_nil, List.map_nil,
      List.append_nil]
    rw [List.take_of_length_le h]
  | cons l ls ih =>
    intro hist h
    have hs' := (List.pairwise_cons.1 hs)
    rw [entries_cons, window_append]
    unfold fsAfterLoop
    by_cases hfull : hist.length < limit
    · rw [if_neg (by simpa using hfull)]
      cases hm : l.msg with
      | none =>
        simp only
        simpa [window] using ih hs'.2 hist h
      | some m =>
        simp only
        by_cases h1 : l.time > ref
        · rw [if_neg (by simpa using h1)]
          by_cases h2 : l.time < endT
          · rw [if_neg (by simpa using h2)]
            by_cases h3 : sel m = true
            · rw [if_pos h3]
              have hw : window ref endT sel [(l.time, m)] = [m] := by simp [window, h1, h2, h3]
              rw [hw, ih hs'.2 _ (by simp; omega), List.append_assoc]
            · rw [if_neg h3]
              have hw : window ref endT sel [(l.time, m)] = [] := by simp [window, h3]
              rw [hw, List.nil_append]
              exact ih hs'.2 _ h
          · rw [if_pos (by simpa using h2)]
            have hw : window ref endT sel [(l.time, m)] = [] := by simp [window, h2]
            have hw2 : window ref endT sel (entries ls) = [] := by
              apply window_nil_of_ge
              intro e he
              obtain ⟨l', hl', ht, _⟩ := entries_mem he
              have := hs'.1 l' hl'
              omega
            rw [hw, hw2]
            simp only [List.append_nil]
            rw [List.take_of_length_le h]
        · rw [if_pos (by simpa using h1)]
          have hw : window ref endT sel [(l.time, m)] = [] := by simp [window, h1]
          rw [hw, List.nil_append]
          exact ih hs'.2 _ h
    · rw [if_pos (by simpa using hfull), List.take_append_of_le_length (by omega),
        List.take_of_length_le h]

/-! ## The loops over days -/

/-- Files as the store writes them: lines in chronological order, in the file of their day, not empty,
and with a granularity coarser than the nanosecond (so that no line is in the last nanosecond of a
day), after the zero time. -/
structure FsWF (D : Nat) (files : FsFiles M) : Prop where
  pos : 0 < D
  sorted : ∀ d, SortedLines (files d)
  day : ∀ d, ∀ l ∈ files d, l.time / D = d ∧ (l.time + 1) % D ≠ 0 ∧ 0 < l.time

/-- The log of the days from `a` (inclusive) to `b` (exclusive). -/
def dayLog (files : FsFiles M) (a b : Nat) : List (Nat × M) :=
  (List.range' a (b - a)).flatMap (fun d => entries (files d))

theorem dayLog_succ (files : FsFiles M) (a b : Nat) (h : a ≤ b) :
    dayLog files a (b + 1) = dayLog files a b ++ entries (files b) := by
  unfold dayLog
  rw [show b + 1 - a = (b - a) + 1 by omega, List.range'_concat]
  simp [show a + (b - a) = b by omega]

theorem dayLog_cons (files : FsFiles M) (a b : Nat) (h : a < b) :
    dayLog files a b = entries (files a) ++ dayLog files (a + 1) b := by
  unfold dayLog
  rw [show b - a = (b - (a + 1)) + 1 by omega, List.range'_succ]
  simp

theorem dayLog_empty (files : FsFiles M) (a b : Nat) (h : b ≤ a) : dayLog files a b = [] := by
  unfold dayLog
  rw [show b - a = 0 by omega]
  rfl

theorem dayLog_split (files : FsFiles M) (a b c : Nat) (h1 : a ≤ b) (h2 : b ≤ c) :
    dayLog files a c = dayLog files a b ++ dayLog files b c := by
  induction c with
  | zero => rw [dayLog_empty files b 0 (by omega), List.append_nil, show b = 0 by omega]
  | succ c ih =>
    by_cases hb : b = c + 1
    · subst hb; rw [dayLog_empty files _ _ (Nat.le_refl _), List.append_nil]
    · rw [dayLog_succ _ _ _ (by omega), ih (by omega), dayLog_succ files b c (by omega), List.append_assoc]

theorem dayLog_mem {files : FsFiles M} {a b : Nat} {e : Nat × M} (h : e ∈ dayLog files a b) :
    ∃ d, a ≤ d ∧ d < b ∧ ∃ l ∈ files d, l.time = e.1 ∧ l.msg = some e.2 := by
  unfold dayLog at h
  obtain ⟨d, hd, he⟩ := List.mem_flatMap.1 h
  have := List.mem_range'.1 hd
  obtain ⟨i, hi, rfl⟩ := this
  exact ⟨a + 1 * i, by omega, by omega, entries_mem he⟩

theorem window_congr (lo hi hi' : Nat) (sel : M → Bool) (log : List (Nat × M))
    (h : ∀ e ∈ log, e.1 < hi ↔ e.1 < hi') : window lo hi sel log = window lo hi' sel log := by
  unfold window
  congr 1
  apply List.filter_congr
  intro e he
  simp [h e he]

/-- Times in the days before `d` are before the last nanosecond before day `d`. -/
theorem dayLog_lt {D : Nat} {files : FsFiles M} (wf : FsWF D files) {a b : Nat} {e : Nat × M}
    (h : e ∈ dayLog files a b) : e.1 < b * D - 1 := by
  obtain ⟨d, h1, h2, l, hl, ht, _⟩ := dayLog_mem h
  obtain ⟨w1, w2, w3⟩ := wf.day d l hl
  have hD := wf.pos
  rw [← ht]
  have hdm := Nat.div_add_mod l.time D
  rw [w1] at hdm
  have hmod := Nat.mod_lt l.time hD
  have hne : l.time % D + 1 ≠ D := by
    intro hc
    apply w2
    rw [← hdm]
    rw [Nat.add_assoc, hc]
    simp
  have hb : (d + 1) * D ≤ b * D := Nat.mul_le_mul_right D (by omega)
  have he : (d + 1) * D = D * d + D := by rw [Nat.add_mul, Nat.mul_comm d D]; omega
  omega

/-- What the day-by-day backward search returns: the last `remaining` matching messages of the days
from some day `g` on, where everything before `g` is either irrelevant (nothing more was wanted or nothing
more matches) or preceded by a gap of `fsMaxTries` days without matching message. -/
theorem fsBeforeDays_spec {D : Nat} {files : FsFiles M} (wf : FsWF D files) (endT : Nat) (sel : M → Bool) :
    ∀ (d start remaining tries : Nat), start / D = d → tries ≤ fsMaxTries →
    ∃ g, g ≤ d + 1 ∧
      fsBeforeDays D files endT sel d start remaining tries
        = (lastN remaining (window endT start sel (dayLog files g (d + 1)))).map some ∧
      (lastN remaining (window endT start sel (dayLog files g (d + 1)))
          = lastN remaining (window endT start sel (dayLog files 0 (d + 1))) ∨
        (g + fsMaxTries ≤ d + 1 ∧ window endT start sel (dayLog files g (g + fsMaxTries)) = []) ∨
        (g + (fsMaxTries - tries) = d + 1 ∧ window endT start sel (dayLog files g (d + 1)) = [])) := by
  have hD := wf.pos
  intro d
  induction d with
  | zero =>
    intro start remaining tries hd ht
    unfold fsBeforeDays
    by_cases h1 : remaining > 0
    rotate_left
    · have : remaining = 0 := by omega
      subst this
      exact ⟨0, by omega, by simp [lastN_zero], Or.inl (by simp [lastN_zero])⟩
    by_cases h3 : endT < start
    rotate_left
    · refine ⟨0, by omega, ?_, Or.inl rfl⟩
      rw [if_neg (by simp [h3])]
      have : window endT start sel (dayLog files 0 (0 + 1)) = [] := by
        unfold window
        rw [List.filter_eq_nil_iff.2]
        · rfl
        · intro e _; simp; omega
      rw [this]; simp [lastN_nil]
    by_cases h2 : tries < fsMaxTries
    rotate_left
    · refine ⟨1, by omega, ?_, ?_⟩
      · rw [if_neg (by simp [h2]), dayLog_empty files _ _ (by omega)]
        simp [window, lastN_nil]
      · right; right
        refine ⟨by omega, ?_⟩
        rw [dayLog_empty files _ _ (by omega)]; rfl
    · rw [if_pos ⟨h1, h2, h3⟩]
      refine ⟨0, by omega, ?_, Or.inl rfl⟩
      simp only
      rw [fsParseBefore_eq D files start endT remaining h1 sel (by rw [hd]; exact wf.sorted 0), hd,
        dayLog_succ files 0 0 (by omega), dayLog_empty files 0 0 (by omega), List.nil_append]
  | succ d ih =>
    intro start remaining tries hd ht
    unfold fsBeforeDays
    by_cases h1 : remaining > 0
    rotate_left
    · have : remaining = 0 := by omega
      subst this
      exact ⟨0, by omega, by simp [lastN_zero], Or.inl (by simp [lastN_zero])⟩
    by_cases h3 : endT < start
    rotate_left
    · refine ⟨0, by omega, ?_, Or.inl rfl⟩
      rw [if_neg (by simp [h3])]
      have : window endT start sel (dayLog files 0 (d + 1 + 1)) = [] := by
        unfold window
        rw [List.filter_eq_nil_iff.2]
        · rfl
        · intro e _; simp; omega
      rw [this]; simp [lastN_nil]
    by_cases h2 : tries < fsMaxTries
    rotate_left
    · refine ⟨d + 1 + 1, by omega, ?_, ?_⟩
      · rw [if_neg (by simp [h2]), dayLog_empty files _ _ (by omega)]
        simp [window, lastN_nil]
      · right; right
        refine ⟨by omega, ?_⟩
        rw [dayLog_empty files _ _ (by omega)]; rfl
    rw [if_pos ⟨h1, h2, h3⟩]
    simp only
    have hbuf := fsParseBefore_eq D files start endT remaining h1 sel (by rw [hd]; exact wf.sorted _)
    rw [hd] at hbuf
    rw [hbuf]
    simp only [List.length_map]
    generalize hB : window endT start sel (entries (files (d + 1))) = B
    have hprev : ((d + 1) * D - 1) / D = d := by
      have e : (d + 1) * D - 1 = d * D + (D - 1) := by rw [Nat.add_mul]; omega
      rw [e, Nat.mul_comm d D, Nat.mul_add_div hD, Nat.div_eq_of_lt (by omega), Nat.add_zero]
    obtain ⟨g, hg, hres, hcl⟩ := ih ((d + 1) * D - 1) (remaining - (lastN remaining B).length)
      (if (lastN remaining B).length = 0 then tries + 1 else 0) hprev (by split <;> omega)
    have hle : (d + 1) * D ≤ start := by
      have := Nat.div_mul_le_self start D
      rwa [hd] at this
    have hwin : ∀ a b, b ≤ d + 1 → window endT ((d + 1) * D - 1) sel (dayLog files a b)
        = window endT start sel (dayLog files a b) := by
      intro a b hb
      apply window_congr
      intro e he
      have := dayLog_lt wf he
      have hmono : b * D ≤ (d + 1) * D := Nat.mul_le_mul_right D hb
      constructor <;> intro <;> omega
    rw [hwin _ _ (Nat.le_refl _)] at hres
    rw [hwin _ _ (Nat.le_refl _), hwin _ _ (Nat.le_refl _)] at hcl
    refine ⟨g, by omega, ?_, ?_⟩
    · rw [hres, dayLog_succ files g (d + 1) hg, window_append, hB, lastN_append, List.map_append]
    · rw [dayLog_succ files g (d + 1) hg, window_append, hB, dayLog_succ files 0 (d + 1) (by omega),
        window_append, hB, lastN_append, lastN_append remaining (window endT start sel (dayLog files 0 (d+1)))]
      rcases hcl with hc | ⟨hc1, hc2⟩ | ⟨hc1, hc2⟩
      · left; rw [hc]
      · right; left
        exact ⟨by omega, by rw [← hwin _ _ hc1]; exact hc2⟩
      · by_cases hz : (lastN remaining B).length = 0
        · rw [if_pos hz] at hc1
          right; right
          have hBnil : B = [] := by
            rw [lastN_length] at hz
            exact List.eq_nil_of_length_eq_zero (by omega)
          exact ⟨by omega, by rw [hc2, hBnil]; rfl⟩
        · rw [if_neg hz] at hc1
          right; left
          refine ⟨by omega, ?_⟩
          rw [show g + fsMaxTries = d + 1 by omega]
          exact hc2

/-- The forward search. -/
theorem fsAfterDays_spec {D : Nat} {files : FsFiles M} (wf : FsWF D files) (endT : Nat) (sel : M → Bool) :
    ∀ (fuel start remaining tries : Nat), endT / D + 1 - start / D + 1 ≤ fuel → tries ≤ fsMaxTries →
    (∀ d, start / D < d → ∀ l ∈ files d, l.msg ≠ none → l.time ≠ d * D) →
    ∃ g, start / D ≤ g ∧
      fsAfterDays D files endT sel fuel start remaining tries
        = (window start endT sel (dayLog files (start / D) g)).take remaining ∧
      ((∀ n, (window start endT sel (dayLog files (start / D) n)).take remaining
          <+: (window start endT sel (dayLog files (start / D) g)).take remaining) ∨
        (start / D + fsMaxTries ≤ g ∧ window start endT sel (dayLog files (g - fsMaxTries) g) = []) ∨
        (start / D + (fsMaxTries - tries) = g ∧ window start endT sel (dayLog files (start / D) g) = [])) := by
  have hD := wf.pos
  intro fuel
  induction fuel with
  | zero => intro start remaining tries hf; omega
  | succ fuel ih =>
    intro start remaining tries hf ht hmid
    unfold fsAfterDays
    by_cases h1 : remaining > 0
    rotate_left
    · have : remaining = 0 := by omega
      subst this
      exact ⟨start / D, Nat.le_refl _, by simp, Or.inl (by simp)⟩
    by_cases h3 : start < endT
    rotate_left
    · have hw : ∀ n, window start endT sel (dayLog files (start / D) n) = [] := by
        intro n
        unfold window
        rw [List.filter_eq_nil_iff.2]
        · rfl
        · intro e _; simp; omega
      exact ⟨start / D, Nat.le_refl _, by simp [h3, hw], Or.inl (by simp [hw])⟩
    by_cases h2 : tries < fsMaxTries
    rotate_left
    · refine ⟨start / D, Nat.le_refl _, ?_, ?_⟩
      · rw [if_neg (by simp [h2]), dayLog_empty files _ _ (by omega)]; simp [window]
      · right; right
        refine ⟨by omega, ?_⟩
        rw [dayLog_empty files _ _ (by omega)]; rfl
    rw [if_pos ⟨h1, h2, h3⟩]
    simp only
    have hbuf : fsParseAfter D files start endT remaining sel
        = (window start endT sel (entries (files (start / D)))).take remaining := by
      unfold fsParseAfter
      rw [fsAfterLoop_eq _ _ _ _ _ (wf.sorted _) [] (by simp)]
      simp
    rw [hbuf]
    generalize hB : window start endT sel (entries (files (start / D))) = B
    have hnext : (start / D + 1) * D / D = start / D + 1 := Nat.mul_div_cancel _ hD
    have hdivle : start / D ≤ endT / D := Nat.div_le_div_right (by omega)
    obtain ⟨g, hg, hres, hcl⟩ := ih ((start / D + 1) * D) (remaining - (B.take remaining).length)
      (if (B.take remaining).length = 0 then tries + 1 else 0) (by rw [hnext]; omega) (by split <;> omega)
      (by rw [hnext]; intro d hd; exact hmid d (by omega))
    rw [hnext] at hg hres hcl
    -- on later days, the lower bound makes no difference
    have hwin : ∀ a b, start / D < a → window ((start / D + 1) * D) endT sel (dayLog files a b)
        = window start endT sel (dayLog files a b) := by
      intro a b ha
      unfold window
      congr 1
      apply List.filter_congr
      intro e he
      obtain ⟨d, hd1, hd2, l, hl, hte, hme⟩ := dayLog_mem he
      have hday := (wf.day d l hl).1
      have hne := hmid d (by omega) l hl (by rw [hme]; simp)
      have hge : d * D ≤ l.time := by
        have := Nat.div_mul_le_self l.time D
        rwa [hday] at this
      have hmul : (start / D + 1) * D ≤ d * D := Nat.mul_le_mul_right D (by omega)
      have hst : start < (start / D + 1) * D := by
        have := Nat.lt_mul_div_succ start hD
        rwa [Nat.mul_comm] at this
      have e1 : decide ((start / D + 1) * D < e.1) = true := by simp; omega
      have e2 : decide (start < e.1) = true := by simp; omega
      rw [e1, e2]
    rw [hwin _ _ (by omega)] at hres
    have hsplit : ∀ n, start / D + 1 ≤ n → window start endT sel (dayLog files (start / D) n)
        = B ++ window start endT sel (dayLog files (start / D + 1) n) := by
      intro n hn
      rw [dayLog_cons files _ n (by omega), window_append, hB]
    have htake : ∀ X : List M, (B ++ X).take remaining
        = B.take remaining ++ X.take (remaining - (B.take remaining).length) := by
      intro X
      rw [List.take_append, List.length_take]
      congr 2
      omega
    refine ⟨g, by omega, ?_, ?_⟩
    · rw [hres, hsplit g hg, htake]
    · rcases hcl with hc | ⟨hc1, hc2⟩ | ⟨hc1, hc2⟩
      · left
        intro n
        by_cases hn : start / D + 1 ≤ n
        · rw [hsplit n hn, hsplit g hg, htake, htake]
          have := hc n
          rw [hwin _ _ (by omega), hwin _ _ (by omega)] at this
          exact (List.prefix_append_right_inj _).2 this
        · have : dayLog files (start / D) n = [] := dayLog_empty _ _ _ (by omega)
          rw [this]; simp [window]
      · right; left
        refine ⟨by omega, ?_⟩
        rw [hwin _ _ (by omega)] at hc2
        exact hc2
      · rw [hwin _ _ (by omega)] at hc2
        by_cases hz : (B.take remaining).length = 0
        · rw [if_pos hz] at hc1
          right; right
          have hBnil : B = [] := by
            rw [List.length_take] at hz
            exact List.eq_nil_of_length_eq_zero (by omega)
          exact ⟨by omega, by rw [hsplit g hg, hc2, hBnil]; rfl⟩
        · rw [if_neg hz, Nat.sub_zero] at hc1
          right; left
          refine ⟨by omega, ?_⟩
          rw [show g - fsMaxTries = start / D + 1 by rw [← hc1, Nat.add_sub_cancel]]
          exact hc2

end Verif.Proof
