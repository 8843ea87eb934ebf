import Verif.Proof.FsStore

/-! # C13: log-file history queries return the right window

The store's state is the result of a history of appended lines (`fsRun`); `entries` is that history
seen as a log of `(instant, message)` pairs. -/

namespace Verif.Props
open Verif.Model Verif.Spec Verif.Proof

variable {M : Type}

/-- Nanoseconds in a day. -/
def dayNs : Nat := 86400 * 1000000000

/-- The files after a history of appends, starting from nothing. -/
def fsRun (ls : List (FsLine M)) : FsFiles M :=
  ls.foldl (fun f l => (fsAppend dayNs f l).1) (fun _ => [])

/-- A history as written with a clock that does not go backwards: times are whole seconds after the
zero time, in chronological order; a line has at least its newline. -/
def FsHistory (ls : List (FsLine M)) : Prop :=
  ls.Pairwise (fun a b => a.time ≤ b.time) ∧
  ∀ l ∈ ls, l.time % 1000000000 = 0 ∧ 0 < l.time ∧ 0 < l.size

private theorem fsRun_snoc (ls : List (FsLine M)) (l : FsLine M) :
    fsRun (ls ++ [l]) = (fsAppend dayNs (fsRun ls) l).1 := by simp [fsRun]

theorem fsRun_eq (ls : List (FsLine M)) (d : Nat) :
    fsRun ls d = ls.filter (fun l => decide (l.time / dayNs = d)) := by
  induction ls using snocInd with
  | nil => rfl
  | snoc ls l ih =>
    rw [fsRun_snoc, List.filter_append, ← ih]
    unfold fsAppend
    simp only
    by_cases h : d = l.time / dayNs
    · subst h; simp
    · simp [h, Ne.symm h]

private theorem fsRun_wf (ls : List (FsLine M)) (h : FsHistory ls) : FsWF dayNs (fsRun ls) where
  pos := by decide
  sorted d := by rw [fsRun_eq]; exact h.1.filter _
  day d l hl := by
    rw [fsRun_eq] at hl
    obtain ⟨h1, h2⟩ := List.mem_filter.1 hl
    obtain ⟨h3, h4, _⟩ := h.2 l h1
    refine ⟨by simpa using h2, ?_, h4⟩
    unfold dayNs
    omega

private theorem filter_days (ls : List (FsLine M)) (h : ls.Pairwise (fun a b => a.time ≤ b.time)) (a b : Nat) :
    ls.filter (fun l => decide (a ≤ l.time / dayNs ∧ l.time / dayNs < b))
      ++ (if a ≤ b then ls.filter (fun l => decide (l.time / dayNs = b)) else [])
      = ls.filter (fun l => decide (a ≤ l.time / dayNs ∧ l.time / dayNs < b + 1)) := by
  split
  · induction ls with
    | nil => rfl
    | cons l ls ih =>
      have hp := List.pairwise_cons.1 h
      have IH := ih hp.2
      rw [List.filter_cons, List.filter_cons, List.filter_cons]
      by_cases h1 : l.time / dayNs = b
      · have hnone : ls.filter (fun l => decide (a ≤ l.time / dayNs ∧ l.time / dayNs < b)) = [] := by
          rw [List.filter_eq_nil_iff]
          intro x hx
          have := hp.1 x hx
          have : l.time / dayNs ≤ x.time / dayNs := Nat.div_le_div_right this
          simp; omega
        rw [hnone, List.nil_append] at IH
        rw [hnone, IH]
        simp [h1]; omega
      · by_cases h2 : a ≤ l.time / dayNs ∧ l.time / dayNs < b
        · rw [if_pos (by simpa using h2), if_neg (by simpa using h1), if_pos (by simp; omega), ← IH,
            List.cons_append]
        · rw [if_neg (by simpa using h2), if_neg (by simpa using h1), if_neg (by simp; omega), ← IH]
  · rename_i hab
    rw [List.append_nil]
    apply List.filter_congr
    intro l _
    generalize l.time / dayNs = x
    rw [decide_eq_false (by omega), decide_eq_false (by omega)]

private theorem entries_append (a b : List (FsLine M)) : entries (a ++ b) = entries a ++ entries b := by
  simp [entries]

private theorem dayLog_run (ls : List (FsLine M)) (h : FsHistory ls) (a b : Nat) :
    dayLog (fsRun ls) a b
      = entries (ls.filter (fun l => decide (a ≤ l.time / dayNs ∧ l.time / dayNs < b))) := by
  induction b with
  | zero =>
    rw [dayLog_empty _ _ _ (by omega), List.filter_eq_nil_iff.2]
    · rfl
    · intro l _; simp
  | succ b ih =>
    by_cases hab : a ≤ b
    · rw [dayLog_succ _ _ _ hab, ih, fsRun_eq, ← entries_append, ← filter_days ls h.1 a b, if_pos hab]
    · rw [dayLog_empty _ _ _ (by omega), List.filter_eq_nil_iff.2]
      · rfl
      · intro l _; simp; omega

/-- The matching messages among the lines that satisfy `p` are all of them if the lines that do not
satisfy it are outside the bounds. -/
private theorem window_filter (ls : List (FsLine M)) (p : FsLine M → Bool) (lo hi : Nat) (sel : M → Bool)
    (hp : ∀ l ∈ ls, p l = false → l.time ≤ lo ∨ hi ≤ l.time) :
    window lo hi sel (entries (ls.filter p)) = window lo hi sel (entries ls) := by
  induction ls with
  | nil => rfl
  | cons l ls ih =>
    have IH := ih (fun x hx => hp x (List.mem_cons_of_mem _ hx))
    rw [List.filter_cons, entries_cons l ls, window_append]
    cases hpl : p l with
    | true => rw [if_pos rfl, entries_cons, window_append, IH]
    | false =>
      rw [if_neg (by simp), IH]
      have := hp l (by simp) hpl
      cases hm : l.msg with
      | none => simp [window]
      | some m =>
        have : window lo hi sel [(l.time, m)] = [] := by
          unfold window
          rw [List.filter_eq_nil_iff.2]
          · rfl
          · intro e he
            simp only [List.mem_singleton] at he
            subst he
            simp; omega
        simp [this]

/-- Messages of the days from `a` (inclusive) to `b` (exclusive). -/
def onDays (a b : Nat) (ls : List (FsLine M)) : List (FsLine M) :=
  ls.filter (fun l => decide (a ≤ l.time / dayNs ∧ l.time / dayNs < b))

/-- C13 (backwards search, any history): the result consists of the last `limit` matching messages of the
days from some day `g` on, so it is in chronological order, contiguous, within the bounds and never
longer than the limit; and it is what it should be over the whole log unless the 100 days starting at `g`
contain no matching message. -/
theorem C13_before_general (ls : List (FsLine M)) (h : FsHistory ls) (now start endT limit : Nat)
    (hs : 0 < start) (sel : M → Bool) :
    ∃ g, fsGetBefore dayNs (fsRun ls) now start endT limit sel
        = (lastN limit (window endT start sel (entries (onDays g (start / dayNs + 1) ls)))).map some ∧
      (lastN limit (window endT start sel (entries (onDays g (start / dayNs + 1) ls)))
          = lastN limit (window endT start sel (entries ls)) ∨
        (g + 100 ≤ start / dayNs + 1 ∧ window endT start sel (entries (onDays g (g + 100) ls)) = [])) := by
  have hnz : ¬ start = 0 := by omega
  obtain ⟨g, hg, hr, hc⟩ := fsBeforeDays_spec (fsRun_wf ls h) endT sel (start / dayNs) start limit 0 rfl
    (by decide)
  refine ⟨g, ?_, ?_⟩
  · unfold fsGetBefore
    simp only [hnz, if_false]
    rw [hr, dayLog_run ls h]; rfl
  · rw [dayLog_run ls h, dayLog_run ls h, dayLog_run ls h] at hc
    have hall : window endT start sel (entries (ls.filter
        (fun l => decide (0 ≤ l.time / dayNs ∧ l.time / dayNs < start / dayNs + 1))))
        = window endT start sel (entries ls) := by
      apply window_filter
      intro l _ hl
      right
      simp only [Nat.zero_le, true_and, decide_eq_false_iff_not] at hl
      unfold dayNs at hl
      omega
    rw [hall] at hc
    rcases hc with hc | ⟨h1, h2⟩ | ⟨h1, h2⟩
    · exact Or.inl hc
    · exact Or.inr ⟨h1, h2⟩
    · right
      have h100 : fsMaxTries = 100 := rfl
      rw [h100] at h1
      refine ⟨by omega, ?_⟩
      rw [show g + 100 = start / dayNs + 1 by omega]
      exact h2

/-- C13: when the bounds are less than 100 days apart, asking for the messages before an instant returns
exactly the last `limit` matching messages between the bounds, in chronological order. -/
theorem C13_before_window_partial (ls : List (FsLine M)) (h : FsHistory ls) (now start endT limit : Nat)
    (hs : 0 < start) (sel : M → Bool) (hgap : start / dayNs < endT / dayNs + 100) :
    fsGetBefore dayNs (fsRun ls) now start endT limit sel
      = (lastN limit (window endT start sel (entries ls))).map some := by
  obtain ⟨g, hr, hc⟩ := C13_before_general ls h now start endT limit hs sel
  rw [hr]
  rcases hc with hc | ⟨h1, _⟩
  · rw [hc]
  · congr 2
    apply window_filter
    intro l _ hl
    simp only [decide_eq_false_iff_not] at hl
    unfold dayNs at *
    omega

/-- C13: starting "now" is the same with the current time. -/
theorem C13_before_now (files : FsFiles M) (now endT limit : Nat) (sel : M → Bool) :
    fsGetBefore dayNs files now 0 endT limit sel = fsGetBefore dayNs files now now endT limit sel := by
  unfold fsGetBefore
  simp only [if_true]
  split <;> simp_all

/-- C13 (disagreement): history older than 100 days without message is never found, although it is
within the bounds and the limit is not reached. -/
theorem C13_gap_violated :
    let old : FsLine Nat := ⟨1, 1000 * dayNs + 1000000000, some 7⟩
    let start := 1200 * dayNs
    fsGetBefore dayNs (fsRun [old]) start start 0 10 (fun _ => true) = [] ∧
      window 0 start (fun _ => true) (entries [old]) = [7] := by
  decide +kernel

/-- C13 (forward search, partial): when the bounds are less than 100 days apart and no message was logged
exactly at a midnight after the start, asking for the messages after an instant returns exactly the first
`limit` matching messages between the bounds.  Missing: messages logged at midnight — see
`C13_midnight_violated` — and gaps of 100 days. -/
theorem C13_after_window_partial (ls : List (FsLine M)) (h : FsHistory ls) (now start endT limit : Nat)
    (he : 0 < endT) (sel : M → Bool) (hgap : endT / dayNs < start / dayNs + 100)
    (hmid : ∀ l ∈ ls, l.msg ≠ none → start < l.time → l.time % dayNs ≠ 0) :
    fsGetAfter dayNs (fsRun ls) now start endT limit sel
      = (window start endT sel (entries ls)).take limit := by
  have hnz : ¬ endT = 0 := by omega
  obtain ⟨g, hg, hr, hc⟩ := fsAfterDays_spec (fsRun_wf ls h) endT sel
    (endT / dayNs + 1 - start / dayNs + 1) start limit 0 (Nat.le_refl _) (by decide)
    (by
      intro d hd l hl hm
      rw [fsRun_eq] at hl
      obtain ⟨h1, h2⟩ := List.mem_filter.1 hl
      have hday : l.time / dayNs = d := by simpa using h2
      intro heq
      refine hmid l h1 hm ?_ ?_
      · unfold dayNs at *; omega
      · rw [heq]; simp)
  unfold fsGetAfter
  simp only [hnz, if_false]
  rw [hr]
  have hall : ∀ n, endT / dayNs < n → window start endT sel (dayLog (fsRun ls) (start / dayNs) n)
      = window start endT sel (entries ls) := by
    intro n hn
    rw [dayLog_run ls h]
    apply window_filter
    intro l _ hl
    simp only [decide_eq_false_iff_not] at hl
    unfold dayNs at *
    omega
  have h100 : fsMaxTries = 100 := rfl
  rcases hc with hc | ⟨h1, _⟩ | ⟨h1, _⟩
  · have hp := hc (endT / dayNs + g + 1)
    rw [hall _ (by omega)] at hp
    have hq : window start endT sel (dayLog (fsRun ls) (start / dayNs) g)
        <+: window start endT sel (entries ls) := by
      rw [← hall (endT / dayNs + g + 1) (by omega),
        dayLog_split _ _ g (endT / dayNs + g + 1) hg
          (Nat.le_trans (Nat.le_add_left _ _) (Nat.le_succ _)), window_append]
      exact List.prefix_append _ _
    obtain ⟨t, ht⟩ := hq
    rw [← ht] at hp ⊢
    rw [List.take_append] at hp ⊢
    have hl := hp.length_le
    rw [List.length_append] at hl
    have : (List.take (limit - (window start endT sel (dayLog (fsRun ls) (start / dayNs) g)).length) t) = [] :=
      List.length_eq_zero_iff.1 (by omega)
    rw [this, List.append_nil]
  · rw [hall g (by omega)]
  · rw [hall g (by omega)]

/-- C13 (disagreement): a message logged exactly at midnight is not returned by a forward search that
starts on an earlier day, although it is within the bounds. -/
theorem C13_midnight_violated :
    let m : FsLine Nat := ⟨1, 1001 * dayNs, some 7⟩
    let start := 1000 * dayNs + 1000000000
    let endT := 1002 * dayNs
    FsHistory [m] ∧ fsGetAfter dayNs (fsRun [m]) endT start endT 10 (fun _ => true) = [] ∧
      window start endT (fun _ => true) (entries [m]) = [7] := by
  unfold FsHistory
  decide +kernel

/-! ## Resuming after a message ID -/

private theorem skipTo_suffix (o : Nat) : ∀ (ls : List (FsLine M)) (pos : Nat),
    ∃ pre, ls = pre ++ fsSkipTo o pos ls := by
  intro ls
  induction ls with
  | nil => intro pos; exact ⟨[], rfl⟩
  | cons l ls ih =>
    intro pos
    unfold fsSkipTo
    split
    · exact ⟨[], rfl⟩
    · obtain ⟨pre, hpre⟩ := ih (pos + l.size)
      exact ⟨l :: pre, by rw [List.cons_append, ← hpre]⟩

/-- The files as they look to a search that starts after an ID. -/
private def filesAfter (files : FsFiles M) (id : FsID) : FsFiles M := fun d =>
  if d < id.day then []
  else if d = id.day then
    (match id.offset with | none => files d | some o => fsSkipTo o 0 (files d))
  else files d

private theorem filesAfter_suffix (files : FsFiles M) (id : FsID) (d : Nat) :
    ∃ pre, files d = pre ++ filesAfter files id d := by
  unfold filesAfter
  split
  · exact ⟨files d, by simp⟩
  · split
    · split
      · exact ⟨[], rfl⟩
      · exact skipTo_suffix _ _ _
    · exact ⟨[], rfl⟩

private theorem filesAfter_wf {D : Nat} {files : FsFiles M} (wf : FsWF D files) (id : FsID) :
    FsWF D (filesAfter files id) where
  pos := wf.pos
  sorted d := by
    obtain ⟨pre, hpre⟩ := filesAfter_suffix files id d
    have := wf.sorted d
    unfold SortedLines at *
    rw [hpre] at this
    exact (List.pairwise_append.1 this).2.1
  day d l hl := by
    obtain ⟨pre, hpre⟩ := filesAfter_suffix files id d
    exact wf.day d l (by rw [hpre]; exact List.mem_append_right _ hl)

private theorem latest_eq {D : Nat} {files : FsFiles M} (wf : FsWF D files) (hD : 1 < D) (id : FsID) :
    ∀ (d t remaining tries : Nat), t / D = d → 0 < t → tries ≤ fsMaxTries →
    fsLatestDays D files id d t remaining tries
      = fsBeforeDays D (filesAfter files id) 0 (fun _ => true) d t remaining tries := by
  intro d
  induction d with
  | zero =>
    intro t remaining tries ht h0 htr
    by_cases hd : 0 < id.day
    · obtain ⟨g, _, hr, _⟩ := fsBeforeDays_spec (filesAfter_wf wf id) 0 (fun _ => true) 0 t remaining tries
        ht htr
      rw [hr]
      have : dayLog (filesAfter files id) g (0 + 1) = [] := by
        unfold dayLog
        rw [List.flatMap_eq_nil_iff]
        intro x hx
        obtain ⟨i, hi, rfl⟩ := List.mem_range'.1 hx
        have : filesAfter files id (g + 1 * i) = [] := by unfold filesAfter; rw [if_pos (by omega)]
        rw [this]; rfl
      rw [this]
      unfold fsLatestDays
      rw [if_neg (by omega)]
      simp [window, lastN_nil]
    · unfold fsLatestDays fsBeforeDays
      have e : (remaining > 0 ∧ tries < fsMaxTries ∧ ¬0 < id.day) ↔
          (remaining > 0 ∧ tries < fsMaxTries ∧ 0 < t) := by omega
      by_cases hcond : remaining > 0 ∧ tries < fsMaxTries ∧ 0 < t
      · rw [if_pos (e.2 hcond), if_pos hcond]
        simp only [fsParseBefore, ht, filesAfter, hd, if_false]
        by_cases he : 0 = id.day
        · simp [← he]; cases id.offset <;> rfl
        · simp [he]
      · rw [if_neg (fun h => hcond (e.1 h)), if_neg hcond]
  | succ d ih =>
    intro t remaining tries ht h0 htr
    by_cases hd : d + 1 < id.day
    · obtain ⟨g, _, hr, _⟩ := fsBeforeDays_spec (filesAfter_wf wf id) 0 (fun _ => true) (d + 1) t remaining
        tries ht htr
      rw [hr]
      have : dayLog (filesAfter files id) g (d + 1 + 1) = [] := by
        unfold dayLog
        rw [List.flatMap_eq_nil_iff]
        intro x hx
        obtain ⟨i, hi, rfl⟩ := List.mem_range'.1 hx
        have : filesAfter files id (g + 1 * i) = [] := by unfold filesAfter; rw [if_pos (by omega)]
        rw [this]; rfl
      rw [this]
      unfold fsLatestDays
      rw [if_neg (by omega)]
      simp [window, lastN_nil]
    · unfold fsLatestDays fsBeforeDays
      have e : (remaining > 0 ∧ tries < fsMaxTries ∧ ¬d + 1 < id.day) ↔
          (remaining > 0 ∧ tries < fsMaxTries ∧ 0 < t) := by omega
      by_cases hcond : remaining > 0 ∧ tries < fsMaxTries ∧ 0 < t
      · rw [if_pos (e.2 hcond), if_pos hcond]
        have hbuf : fsParseBefore D files t 0 remaining (if d + 1 = id.day then id.offset else none)
              (fun _ => true)
            = fsParseBefore D (filesAfter files id) t 0 remaining none (fun _ => true) := by
          simp only [fsParseBefore, ht, filesAfter, hd, if_false]
          by_cases he : d + 1 = id.day
          · simp [← he]; cases id.offset <;> rfl
          · simp [he]
        simp only [hbuf]
        have hprev : ((d + 1) * D - 1) / D = d := by
          have e : (d + 1) * D - 1 = d * D + (D - 1) := by rw [Nat.add_mul]; omega
          rw [e, Nat.mul_comm d D, Nat.mul_add_div (by omega), Nat.div_eq_of_lt (by omega), Nat.add_zero]
        have hpos : 0 < (d + 1) * D - 1 := by
          have : 1 * D ≤ (d + 1) * D := Nat.mul_le_mul_right D (by omega)
          omega
        rw [ih _ _ _ hprev hpos (by split <;> omega)]
      · rw [if_neg (fun h => hcond (e.1 h)), if_neg hcond]

private theorem skipTo_size : ∀ (pre : List (FsLine M)) (post : List (FsLine M)) (pos o : Nat),
    (∀ l ∈ pre, 0 < l.size) → o < pos + fsFileSize pre → pos + fsFileSize pre ≤ o + (pre.getLast?.map (·.size)).getD 0 →
    fsSkipTo o pos (pre ++ post) = post := by
  intro pre
  induction pre with
  | nil => intro post pos o _ h1 h2; simp [fsFileSize] at h1 h2; omega
  | cons l pre ih =>
    intro post pos o hs h1 h2
    have hl := hs l (by simp)
    have hsz : fsFileSize (l :: pre) = l.size + fsFileSize pre := by simp [fsFileSize]
    rw [hsz] at h1 h2
    cases pre with
    | nil =>
      simp [fsFileSize] at h1 h2
      simp only [List.cons_append, List.nil_append, fsSkipTo]
      rw [if_neg (by omega)]
      cases post with
      | nil => rfl
      | cons p ps => simp only [fsSkipTo]; rw [if_pos (by omega)]
    | cons l' pre =>
      have hlast : (l :: l' :: pre).getLast? = (l' :: pre).getLast? := by simp
      rw [hlast] at h2
      rw [List.cons_append]
      have hle : ((l' :: pre).getLast?.map (·.size)).getD 0 ≤ fsFileSize (l' :: pre) := by
        have : ∀ (x : List (FsLine M)), (x.getLast?.map (·.size)).getD 0 ≤ fsFileSize x := by
          intro x
          induction x using snocInd with
          | nil => simp
          | snoc x a _ => simp [fsFileSize]
        exact this _
      unfold fsSkipTo
      rw [if_neg (by omega)]
      exact ih post (pos + l.size) o (fun x hx => hs x (List.mem_cons_of_mem _ hx)) (by omega) (by omega)

/-- What remains to be proved for a resume: the files after the ID are those of the later history. -/
private theorem resume (after : List (FsLine M)) (ls : List (FsLine M)) (h : FsHistory ls)
    (ha : FsHistory after) (id : FsID) (now limit : Nat) (hnow : ∀ l ∈ after, l.time < now) (h0 : 0 < now)
    (hfiles : filesAfter (fsRun ls) id = fsRun after) (hday : ∀ l ∈ after, id.day ≤ l.time / dayNs)
    (hgap : now / dayNs < id.day + 100) :
    fsLoadLatest dayNs (fsRun ls) now id limit = (lastN limit ((entries after).map Prod.snd)).map some := by
  unfold fsLoadLatest
  rw [latest_eq (fsRun_wf ls h) (by decide) id _ _ _ _ rfl h0 (by decide), hfiles]
  obtain ⟨g, hr, hc⟩ := C13_before_general after ha now now 0 limit h0 (fun _ => true)
  have hg : fsGetBefore dayNs (fsRun after) now now 0 limit (fun _ => true)
      = fsBeforeDays dayNs (fsRun after) 0 (fun _ => true) (now / dayNs) now limit 0 := by
    unfold fsGetBefore
    simp only
    rw [if_neg (by omega)]
  rw [hg] at hr
  rw [hr]
  have hall : window 0 now (fun _ => true) (entries after) = (entries after).map Prod.snd := by
    unfold window
    rw [List.filter_eq_self.2]
    intro e he
    obtain ⟨l, hl, ht, _⟩ := entries_mem he
    have h1 := hnow l hl
    have h2 := (ha.2 l hl).2.1
    simp; omega
  rcases hc with hc | ⟨h1, _⟩
  · rw [hc, hall]
  · rw [← hall]
    congr 2
    apply window_filter
    intro l hl hb
    have hdl := hday l hl
    have := hnow l hl
    simp only [decide_eq_false_iff_not] at hb
    unfold dayNs at *
    omega

/-- C13: resuming after the ID that `Append` returned for a message gives exactly the messages appended
after that one (the last `limit` of them), when the message is less than 100 days old. -/
theorem C13_resume_after_append (before after : List (FsLine M)) (l : FsLine M)
    (h : FsHistory (before ++ l :: after)) (now limit : Nat) (hnow : ∀ x ∈ l :: after, x.time < now)
    (hgap : now / dayNs < l.time / dayNs + 100) (id : FsID)
    (hid : id = (fsAppend dayNs (fsRun before) l).2) :
    fsLoadLatest dayNs (fsRun (before ++ l :: after)) now id limit
      = (lastN limit ((entries after).map Prod.snd)).map some := by
  have hp := List.pairwise_append.1 h.1
  have hp2 := List.pairwise_cons.1 hp.2.1
  have ha : FsHistory after := ⟨hp2.2, fun x hx => h.2 x (by simp [hx])⟩
  have hidd : id.day = l.time / dayNs := by rw [hid]; rfl
  have hido : id.offset = some (fsFileSize (fsRun before (l.time / dayNs))) := by rw [hid]; rfl
  apply resume after _ h ha id now limit (fun x hx => hnow x (by simp [hx]))
    (by have := hnow l (by simp); omega)
  · funext d
    unfold filesAfter
    simp only [hidd, hido]
    rw [fsRun_eq (before ++ l :: after), fsRun_eq after, List.filter_append, List.filter_cons]
    split
    · rename_i hlt
      symm
      rw [List.filter_eq_nil_iff]
      intro x hx
      have : l.time / dayNs ≤ x.time / dayNs := Nat.div_le_div_right (hp2.1 x hx)
      simp; omega
    · split
      · rename_i heq
        rw [if_pos (by simp [heq])]
        have e : before.filter (fun l => decide (l.time / dayNs = d))
              ++ l :: after.filter (fun l => decide (l.time / dayNs = d))
            = (before.filter (fun l => decide (l.time / dayNs = d)) ++ [l])
              ++ after.filter (fun l => decide (l.time / dayNs = d)) := by simp
        rw [e]
        have hsz : ∀ (x : List (FsLine M)) (y : FsLine M), fsFileSize (x ++ [y]) = fsFileSize x + y.size := by
          intro x y; simp [fsFileSize]
        have hl0 := (h.2 l (by simp)).2.2
        apply skipTo_size
        · intro x hx
          simp only [List.mem_append, List.mem_filter, List.mem_singleton] at hx
          rcases hx with ⟨hx, _⟩ | rfl
          · exact (h.2 x (by simp [hx])).2.2
          · exact hl0
        · rw [hsz, fsRun_eq, heq]; omega
        · rw [hsz, fsRun_eq, heq]; simp
      · rename_i h1 h2
        rw [if_neg (by simp; omega)]
        have hb : before.filter (fun l => decide (l.time / dayNs = d)) = [] := by
          rw [List.filter_eq_nil_iff]
          intro x hx
          have : x.time / dayNs ≤ l.time / dayNs := Nat.div_le_div_right (hp.2.2 x hx l (by simp))
          simp; omega
        rw [hb, List.nil_append]
  · intro x hx
    rw [hidd]
    exact Nat.div_le_div_right (hp2.1 x hx)
  · rw [hidd]; exact hgap

/-- C13: resuming after the "current position" ID taken at instant `t` gives exactly the messages
appended later. -/
theorem C13_resume_after_last (before after : List (FsLine M)) (h : FsHistory (before ++ after))
    (t now limit : Nat) (ht : ∀ x ∈ before, x.time ≤ t) (ht' : ∀ x ∈ after, t ≤ x.time)
    (h0 : 0 < now) (hnow : ∀ x ∈ after, x.time < now) (hgap : now / dayNs < t / dayNs + 100) (id : FsID)
    (hid : id = fsLastMsgID dayNs (fsRun before) t) :
    fsLoadLatest dayNs (fsRun (before ++ after)) now id limit
      = (lastN limit ((entries after).map Prod.snd)).map some := by
  have hp := List.pairwise_append.1 h.1
  have ha : FsHistory after := ⟨hp.2.1, fun x hx => h.2 x (by simp [hx])⟩
  have hidd : id.day = t / dayNs := by rw [hid]; unfold fsLastMsgID; simp only; split <;> rfl
  apply resume after _ h ha id now limit hnow h0
  · funext d
    unfold filesAfter
    simp only [hidd]
    rw [fsRun_eq after, fsRun_eq (before ++ after), List.filter_append]
    split
    · rename_i hlt
      symm
      rw [List.filter_eq_nil_iff]
      intro x hx
      have : t / dayNs ≤ x.time / dayNs := Nat.div_le_div_right (ht' x hx)
      simp; omega
    · split
      · rename_i heq
        by_cases hemp : fsRun before (t / dayNs) = []
        · have ho : id.offset = none := by rw [hid]; unfold fsLastMsgID; simp [hemp]
          rw [ho]
          simp only
          rw [fsRun_eq, ← heq] at hemp
          rw [hemp, List.nil_append]
        · have ho : id.offset = some (fsFileSize (fsRun before (t / dayNs)) - 1) := by
            rw [hid]; unfold fsLastMsgID; simp [hemp]
          rw [ho]
          simp only
          rw [fsRun_eq, ← heq] at hemp ⊢
          generalize hB : before.filter (fun l => decide (l.time / dayNs = d)) = B at hemp
          have hBs : ∀ x ∈ B, 0 < x.size := by
            intro x hx
            rw [← hB] at hx
            exact (h.2 x (by simp [(List.mem_filter.1 hx).1])).2.2
          obtain ⟨B', b, rfl⟩ : ∃ B' b, B = B' ++ [b] :=
            ⟨B.dropLast, B.getLast hemp, (List.dropLast_concat_getLast hemp).symm⟩
          have hb := hBs b (by simp)
          have hsz : fsFileSize (B' ++ [b]) = fsFileSize B' + b.size := by simp [fsFileSize]
          apply skipTo_size _ _ _ _ hBs
          · omega
          · rw [hsz]; simp; omega
      · rename_i h1 h2
        have hb : before.filter (fun l => decide (l.time / dayNs = d)) = [] := by
          rw [List.filter_eq_nil_iff]
          intro x hx
          have : x.time / dayNs ≤ t / dayNs := Nat.div_le_div_right (ht x hx)
          simp; omega
        rw [hb, List.nil_append]
  · intro x hx
    rw [hidd]
    exact Nat.div_le_div_right (ht' x hx)
  · rw [hidd]; exact hgap

example :
    let a : FsLine Nat := ⟨10, 1000 * dayNs + 1000000000, some 1⟩
    let b : FsLine Nat := ⟨20, 1000 * dayNs + 1000000000, none⟩
    let c : FsLine Nat := ⟨30, 1001 * dayNs + 5000000000, some 3⟩
    FsHistory [a, b, c] ∧
    fsGetBefore dayNs (fsRun [a, b, c]) 0 (1003 * dayNs) (999 * dayNs) 10 (fun _ => true) = [some 1, some 3] ∧
    (∀ l ∈ [a, b, c], l.msg ≠ none → 999 * dayNs < l.time → l.time % dayNs ≠ 0) ∧
    fsGetAfter dayNs (fsRun [a, b, c]) 0 (999 * dayNs) (1003 * dayNs) 1 (fun _ => true) = [1] ∧
    fsLoadLatest dayNs (fsRun [a, b, c]) (1002 * dayNs) (fsAppend dayNs (fsRun []) a).2 10 = [some 3] := by
  unfold FsHistory
  decide +kernel

end Verif.Props
