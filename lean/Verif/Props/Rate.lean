import Verif.Model.Rate
import Verif.Proof.Util

/-! # C114: the bouncer does not flood a server -/

namespace Verif.Props
open Verif.Model Verif.Proof

/-- The times at which messages were written while rate limiting was on. -/
def limitedTimes (st : WriterRate) : List Int := (st.sent.filter (·.2)).map (·.1)

/-! ## Lemmas -/

private structure RInv (delay burst : Nat) (st : WriterRate) : Prop where
  le : st.lim.last ≤ st.now
  pos : 0 ≤ st.lim.credit + (st.now - st.lim.last)
  old : ∀ pre a post, limitedTimes st = pre ++ a :: post →
    st.lim.credit - st.lim.last ≤ (burst : Int) * delay - a - ((post.length + 1 : Nat) : Int) * delay
  sorted : ∀ a ∈ limitedTimes st, a ≤ st.now
  spaced : ∀ pre a mid b post, limitedTimes st = pre ++ a :: (mid ++ b :: post) →
    a ≤ b ∧ a + ((mid.length + 2 : Nat) : Int) * delay ≤ b + (burst : Int) * delay

private theorem append_split {α : Type} {l pre post : List α} {a x : α} (h : l ++ [x] = pre ++ a :: post) :
    (pre = l ∧ a = x ∧ post = []) ∨ ∃ post', post = post' ++ [x] ∧ l = pre ++ a :: post' := by
  induction l generalizing pre with
  | nil =>
    cases pre with
    | nil => simp only [List.nil_append, List.cons.injEq] at h; exact .inl ⟨rfl, h.1.symm, h.2.symm⟩
    | cons p pre => simp at h
  | cons y l ih =>
    cases pre with
    | nil =>
      simp only [List.nil_append, List.cons_append, List.cons.injEq] at h
      obtain ⟨rfl, rfl⟩ := h
      exact .inr ⟨l, rfl, rfl⟩
    | cons p pre =>
      simp only [List.cons_append, List.cons.injEq] at h
      obtain ⟨rfl, h⟩ := h
      rcases ih h with ⟨rfl, h2, h3⟩ | ⟨post', h2, h3⟩
      · exact .inl ⟨rfl, h2, h3⟩
      · exact .inr ⟨post', h2, by rw [h3]; rfl⟩

private theorem times_limited (st : WriterRate) (lim : Limiter) (now t : Int) :
    limitedTimes ⟨lim, now, st.sent ++ [(t, true)]⟩ = limitedTimes st ++ [t] := by
  unfold limitedTimes; simp

private theorem times_free (st : WriterRate) (lim : Limiter) (now t : Int) :
    limitedTimes ⟨lim, now, st.sent ++ [(t, false)]⟩ = limitedTimes st := by
  unfold limitedTimes; simp

private theorem rinv_step {delay burst : Nat} (hb : 1 ≤ burst) {st : WriterRate} (i : RInv delay burst st) (op : RateOp) :
    RInv delay burst (wrStep delay burst st op) := by
  have hB : (delay : Int) ≤ (burst : Int) * delay := by
    have : (1 : Int) * delay ≤ (burst : Int) * delay := Int.mul_le_mul_of_nonneg_right (by omega) (by omega)
    omega
  obtain ⟨hle, hpos, hold, hsorted, hspaced⟩ := i
  unfold wrStep
  dsimp only
  split
  · unfold limReserve
    rw [if_neg (by omega)]
    dsimp only
    generalize ht : st.now + (op.idle : Int) = t
    generalize hc : min ((burst : Int) * delay) (st.lim.credit + (t - st.lim.last)) - delay = c
    generalize hw : (if c < 0 then -c else 0) = w
    have hw0 : 0 ≤ w ∧ 0 ≤ c + w ∧ (c < 0 → w = -c) ∧ (0 ≤ c → w = 0) := by
      rw [← hw]; split <;> omega
    have hstep : ∀ n : Nat, ((n + 1 : Nat) : Int) * delay = (n : Int) * delay + delay := by
      intro n; rw [Int.natCast_add, Int.add_mul]; simp
    refine ⟨by dsimp only; omega, by dsimp only; omega, ?_, ?_, ?_⟩
    · intro pre a post h
      rw [times_limited] at h
      dsimp only
      rcases append_split h with ⟨-, rfl, rfl⟩ | ⟨post', rfl, h'⟩
      · simp only [List.length_nil]
        have := hstep 0
        omega
      · have := hold pre a post' h'
        rw [List.length_append, List.length_singleton, hstep]
        omega
    · intro a ha
      rw [times_limited] at ha
      dsimp only
      rcases List.mem_append.1 ha with ha | ha
      · have := hsorted a ha; omega
      · rw [List.mem_singleton.1 ha]; omega
    · intro pre a mid b post h
      rw [times_limited] at h
      rcases append_split h with ⟨-, -, h3⟩ | ⟨post', h2, h'⟩
      · cases mid <;> cases h3
      · rcases append_split h2.symm with ⟨rfl, rfl, rfl⟩ | ⟨post'', rfl, h4⟩
        · have h5 := hold pre a mid h'
          have h6 := hsorted a (by rw [h']; simp)
          have := hstep (mid.length + 1)
          refine ⟨by omega, ?_⟩
          rw [this]
          omega
        · rw [h4] at h'
          exact hspaced pre a mid b post'' h'
  · refine ⟨by dsimp only; omega, by dsimp only; omega, ?_, ?_, ?_⟩
    · intro pre a post h
      rw [times_free] at h
      exact hold pre a post h
    · intro a ha
      rw [times_free] at ha
      have := hsorted a ha
      dsimp only
      omega
    · intro pre a mid b post h
      rw [times_free] at h
      exact hspaced pre a mid b post h

private theorem rinv_run (delay burst : Nat) (hb : 1 ≤ burst) (now : Int) (ops : List RateOp) :
    RInv delay burst (wrRun delay burst now ops) := by
  induction ops using snocInd with
  | nil =>
    have h0 : (0 : Int) ≤ (burst : Int) * delay := Int.mul_nonneg (by omega) (by omega)
    refine ⟨?_, ?_, ?_, ?_, ?_⟩
    · show now ≤ now; omega
    · show 0 ≤ (burst : Int) * delay + (now - now); omega
    · intro pre a post h
      simp [wrRun, limitedTimes] at h
    · intro a h
      simp [wrRun, limitedTimes] at h
    · intro pre a mid b post h
      simp [wrRun, limitedTimes] at h
  | snoc ops op ih =>
    have : wrRun delay burst now (ops ++ [op]) = wrStep delay burst (wrRun delay burst now ops) op := by simp [wrRun]
    rw [this]
    exact rinv_step hb ih op

/-! ## Not too fast -/

/-- Of the messages written while rate limiting is on, the `n`-th after another one (counting both) is written at least
`n - burst` times the delay after it. -/
theorem C114_spaced (delay burst : Nat) (hb : 1 ≤ burst) (now : Int) (ops : List RateOp) (pre mid post : List Int) (a b : Int)
    (h : limitedTimes (wrRun delay burst now ops) = pre ++ a :: (mid ++ b :: post)) :
    a ≤ b ∧ a + ((mid.length + 2 : Nat) : Int) * delay ≤ b + (burst : Int) * delay :=
  (rinv_run delay burst hb now ops).spaced pre a mid b post h

/-- The messages of a period are one after the other in a list in order of time. -/
private theorem filter_segment (x y : Int) : ∀ (l : List Int),
    (∀ pre a mid b post, l = pre ++ a :: (mid ++ b :: post) → a ≤ b) →
    ∃ pre post, l = pre ++ l.filter (fun s => decide (x ≤ s ∧ s ≤ y)) ++ post ∧
      ((∀ s ∈ l, x ≤ s) → pre = []) := by
  intro l
  induction l with
  | nil => intro _; exact ⟨[], [], rfl, fun _ => rfl⟩
  | cons c l ih =>
    intro hs
    have hl : ∀ s ∈ l, c ≤ s := by
      intro s h
      obtain ⟨p, q, rfl⟩ := List.append_of_mem h
      exact hs [] c p s q rfl
    obtain ⟨pre, post, h1, h2⟩ := ih (fun pre a mid b post h => hs (c :: pre) a mid b post (by rw [h]; rfl))
    by_cases hx : x ≤ c
    · have hpre := h2 (fun s h => by have := hl s h; omega)
      subst hpre
      by_cases hy : c ≤ y
      · refine ⟨[], post, ?_, fun _ => rfl⟩
        rw [List.filter_cons_of_pos (by simp [hx, hy])]
        simp only [List.nil_append, List.cons_append] at h1 ⊢
        rw [← h1]
      · have hn : (c :: l).filter (fun s => decide (x ≤ s ∧ s ≤ y)) = [] := by
          rw [List.filter_eq_nil_iff]
          intro s h
          rcases List.mem_cons.1 h with rfl | h
          · simp [hy]
          · have := hl s h
            simp only [decide_eq_true_eq]
            omega
        exact ⟨[], c :: l, by rw [hn]; rfl, fun _ => rfl⟩
    · refine ⟨c :: pre, post, ?_, fun h => absurd (h c List.mem_cons_self) hx⟩
      rw [List.filter_cons_of_neg (by simp [hx])]
      simp only [List.cons_append] at h1 ⊢
      rw [← h1]

/-- In no period are more messages written than the burst and one for each time the delay passes, as long as rate limiting
is on. -/
theorem C114_window (delay burst : Nat) (hb : 1 ≤ burst) (hd : 0 < delay) (now : Int) (ops : List RateOp)
    (hl : ∀ op ∈ ops, op.limited = true) (x : Int) (w : Nat) :
    ((wrRun delay burst now ops).sent.filter (fun s => decide (x ≤ s.1 ∧ s.1 ≤ x + w))).length ≤ burst + w / delay := by
  have i := rinv_run delay burst hb now ops
  have hall : ∀ (ops : List RateOp) (st : WriterRate), (∀ op ∈ ops, op.limited = true) → (∀ s ∈ st.sent, s.2 = true) →
      ∀ s ∈ (ops.foldl (wrStep delay burst) st).sent, s.2 = true := by
    intro ops
    induction ops with
    | nil => intro st _ h; exact h
    | cons op ops ih =>
      intro st h1 h2
      refine ih _ (fun o ho => h1 o (List.mem_cons_of_mem _ ho)) ?_
      unfold wrStep
      rw [if_pos (h1 op List.mem_cons_self)]
      intro s hs
      rcases List.mem_append.1 hs with hs | hs
      · exact h2 s hs
      · rw [List.mem_singleton.1 hs]
  have hsent := hall ops ⟨limNew delay burst now, now, []⟩ hl (by intro s h; cases h)
  generalize hst : wrRun delay burst now ops = st at i
  have hsent : ∀ s ∈ st.sent, s.2 = true := by rw [← hst]; exact hsent
  have hlt : limitedTimes st = st.sent.map (·.1) := by
    unfold limitedTimes
    rw [List.filter_eq_self.2 hsent]
  have hlen : (st.sent.filter (fun s => decide (x ≤ s.1 ∧ s.1 ≤ x + w))).length =
      ((limitedTimes st).filter (fun s => decide (x ≤ s ∧ s ≤ x + w))).length := by
    rw [hlt, List.filter_map, List.length_map]
    rfl
  rw [hlen]
  obtain ⟨pre, post, hseg, -⟩ := filter_segment x (x + w) (limitedTimes st)
    (fun pre a mid b post h => (i.spaced pre a mid b post h).1)
  generalize hf : (limitedTimes st).filter (fun s => decide (x ≤ s ∧ s ≤ x + w)) = f at hseg
  have hin : ∀ s ∈ f, x ≤ s ∧ s ≤ x + w := by
    intro s hs
    rw [← hf] at hs
    simpa using (List.mem_filter.1 hs).2
  match f, hseg, hin with
  | [], _, _ => simp
  | [a], _, _ =>
    simp only [List.length_singleton]
    exact Nat.le_trans hb (Nat.le_add_right _ _)
  | a :: c :: rest, hseg, hin =>
    obtain ⟨mid, b, hmb⟩ : ∃ mid b, c :: rest = mid ++ [b] :=
      ⟨(c :: rest).dropLast, (c :: rest).getLast (by simp), (List.dropLast_concat_getLast (by simp)).symm⟩
    rw [hmb] at hseg hin ⊢
    have hs := i.spaced pre a mid b post (by rw [hseg]; simp)
    have ha := hin a List.mem_cons_self
    have hbb := hin b (by simp)
    simp only [List.length_cons, List.length_append, List.length_nil, Nat.zero_add]
    have h1 : ((mid.length + 2 : Nat) : Int) * delay ≤ ((burst * delay + w : Nat) : Int) := by
      have : ((burst * delay + w : Nat) : Int) = (burst : Int) * delay + w := by rw [Int.natCast_add, Int.natCast_mul]
      rw [this]
      omega
    have h2 : (mid.length + 2) * delay ≤ burst * delay + w := by
      have : (((mid.length + 2) * delay : Nat) : Int) ≤ ((burst * delay + w : Nat) : Int) := by
        rw [Int.natCast_mul]; exact h1
      exact Int.ofNat_le.1 this
    have h3 : mid.length + 2 ≤ (burst * delay + w) / delay := (Nat.le_div_iff_mul_le hd).2 h2
    rw [Nat.add_comm (burst * delay), Nat.add_mul_div_right _ _ hd] at h3
    omega

/-- A server is sent at most ten messages at once, and never more than ten and one for every two seconds, unless it has
announced that it does not mind. -/
theorem C114_upstream (now : Int) (ops : List RateOp) (hl : ∀ op ∈ ops, op.limited = true) (x : Int) (seconds : Nat) :
    ((wrRun upstreamMessageDelay upstreamMessageBurst now ops).sent.filter
      (fun s => decide (x ≤ s.1 ∧ s.1 ≤ x + (seconds * 1000000000 : Nat)))).length ≤ 10 + seconds / 2 := by
  have h := C114_window upstreamMessageDelay upstreamMessageBurst (by decide) (by decide) now ops hl x (seconds * 1000000000)
  refine Nat.le_trans h (Nat.le_of_eq ?_)
  unfold upstreamMessageDelay upstreamMessageBurst
  omega

example : let ops := List.replicate 13 ⟨0, true, 0⟩
    (∀ op ∈ ops, op.limited = true) ∧
    (wrRun upstreamMessageDelay upstreamMessageBurst 5 ops).sent.map (·.1) =
      [5, 5, 5, 5, 5, 5, 5, 5, 5, 5, 2000000005, 4000000005, 6000000005] := by
  refine ⟨?_, by decide⟩
  intro op h
  rw [List.eq_of_mem_replicate h]

/-! ## Not too slow -/

/-- The goroutine waits at most for one delay before it writes a message, and not at all if rate limiting is off. -/
theorem C114_prompt (delay burst : Nat) (hb : 1 ≤ burst) (now : Int) (ops : List RateOp) (op : RateOp) :
    ∃ t, (wrRun delay burst now (ops ++ [op])).sent = (wrRun delay burst now ops).sent ++ [(t, op.limited)] ∧
      (wrRun delay burst now ops).now + op.idle ≤ t ∧ t ≤ (wrRun delay burst now ops).now + op.idle + delay ∧
      (op.limited = false → t = (wrRun delay burst now ops).now + op.idle) ∧
      (wrRun delay burst now (ops ++ [op])).now = t + op.took := by
  have i := rinv_run delay burst hb now ops
  have hr : wrRun delay burst now (ops ++ [op]) = wrStep delay burst (wrRun delay burst now ops) op := by simp [wrRun]
  rw [hr]
  generalize wrRun delay burst now ops = st at i
  have hB : (0 : Int) ≤ (burst : Int) * delay := Int.mul_nonneg (by omega) (by omega)
  have h1 := i.le
  have h2 := i.pos
  unfold wrStep
  dsimp only
  split
  · rename_i hlim
    unfold limReserve
    rw [if_neg (by omega)]
    dsimp only
    refine ⟨_, by rw [hlim], ?_, ?_, (fun h => by rw [hlim] at h; cases h), rfl⟩
    · split <;> omega
    · split <;> omega
  · rename_i hlim
    have : op.limited = false := by simpa using hlim
    refine ⟨st.now + op.idle, by rw [this], by omega, by omega, fun _ => rfl, rfl⟩

/-- A limiter that has had the time to recover lets the whole burst through without waiting. -/
theorem C114_burst (delay burst : Nat) (hb : 1 ≤ burst) (now : Int) (ops more : List RateOp) (op : RateOp)
    (hidle : ∀ first rest, more ++ [op] = first :: rest → burst * delay ≤ first.idle) (hn : more.length < burst) :
    ∃ st : WriterRate, st = wrRun delay burst now (ops ++ more) ∧
      (wrRun delay burst now (ops ++ more ++ [op])).sent = st.sent ++ [(st.now + op.idle, op.limited)] := by
  have key : ∀ (more : List RateOp) (op : RateOp),
      (∀ first rest, more ++ [op] = first :: rest → burst * delay ≤ first.idle) → more.length < burst →
      ((burst - more.length : Nat) : Int) * delay ≤ (wrRun delay burst now (ops ++ more)).lim.credit +
        ((wrRun delay burst now (ops ++ more)).now + op.idle - (wrRun delay burst now (ops ++ more)).lim.last) := by
    intro more
    induction more using snocInd with
    | nil =>
      intro op h1 _
      have h := h1 op [] rfl
      have i := rinv_run delay burst hb now ops
      rw [List.append_nil]
      have hp := i.pos
      have : ((burst * delay : Nat) : Int) ≤ (op.idle : Int) := Int.ofNat_le.2 h
      rw [Int.natCast_mul] at this
      simp only [List.length_nil, Nat.sub_zero]
      omega
    | snoc more o ih =>
      intro op h1 h2
      rw [List.length_append, List.length_singleton] at h2 ⊢
      have hi := ih o (fun first rest h => h1 first (rest ++ [op]) (by rw [h]; rfl)) (by omega)
      have i := rinv_run delay burst hb now (ops ++ more)
      have hr : wrRun delay burst now (ops ++ (more ++ [o])) = wrStep delay burst (wrRun delay burst now (ops ++ more)) o := by
        simp [wrRun]
      rw [hr]
      generalize wrRun delay burst now (ops ++ more) = st at hi i
      have h3 : ((burst - more.length : Nat) : Int) * delay = ((burst - (more.length + 1) : Nat) : Int) * delay + delay := by
        rw [show burst - more.length = (burst - (more.length + 1)) + 1 by omega, Int.natCast_add, Int.add_mul]
        simp
      have h4 : ((burst - more.length : Nat) : Int) * delay ≤ (burst : Int) * delay :=
        Int.mul_le_mul_of_nonneg_right (by omega) (by omega)
      have h5 := i.le
      unfold wrStep
      dsimp only
      split
      · unfold limReserve
        rw [if_neg (by omega)]
        dsimp only
        split <;> omega
      · dsimp only
        omega
  have hk := key more op hidle hn
  refine ⟨_, rfl, ?_⟩
  have i := rinv_run delay burst hb now (ops ++ more)
  have hr : wrRun delay burst now (ops ++ more ++ [op]) = wrStep delay burst (wrRun delay burst now (ops ++ more)) op := by
    simp [wrRun]
  rw [hr]
  generalize wrRun delay burst now (ops ++ more) = st at hk i
  have h4 : (1 : Int) * delay ≤ ((burst - more.length : Nat) : Int) * delay :=
    Int.mul_le_mul_of_nonneg_right (by omega) (by omega)
  have h5 : (1 : Int) * delay ≤ (burst : Int) * delay := Int.mul_le_mul_of_nonneg_right (by omega) (by omega)
  have h6 := i.le
  unfold wrStep
  dsimp only
  split
  · rename_i hlim
    unfold limReserve
    rw [if_neg (by omega)]
    dsimp only
    rw [if_neg (by omega), hlim]
    simp
  · rename_i hlim
    have : op.limited = false := by simpa using hlim
    rw [this]

example : let more : List RateOp := ⟨20000000000, true, 3⟩ :: List.replicate 8 ⟨0, true, 0⟩
    (∀ first rest, more ++ [⟨0, true, 0⟩] = first :: rest → upstreamMessageBurst * upstreamMessageDelay ≤ first.idle) ∧
    more.length < upstreamMessageBurst := by
  refine ⟨?_, by decide⟩
  intro first rest h
  simp only [List.cons_append, List.cons.injEq] at h
  rw [← h.1]
  decide

end Verif.Props
