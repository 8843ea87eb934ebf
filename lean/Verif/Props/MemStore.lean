import Verif.Model.MemStore
import Verif.Proof.GoMap
import Verif.Proof.Util
import Verif.Spec.MemStore

/-! # C12: the in-memory store is a window over the log -/

namespace Verif.Props
open Verif.Model Verif.Spec Verif.Proof

variable {M : Type}

/-- The store after a history of appends. -/
def memRun (cap : Nat) (isText : M → Bool) (hist : List (RBKey × M)) : MemStore M :=
  hist.foldl (fun ms p => (memAppend cap isText ms p.1 p.2).1) []

/-- The ring buffer holds the last `cap` messages of the log. -/
def RBInv (cap : Nat) (rb : RingBuffer M) (log : List M) : Prop :=
  rb.buf.length = cap ∧ rb.cur = log.length + 1 ∧
  ∀ i, i < log.length → log.length < i + cap + 1 →
    (rb.buf[(i + 1) % cap]?).join = log[i]?

private theorem rb_new (cap : Nat) : RBInv cap (RingBuffer.new M cap) [] := by
  refine ⟨by simp [RingBuffer.new], rfl, ?_⟩
  intro i hi
  simp at hi

private theorem rb_append (cap : Nat) (hc : 0 < cap) (rb : RingBuffer M) (log : List M) (m : M)
    (h : RBInv cap rb log) : RBInv cap (rb.append m).1 (log ++ [m]) := by
  obtain ⟨h1, h2, h3⟩ := h
  refine ⟨by simp [RingBuffer.append, h1], by simp [RingBuffer.append, h2], ?_⟩
  intro i hi hw
  simp only [List.length_append, List.length_singleton] at hi hw
  simp only [RingBuffer.append, h1, h2]
  by_cases hlast : i = log.length
  · subst hlast
    have : (log.length + 1) % cap < rb.buf.length := by rw [h1]; exact Nat.mod_lt _ hc
    simp [this]
  · have hi' : i < log.length := by omega
    have hne : (log.length + 1) % cap ≠ (i + 1) % cap := by
      intro e
      have hsub : (log.length - i) % cap = 0 := by
        have := Nat.sub_mod_eq_zero_of_mod_eq e
        rwa [show log.length + 1 - (i + 1) = log.length - i by omega] at this
      have hpos : 0 < log.length - i := by omega
      have hlt : log.length - i < cap := by omega
      rw [Nat.mod_eq_of_lt hlt] at hsub
      omega
    rw [List.getElem?_set_ne hne, h3 i hi' (by omega), List.getElem?_append_left hi']

private theorem rb_load (cap : Nat) (rb : RingBuffer M) (log : List M) (h : RBInv cap rb log)
    (seq limit : Nat) (hs : seq ≤ log.length) :
    rb.loadLatestSeq seq limit = some ((lastN (min limit cap) (log.drop seq)).map some) := by
  obtain ⟨h1, h2, h3⟩ := h
  unfold RingBuffer.loadLatestSeq
  rw [if_neg (by omega), if_neg (by omega)]
  simp only [h1, h2, Option.some.injEq]
  have hd : (if (if log.length + 1 - seq - 1 > cap then cap else log.length + 1 - seq - 1) > limit then
      limit else (if log.length + 1 - seq - 1 > cap then cap else log.length + 1 - seq - 1))
      = min (log.length - seq) (min limit cap) := by
    rw [show log.length + 1 - seq - 1 = log.length - seq by omega]
    split <;> split <;> omega
  rw [hd]
  apply List.ext_getElem?
  intro i
  have hlen : (lastN (min limit cap) (log.drop seq)).length = min (log.length - seq) (min limit cap) := by
    simp [lastN]; omega
  by_cases hi : i < min (log.length - seq) (min limit cap)
  · rw [List.getElem?_map, List.getElem?_range hi]
    simp only [Option.map_some, List.getElem?_map]
    have hidx : (log.length + 1 - min (log.length - seq) (min limit cap) + i)
        = (log.length - min (log.length - seq) (min limit cap) + i) + 1 := by omega
    rw [hidx, h3 _ (by omega) (by omega)]
    simp only [lastN, List.getElem?_drop, List.length_drop]
    have : seq + (log.length - seq - min limit cap + i)
        = log.length - min (log.length - seq) (min limit cap) + i := by omega
    rw [this]
    have hin : log.length - min (log.length - seq) (min limit cap) + i < log.length := by omega
    rw [List.getElem?_eq_getElem hin]
    rfl
  · rw [List.getElem?_eq_none (by simpa using hi), List.getElem?_eq_none (by simpa [hlen] using hi)]

/-- What the store contains for every key after a history. -/
private theorem store_inv (cap : Nat) (hc : 0 < cap) (isText : M → Bool) (hist : List (RBKey × M)) :
    ∀ k, match (memRun cap isText hist).get k with
      | some rb => RBInv cap rb (logOf isText hist k) ∧ logOf isText hist k ≠ []
      | none => logOf isText hist k = [] := by
  induction hist using snocInd with
  | nil => intro k; rfl
  | snoc hist p ih =>
    intro k
    obtain ⟨kp, m⟩ := p
    have hrun : memRun cap isText (hist ++ [(kp, m)])
        = (memAppend cap isText (memRun cap isText hist) kp m).1 := by simp [memRun]
    rw [hrun]
    have hlog : logOf isText (hist ++ [(kp, m)]) k
        = logOf isText hist k ++ (if kp = k ∧ isText m = true then [m] else []) := by
      simp only [logOf, List.filter_append, List.map_append]
      congr 1
      by_cases h1 : kp = k <;> by_cases h2 : isText m = true <;> simp [h1, h2]
    rw [hlog]
    unfold memAppend
    by_cases hm : isText m = true
    · simp only [hm, if_true, and_true]
      by_cases hk : kp = k
      · subst hk
        simp only [mget_mset, if_true]
        refine ⟨?_, by simp⟩
        apply rb_append cap hc
        have := ih kp
        cases hg : (memRun cap isText hist).get kp with
        | none => rw [hg] at this; simp only at this; rw [this]; exact rb_new cap
        | some rb => rw [hg] at this; exact this.1
      · have := ih k
        rw [mget_mset, if_neg hk]
        simpa [hk] using this
    · simp only [hm, Bool.false_eq_true, if_false, and_false, List.append_nil]
      exact ih k

/-- The sequence number of the ID `Append` returned for the message that made the log of its target
`n` messages long. -/
private theorem append_id (cap : Nat) (hc : 0 < cap) (isText : M → Bool) (hist : List (RBKey × M))
    (k : RBKey) (m : M) (hm : isText m = true) :
    (memAppend cap isText (memRun cap isText hist) k m).2
      = some ⟨k, (logOf isText hist k).length + 1⟩ := by
  have := store_inv cap hc isText hist k
  unfold memAppend
  simp only [hm, if_true]
  cases hg : (memRun cap isText hist).get k with
  | none => rw [hg] at this; simp only at this; simp [this, RingBuffer.append, RingBuffer.new]
  | some rb => rw [hg] at this; simp [RingBuffer.append, this.1.2.1]

/-- C12: take any history `before`, append a text message to target `k` and remember the returned
ID; after any further history `after`, asking for the latest messages of `k` after that ID gives exactly
the text messages appended to `k` since (at most `limit` and at most the window size: the most recent
ones), oldest first. -/
theorem C12_latest_after_id (cap : Nat) (hc : 0 < cap) (isText : M → Bool)
    (before after : List (RBKey × M)) (k : RBKey) (m : M) (hm : isText m = true) (limit : Nat) (id : MemID)
    (hid : (memAppend cap isText (memRun cap isText before) k m).2 = some id) :
    memLoadLatestID (memRun cap isText (before ++ (k, m) :: after)) id k limit
      = some ((lastN (min limit cap) (logOf isText after k)).map some) := by
  rw [append_id cap hc isText before k m hm] at hid
  obtain rfl := Option.some.inj hid
  have hlog : logOf isText (before ++ (k, m) :: after) k
      = logOf isText before k ++ m :: logOf isText after k := by
    simp [logOf, hm]
  have inv := store_inv cap hc isText (before ++ (k, m) :: after) k
  unfold memLoadLatestID
  cases hg : (memRun cap isText (before ++ (k, m) :: after)).get k with
  | none => rw [hg] at inv; simp only at inv; rw [hlog] at inv; simp at inv
  | some rb =>
    rw [hg] at inv
    simp only at inv ⊢
    rw [rb_load cap rb _ inv.1 _ limit (by rw [hlog]; simp), hlog]
    congr 3
    rw [show (logOf isText before k).length + 1 = (logOf isText before k ++ [m]).length by simp,
      show logOf isText before k ++ m :: logOf isText after k
        = (logOf isText before k ++ [m]) ++ logOf isText after k by simp, List.drop_left]

/-- C12: only text messages get an ID and only they are stored. -/
theorem C12_only_text (cap : Nat) (isText : M → Bool) (ms : MemStore M) (k : RBKey) (m : M)
    (hm : isText m = false) : memAppend cap isText ms k m = (ms, none) := by
  simp [memAppend, hm]

/-- C12: targets do not interfere: appends to other targets (or networks) change nothing for `k`. -/
theorem C12_targets_independent (cap : Nat) (hc : 0 < cap) (isText : M → Bool)
    (hist : List (RBKey × M)) (k : RBKey) (id : MemID) (limit : Nat) :
    memLoadLatestID (memRun cap isText hist) id k limit
      = memLoadLatestID (memRun cap isText (hist.filter (fun p => decide (p.1 = k)))) id k limit := by
  have hl : logOf isText (hist.filter (fun p => decide (p.1 = k))) k = logOf isText hist k := by
    simp only [logOf, List.filter_filter]
    congr 2
    funext p
    by_cases h : p.1 = k <;> simp [h]
  have i1 := store_inv cap hc isText hist k
  have i2 := store_inv cap hc isText (hist.filter (fun p => decide (p.1 = k))) k
  rw [hl] at i2
  unfold memLoadLatestID
  cases h1 : (memRun cap isText hist).get k with
  | none =>
    rw [h1] at i1
    cases h2 : (memRun cap isText (hist.filter (fun p => decide (p.1 = k)))).get k with
    | none => rfl
    | some rb => rw [h2] at i2; exact absurd i1 i2.2
  | some rb1 =>
    rw [h1] at i1
    cases h2 : (memRun cap isText (hist.filter (fun p => decide (p.1 = k)))).get k with
    | none => rw [h2] at i2; exact absurd i2 i1.2
    | some rb2 =>
      rw [h2] at i2
      simp only at i1 i2 ⊢
      by_cases hs : id.seq ≤ (logOf isText hist k).length
      · rw [rb_load cap rb1 _ i1.1 _ limit hs, rb_load cap rb2 _ i2.1 _ limit hs]
      · unfold RingBuffer.loadLatestSeq
        rw [i1.1.2.1, i2.1.2.1]
        by_cases h3 : id.seq > (logOf isText hist k).length + 1
        · rw [if_pos h3, if_pos h3]
        · have h4 : id.seq = (logOf isText hist k).length + 1 := by omega
          rw [if_neg h3, if_neg h3, if_pos h4, if_pos h4]

/-- C12 (partial): the "current position" ID of a target that has had no message yet denotes the
beginning of its log.  Missing: the same for a target that already has messages, which is false — see
`C12_last_id_violated`. -/
theorem C12_last_id_partial (cap : Nat) (hc : 0 < cap) (isText : M → Bool)
    (before after : List (RBKey × M)) (k : RBKey) (limit : Nat) (hb : logOf isText before k = []) :
    memLoadLatestID (memRun cap isText (before ++ after)) (memLastMsgID (memRun cap isText before) k) k limit
      = some ((lastN (min limit cap) (logOf isText after k)).map some) := by
  have i0 := store_inv cap hc isText before k
  have hid : memLastMsgID (memRun cap isText before) k = ⟨k, 0⟩ := by
    unfold memLastMsgID
    cases hg : (memRun cap isText before).get k with
    | none => rfl
    | some rb => rw [hg] at i0; exact absurd hb i0.2
  rw [hid]
  have hl : logOf isText (before ++ after) k = logOf isText after k := by
    simp only [logOf, List.filter_append, List.map_append] at hb ⊢
    rw [hb, List.nil_append]
  have i1 := store_inv cap hc isText (before ++ after) k
  rw [hl] at i1
  unfold memLoadLatestID
  cases hg : (memRun cap isText (before ++ after)).get k with
  | none => rw [hg] at i1; simp only at i1 ⊢; rw [i1]; simp [lastN]
  | some rb =>
    rw [hg] at i1
    simp only at i1 ⊢
    rw [rb_load cap rb _ i1.1 0 limit (by omega)]
    rfl

/-- C12 (disagreement): the "current position" ID of a target that already has messages is one too
far: the next message appended is not among the messages after it. -/
theorem C12_last_id_violated :
    let before : List (RBKey × Nat) := [((1, b!"#c"), 100)]
    let after : List (RBKey × Nat) := [((1, b!"#c"), 101)]
    let st := memRun 4096 (fun _ => true) before
    memLoadLatestID (memRun 4096 (fun _ => true) (before ++ after)) (memLastMsgID st (1, b!"#c"))
        (1, b!"#c") 1000 = some [] ∧
      logOf (fun _ => true) after (1, b!"#c") = [101] := by
  decide +kernel

example : (0 : Nat) < 4096 ∧
    (memAppend 3 (fun m => decide (m < 100)) (memRun 3 (fun m => decide (m < 100))
      [((1, b!"#c"), 7), ((1, b!"#d"), 8), ((1, b!"#c"), 200)]) (1, b!"#c") 9).2
        = some ⟨(1, b!"#c"), 2⟩ ∧
    memLoadLatestID (memRun 3 (fun m => decide (m < 100))
      [((1, b!"#c"), 7), ((1, b!"#c"), 1), ((1, b!"#c"), 2), ((2, b!"#c"), 50), ((1, b!"#c"), 3),
        ((1, b!"#c"), 4)]) ⟨(1, b!"#c"), 1⟩ (1, b!"#c") 1000 = some [some 2, some 3, some 4] := by
  decide

end Verif.Props
