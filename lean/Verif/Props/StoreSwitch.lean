import Verif.Model.StoreSwitch
import Verif.Proof.Util

/-! # C124: coming back after the message store was changed -/

namespace Verif.Props
open Verif.Model Verif.Proof

private theorem run_snoc (st : SwiState) (ops : List SwiOp) (op : SwiOp) : swiRun st (ops ++ [op]) = swiStep (swiRun st ops) op := by
  simp [swiRun]

private theorem mem_drop_snoc {l : List Nat} {x m n : Nat} (h : m ∈ (l ++ [x]).drop n) : m ∈ l.drop n ∨ m = x := by
  rw [List.drop_append] at h
  rcases List.mem_append.1 h with h | h
  · exact .inl h
  · exact .inr (by simpa using List.mem_of_mem_drop h)

/-- What of a receipt is ahead has not been seen. -/
private def Ahead (st : SwiState) (r : Option (MsgIdType × Nat)) : Prop :=
  ∀ k n, r = some (k, n) → ∀ m ∈ (st.logs k).drop n, m ∉ st.seen

private structure Inv (st : SwiState) : Prop where
  low : ∀ k, ∀ m ∈ st.logs k, m < st.count
  seenLow : ∀ m ∈ st.seen, m < st.count
  nodup : ∀ k, (st.logs k).Nodup
  apart : ∀ k k' m, m ∈ st.logs k → m ∈ st.logs k' → k = k'
  seen : st.seen.Nodup
  ahead : Ahead st st.receipt
  savedKind : ∀ k n, st.saved = some (k, n) → k ≠ .memory
  receiptKind : st.kind ≠ .memory → ∀ k n, st.receipt = some (k, n) → k ≠ .memory
  none : st.kind ≠ .memory → st.receipt = none → st.saved = none
  savedAhead : st.kind = .memory → Ahead st st.saved
  memReceipt : st.kind = .memory → ∀ k n, st.receipt = some (k, n) → k = .memory

private theorem save_kind {st : SwiState} (i : Inv st) : ∀ k n, swiSave st = some (k, n) → k ≠ .memory := by
  intro k n h
  unfold swiSave at h
  split at h
  · rename_i hp
    have hp : st.kind ≠ .memory := by simpa [swiPersistent] using hp
    cases e : st.receipt with
    | none => rw [e, Option.none_or] at h; exact i.savedKind k n h
    | some r => rw [e, Option.some_or] at h; exact i.receiptKind hp k n (by rw [e]; exact h)
  · exact i.savedKind k n h

private theorem save_ahead {st : SwiState} (i : Inv st) : Ahead st (swiSave st) := by
  unfold swiSave
  split
  · rename_i hp
    have hp : st.kind ≠ .memory := by simpa [swiPersistent] using hp
    cases e : st.receipt with
    | none => rw [Option.none_or, i.none hp e]; intro k n h; cases h
    | some r => rw [Option.some_or, ← e]; exact i.ahead
  · rename_i hp
    exact i.savedAhead (by simpa [swiPersistent] using hp)

private theorem inv_step (st : SwiState) (op : SwiOp) (i : Inv st) : Inv (swiStep st op) := by
  cases op with
  | message =>
    have hnew : st.count ∉ st.logs st.kind := fun h => absurd (i.low _ _ h) (Nat.lt_irrefl _)
    have hmem : ∀ k m, m ∈ (if k = st.kind then st.logs st.kind ++ [st.count] else st.logs k) → m ∈ st.logs k ∨ (m = st.count ∧ k = st.kind) := by
      intro k m h
      split at h
      · rename_i e; subst e
        rcases List.mem_append.1 h with h | h
        · exact .inl h
        · exact .inr ⟨by simpa using h, rfl⟩
      · exact .inl h
    have hdrop : ∀ k n m, m ∈ (if k = st.kind then st.logs st.kind ++ [st.count] else st.logs k).drop n →
        m ∈ (st.logs k).drop n ∨ (m = st.count ∧ k = st.kind) := by
      intro k n m h
      split at h
      · rename_i e; subst e
        rcases mem_drop_snoc h with h | h
        · exact .inl h
        · exact .inr ⟨h, rfl⟩
      · exact .inl h
    have low : ∀ k, ∀ m ∈ (if k = st.kind then st.logs st.kind ++ [st.count] else st.logs k), m < st.count + 1 := by
      intro k m h
      rcases hmem k m h with h | ⟨h, _⟩
      · have := i.low k m h; omega
      · omega
    have nodup : ∀ k, (if k = st.kind then st.logs st.kind ++ [st.count] else st.logs k).Nodup := by
      intro k
      split
      · rw [List.nodup_append]
        refine ⟨i.nodup _, by simp, ?_⟩
        intro a ha b hb e
        simp only [List.mem_singleton] at hb
        exact hnew (hb ▸ e ▸ ha)
      · exact i.nodup k
    have apart : ∀ k k' m, m ∈ (if k = st.kind then st.logs st.kind ++ [st.count] else st.logs k) →
        m ∈ (if k' = st.kind then st.logs st.kind ++ [st.count] else st.logs k') → k = k' := by
      intro k k' m h h'
      rcases hmem k m h with h | ⟨h, e⟩ <;> rcases hmem k' m h' with h' | ⟨h', e'⟩
      · exact i.apart k k' m h h'
      · have := i.low k m h; omega
      · have := i.low k' m h'; omega
      · rw [e, e']
    have notSeen : ∀ r, Ahead st r → ∀ k n, r = some (k, n) →
        ∀ m ∈ (if k = st.kind then st.logs st.kind ++ [st.count] else st.logs k).drop n, m ∉ st.seen := by
      intro r hr k n e m h hs
      rcases hdrop k n m h with h | ⟨h, _⟩
      · exact hr k n e m h hs
      · have := i.seenLow m hs; omega
    cases ho : st.online with
    | false =>
      simp only [swiStep, ho, Bool.false_eq_true, if_false]
      exact ⟨low, fun m h => Nat.lt_succ_of_lt (i.seenLow m h), nodup, apart, i.seen, notSeen _ i.ahead, i.savedKind,
        i.receiptKind, i.none, fun h => notSeen _ (i.savedAhead h), i.memReceipt⟩
    | true =>
      simp only [swiStep, ho, if_true]
      refine ⟨low, ?_, nodup, apart, ?_, ?_, i.savedKind, ?_, ?_, ?_, ?_⟩
      · intro m h
        rcases List.mem_append.1 h with h | h
        · exact Nat.lt_succ_of_lt (i.seenLow m h)
        · simp only [List.mem_singleton] at h
          show m < st.count + 1
          omega
      · rw [List.nodup_append]
        refine ⟨i.seen, by simp, ?_⟩
        intro a ha b hb e
        simp only [List.mem_singleton] at hb
        have := i.seenLow a ha
        omega
      · intro k n e m h
        simp only [Option.some.injEq, Prod.mk.injEq] at e
        obtain ⟨rfl, rfl⟩ := e
        simp at h
      · intro hk k n e
        simp only [Option.some.injEq, Prod.mk.injEq] at e
        rw [← e.1]; exact hk
      · intro _ e; cases e
      · intro hk k n e m h hs
        rcases List.mem_append.1 hs with hs | hs
        · exact notSeen _ (i.savedAhead hk) k n e m h hs
        · simp only [List.mem_singleton] at hs
          rcases hdrop k n m h with h | ⟨_, e'⟩
          · have := i.low k m (List.mem_of_mem_drop h); omega
          · exact i.savedKind k n e (e'.trans hk)
      · intro hk k n e
        simp only [Option.some.injEq, Prod.mk.injEq] at e
        rw [← e.1]; exact hk
  | connect =>
    have stay : Inv { st with online := true } :=
      ⟨i.low, i.seenLow, i.nodup, i.apart, i.seen, i.ahead, i.savedKind, i.receiptKind, i.none, i.savedAhead, i.memReceipt⟩
    simp only [swiStep]
    split
    · exact i
    · split
      · exact stay
      · exact stay
      · rename_i new _ hb
        cases er : st.receipt with
        | none => rw [er] at hb; cases hb
        | some r =>
          obtain ⟨k, n⟩ := r
          rw [er, Option.bind_some] at hb
          unfold swiLoad at hb
          split at hb
          · rename_i ek
            have ek : k = st.kind := ek
            subst ek
            simp only [Option.some.injEq] at hb
            have ha := i.ahead _ n er
            refine ⟨i.low, ?_, i.nodup, i.apart, ?_, ?_, i.savedKind, ?_, ?_, ?_, ?_⟩
            · intro m h
              rcases List.mem_append.1 h with h | h
              · exact i.seenLow m h
              · exact i.low _ m (List.mem_of_mem_drop (hb ▸ h))
            · rw [List.nodup_append]
              refine ⟨i.seen, hb ▸ (List.Nodup.sublist (List.drop_sublist _ _) (i.nodup st.kind)), ?_⟩
              intro a h b h' e
              exact ha b (hb ▸ h') (e ▸ h)
            · intro k' n' e m h
              simp only [Option.some.injEq, Prod.mk.injEq] at e
              obtain ⟨rfl, rfl⟩ := e
              simp at h
            · intro hk k' n' e
              simp only [Option.some.injEq, Prod.mk.injEq] at e
              rw [← e.1]; exact hk
            · intro _ e; cases e
            · intro hk k' n' e m h hs
              rcases List.mem_append.1 hs with hs | hs
              · exact i.savedAhead hk k' n' e m h hs
              · have h1 := i.apart k' st.kind m (List.mem_of_mem_drop h) (List.mem_of_mem_drop (hb ▸ hs))
                exact i.savedKind k' n' e (h1.trans hk)
            · intro hk k' n' e
              simp only [Option.some.injEq, Prod.mk.injEq] at e
              rw [← e.1]; exact hk
          · cases hb
  | disconnect =>
    simp only [swiStep]
    split
    · refine ⟨i.low, i.seenLow, i.nodup, i.apart, i.seen, i.ahead, save_kind i, i.receiptKind, ?_, fun _ => save_ahead i,
        i.memReceipt⟩
      intro hk e
      have h1 : st.receipt = none := e
      show swiSave st = none
      unfold swiSave
      rw [h1, Option.none_or, i.none hk h1]
      split <;> rfl
    · exact i
  | restart k =>
    have sub : ∀ k' m, m ∈ (if k' = MsgIdType.memory then [] else st.logs k') → m ∈ st.logs k' := by
      intro k' m h
      split at h
      · cases h
      · exact h
    have drop : ∀ k' n m, m ∈ (if k' = MsgIdType.memory then [] else st.logs k').drop n → m ∈ (st.logs k').drop n := by
      intro k' n m h
      split at h
      · simp at h
      · exact h
    have ahead : ∀ k' n, swiSave st = some (k', n) → ∀ m ∈ (if k' = MsgIdType.memory then [] else st.logs k').drop n, m ∉ st.seen :=
      fun k' n e m h => save_ahead i k' n e m (drop k' n m h)
    refine ⟨fun k' m h => i.low k' m (sub k' m h), i.seenLow, ?_, fun a b m h h' => i.apart a b m (sub a m h) (sub b m h'), i.seen,
      ?_, save_kind i, ?_, ?_, fun _ => ahead, ?_⟩
    · intro k'
      show (if k' = MsgIdType.memory then [] else st.logs k').Nodup
      split
      · exact List.nodup_nil
      · exact i.nodup k'
    · intro k' n e
      have e : (if swiPersistent k then swiSave st else none) = some (k', n) := e
      split at e
      · exact ahead k' n e
      · cases e
    · intro _ k' n e
      have e : (if swiPersistent k then swiSave st else none) = some (k', n) := e
      split at e
      · exact save_kind i k' n e
      · cases e
    · intro hk e
      have hk : k ≠ .memory := hk
      have e : (if swiPersistent k then swiSave st else none) = none := e
      rwa [if_pos (by simpa [swiPersistent] using hk)] at e
    · intro hk k' n e
      have hk : k = .memory := hk
      have e : (if swiPersistent k then swiSave st else none) = some (k', n) := e
      rw [if_neg (by simp [swiPersistent, hk])] at e
      cases e

/-- C124: whatever stores the bouncer is restarted with, no message is shown to the client twice. -/
theorem C124_once (kind : MsgIdType) (ops : List SwiOp) : (swiRun (swiInit kind) ops).seen.Nodup := by
  refine Inv.seen ?_
  induction ops using snocInd with
  | nil =>
    show Inv (swiInit kind)
    refine ⟨?_, ?_, ?_, ?_, ?_, ?_, ?_, ?_, ?_, ?_, ?_⟩ <;> simp [swiInit, Ahead]
  | snoc ops op ih => rw [run_snoc]; exact inv_step _ op ih

example : (swiRun (swiInit .fs) [.connect, .message, .disconnect, .message, .restart .memory, .connect, .message, .restart .fs,
    .connect, .message]).seen = [0, 2, 1, 3] := by decide

/-- The receipt `r` covers what the client has not seen of the messages in store `k` after the first `n`. -/
private def Covers (st : SwiState) (k : MsgIdType) (n : Nat) (r : Option (MsgIdType × Nat)) : Prop :=
  ∃ q, r = some (k, q) ∧ q ≤ (st.logs k).length ∧ ∀ m ∈ (st.logs k).drop n, m ∈ st.seen ∨ m ∈ (st.logs k).drop q

private structure Cov (k : MsgIdType) (n : Nat) (st : SwiState) : Prop where
  kind : st.kind = k ∨ st.kind = .memory
  here : st.kind = k → Covers st k n st.receipt
  away : st.kind = .memory → Covers st k n st.saved
  online : st.kind = k → st.online = true → ∀ m ∈ (st.logs k).drop n, m ∈ st.seen

private theorem cov_save {k : MsgIdType} {n : Nat} (hk : k ≠ .memory) {st : SwiState} (c : Cov k n st) :
    Covers st k n (swiSave st) := by
  unfold swiSave
  rcases c.kind with e | e
  · obtain ⟨q, h1, h2⟩ := c.here e
    rw [if_pos (by simpa [swiPersistent, e] using hk), h1, Option.some_or]
    exact ⟨q, rfl, h2⟩
  · rw [if_neg (by simp [swiPersistent, e])]
    exact c.away e

private theorem cov_step {k : MsgIdType} {n : Nat} (hk : k ≠ .memory) {st : SwiState} (c : Cov k n st) (op : SwiOp)
    (ho : ∀ k', op = .restart k' → k' = k ∨ k' = .memory) : Cov k n (swiStep st op) := by
  cases op with
  | message =>
    rcases c.kind with e | e
    · obtain ⟨q, h1, h2, h3⟩ := c.here e
      have hne : st.kind ≠ .memory := e ▸ hk
      have hmem : ∀ m, m ∈ (st.logs st.kind ++ [st.count]).drop n → m ∈ (st.logs k).drop n ∨ m = st.count := by
        intro m h; rw [e] at h; exact mem_drop_snoc h
      cases hon : st.online with
      | true =>
        simp only [swiStep, hon, if_true]
        have all : ∀ m ∈ (if k = st.kind then st.logs st.kind ++ [st.count] else st.logs k).drop n, m ∈ st.seen ++ [st.count] := by
          intro m h
          rw [if_pos e.symm] at h
          rcases hmem m h with h | h
          · exact List.mem_append_left _ (c.online e hon m h)
          · exact List.mem_append_right _ (by simp [h])
        refine ⟨.inl e, fun _ => ⟨(st.logs st.kind ++ [st.count]).length, by simp only [e], ?_, fun m h => .inl (all m h)⟩,
          fun h => absurd h hne, fun _ _ => all⟩
        exact Nat.le_of_eq (by show _ = (if k = st.kind then st.logs st.kind ++ [st.count] else st.logs k).length; rw [if_pos e.symm])
      | false =>
        simp only [swiStep, hon, Bool.false_eq_true, if_false]
        refine ⟨.inl e, fun _ => ⟨q, h1, ?_, ?_⟩, fun h => absurd h hne, fun _ h => by cases h⟩
        · show q ≤ (if k = st.kind then st.logs st.kind ++ [st.count] else st.logs k).length
          rw [if_pos e.symm, e, List.length_append]; omega
        · intro m h
          have h : m ∈ (if k = st.kind then st.logs st.kind ++ [st.count] else st.logs k).drop n := h
          show m ∈ st.seen ∨ m ∈ (if k = st.kind then st.logs st.kind ++ [st.count] else st.logs k).drop q
          rw [if_pos e.symm] at h ⊢
          rw [e, List.drop_append_of_le_length h2]
          rcases hmem m h with h | h
          · rcases h3 m h with h | h
            · exact .inl h
            · exact .inr (List.mem_append_left _ h)
          · exact .inr (List.mem_append_right _ (by simp [h]))
    · obtain ⟨q, h1, h2, h3⟩ := c.away e
      have hne : k ≠ st.kind := fun h => hk (h.trans e)
      cases hon : st.online with
      | true =>
        simp only [swiStep, hon, if_true]
        refine ⟨.inr e, fun h => absurd h.symm hne, fun _ => ⟨q, h1, ?_, ?_⟩, fun h => absurd h.symm hne⟩
        · simpa [hne] using h2
        · intro m h
          simp only [hne, if_false] at h ⊢
          rcases h3 m h with h | h
          · exact .inl (List.mem_append_left _ h)
          · exact .inr h
      | false =>
        simp only [swiStep, hon, Bool.false_eq_true, if_false]
        refine ⟨.inr e, fun h => absurd h.symm hne, fun _ => ⟨q, h1, ?_, ?_⟩, fun h => absurd h.symm hne⟩
        · simpa [hne] using h2
        · intro m h
          simp only [hne, if_false] at h ⊢
          exact h3 m h
  | connect =>
    simp only [swiStep]
    split
    · exact c
    · rcases c.kind with e | e
      · obtain ⟨q, h1, h2, h3⟩ := c.here e
        have hne : st.kind ≠ .memory := e ▸ hk
        have hl : st.receipt.bind (swiLoad st) = some ((st.logs k).drop q) := by
          rw [h1, Option.bind_some]; unfold swiLoad; rw [if_pos e.symm, e]
        rw [hl]
        split
        · rename_i h; cases h
        · rename_i h
          simp only [Option.some.injEq] at h
          refine ⟨.inl e, c.here, c.away, fun _ _ m hm => ?_⟩
          rcases h3 m hm with h' | h'
          · exact h'
          · rw [h] at h'; cases h'
        · rename_i new _ h
          simp only [Option.some.injEq] at h
          have all : ∀ m ∈ (st.logs k).drop n, m ∈ st.seen ++ new := by
            intro m hm
            rcases h3 m hm with h' | h'
            · exact List.mem_append_left _ h'
            · exact List.mem_append_right _ (h ▸ h')
          exact ⟨.inl e, fun _ => ⟨_, by rw [e], Nat.le_refl _, fun m hm => .inl (all m hm)⟩, fun h => absurd h hne, fun _ _ => all⟩
      · have hne : st.kind ≠ k := fun h => hk (h.symm.trans e)
        split
        · exact ⟨.inr e, fun h => absurd h hne, c.away, fun h => absurd h hne⟩
        · exact ⟨.inr e, fun h => absurd h hne, c.away, fun h => absurd h hne⟩
        · obtain ⟨q, h1, h2, h3⟩ := c.away e
          exact ⟨.inr e, fun h => absurd h hne, fun _ => ⟨q, h1, h2, fun m hm => (h3 m hm).imp (List.mem_append_left _) id⟩,
            fun h => absurd h hne⟩
  | disconnect =>
    simp only [swiStep]
    split
    · exact ⟨c.kind, c.here, fun _ => cov_save hk c, fun _ h => by cases h⟩
    · exact c
  | restart k' =>
    have hs : Covers (swiStep st (.restart k')) k n (swiSave st) := by
      obtain ⟨q, h1, h2, h3⟩ := cov_save hk c
      refine ⟨q, h1, ?_, ?_⟩
      · simpa [swiStep, hk] using h2
      · simpa [swiStep, hk] using h3
    refine ⟨ho k' rfl, ?_, fun _ => hs, fun _ h => by cases h⟩
    intro e
    have e : k' = k := e
    have : (swiStep st (.restart k')).receipt = swiSave st := by
      simp only [swiStep]; rw [if_pos (by simpa [swiPersistent, e] using hk)]
    rw [this]; exact hs

/-- C124: once a client has a receipt in a store that is kept on disk, it gets all messages said since in that store when it is
connected, however often the bouncer is restarted, even if it was run with the memory store in between.  Missing: that it is run
with another store on disk, or always with the memory store (`C124_switch_violated`, `C124_return_violated`,
`C124_memory_violated`). -/
theorem C124_lossless_partial (kind k : MsgIdType) (hk : k ≠ .memory) (ops1 ops2 : List SwiOp) (n : Nat)
    (h1 : (swiRun (swiInit kind) ops1).kind = k) (h2 : (swiRun (swiInit kind) ops1).receipt = some (k, n))
    (h3 : (swiRun (swiInit kind) ops1).online = false) (h4 : n ≤ ((swiRun (swiInit kind) ops1).logs k).length)
    (ho : ∀ k', .restart k' ∈ ops2 → k' = k ∨ k' = .memory)
    (hkind : (swiRun (swiInit kind) (ops1 ++ ops2)).kind = k) (hon : (swiRun (swiInit kind) (ops1 ++ ops2)).online = true) :
    ∀ m ∈ ((swiRun (swiInit kind) (ops1 ++ ops2)).logs k).drop n, m ∈ (swiRun (swiInit kind) (ops1 ++ ops2)).seen := by
  have e : ∀ ops, swiRun (swiInit kind) (ops1 ++ ops) = swiRun (swiRun (swiInit kind) ops1) ops := by
    intro ops; simp [swiRun]
  rw [e] at hkind hon ⊢
  generalize swiRun (swiInit kind) ops1 = st at *
  have c0 : Cov k n st := ⟨.inl h1, fun _ => ⟨n, h2, h4, fun m h => .inr h⟩, fun h => absurd (h1.symm.trans h) hk,
    fun _ h => by rw [h3] at h; cases h⟩
  have c : Cov k n (swiRun st ops2) := by
    clear hkind hon
    induction ops2 using snocInd with
    | nil => exact c0
    | snoc ops op ih =>
      rw [run_snoc]
      exact cov_step hk (ih (fun k' h => ho k' (by simp [h]))) op (fun k' h => ho k' (by simp [h]))
  exact c.online hkind hon

example : (swiRun (swiInit .fs) [.connect, .message, .disconnect]).receipt = some (.fs, 1) ∧
    (swiRun (swiInit .fs) ([.connect, .message, .disconnect] ++ [.message, .restart .memory, .message, .restart .fs, .message,
      .connect])).seen = [0, 1, 3] := by decide

/-- C124 is violated: after a change from log files to the database (or back) a client that comes back is not sent what was said
since, though it is in the store: its receipt is one of the old store, which the new one refuses. -/
theorem C124_switch_violated : ∃ ops : List SwiOp, ∃ m, m ∈ (swiRun (swiInit .fs) ops).logs .db ∧
    (swiRun (swiInit .fs) ops).kind = .db ∧ (swiRun (swiInit .fs) ops).online = true ∧
    (swiRun (swiInit .fs) ops).receipt = some (.fs, 1) ∧ m ∉ (swiRun (swiInit .fs) ops).seen :=
  ⟨[.connect, .message, .disconnect, .restart .db, .message, .connect], 1, by decide, by decide, by decide, by decide, by decide⟩

/-- C124 is violated: after a visit to another store on disk, the messages said before it in the first one are not sent any more,
though the first one is used again: the receipt has been replaced. -/
theorem C124_return_violated : ∃ ops : List SwiOp, ∃ m, m ∈ (swiRun (swiInit .fs) ops).logs .fs ∧
    (swiRun (swiInit .fs) ops).kind = .fs ∧ (swiRun (swiInit .fs) ops).online = true ∧ m ∉ (swiRun (swiInit .fs) ops).seen :=
  ⟨[.connect, .message, .disconnect, .message, .restart .db, .connect, .message, .restart .fs, .connect], 1,
    by decide, by decide, by decide, by decide⟩

/-- C124 is violated: with the memory store, a client that comes back after a restart is not sent what was said after the restart,
though it is in memory: receipts are not saved. -/
theorem C124_memory_violated : ∃ ops : List SwiOp, ∃ m, m ∈ (swiRun (swiInit .memory) ops).logs .memory ∧
    (swiRun (swiInit .memory) ops).online = true ∧ m ∉ (swiRun (swiInit .memory) ops).seen :=
  ⟨[.connect, .message, .disconnect, .restart .memory, .message, .connect], 1, by decide, by decide, by decide⟩

end Verif.Props
