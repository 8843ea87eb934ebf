import Verif.Model.Patience
import Mathlib.Tactic.ByContra
import Mathlib.Tactic.Tauto

/-! # How long the bouncer waits (C120) -/

namespace Verif.Props
open Verif.Model

/-! ## Clients -/

/-- What the writer has in hand. -/
private def inHand : PtWriter → List Msg
  | .idle => []
  | .writing m _ => [m]

/-- The request to close the connection is in the queue, and is reached in time. -/
private def ClosesBy (st : PtState) (b : Nat) : Prop :=
  ∃ pre post, st.queue = pre ++ none :: post ∧ (st.writer = .idle → st.now + 10 * pre.length ≤ b) ∧
    ∀ m u, st.writer = .writing m u → u + 10 * pre.length ≤ b

private theorem ctxCases (c : PtCtx) : c = .live ∨ c = .expired ∨ c = .cancelled := by cases c <;> simp

private structure PtInv (t0 : Nat) (st : PtState) : Prop where
  dl : st.deadline = t0 + 30
  cap : st.queue.length ≤ 64
  busy : ∀ m u, st.closed = false → st.writer = .writing m u → st.now ≤ u ∧ u ≤ st.now + 10
  live : st.ctx = .live → st.now ≤ t0 + 30 ∧ st.watch = .waiting
  exp : st.ctx = .expired → t0 + 30 ≤ st.now
  fresh : st.ctx = .expired → st.watch = .waiting → st.now ≤ t0 + 30
  warn : ∀ u, st.watch = .warning u ∨ st.watch = .shutting u → st.ctx = .expired ∧ u = t0 + 33 ∧ st.now ≤ u
  over : st.ctx = .expired → st.watch = .over → st.closed = false → ClosesBy st (t0 + 673)
  main : st.main = .registering → st.ctx ≠ .cancelled

private theorem ptInv_init (t0 : Nat) : PtInv t0 (ptInit t0) where
  dl := rfl
  cap := by simp [ptInit]
  busy := fun m u _ e => by simp [ptInit] at e
  live := fun _ => ⟨by simp [ptInit], rfl⟩
  exp := fun e => by simp [ptInit] at e
  fresh := fun e => by simp [ptInit] at e
  warn := fun u e => by simp [ptInit] at e
  over := fun e => by simp [ptInit] at e
  main := fun _ e => by simp [ptInit] at e

private theorem closesBy_push {st : PtState} {b : Nat} (h : ClosesBy st b) (x : Option Msg) :
    ClosesBy { st with queue := st.queue ++ [x] } b := by
  obtain ⟨pre, post, h1, h2, h3⟩ := h
  exact ⟨pre, post ++ [x], by simp [h1], h2, h3⟩

private theorem ptInv_step {t0 : Nat} {st st' : PtState} {op : PtOp} (h : PtInv t0 st) (hs : ptStep st op = some st') :
    PtInv t0 st' := by
  cases op with
  | tick d =>
    simp only [ptStep] at hs
    split at hs
    · rename_i hi
      cases hs
      obtain ⟨i1, i2, i3, i4, i5⟩ := hi
      refine ⟨h.dl, h.cap, ?_, ?_, ?_, ?_, ?_, ?_, h.main⟩
      · intro m u hc hw
        exact ⟨i5 m u hc hw, by have := (h.busy m u hc hw).2; simp only; omega⟩
      · intro hc; exact ⟨by have := i1 hc; rw [h.dl] at this; exact this, (h.live hc).2⟩
      · intro hc; have := h.exp hc; simp only; omega
      · intro hc hw; exact absurd ⟨hc, hw⟩ i2
      · intro u hu
        obtain ⟨a, b, _⟩ := h.warn u hu
        exact ⟨a, b, (i3 u hu).2.2⟩
      · intro hc hw hcl
        obtain ⟨pre, post, h1, h2, h3⟩ := h.over hc hw hcl
        refine ⟨pre, post, h1, ?_, h3⟩
        intro hidle
        have := i4 hcl hidle
        rw [h1] at this
        simp at this
    · cases hs
  | say m =>
    simp only [ptStep] at hs
    split at hs
    · cases hs; exact h
    · split at hs
      · rename_i hq
        cases hs
        refine ⟨h.dl, ?_, h.busy, h.live, h.exp, h.fresh, h.warn, ?_, h.main⟩
        · simp only [List.length_append, List.length_singleton]; unfold ptCap at hq; omega
        · intro a b c; exact closesBy_push (h.over a b c) _
      · cases hs
  | register =>
    simp only [ptStep] at hs
    split at hs
    · cases hs
      cases hc : st.ctx with
      | live =>
        refine ⟨h.dl, h.cap, h.busy, ?_, ?_, ?_, ?_, ?_, ?_⟩
        all_goals simp only [ptCancel, hc]
        · intro e; cases e
        · intro e; cases e
        · intro e; cases e
        · intro u hu; have := (h.warn u hu).1; rw [hc] at this; cases this
        · intro e; cases e
        · intro e; cases e
      | expired =>
        refine ⟨h.dl, h.cap, h.busy, ?_, ?_, ?_, ?_, ?_, ?_⟩
        all_goals simp only [ptCancel, hc]
        · intro e; cases e
        · intro _; exact h.exp hc
        · intro _; exact h.fresh hc
        · intro u hu; exact ⟨trivial, (h.warn u hu).2⟩
        · intro _ a b; exact h.over hc a b
        · intro e; cases e
      | cancelled =>
        refine ⟨h.dl, h.cap, h.busy, ?_, ?_, ?_, ?_, ?_, ?_⟩
        all_goals simp only [ptCancel, hc]
        · intro e; cases e
        · intro e; cases e
        · intro e; cases e
        · intro u hu; have := (h.warn u hu).1; rw [hc] at this; cases this
        · intro e; cases e
        · intro e; cases e
    · cases hs
  | refuse =>
    simp only [ptStep] at hs
    split at hs
    · cases hs
      cases hc : st.ctx with
      | live =>
        refine ⟨h.dl, h.cap, h.busy, ?_, ?_, ?_, ?_, ?_, ?_⟩
        all_goals simp only [ptCancel, hc]
        · intro e; cases e
        · intro e; cases e
        · intro e; cases e
        · intro u hu; have := (h.warn u hu).1; rw [hc] at this; cases this
        · intro e; cases e
        · intro e; cases e
      | expired =>
        refine ⟨h.dl, h.cap, h.busy, ?_, ?_, ?_, ?_, ?_, ?_⟩
        all_goals simp only [ptCancel, hc]
        · intro e; cases e
        · intro _; exact h.exp hc
        · intro _; exact h.fresh hc
        · intro u hu; exact ⟨trivial, (h.warn u hu).2⟩
        · intro _ a b; exact h.over hc a b
        · intro e; cases e
      | cancelled =>
        refine ⟨h.dl, h.cap, h.busy, ?_, ?_, ?_, ?_, ?_, ?_⟩
        all_goals simp only [ptCancel, hc]
        · intro e; cases e
        · intro e; cases e
        · intro e; cases e
        · intro u hu; have := (h.warn u hu).1; rw [hc] at this; cases this
        · intro e; cases e
        · intro e; cases e
    · cases hs
  | expire =>
    simp only [ptStep] at hs
    split at hs
    · rename_i hc
      cases hs
      obtain ⟨hc, hd⟩ := hc
      have hl := h.live hc
      refine ⟨h.dl, h.cap, h.busy, (fun e => by cases e), fun _ => by rw [h.dl] at hd; exact hd, fun _ _ => hl.1, ?_, ?_,
        (fun _ e => by cases e)⟩
      · intro u hu; simp only at hu; rw [hl.2] at hu; rcases hu with e | e <;> cases e
      · intro _ e; simp only at e; rw [hl.2] at e; cases e
    · cases hs
  | notice =>
    simp only [ptStep] at hs
    split at hs
    · rename_i hw
      split at hs
      · cases hs
      · rename_i hc; simp only [Option.some.injEq] at hs; subst hs
        have h1 := h.exp hc
        have h2 := h.fresh hc hw
        refine ⟨h.dl, h.cap, h.busy, (fun e => by simp only at e; rw [hc] at e; cases e), h.exp, (fun _ e => by cases e), ?_,
          (fun _ e => by cases e), h.main⟩
        intro u hu
        rcases hu with e | e
        · simp only [PtWatch.warning.injEq] at e; subst e; exact ⟨hc, by omega, by simp only; omega⟩
        · cases e
      · rename_i hc; simp only [Option.some.injEq] at hs; subst hs
        refine ⟨h.dl, h.cap, h.busy, (fun e => by simp only at e; rw [hc] at e; cases e), h.exp, (fun _ e => by cases e),
          (fun u hu => by rcases hu with e | e <;> cases e), (fun e => by simp only at e; rw [hc] at e; cases e), h.main⟩
    · cases hs
  | warn =>
    simp only [ptStep] at hs
    cases hw : st.watch with
    | warning u =>
      rw [hw] at hs
      have h1 := h.warn u (.inl hw)
      simp only at hs
      split at hs
      · cases hs
        refine ⟨h.dl, h.cap, h.busy, (fun e => by simp only at e; rw [h1.1] at e; cases e), h.exp, (fun _ e => by cases e), ?_,
          (fun _ e => by cases e), h.main⟩
        intro v hv; rcases hv with e | e
        · cases e
        · cases e; exact h1
      · split at hs
        · rename_i hq
          cases hs
          refine ⟨h.dl, ?_, h.busy, (fun e => by simp only at e; rw [h1.1] at e; cases e), h.exp, (fun _ e => by cases e), ?_,
            (fun _ e => by cases e), h.main⟩
          · simp only [List.length_append, List.length_singleton]; unfold ptCap at hq; omega
          · intro v hv; rcases hv with e | e
            · cases e
            · cases e; exact h1
        · cases hs
    | _ => rw [hw] at hs; cases hs
  | noPlace =>
    simp only [ptStep] at hs
    cases hw : st.watch with
    | warning u =>
      rw [hw] at hs
      have h1 := h.warn u (.inl hw)
      simp only at hs
      split at hs
      · cases hs
        refine ⟨h.dl, h.cap, h.busy, (fun e => by simp only at e; rw [h1.1] at e; cases e), h.exp, (fun _ e => by cases e), ?_,
          (fun _ e => by cases e), h.main⟩
        intro v hv; rcases hv with e | e
        · cases e
        · cases e; exact h1
      · cases hs
    | _ => rw [hw] at hs; cases hs
  | shut =>
    simp only [ptStep] at hs
    cases hw : st.watch with
    | shutting u =>
      rw [hw] at hs
      have h1 := h.warn u (.inr hw)
      simp only at hs
      split at hs
      · rename_i hcl
        cases hs
        refine ⟨h.dl, h.cap, h.busy, (fun e => by simp only at e; rw [h1.1] at e; cases e), h.exp, (fun _ e => by cases e),
          (fun v hv => by rcases hv with e | e <;> cases e), (fun _ _ e => by simp only at e; rw [hcl] at e; cases e), h.main⟩
      · rename_i hcl
        have hcl : st.closed = false := by simpa using hcl
        split at hs
        · rename_i hq
          cases hs
          unfold ptCap at hq
          refine ⟨h.dl, by simp only [List.length_append, List.length_singleton]; omega, h.busy,
            (fun e => by simp only at e; rw [h1.1] at e; cases e), h.exp, (fun _ e => by cases e),
            (fun v hv => by rcases hv with e | e <;> cases e), ?_, h.main⟩
          intro _ _ _
          refine ⟨st.queue, [], rfl, ?_, ?_⟩
          · intro _; simp only; omega
          · intro m v hv
            simp only at hv
            have := (h.busy m v hcl hv).2
            omega
        · cases hs
    | _ => rw [hw] at hs; cases hs
  | force =>
    simp only [ptStep] at hs
    cases hw : st.watch with
    | shutting u =>
      rw [hw] at hs
      have h1 := h.warn u (.inr hw)
      simp only at hs
      split at hs
      · cases hs
        refine ⟨h.dl, h.cap, (fun _ _ e => by cases e), (fun e => by simp only at e; rw [h1.1] at e; cases e), h.exp,
          (fun _ e => by cases e), (fun v hv => by rcases hv with e | e <;> cases e), (fun _ _ e => by cases e), h.main⟩
      · cases hs
    | _ => rw [hw] at hs; cases hs
  | take =>
    simp only [ptStep] at hs
    split at hs
    · cases hs
    · rename_i hcl
      have hcl : st.closed = false := by simpa using hcl
      cases hw : st.writer with
      | writing m u => rw [hw] at hs; cases hs
      | idle =>
        cases hq : st.queue with
        | nil => rw [hw, hq] at hs; cases hs
        | cons x q =>
          have hcap := h.cap
          rw [hq] at hcap
          simp only [List.length_cons] at hcap
          cases x with
          | some m =>
            rw [hw, hq] at hs; cases hs
            refine ⟨h.dl, by simp only; omega, ?_, h.live, h.exp, h.fresh, h.warn, ?_, h.main⟩
            · intro m' u _ e
              simp only [PtWriter.writing.injEq] at e
              obtain ⟨_, rfl⟩ := e
              simp only; omega
            · intro a b c
              obtain ⟨pre, post, h1, h2, h3⟩ := h.over a b c
              rw [hq] at h1
              cases pre with
              | nil => simp at h1
              | cons p pre =>
                simp only [List.cons_append, List.cons.injEq] at h1
                refine ⟨pre, post, h1.2, (fun e => by cases e), ?_⟩
                intro m' u e
                simp only [PtWriter.writing.injEq] at e
                have := h2 hw
                simp only [List.length_cons] at this
                omega
          | none =>
            rw [hw, hq] at hs; cases hs
            exact ⟨h.dl, by simp only; omega, (fun _ _ e => by cases e), h.live, h.exp, h.fresh, h.warn,
              (fun _ _ e => by cases e), h.main⟩
  | wrote =>
    simp only [ptStep] at hs
    cases hw : st.writer with
    | idle => rw [hw] at hs; cases hs
    | writing m u =>
      rw [hw] at hs
      simp only at hs
      split at hs
      · cases hs
      · rename_i hcl
        have hcl : st.closed = false := by simpa using hcl
        cases hs
        refine ⟨h.dl, h.cap, (fun _ _ _ e => by cases e), h.live, h.exp, h.fresh, h.warn, ?_, h.main⟩
        intro a b c
        obtain ⟨pre, post, h1, h2, h3⟩ := h.over a b c
        refine ⟨pre, post, h1, ?_, (fun _ _ e => by cases e)⟩
        intro _
        have k1 := h3 m u hw
        have k2 := (h.busy m u hcl hw).1
        simp only; omega
  | stuck =>
    simp only [ptStep] at hs
    cases hw : st.writer with
    | idle => rw [hw] at hs; cases hs
    | writing m u =>
      rw [hw] at hs; cases hs
      exact ⟨h.dl, h.cap, (fun _ _ e => by cases e), h.live, h.exp, h.fresh, h.warn, (fun _ _ e => by cases e), h.main⟩
  | hangUp =>
    simp only [ptStep] at hs
    cases hs
    exact ⟨h.dl, h.cap, (fun _ _ e => by cases e), h.live, h.exp, h.fresh, h.warn, (fun _ _ e => by cases e), h.main⟩

private theorem ptRun_ind {P : PtState → Prop} {a b : PtState} {ops : List PtOp} (ha : P a)
    (step : ∀ st st' op, op ∈ ops → P st → ptStep st op = some st' → P st') (hr : ptRun a ops = some b) : P b := by
  induction ops generalizing a with
  | nil => cases hr; exact ha
  | cons op ops ih =>
    unfold ptRun at hr
    cases h1 : ptStep a op with
    | none => rw [h1] at hr; cases hr
    | some c =>
      rw [h1] at hr
      exact ih (step _ _ _ (by simp) ha h1) (fun st st' o ho => step st st' o (by simp [ho])) hr

private theorem ptInv_run {t0 : Nat} {ops : List PtOp} {st : PtState} (hr : ptRun (ptInit t0) ops = some st) : PtInv t0 st :=
  ptRun_ind (ptInv_init t0) (fun _ _ _ _ h hs => ptInv_step h hs) hr

/-- **C120** A client that does not log in is not kept: whatever it does, its connection is closed within 30 seconds, and
the time it takes to send what is left: 3 seconds until there is a place in the queue, and 10 seconds for each of up to 64
messages. -/
theorem C120_client {t0 : Nat} {ops : List PtOp} {st : PtState} (hr : ptRun (ptInit t0) ops = some st)
    (hm : st.main = .registering) (hc : st.closed = false) : st.now ≤ t0 + 30 + 3 + 64 * 10 := by
  have h := ptInv_run hr
  have hx := h.main hm
  cases hctx : st.ctx with
  | live => have := (h.live hctx).1; omega
  | cancelled => exact absurd hctx hx
  | expired =>
    cases hw : st.watch with
    | waiting => have := h.fresh hctx hw; omega
    | warning u => have := h.warn u (.inl hw); omega
    | shutting u => have := h.warn u (.inr hw); omega
    | over =>
      obtain ⟨pre, post, _, h2, h3⟩ := h.over hctx hw hc
      cases hwr : st.writer with
      | idle => have := h2 hwr; omega
      | writing m u =>
        have k1 := h3 m u hwr
        have k2 := (h.busy m u hc hwr).1
        omega

/-! The bouncer closes no connection before the time is up, nor without saying so. -/

/-- The warning is on its way, or was sent. -/
private def Warned (st : PtState) (before : List (Option Msg)) : Prop :=
  some timedOutMsg ∈ before ∨ timedOutMsg ∈ inHand st.writer ∨ timedOutMsg ∈ st.sent

private structure Calm (st : PtState) : Prop where
  /-- nothing asks for the connection to be closed before the goroutine that waits for the deadline does -/
  queue : st.watch ≠ .over ∨ st.ctx ≠ .expired → none ∉ st.queue
  closed : st.watch ≠ .over ∨ st.ctx ≠ .expired → st.troubled = false → st.closed = false
  watch : st.ctx ≠ .expired → st.watch = .waiting ∨ st.watch = .over
  live : st.ctx = .live → st.watch = .waiting
  told : st.troubled = false → ∀ u, st.watch = .shutting u → Warned st st.queue
  said : st.troubled = false → st.watch = .over → st.ctx = .expired → st.closed = false →
    ∃ pre post, st.queue = pre ++ none :: post ∧ none ∉ pre ∧ Warned st pre
  fin : st.troubled = false → st.closed = true → timedOutMsg ∈ st.sent

private theorem calm_init (t0 : Nat) : Calm (ptInit t0) := by
  refine ⟨?_, ?_, ?_, ?_, ?_, ?_, ?_⟩ <;> simp [ptInit]

private theorem calm_cancel {st : PtState} (h : Calm st) (m : PtMain) : Calm { st with main := m, ctx := ptCancel st.ctx } := by
  have hx : ptCancel st.ctx = .expired ↔ st.ctx = .expired := by cases st.ctx <;> simp [ptCancel]
  refine ⟨?_, ?_, ?_, ?_, h.told, ?_, h.fin⟩
  · intro a; exact h.queue (a.imp id (fun k e => k (hx.2 e)))
  · intro a; exact h.closed (a.imp id (fun k e => k (hx.2 e)))
  · intro a; exact h.watch (fun e => a (hx.2 e))
  · intro a; simp only at a; cases hc : st.ctx <;> rw [hc] at a <;> simp [ptCancel] at a
  · intro a b c; exact h.said a b (hx.1 c)

private theorem calm_step {st st' : PtState} {op : PtOp} (h : Calm st) (hs : ptStep st op = some st') : Calm st' := by
  cases op with
  | tick d =>
    simp only [ptStep] at hs
    split at hs
    · simp only [Option.some.injEq] at hs; subst hs
      exact ⟨h.queue, h.closed, h.watch, h.live, h.told, h.said, h.fin⟩
    · cases hs
  | say m =>
    simp only [ptStep] at hs
    split at hs
    · cases hs; exact h
    · split at hs
      · simp only [Option.some.injEq] at hs; subst hs
        refine ⟨?_, h.closed, h.watch, h.live, ?_, ?_, h.fin⟩
        · intro a; simpa using h.queue a
        · intro a u c; exact (h.told a u c).imp (fun k => by simp [k]) id
        · intro a b c d
          obtain ⟨pre, post, k1, k2, k3⟩ := h.said a b c d
          exact ⟨pre, post ++ [some m], by simp [k1], k2, k3⟩
      · cases hs
  | register =>
    simp only [ptStep] at hs
    split at hs
    · simp only [Option.some.injEq] at hs; subst hs; exact calm_cancel h _
    · cases hs
  | refuse =>
    simp only [ptStep] at hs
    split at hs
    · simp only [Option.some.injEq] at hs; subst hs; exact calm_cancel h _
    · cases hs
  | expire =>
    simp only [ptStep] at hs
    split at hs
    · rename_i hc
      simp only [Option.some.injEq] at hs; subst hs
      have hn : st.ctx ≠ .expired := by rw [hc.1]; intro e; cases e
      have hw := h.live hc.1
      refine ⟨fun _ => h.queue (.inr hn), fun _ => h.closed (.inr hn), fun e => absurd rfl e, (fun e => by cases e), h.told, ?_, h.fin⟩
      intro _ e; simp only at e; rw [hw] at e; cases e
    · cases hs
  | notice =>
    simp only [ptStep] at hs
    split at hs
    · rename_i hw
      have hno : st.watch ≠ .over := by rw [hw]; intro e; cases e
      split at hs
      · cases hs
      · rename_i hc; simp only [Option.some.injEq] at hs; subst hs
        refine ⟨fun _ => h.queue (.inl hno), fun _ => h.closed (.inl hno), fun e => absurd hc e,
          (fun e => by simp only at e; rw [hc] at e; cases e), (fun _ u e => by cases e), (fun _ e => by cases e), h.fin⟩
      · rename_i hc; simp only [Option.some.injEq] at hs; subst hs
        refine ⟨fun _ => h.queue (.inl hno), fun _ => h.closed (.inl hno), fun _ => .inr rfl,
          (fun e => by simp only at e; rw [hc] at e; cases e), (fun _ u e => by cases e),
          (fun _ _ e => by simp only at e; rw [hc] at e; cases e), h.fin⟩
    · cases hs
  | warn =>
    simp only [ptStep] at hs
    split at hs
    · rename_i u hw
      have hno : st.watch ≠ .over := by rw [hw]; intro e; cases e
      have hex : st.ctx = .expired := by
        by_contra hn
        rcases h.watch hn with e | e <;> rw [hw] at e <;> cases e
      split at hs
      · rename_i hcl
        simp only [Option.some.injEq] at hs; subst hs
        refine ⟨fun _ => h.queue (.inl hno), fun _ => h.closed (.inl hno), fun e => absurd hex e,
          (fun e => by simp only at e; rw [hex] at e; cases e), ?_, (fun _ e => by cases e), h.fin⟩
        intro a u _
        have := h.closed (.inl hno) a
        rw [hcl] at this; cases this
      · split at hs
        · simp only [Option.some.injEq] at hs; subst hs
          refine ⟨fun _ => by simpa using h.queue (.inl hno), fun _ => h.closed (.inl hno), fun e => absurd hex e,
            (fun e => by simp only at e; rw [hex] at e; cases e), fun _ _ _ => .inl (by simp), (fun _ e => by cases e), h.fin⟩
        · cases hs
    · cases hs
  | noPlace =>
    simp only [ptStep] at hs
    split at hs
    · rename_i u hw
      have hno : st.watch ≠ .over := by rw [hw]; intro e; cases e
      have hex : st.ctx = .expired := by
        by_contra hn
        rcases h.watch hn with e | e <;> rw [hw] at e <;> cases e
      split at hs
      · simp only [Option.some.injEq] at hs; subst hs
        refine ⟨fun _ => h.queue (.inl hno), (fun _ e => by cases e), fun e => absurd hex e,
          (fun e => by simp only at e; rw [hex] at e; cases e), (fun e => by cases e), (fun e => by cases e), (fun e => by cases e)⟩
      · cases hs
    · cases hs
  | shut =>
    simp only [ptStep] at hs
    split at hs
    · rename_i u hw
      have hno : st.watch ≠ .over := by rw [hw]; intro e; cases e
      have hex : st.ctx = .expired := by
        by_contra hn
        rcases h.watch hn with e | e <;> rw [hw] at e <;> cases e
      split at hs
      · rename_i hcl
        simp only [Option.some.injEq] at hs; subst hs
        refine ⟨fun _ => h.queue (.inl hno), fun _ => h.closed (.inl hno), fun e => absurd hex e,
          (fun e => by simp only at e; rw [hex] at e; cases e), (fun _ _ e => by cases e),
          (fun _ _ _ e => by simp only at e; rw [hcl] at e; cases e), h.fin⟩
      · split at hs
        · simp only [Option.some.injEq] at hs; subst hs
          refine ⟨?_, fun _ => h.closed (.inl hno), fun e => absurd hex e,
            (fun e => by simp only at e; rw [hex] at e; cases e), (fun _ _ e => by cases e), ?_, h.fin⟩
          · intro a; rcases a with a | a
            · exact absurd rfl a
            · exact absurd hex a
          · intro a _ _ _
            exact ⟨st.queue, [], rfl, h.queue (.inl hno), h.told a u hw⟩
        · cases hs
    · cases hs
  | force =>
    simp only [ptStep] at hs
    split at hs
    · rename_i u hw
      have hno : st.watch ≠ .over := by rw [hw]; intro e; cases e
      have hex : st.ctx = .expired := by
        by_contra hn
        rcases h.watch hn with e | e <;> rw [hw] at e <;> cases e
      split at hs
      · simp only [Option.some.injEq] at hs; subst hs
        refine ⟨fun _ => h.queue (.inl hno), (fun _ e => by cases e), fun e => absurd hex e,
          (fun e => by simp only at e; rw [hex] at e; cases e), (fun e => by cases e), (fun e => by cases e), (fun e => by cases e)⟩
      · cases hs
    · cases hs
  | take =>
    simp only [ptStep] at hs
    split at hs
    · cases hs
    · rename_i hcl
      have hcl : st.closed = false := by simpa using hcl
      split at hs
      · rename_i m q hw hq
        simp only [Option.some.injEq] at hs; subst hs
        refine ⟨?_, h.closed, h.watch, h.live, ?_, ?_, h.fin⟩
        · intro a; have := h.queue a; rw [hq] at this; simpa using this
        · intro a u c
          have := h.told a u c
          unfold Warned at this ⊢
          rw [hq, hw] at this
          rcases this with k | k | k
          · rcases List.mem_cons.1 k with e | e
            · cases e; exact .inr (.inl (by simp [inHand]))
            · exact .inl e
          · simp [inHand] at k
          · exact .inr (.inr k)
        · intro a b c d
          obtain ⟨pre, post, k1, k2, k3⟩ := h.said a b c d
          rw [hq] at k1
          cases pre with
          | nil => simp at k1
          | cons p pre =>
            simp only [List.cons_append, List.cons.injEq] at k1
            refine ⟨pre, post, k1.2, fun e => k2 (by simp [e]), ?_⟩
            unfold Warned at k3 ⊢
            rw [hw] at k3
            rcases k3 with k | k | k
            · rcases List.mem_cons.1 k with e | e
              · rw [← k1.1] at e; cases e; exact .inr (.inl (by simp [inHand]))
              · exact .inl e
            · simp [inHand] at k
            · exact .inr (.inr k)
      · rename_i q hw hq
        have hno : ¬(st.watch ≠ .over ∨ st.ctx ≠ .expired) := fun a => h.queue a (by rw [hq]; simp)
        simp only [Option.some.injEq] at hs; subst hs
        have hwo : st.watch = .over := by by_contra e; exact hno (.inl e)
        have hex : st.ctx = .expired := by by_contra e; exact hno (.inr e)
        refine ⟨fun a => absurd a hno, fun a => absurd a hno, fun e => absurd hex e,
          (fun e => by simp only at e; rw [hex] at e; cases e), (fun _ _ e => by simp only at e; rw [hwo] at e; cases e),
          (fun _ _ _ e => by cases e), ?_⟩
        intro a _
        obtain ⟨pre, post, k1, k2, k3⟩ := h.said a hwo hex hcl
        cases pre with
        | nil =>
          unfold Warned at k3
          rw [hw] at k3
          simpa [inHand] using k3
        | cons p pre =>
          rw [hq] at k1
          simp only [List.cons_append, List.cons.injEq] at k1
          rw [← k1.1] at k2
          simp at k2
      · cases hs
  | wrote =>
    simp only [ptStep] at hs
    split at hs
    · rename_i m u hw
      split at hs
      · cases hs
      · rename_i hcl
        have hcl : st.closed = false := by simpa using hcl
        simp only [Option.some.injEq] at hs; subst hs
        have moved : ∀ b, Warned st b → Warned { st with writer := .idle, sent := st.sent ++ [m] } b := by
          intro b k
          unfold Warned at k ⊢
          rw [hw] at k
          rcases k with k | k | k
          · exact .inl k
          · simp only [inHand, List.mem_singleton] at k; exact .inr (.inr (by simp [k]))
          · exact .inr (.inr (by simp [k]))
        refine ⟨h.queue, h.closed, h.watch, h.live, fun a v c => moved _ (h.told a v c), ?_, ?_⟩
        · intro a b c d
          obtain ⟨pre, post, k1, k2, k3⟩ := h.said a b c d
          exact ⟨pre, post, k1, k2, moved _ k3⟩
        · intro _ e; simp only at e; rw [hcl] at e; cases e
    · cases hs
  | stuck =>
    simp only [ptStep] at hs
    split at hs
    · simp only [Option.some.injEq] at hs; subst hs
      exact ⟨h.queue, (fun _ e => by cases e), h.watch, h.live, (fun e => by cases e), (fun e => by cases e), (fun e => by cases e)⟩
    · cases hs
  | hangUp =>
    simp only [ptStep, Option.some.injEq] at hs; subst hs
    exact ⟨h.queue, (fun _ e => by cases e), h.watch, h.live, (fun e => by cases e), (fun e => by cases e), (fun e => by cases e)⟩

private theorem calm_run {t0 : Nat} {ops : List PtOp} {st : PtState} (hr : ptRun (ptInit t0) ops = some st) : Calm st :=
  ptRun_ind (calm_init t0) (fun _ _ _ _ h hs => calm_step h hs) hr

/-- **C120** A client is told before its connection is closed because it did not log in, and that happens no sooner than 30
seconds after it connected; `troubled` stands for a client that hangs up, or takes nothing from the connection. -/
theorem C120_told {t0 : Nat} {ops : List PtOp} {st : PtState} (hr : ptRun (ptInit t0) ops = some st)
    (hc : st.closed = true) (hq : st.troubled = false) : timedOutMsg ∈ st.sent ∧ t0 + 30 ≤ st.now := by
  have h := calm_run hr
  refine ⟨h.fin hq hc, ?_⟩
  refine (ptInv_run hr).exp ?_
  by_contra hn
  have := h.closed (.inr hn) hq
  rw [hc] at this; cases this

private theorem ctx_step {st st' : PtState} {op : PtOp} (hc : st.ctx = .cancelled) (hs : ptStep st op = some st') :
    st'.ctx = .cancelled := by
  cases op <;> simp only [ptStep] at hs <;> (repeat' (split at hs)) <;> simp_all [ptCancel] <;> (subst hs; simp_all)

private theorem unwarned_step {st st' : PtState} {op : PtOp} (hop : op ≠ .say timedOutMsg) (hk : Calm st)
    (h : st.ctx ≠ .expired → ¬Warned st st.queue) (hs : ptStep st op = some st') :
    st'.ctx ≠ .expired → ¬Warned st' st'.queue := by
  have hnot : ∀ u, st.ctx ≠ .expired → st.watch ≠ .warning u ∧ st.watch ≠ .shutting u := by
    intro u hn
    rcases hk.watch hn with e | e <;> rw [e] <;> constructor <;> (intro k; cases k)
  have hx : ptCancel st.ctx ≠ .expired → st.ctx ≠ .expired := by cases st.ctx <;> simp [ptCancel]
  intro hn'
  cases op with
  | say m =>
    have hm : timedOutMsg ≠ m := fun e => hop (by rw [e])
    simp only [ptStep] at hs
    split at hs
    · cases hs; exact h hn'
    · split at hs
      · simp only [Option.some.injEq] at hs; subst hs
        have := h hn'
        unfold Warned at this ⊢
        simp only [List.mem_append, List.mem_singleton, Option.some.injEq]
        tauto
      · cases hs
  | take =>
    simp only [ptStep] at hs
    split at hs
    · cases hs
    · split at hs
      · rename_i m q hw hq
        simp only [Option.some.injEq] at hs; subst hs
        have := h hn'
        unfold Warned at this ⊢
        rw [hq, hw] at this
        simp only [inHand, List.mem_cons, Option.some.injEq, List.not_mem_nil, or_false] at this ⊢
        tauto
      · rename_i q hw hq
        simp only [Option.some.injEq] at hs; subst hs
        have := h hn'
        unfold Warned at this ⊢
        rw [hq] at this
        simp only [List.mem_cons] at this ⊢
        tauto
      · cases hs
  | wrote =>
    simp only [ptStep] at hs
    split at hs
    · rename_i m u hw
      split at hs
      · cases hs
      · simp only [Option.some.injEq] at hs; subst hs
        have := h hn'
        unfold Warned at this ⊢
        rw [hw] at this
        simp only [inHand, List.mem_append, List.mem_singleton, List.not_mem_nil] at this ⊢
        tauto
    · cases hs
  | stuck =>
    simp only [ptStep] at hs
    split at hs
    · simp only [Option.some.injEq] at hs; subst hs
      have := h hn'
      unfold Warned at this ⊢
      simp only [inHand, List.not_mem_nil, false_or]
      tauto
    · cases hs
  | warn =>
    simp only [ptStep] at hs
    split at hs
    · rename_i u hw
      have hex : st.ctx = .expired := by
        by_contra hn
        exact (hnot u hn).1 hw
      split at hs
      · simp only [Option.some.injEq] at hs; subst hs; exact absurd hex hn'
      · split at hs
        · simp only [Option.some.injEq] at hs; subst hs; exact absurd hex hn'
        · cases hs
    · cases hs
  | shut =>
    simp only [ptStep] at hs
    split at hs
    · rename_i u hw
      have hex : st.ctx = .expired := by
        by_contra hn
        exact (hnot u hn).2 hw
      split at hs
      · simp only [Option.some.injEq] at hs; subst hs; exact absurd hex hn'
      · split at hs
        · simp only [Option.some.injEq] at hs; subst hs; exact absurd hex hn'
        · cases hs
    · cases hs
  | tick d =>
    simp only [ptStep] at hs
    split at hs
    · simp only [Option.some.injEq] at hs; subst hs; exact h hn'
    · cases hs
  | register =>
    simp only [ptStep] at hs
    split at hs
    · simp only [Option.some.injEq] at hs; subst hs; exact h (hx hn')
    · cases hs
  | refuse =>
    simp only [ptStep] at hs
    split at hs
    · simp only [Option.some.injEq] at hs; subst hs; exact h (hx hn')
    · cases hs
  | expire =>
    simp only [ptStep] at hs
    split at hs
    · simp only [Option.some.injEq] at hs; subst hs; exact absurd rfl hn'
    · cases hs
  | notice =>
    simp only [ptStep] at hs
    split at hs
    · split at hs
      · cases hs
      · simp only [Option.some.injEq] at hs; subst hs; exact h hn'
      · simp only [Option.some.injEq] at hs; subst hs; exact h hn'
    · cases hs
  | noPlace =>
    simp only [ptStep] at hs
    split at hs
    · split at hs
      · simp only [Option.some.injEq] at hs; subst hs; exact h hn'
      · cases hs
    · cases hs
  | force =>
    simp only [ptStep] at hs
    split at hs
    · split at hs
      · simp only [Option.some.injEq] at hs; subst hs; exact h hn'
      · cases hs
    · cases hs
  | hangUp =>
    simp only [ptStep, Option.some.injEq] at hs; subst hs; exact h hn'

/-- **C120** A client that logs in before 30 seconds have passed is neither told that the time is up nor disconnected for it,
ever after. -/
theorem C120_in_time {t0 : Nat} {before after : List PtOp} {mid st : PtState}
    (hb : ptRun (ptInit t0) before = some mid) (hearly : mid.now < t0 + 30) (hm : mid.main = .registering)
    (ha : ptRun mid (.register :: after) = some st) (hsay : .say timedOutMsg ∉ before ++ after) :
    timedOutMsg ∉ st.sent ∧ (st.troubled = false → st.closed = false) := by
  have hmid := calm_run hb
  have hlive : mid.ctx = .live := by
    rcases ctxCases mid.ctx with e | e | e
    · exact e
    · have := (ptInv_run hb).exp e; omega
    · exact absurd e ((ptInv_run hb).main hm)
  have hw : Calm mid ∧ (mid.ctx ≠ .expired → ¬Warned mid mid.queue) := by
    refine ptRun_ind (P := fun st => Calm st ∧ (st.ctx ≠ .expired → ¬Warned st st.queue)) ⟨calm_init t0, ?_⟩ ?_ hb
    · intro _; simp [Warned, ptInit, inHand]
    · intro a b op hop hab hs
      exact ⟨calm_step hab.1 hs, unwarned_step (fun e => hsay (by rw [← e]; simp [hop])) hab.1 hab.2 hs⟩
  unfold ptRun at ha
  simp only [ptStep, hm, if_true] at ha
  have hfin := ptRun_ind (P := fun st => Calm st ∧ st.ctx = .cancelled ∧ ¬Warned st st.queue)
    (a := { mid with main := .registered, ctx := ptCancel mid.ctx }) ⟨calm_cancel hmid _, by simp [hlive, ptCancel], hw.2 (by rw [hlive]; intro e; cases e)⟩
    (fun a b op hop hab hs => by
      have h1 := calm_step hab.1 hs
      have h2 := ctx_step hab.2.1 hs
      exact ⟨h1, h2, unwarned_step (fun e => hsay (by rw [← e]; simp [hop])) hab.1 (fun _ => hab.2.2) hs
        (by rw [h2]; intro e; cases e)⟩) ha
  obtain ⟨k1, k2, k3⟩ := hfin
  refine ⟨fun e => k3 (.inr (.inr e)), fun e => k1.closed (.inr (by rw [k2]; intro e; cases e)) e⟩

/-! A client that says nothing, one that takes nothing, and one that logs in at the last moment. -/

example : ∃ st, ptRun (ptInit 100) [.tick 30, .expire, .notice, .warn, .shut, .take, .wrote, .take] = some st ∧
    st.closed = true ∧ st.troubled = false ∧ st.main = .registering ∧ st.sent = [timedOutMsg] ∧ st.now = 130 := by
  decide +kernel

example : ∃ st, ptRun (ptInit 100) [.say ⟨b!"NOTICE", []⟩, .take, .tick 10, .stuck] = some st ∧ st.troubled = true := by
  decide +kernel

example : ∃ mid, ptRun (ptInit 100) [.tick 29] = some mid ∧ mid.now < 100 + 30 ∧ mid.main = .registering ∧
    ∃ st, ptRun mid [.register, .notice, .tick 5000, .say ⟨b!"001", []⟩, .take, .wrote] = some st ∧ st.closed = false ∧
    st.sent = [⟨b!"001", []⟩] := by
  decide +kernel

/-! ## Servers -/

private theorem pvRun_ind {P : PvState → Prop} {a b : PvState} {ops : List PvOp} (ha : P a)
    (step : ∀ st st' op, op ∈ ops → P st → pvStep st op = some st' → P st') (hr : pvRun a ops = some b) : P b := by
  induction ops generalizing a with
  | nil => cases hr; exact ha
  | cons op ops ih =>
    unfold pvRun at hr
    cases h1 : pvStep a op with
    | none => rw [h1] at hr; cases hr
    | some c =>
      rw [h1] at hr
      exact ih (step _ _ _ (by simp) ha h1) (fun st st' o ho => step st st' o (by simp [ho])) hr

/-- **C120** Connecting to a server is given up after 15 seconds. -/
theorem C120_dial {t0 : Nat} {ops : List PvOp} {st : PvState} (hr : pvRun (pvInit t0) ops = some st)
    (hp : st.phase = .dialling) : st.now ≤ t0 + 15 := by
  have h : st.start = t0 ∧ (st.phase = .dialling → st.now ≤ t0 + 15) := by
    refine pvRun_ind (P := fun st => st.start = t0 ∧ (st.phase = .dialling → st.now ≤ t0 + 15)) ⟨rfl, fun _ => by simp [pvInit]⟩ ?_ hr
    intro a b op _ h hs
    cases op <;> simp only [pvStep] at hs <;> (repeat' (split at hs)) <;> simp only [Option.some.injEq, reduceCtorEq] at hs <;>
      subst hs <;> refine ⟨h.1, ?_⟩ <;> intro e <;> simp only at e ⊢
    case tick.isTrue d hi =>
      unfold pvIdle at hi
      rw [e] at hi
      simp only at hi
      rw [h.1] at hi
      exact hi
    all_goals first | exact h.2 e | cases e
  exact h.2 hp

/-- The lines the server's welcome calls for: the saved channels are joined and the connect commands sent. -/
def duesOf : List PvOp → List Msg
  | [] => []
  | .welcome joins commands :: _ => joins ++ commands
  | _ :: ops => duesOf ops

/-- What is still to be queued. -/
private def pvTodo : PvPhase → List Msg
  | .speaking todo => todo
  | _ => []

private theorem pv_start {a b : PvState} {op : PvOp} (h : pvStep a op = some b) : b.start = a.start ∧ a.now ≤ b.now := by
  cases op <;> simp only [pvStep] at h <;> (repeat' (split at h)) <;> simp only [Option.some.injEq, reduceCtorEq] at h <;>
    subst h <;> simp

private theorem pv_now {ops : List PvOp} {a b : PvState} (h : pvRun a ops = some b) : b.start = a.start ∧ a.now ≤ b.now :=
  pvRun_ind (P := fun c => c.start = a.start ∧ a.now ≤ c.now) ⟨rfl, Nat.le_refl _⟩
    (fun _ _ _ _ h1 h2 => ⟨(pv_start h2).1.trans h1.1, Nat.le_trans h1.2 (pv_start h2).2⟩) h

/-- Once the lines are being queued, the server's welcome is past. -/
private def pvDue (p : PvPhase) (ops : List PvOp) : List Msg :=
  match p with
  | .dialling => duesOf ops
  | .registering => duesOf ops
  | .speaking todo => todo
  | _ => []

private theorem pv_said {ops : List PvOp} : ∀ {a st : PvState}, pvRun a ops = some st → st.phase = .reading →
    (a.phase ≠ .failed) ∧ (a.phase = .reading → st.ready = a.ready) ∧ (a.phase ≠ .reading → a.now ≤ st.ready) ∧
    (st.ready < a.start + 60 → st.sent ++ st.queue = a.sent ++ a.queue ++ pvDue a.phase ops) := by
  induction ops with
  | nil =>
    intro a st hr hp
    cases hr
    exact ⟨(fun e => by rw [hp] at e; cases e), fun _ => rfl, fun e => absurd hp e, fun _ => by simp [hp, pvDue]⟩
  | cons op ops ih =>
    intro a st hr hp
    unfold pvRun at hr
    cases h1 : pvStep a op with
    | none => rw [h1] at hr; cases hr
    | some c =>
      rw [h1] at hr
      obtain ⟨i1, i2, i3, i4⟩ := ih hr hp
      have hst := pv_start h1
      rw [hst.1] at i4
      cases op with
      | tick d =>
        simp only [pvStep] at h1
        split at h1
        · simp only [Option.some.injEq] at h1; subst h1
          refine ⟨i1, i2, fun e => Nat.le_trans hst.2 (i3 e), ?_⟩
          intro k; rw [i4 k]; unfold pvDue; simp only [duesOf]
        · cases h1
      | dialled =>
        simp only [pvStep] at h1
        split at h1
        · rename_i hd
          simp only [Option.some.injEq] at h1; subst h1
          refine ⟨(by rw [hd]; intro e; cases e), (fun e => by rw [hd] at e; cases e), fun _ => i3 (by simp), ?_⟩
          intro k; rw [i4 k, hd]; simp only [pvDue, duesOf]
        · cases h1
      | dialFailed =>
        simp only [pvStep] at h1
        split at h1
        · simp only [Option.some.injEq] at h1; subst h1
          exact absurd rfl i1
        · cases h1
      | welcome joins commands =>
        simp only [pvStep] at h1
        split at h1
        · rename_i hd
          simp only [Option.some.injEq] at h1; subst h1
          refine ⟨(by rw [hd]; intro e; cases e), (fun e => by rw [hd] at e; cases e), fun _ => i3 (by simp), ?_⟩
          intro k; rw [i4 k, hd]; simp only [pvDue, duesOf]
        · cases h1
      | put =>
        simp only [pvStep] at h1
        split at h1
        · rename_i m todo hd
          split at h1
          · simp only [Option.some.injEq] at h1; subst h1
            refine ⟨(by rw [hd]; intro e; cases e), (fun e => by rw [hd] at e; cases e), fun _ => i3 (by simp), ?_⟩
            intro k; rw [i4 k, hd]; simp [pvDue]
          · cases h1
        · cases h1
      | drop =>
        simp only [pvStep] at h1
        split at h1
        · rename_i m todo hd
          split at h1
          · rename_i hlate
            simp only [Option.some.injEq] at h1; subst h1
            have h3 := i3 (by simp)
            refine ⟨(by rw [hd]; intro e; cases e), (fun e => by rw [hd] at e; cases e), fun _ => h3, ?_⟩
            intro k; simp only at h3; omega
          · cases h1
        · cases h1
      | finish =>
        simp only [pvStep] at h1
        split at h1
        · rename_i hd
          simp only [Option.some.injEq] at h1; subst h1
          refine ⟨(by rw [hd]; intro e; cases e), (fun e => by rw [hd] at e; cases e), fun _ => (by have := i2 rfl; simp only at this; omega), ?_⟩
          intro k; rw [i4 k, hd]; simp [pvDue]
        · cases h1
      | write =>
        simp only [pvStep] at h1
        split at h1
        · rename_i m q hq
          simp only [Option.some.injEq] at h1; subst h1
          refine ⟨i1, i2, i3, ?_⟩
          intro k; rw [i4 k, hq]; unfold pvDue; simp [duesOf]
        · cases h1
      | lost =>
        simp only [pvStep, Option.some.injEq] at h1; subst h1
        exact absurd rfl i1

/-- **C120** A server that lets the bouncer in within a minute is sent all it should be, in order: the saved channels are
joined, and the connect commands are sent.  The full property is that this is so however long the server takes; it is
violated (`C120_slow_violated`). -/
theorem C120_said_partial {t0 : Nat} {ops : List PvOp} {st : PvState} (hr : pvRun (pvInit t0) ops = some st)
    (hp : st.phase = .reading) (hin : st.ready < t0 + 60) : st.sent ++ st.queue = duesOf ops := by
  have h := (pv_said hr hp).2.2.2 hin
  simpa [pvInit, pvDue] using h

example : ∃ st, pvRun (pvInit 100) [.tick 3, .dialled, .tick 5, .welcome [⟨b!"JOIN", [b!"#a"]⟩] [⟨b!"MODE", [b!"me", b!"+B"]⟩],
    .put, .put, .finish, .write] = some st ∧ st.phase = .reading ∧ st.ready < 100 + 60 ∧
    st.sent = [⟨b!"JOIN", [b!"#a"]⟩] ∧ st.queue = [⟨b!"MODE", [b!"me", b!"+B"]⟩] := by
  decide +kernel

example : ∃ st, pvRun (pvInit 100) [.tick 15] = some st ∧ st.phase = .dialling ∧ st.now = 115 := by decide +kernel

/-- **C120, violated** A server that accepts the connection and says nothing is waited for without end: at any time the
bouncer may still be waiting for it, though the code means to give it a minute. -/
theorem C120_silent_violated (t0 later : Nat) : ∃ ops st, pvRun (pvInit t0) ops = some st ∧ st.phase = .registering ∧
    t0 + later ≤ st.now :=
  ⟨[.dialled, .tick later], ⟨t0 + later, t0, .registering, [], [], 0⟩, by simp [pvRun, pvStep, pvInit, pvIdle], rfl, Nat.le_refl _⟩

/-- **C120, violated** When a server lets the bouncer in more than a minute after the connection was begun, the saved channels
may be left unjoined and the connect commands unsent, whatever they are, and the connection is used all the same. -/
theorem C120_slow_violated (t0 : Nat) (joins commands : List Msg) : ∃ ops st, pvRun (pvInit t0) ops = some st ∧
    st.phase = .reading ∧ duesOf ops = joins ++ commands ∧ st.sent = [] ∧ st.queue = [] := by
  have drops : ∀ (todo : List Msg) (n : Nat), t0 + 60 ≤ n → pvRun ⟨n, t0, .speaking todo, [], [], 0⟩
      (List.replicate todo.length .drop ++ [.finish]) = some ⟨n, t0, .reading, [], [], n⟩ := by
    intro todo n hn
    induction todo with
    | nil => simp [pvRun, pvStep]
    | cons m todo ih =>
      simp only [List.length_cons, List.replicate_succ, List.cons_append, pvRun, pvStep, hn, if_true]
      exact ih
  refine ⟨[.dialled, .tick 60, .welcome joins commands] ++ (List.replicate (joins ++ commands).length .drop ++ [.finish]),
    ⟨t0 + 60, t0, .reading, [], [], t0 + 60⟩, ?_, rfl, ?_, rfl, rfl⟩
  · have := drops (joins ++ commands) (t0 + 60) (Nat.le_refl _)
    simp only [List.cons_append, List.nil_append, pvRun, pvStep, pvInit, if_true, pvIdle]
    exact this
  · simp [duesOf]

end Verif.Props
