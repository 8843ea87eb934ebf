import Verif.Model.Conn
import Verif.Proof.Util
import Mathlib.Tactic.SplitIfs

/-! # C33: the output of a connection -/

namespace Verif.Props
open Verif.Model Verif.Proof

/-! ## Specification -/

/-- The event is an error, a forced close or a shutdown that runs out of time. -/
def ConnTrouble (e : ConnEv) : Bool :=
  match e with
  | .rateErr | .writeErr | .closeCall | .ctxDone _ => true
  | _ => false

/-- The messages queued before the first shutdown request. -/
def beforeShutdown (queued : List (Option Nat)) : List (Option Nat) := queued.takeWhile (·.isSome)

/-- The step is taken by the writer goroutine, by a call to `Close` under way or by the sender `g`; not by the
environment. -/
def internalEv (g : Nat) (e : ConnEv) : Bool :=
  match e with
  | .recv | .recvClosed | .rateOk | .writeOk | .writerClose | .closeSock | .closeCh => true
  | .enqueue h | .seeClosed h => decide (h = g)
  | _ => false

/-- A run for the examples: two senders, the writer, a graceful shutdown. -/
def exConnRun : List ConnEv :=
  [.call 1 (some 10), .call 2 (some 20), .enqueue 2, .enqueue 1, .recv, .rateOk, .call 3 Option.none, .writeOk,
   .enqueue 3, .recv, .rateOk, .call 1 (some 11), .enqueue 1, .writeOk, .recv, .writerClose, .closeSock, .closeCh]

/-! ## The invariant -/

private theorem lookup_filter (l : List (Nat × Option Nat)) (g : Nat) :
    (dropPending l g).lookup g = none := by
  unfold dropPending
  induction l with
  | nil => rfl
  | cons p l ih =>
    obtain ⟨a, b⟩ := p
    by_cases ha : a = g
    · simpa [ha] using ih
    · simp only [List.filter_cons]
      rw [if_pos (by simpa using ha), List.lookup_cons]
      rw [show (g == a) = false by simpa using fun h => ha h.symm]
      exact ih


private theorem connRun_append (s : ConnState) (a b : List ConnEv) :
    connRun s (a ++ b) = (connRun s a).bind (fun t => connRun t b) := by
  induction a generalizing s with
  | nil => rfl
  | cons e a ih =>
    simp only [List.cons_append, connRun]
    cases connStep s e with
    | none => rfl
    | some t => exact ih t

/-- What has been taken out of the channel, given where the writer is. -/
private def ConnInv (s : ConnState) : Prop :=
  ∃ taken, s.queued = taken ++ s.queue ∧
    match s.writer with
    | .idle => taken = s.written.map some
    | .limited m => taken = s.written.map some ++ [some m]
    | .ready m => taken = s.written.map some ++ [some m]
    | _ => ∃ x, taken = s.written.map some ++ x

private theorem connInv_close {s : ConnState} (h : ConnInv s) : ConnInv (enterClose s) := by
  unfold enterClose; split <;> exact h

private theorem connInv_step {s t : ConnState} {e : ConnEv} (h : ConnInv s) (ht : connStep s e = some t) :
    ConnInv t := by
  cases e with
  | call g m =>
    simp only [connStep] at ht
    repeat' split at ht
    all_goals simp at ht
    all_goals (subst ht; exact h)
  | enqueue g =>
    simp only [connStep] at ht
    repeat' split at ht
    all_goals simp at ht
    subst ht
    obtain ⟨taken, h1, h2⟩ := h
    exact ⟨taken, by simp [h1], h2⟩
  | seeClosed g =>
    simp only [connStep] at ht
    split at ht
    all_goals simp at ht
    subst ht; exact h
  | ctxDone g =>
    simp only [connStep] at ht
    split at ht
    · simp at ht
    · simp at ht
      subst ht
      split
      · exact connInv_close h
      · exact h
  | recv =>
    simp only [connStep] at ht
    obtain ⟨taken, h1, h2⟩ := h
    split at ht
    · rename_i hw hq
      simp at ht; subst ht
      simp only [hw, hq] at h1 h2
      exact ⟨taken ++ [some _], by simp [h1]; rfl, by simp [h2]⟩
    · rename_i hw hq
      simp at ht; subst ht
      simp only [hw, hq] at h1 h2
      exact ⟨taken ++ [none], by simp [h1], [none], by simp [h2]⟩
    · simp at ht
  | recvClosed =>
    simp only [connStep] at ht
    split at ht
    · rename_i hw
      simp at ht; subst ht
      obtain ⟨taken, h1, h2⟩ := h
      simp only [hw.1] at h2
      exact ⟨taken, h1, [], by simp [h2]⟩
    · simp at ht
  | rateOk =>
    simp only [connStep] at ht
    obtain ⟨taken, h1, h2⟩ := h
    split at ht
    · rename_i hw
      simp at ht; subst ht
      simp only [hw] at h2
      exact ⟨taken, h1, h2⟩
    · simp at ht
  | rateErr =>
    simp only [connStep] at ht
    obtain ⟨taken, h1, h2⟩ := h
    split at ht
    · rename_i hw
      simp at ht; subst ht
      simp only [hw] at h2
      exact ⟨taken, h1, _, h2⟩
    · simp at ht
  | writeOk =>
    simp only [connStep] at ht
    obtain ⟨taken, h1, h2⟩ := h
    split at ht
    · rename_i hw
      split at ht
      · simp at ht
      simp at ht; subst ht
      simp only [hw] at h2
      exact ⟨taken, h1, by simp [h2]⟩
    · simp at ht
  | writeErr =>
    simp only [connStep] at ht
    obtain ⟨taken, h1, h2⟩ := h
    split at ht
    · rename_i hw
      simp at ht; subst ht
      simp only [hw] at h2
      exact ⟨taken, h1, _, h2⟩
    · simp at ht
  | writerClose =>
    simp only [connStep] at ht
    obtain ⟨taken, h1, h2⟩ := h
    split at ht
    · rename_i hw
      simp at ht; subst ht
      simp only [hw] at h2
      exact connInv_close ⟨taken, h1, h2⟩
    · simp at ht
  | closeCall => simp [connStep] at ht; subst ht; exact connInv_close h
  | closeSock =>
    simp only [connStep] at ht
    split at ht
    all_goals simp at ht
    subst ht; exact h
  | closeCh =>
    simp only [connStep] at ht
    split at ht
    all_goals simp at ht
    subst ht; exact h

private theorem connInv_run {s t : ConnState} {evs : List ConnEv} (h : ConnInv s) (ht : connRun s evs = some t) :
    ConnInv t := by
  induction evs generalizing s with
  | nil => simp [connRun] at ht; subst ht; exact h
  | cons e evs ih =>
    simp only [connRun, Option.bind_eq_some_iff] at ht
    obtain ⟨u, h1, h2⟩ := ht
    exact ih (connInv_step h h1) h2

private theorem connInv_init : ConnInv {} := ⟨[], rfl, rfl⟩

/-- C33: whatever the schedule, what is written is a prefix of what was queued, in queueing order, and nothing
queued after a shutdown request is written. -/
theorem C33_prefix (evs : List ConnEv) (s : ConnState) (h : connRun {} evs = some s) :
    s.written.map some <+: s.queued := by
  obtain ⟨taken, h1, h2⟩ := connInv_run connInv_init h
  rw [h1]
  cases hw : s.writer <;> simp only [hw] at h2
  · rw [h2]; exact List.prefix_append _ _
  · rw [h2, List.append_assoc]; exact List.prefix_append _ _
  · rw [h2, List.append_assoc]; exact List.prefix_append _ _
  · obtain ⟨x, h2⟩ := h2; rw [h2, List.append_assoc]; exact List.prefix_append _ _
  · obtain ⟨x, h2⟩ := h2; rw [h2, List.append_assoc]; exact List.prefix_append _ _

example : (connRun {} exConnRun).map (fun s => (s.queued, s.written)) =
    some ([some 20, some 10, Option.none, some 11], [20, 10]) := by decide

/-- The messages queued are those of the calls, each once: the record `queued` grows exactly when a sender's
own message enters the channel. -/
theorem C33_queued_once (s t : ConnState) (e : ConnEv) (h : connStep s e = some t) :
    t.queued = s.queued ∨
      ∃ g m, e = .enqueue g ∧ s.pending.lookup g = some m ∧ t.queued = s.queued ++ [m] ∧
        t.pending.lookup g = none := by
  have key : ∀ s : ConnState, (enterClose s).queued = s.queued := by
    intro s; unfold enterClose; split <;> rfl
  cases e with
  | enqueue g =>
    simp only [connStep] at h
    split at h
    · simp at h
    rename_i m hm
    split at h
    · simp at h
      right
      refine ⟨g, m, rfl, hm, by rw [← h], ?_⟩
      rw [← h]
      simp only
      exact lookup_filter _ _
    · simp at h
  | ctxDone g =>
    left
    simp only [connStep] at h
    split at h
    · simp at h
    · simp at h
      rw [← h]
      split
      · rw [key]
      · rfl
  | writerClose =>
    left
    simp only [connStep] at h
    split at h
    · simp at h; rw [← h, key]
    · simp at h
  | closeCall => left; simp [connStep] at h; rw [← h, key]
  | call g m =>
    left
    simp only [connStep] at h
    repeat' split at h
    all_goals simp at h
    all_goals (subst h; rfl)
  | recv =>
    left
    simp only [connStep] at h
    repeat' split at h
    all_goals simp at h
    all_goals (subst h; rfl)
  | seeClosed g =>
    left; simp only [connStep] at h; split at h <;> simp at h; subst h; rfl
  | recvClosed =>
    left; simp only [connStep] at h; split at h <;> simp at h; subst h; rfl
  | rateOk => left; simp only [connStep] at h; split at h <;> simp at h; subst h; rfl
  | rateErr => left; simp only [connStep] at h; split at h <;> simp at h; subst h; rfl
  | writeOk =>
    left
    simp only [connStep] at h
    repeat' split at h
    all_goals simp at h
    subst h; rfl
  | writeErr => left; simp only [connStep] at h; split at h <;> simp at h; subst h; rfl
  | closeSock => left; simp only [connStep] at h; split at h <;> simp at h; subst h; rfl
  | closeCh => left; simp only [connStep] at h; split at h <;> simp at h; subst h; rfl

/-! ## Graceful shutdown -/

/-- Without trouble, the writer only leaves because of the shutdown request, and nothing is closed before. -/
private def ConnInvOk (s : ConnState) : Prop :=
  ((s.writer = .leaving ∨ s.writer = .finished) → ∃ rest, s.queued = s.written.map some ++ none :: rest) ∧
  (s.writer ≠ .finished → s.close = .opened)

private theorem connInvOk_step {s t : ConnState} {e : ConnEv} (hi : ConnInv s) (h : ConnInvOk s)
    (he : ConnTrouble e = false) (ht : connStep s e = some t) : ConnInvOk t := by
  obtain ⟨ha, hb⟩ := h
  cases e with
  | call g m =>
    simp only [connStep] at ht
    repeat' split at ht
    all_goals simp at ht
    all_goals (subst ht; exact ⟨ha, hb⟩)
  | enqueue g =>
    simp only [connStep] at ht
    repeat' split at ht
    all_goals simp at ht
    subst ht
    refine ⟨fun hw => ?_, hb⟩
    obtain ⟨rest, hr⟩ := ha hw
    exact ⟨rest ++ [_], by simp [hr]; rfl⟩
  | seeClosed g =>
    simp only [connStep] at ht
    split at ht
    all_goals simp at ht
    subst ht; exact ⟨ha, hb⟩
  | ctxDone g => simp [ConnTrouble] at he
  | recv =>
    simp only [connStep] at ht
    obtain ⟨taken, h1, h2⟩ := hi
    split at ht
    · rename_i hw hq
      simp at ht; subst ht
      exact ⟨by simp, fun _ => hb (by rw [hw]; simp)⟩
    · rename_i hw hq
      simp at ht; subst ht
      simp only [hw, hq] at h1 h2
      exact ⟨fun _ => ⟨_, by rw [h1, h2]⟩, fun _ => hb (by rw [hw]; simp)⟩
    · simp at ht
  | recvClosed =>
    simp only [connStep] at ht
    split at ht
    · rename_i hw
      have := hb (by rw [hw.1]; simp)
      rw [this] at hw
      simp at hw
    · simp at ht
  | rateOk =>
    simp only [connStep] at ht
    split at ht
    · rename_i hw
      simp at ht; subst ht
      exact ⟨by simp, fun _ => hb (by rw [hw]; simp)⟩
    · simp at ht
  | rateErr => simp [ConnTrouble] at he
  | writeOk =>
    simp only [connStep] at ht
    split at ht
    · rename_i hw
      split at ht
      · simp at ht
      simp at ht; subst ht
      exact ⟨by simp, fun _ => hb (by rw [hw]; simp)⟩
    · simp at ht
  | writeErr => simp [ConnTrouble] at he
  | writerClose =>
    simp only [connStep] at ht
    split at ht
    · rename_i hw
      simp at ht; subst ht
      unfold enterClose
      split
      · exact ⟨fun _ => ha (.inl hw), by simp⟩
      · exact ⟨fun _ => ha (.inl hw), by simp⟩
    · simp at ht
  | closeCall => simp [ConnTrouble] at he
  | closeSock =>
    simp only [connStep] at ht
    split at ht
    · rename_i hc
      simp at ht; subst ht
      refine ⟨ha, fun hw => ?_⟩
      have := hb hw
      rw [this] at hc; simp at hc
    · simp at ht
  | closeCh =>
    simp only [connStep] at ht
    split at ht
    · rename_i hc
      simp at ht; subst ht
      refine ⟨ha, fun hw => ?_⟩
      have := hb hw
      rw [this] at hc; simp at hc
    · simp at ht

/-- C33: after a graceful shutdown without error (no failed write, no forced close), when the writer has
finished, all messages queued before the shutdown request have been written. -/
theorem C33_shutdown (evs : List ConnEv) (s : ConnState) (h : connRun {} evs = some s)
    (hok : ∀ e ∈ evs, ConnTrouble e = false) (hw : s.writer = .finished) :
    s.written.map some = beforeShutdown s.queued ∧ none ∈ s.queued := by
  have gen : ∀ (evs : List ConnEv) (u : ConnState), ConnInv u → ConnInvOk u → connRun u evs = some s →
      (∀ e ∈ evs, ConnTrouble e = false) → ConnInvOk s := by
    intro evs
    induction evs with
    | nil => intro u _ h2 h3 _; simp [connRun] at h3; subst h3; exact h2
    | cons e evs ih =>
      intro u h1 h2 h3 h4
      simp only [connRun, Option.bind_eq_some_iff] at h3
      obtain ⟨v, g1, g2⟩ := h3
      exact ih v (connInv_step h1 g1) (connInvOk_step h1 h2 (h4 e (by simp)) g1) g2 (fun x hx => h4 x (by simp [hx]))
  have := gen evs {} connInv_init ⟨by simp, fun _ => rfl⟩ h hok
  obtain ⟨rest, hr⟩ := this.1 (.inr hw)
  refine ⟨?_, by rw [hr]; simp⟩
  unfold beforeShutdown
  rw [hr]
  generalize s.written = l
  induction l with
  | nil => simp
  | cons a l ih => simp

example : (connRun {} exConnRun).map (·.writer) = some .finished ∧
    ∀ e ∈ exConnRun, ConnTrouble e = false := by decide

/-- C33: and the shutdown does come to its end: as long as nothing is closed, the writer alone, if no error
occurs, writes all that is in the channel before the request and then closes the connection. -/
theorem C33_drains (s : ConnState) (ms : List Nat) (rest : List (Option Nat)) (hw : s.writer = .idle)
    (hc : s.close = .opened) (hq : s.queue = ms.map some ++ none :: rest) :
    ∃ evs t, connRun s evs = some t ∧ (∀ e ∈ evs, e ∈ [.recv, .rateOk, .writeOk, .writerClose, .closeSock, .closeCh]) ∧
      t.written = s.written ++ ms ∧ t.writer = .finished ∧ t.close = .finished := by
  induction ms generalizing s with
  | nil =>
    refine ⟨[.recv, .writerClose, .closeSock, .closeCh],
      { s with queue := rest, writer := .finished, close := .finished }, ?_, by decide, by simp, rfl, rfl⟩
    simp at hq
    simp [connRun, connStep, hw, hq, hc, enterClose]
  | cons m ms ih =>
    obtain ⟨evs, t, h1, h2, h3, h4, h5⟩ :=
      ih { s with queue := ms.map some ++ none :: rest, writer := .idle, written := s.written ++ [m] } rfl hc rfl
    rw [hc] at h1
    refine ⟨[.recv, .rateOk, .writeOk] ++ evs, t, ?_, ?_, by rw [h3]; simp, h4, h5⟩
    · simp [connRun, connStep, hw, hq, hc]
      exact h1
    · intro e he
      rcases List.mem_append.1 he with h | h
      · simp at h ⊢; rcases h with h | h | h <;> simp [h]
      · exact h2 e h

/-! ## Close -/

private theorem close_mono {s t : ConnState} {e : ConnEv} (ht : connStep s e = some t)
    (h : s.close = .sockClosed ∨ s.close = .finished) :
    t.written = s.written ∧ (t.close = .sockClosed ∨ t.close = .finished) := by
  have key : ∀ s : ConnState, (s.close = .sockClosed ∨ s.close = .finished) → enterClose s = s := by
    intro s h; unfold enterClose; rw [if_neg]; rcases h with h | h <;> rw [h] <;> simp
  cases e with
  | call g m =>
    simp only [connStep] at ht
    repeat' split at ht
    all_goals simp at ht
    all_goals (subst ht; exact ⟨rfl, h⟩)
  | enqueue g =>
    simp only [connStep] at ht
    repeat' split at ht
    all_goals simp at ht
    subst ht; exact ⟨rfl, h⟩
  | seeClosed g => simp only [connStep] at ht; split at ht <;> simp at ht; subst ht; exact ⟨rfl, h⟩
  | ctxDone g =>
    simp only [connStep] at ht
    split at ht
    · simp at ht
    · simp at ht
      subst ht
      split
      · rw [key { s with pending := dropPending s.pending g } h]; exact ⟨rfl, h⟩
      · exact ⟨rfl, h⟩
  | recv =>
    simp only [connStep] at ht
    repeat' split at ht
    all_goals simp at ht
    all_goals (subst ht; exact ⟨rfl, h⟩)
  | recvClosed => simp only [connStep] at ht; split at ht <;> simp at ht; subst ht; exact ⟨rfl, h⟩
  | rateOk => simp only [connStep] at ht; split at ht <;> simp at ht; subst ht; exact ⟨rfl, h⟩
  | rateErr => simp only [connStep] at ht; split at ht <;> simp at ht; subst ht; exact ⟨rfl, h⟩
  | writeOk =>
    simp only [connStep] at ht
    split at ht
    · rw [if_pos h] at ht; simp at ht
    · simp at ht
  | writeErr => simp only [connStep] at ht; split at ht <;> simp at ht; subst ht; exact ⟨rfl, h⟩
  | writerClose =>
    simp only [connStep] at ht
    split at ht
    · simp at ht; subst ht; rw [key { s with writer := .finished } h]; exact ⟨rfl, h⟩
    · simp at ht
  | closeCall => simp [connStep] at ht; subst ht; rw [key _ h]; exact ⟨rfl, h⟩
  | closeSock => simp only [connStep] at ht; split at ht <;> simp at ht; subst ht; exact ⟨rfl, .inl rfl⟩
  | closeCh => simp only [connStep] at ht; split at ht <;> simp at ht; subst ht; exact ⟨rfl, .inr rfl⟩

/-- C33: once `Close` has closed the socket (in particular once it has returned), nothing more is written,
whatever happens. -/
theorem C33_closed (s t : ConnState) (evs : List ConnEv) (h : connRun s evs = some t)
    (hc : s.close = .sockClosed ∨ s.close = .finished) : t.written = s.written := by
  induction evs generalizing s with
  | nil => simp [connRun] at h; rw [h]
  | cons e evs ih =>
    simp only [connRun, Option.bind_eq_some_iff] at h
    obtain ⟨u, h1, h2⟩ := h
    obtain ⟨g1, g2⟩ := close_mono h1 hc
    rw [ih u h2 g2, g1]

example : (connRun {} [.call 1 (some 1), .enqueue 1, .recv, .rateOk, .closeCall, .closeSock, .writeErr,
    .closeCh, .writerClose]).map (fun s => (s.written, s.writer)) = some ([], .finished) := by decide

/-- The writer finishes only after a call to `Close` has begun, and the channel never holds more than its
capacity. -/
private def ConnInvLive (s : ConnState) : Prop :=
  (s.writer = .finished → s.close ≠ .opened) ∧ s.queue.length ≤ outgoingCap

private theorem live_step {s t : ConnState} {e : ConnEv} (h : ConnInvLive s) (ht : connStep s e = some t) :
    ConnInvLive t := by
  obtain ⟨ha, hb⟩ := h
  have key : ∀ s : ConnState, (enterClose s).close ≠ .opened ∧ (enterClose s).queue = s.queue := by
    intro s; unfold enterClose; split <;> simp_all
  have key2 : ∀ s : ConnState, ConnInvLive s → ConnInvLive (enterClose s) := by
    intro s h; exact ⟨fun _ => (key s).1, by rw [(key s).2]; exact h.2⟩
  cases e with
  | call g m =>
    simp only [connStep] at ht
    repeat' split at ht
    all_goals simp at ht
    all_goals (subst ht; exact ⟨ha, hb⟩)
  | enqueue g =>
    simp only [connStep] at ht
    repeat' split at ht
    all_goals simp at ht
    subst ht
    rename_i hl
    exact ⟨ha, by simp; omega⟩
  | seeClosed g => simp only [connStep] at ht; split at ht <;> simp at ht; subst ht; exact ⟨ha, hb⟩
  | ctxDone g =>
    simp only [connStep] at ht
    split at ht
    · simp at ht
    · simp at ht
      subst ht
      split
      · exact key2 _ ⟨ha, hb⟩
      · exact ⟨ha, hb⟩
  | recv =>
    simp only [connStep] at ht
    split at ht
    · rename_i hw hq
      simp at ht; subst ht
      rw [hq] at hb
      exact ⟨by simp, by simp at hb ⊢; omega⟩
    · rename_i hw hq
      simp at ht; subst ht
      rw [hq] at hb
      exact ⟨by simp, by simp at hb ⊢; omega⟩
    · simp at ht
  | recvClosed => simp only [connStep] at ht; split at ht <;> simp at ht; subst ht; exact ⟨by simp, hb⟩
  | rateOk => simp only [connStep] at ht; split at ht <;> simp at ht; subst ht; exact ⟨by simp, hb⟩
  | rateErr => simp only [connStep] at ht; split at ht <;> simp at ht; subst ht; exact ⟨by simp, hb⟩
  | writeOk =>
    simp only [connStep] at ht
    repeat' split at ht
    all_goals simp at ht
    subst ht; exact ⟨by simp, hb⟩
  | writeErr => simp only [connStep] at ht; split at ht <;> simp at ht; subst ht; exact ⟨by simp, hb⟩
  | writerClose =>
    simp only [connStep] at ht
    split at ht
    · simp at ht; subst ht
      exact ⟨fun _ => (key _).1, by rw [(key _).2]; exact hb⟩
    · simp at ht
  | closeCall => simp [connStep] at ht; subst ht; exact key2 _ ⟨ha, hb⟩
  | closeSock => simp only [connStep] at ht; split at ht <;> simp at ht; subst ht; exact ⟨by simp, hb⟩
  | closeCh => simp only [connStep] at ht; split at ht <;> simp at ht; subst ht; exact ⟨by simp, hb⟩

private theorem live_run {s t : ConnState} {evs : List ConnEv} (h : ConnInvLive s) (ht : connRun s evs = some t) :
    ConnInvLive t := by
  induction evs generalizing s with
  | nil => simp [connRun] at ht; subst ht; exact h
  | cons e evs ih =>
    simp only [connRun, Option.bind_eq_some_iff] at ht
    obtain ⟨u, h1, h2⟩ := ht
    exact ih (live_step h h1) h2

/-- A path out for a sender. -/
private def CanLeave (g : Nat) (s : ConnState) (n : Nat) : Prop :=
  ∃ evs t, evs.length ≤ n ∧ (∀ e ∈ evs, internalEv g e = true) ∧ connRun s evs = some t ∧ t.pending.lookup g = none

private theorem canLeave_cons {g : Nat} {s t : ConnState} {n : Nat} {e : ConnEv} (he : internalEv g e = true)
    (hs : connStep s e = some t) (h : CanLeave g t n) : CanLeave g s (n + 1) := by
  obtain ⟨evs, u, h1, h2, h3, h4⟩ := h
  refine ⟨e :: evs, u, by simp; exact h1, ?_, by simp [connRun, hs, h3], h4⟩
  intro x hx
  rcases List.mem_cons.1 hx with h | h
  · rw [h]; exact he
  · exact h2 x h

private theorem canLeave_mono {g : Nat} {s : ConnState} {n m : Nat} (h : CanLeave g s n) (hnm : n ≤ m) : CanLeave g s m := by
  obtain ⟨evs, u, h1, h2, h3, h4⟩ := h
  exact ⟨evs, u, by omega, h2, h3, h4⟩

private theorem leave_closing {g : Nat} {s : ConnState} (hp : (s.pending.lookup g).isSome)
    (hc : s.close ≠ .opened) : CanLeave g s 3 := by
  have h0 : ∀ s : ConnState, (s.pending.lookup g).isSome → s.close = .finished → CanLeave g s 1 := by
    intro s hp hc
    exact ⟨[.seeClosed g], { s with pending := dropPending s.pending g }, by simp,
      by simp [internalEv], by simp [connRun, connStep, hp, hc], lookup_filter _ _⟩
  have h1 : ∀ s : ConnState, (s.pending.lookup g).isSome → s.close = .sockClosed → CanLeave g s 2 := by
    intro s hp hc
    exact canLeave_cons (e := .closeCh) (t := { s with close := .finished }) rfl (by simp [connStep, hc])
      (h0 _ hp rfl)
  cases h : s.close with
  | opened => exact absurd h hc
  | flagged =>
    exact canLeave_cons (e := .closeSock) (t := { s with close := .sockClosed }) rfl (by simp [connStep, h])
      (h1 _ hp rfl)
  | sockClosed => exact canLeave_mono (h1 s hp h) (by omega)
  | finished => exact canLeave_mono (h0 s hp h) (by omega)

private theorem leave_room {g : Nat} {s : ConnState} (hp : (s.pending.lookup g).isSome)
    (hq : s.queue.length < outgoingCap) : CanLeave g s 1 := by
  obtain ⟨m, hm⟩ := Option.isSome_iff_exists.1 hp
  exact ⟨[.enqueue g], _, by simp, by simp [internalEv], by simp [connRun, connStep, hm, hq]; rfl,
    lookup_filter _ _⟩

/-- C33: a sender is never stuck: in every reachable state, a goroutine in `SendMessage` or `Shutdown` can get
out within six steps taken only by itself, by the writer goroutine and by a call to `Close` under way; it does
not take the end of its context. -/
theorem C33_senders (evs : List ConnEv) (s : ConnState) (h : connRun {} evs = some s) (g : Nat)
    (hp : (s.pending.lookup g).isSome) :
    ∃ evs' t, evs'.length ≤ 6 ∧ (∀ e ∈ evs', internalEv g e = true) ∧ connRun s evs' = some t ∧
      t.pending.lookup g = none := by
  have live := live_run ⟨by simp, by simp⟩ h
  change CanLeave g s 6
  by_cases hc : s.close = .opened
  · by_cases hq : s.queue.length < outgoingCap
    · exact canLeave_mono (leave_room hp hq) (by omega)
    · -- the channel is full: the writer takes something out of it
      have hidle : ∀ s : ConnState, (s.pending.lookup g).isSome → s.queue.length = outgoingCap →
          s.writer = .idle → CanLeave g s 2 := by
        intro s hp hq hw
        match hqq : s.queue with
        | [] => rw [hqq] at hq; simp [outgoingCap] at hq
        | some m :: q =>
          refine canLeave_cons (e := .recv) (t := { s with writer := .limited m, queue := q }) rfl
            (by simp [connStep, hw, hqq]) (leave_room hp ?_)
          rw [hqq] at hq; simp at hq ⊢; omega
        | none :: q =>
          refine canLeave_cons (e := .recv) (t := { s with writer := .leaving, queue := q }) rfl
            (by simp [connStep, hw, hqq]) (leave_room hp ?_)
          rw [hqq] at hq; simp at hq ⊢; omega
      have hfull : s.queue.length = outgoingCap := by have := live.2; omega
      have hready : ∀ (s : ConnState) (m : Nat), (s.pending.lookup g).isSome → s.queue.length = outgoingCap →
          s.close = .opened → s.writer = .ready m → CanLeave g s 3 := by
        intro s m hp hq hc hw
        exact canLeave_cons (e := .writeOk) (t := { s with writer := .idle, written := s.written ++ [m] }) rfl
          (by simp [connStep, hw, hc]) (hidle _ hp hq rfl)
      cases hw : s.writer with
      | idle => exact canLeave_mono (hidle s hp hfull hw) (by omega)
      | limited m =>
        exact canLeave_mono (canLeave_cons (e := .rateOk) (t := { s with writer := .ready m }) rfl
          (by simp [connStep, hw]) (hready _ m hp hfull hc rfl)) (by omega)
      | ready m => exact canLeave_mono (hready s m hp hfull hc hw) (by omega)
      | leaving =>
        refine canLeave_mono (canLeave_cons (e := .writerClose)
          (t := { s with writer := .finished, close := .flagged }) rfl
          (by simp [connStep, hw, enterClose, hc]) (leave_closing hp (by simp))) (by omega)
      | finished => exact absurd hc (live.1 hw)
  · exact canLeave_mono (leave_closing hp hc) (by omega)

/-- Such a state: the writer has failed and the channel is full. -/
example : ((connRun {} ((List.range 65).flatMap (fun i => [.call i (some i), .enqueue i] ++
    (if i = 0 then [.recv, .rateOk, .writeErr] else []))  ++ [.call 100 (some 7)])).map
    (fun s => (s.queue.length, s.writer, s.pending))) = some (64, .leaving, [(100, some 7)]) := by decide +kernel

/-- C33: after `Close` has returned, calls return at once. -/
theorem C33_call_after_close (s : ConnState) (g : Nat) (m : Option Nat) (hc : s.close ≠ .opened)
    (hg : s.pending.lookup g = none) : connStep s (.call g m) = some s := by
  simp [connStep, hg, hc]

example : ((connRun {} [.closeCall, .closeSock, .closeCh]).map (·.close)) = some .finished := by decide

/-- The steps of the goroutine that writes. -/
def ConnWrites : ConnEv → Bool
  | .recv | .recvClosed | .rateOk | .rateErr | .writeOk | .writeErr | .writerClose => true
  | _ => false

private def writerRank : WriterPc → Nat
  | .idle => 4
  | .limited _ => 3
  | .ready _ => 2
  | .leaving => 1
  | .finished => 0

private theorem enterClose_writer (s : ConnState) : (enterClose s).writer = s.writer := by
  unfold enterClose; split <;> rfl

private theorem writer_rank {s t : ConnState} {e : ConnEv} (h : connStep s e = some t)
    (hc : s.close = .sockClosed ∨ s.close = .finished) :
    writerRank t.writer + (if ConnWrites e then 1 else 0) ≤ writerRank s.writer := by
  cases e <;> simp only [connStep] at h
  case call g m => split_ifs at h <;> cases h <;> simp [ConnWrites]
  case enqueue g =>
    split at h
    · cases h
    · split_ifs at h; cases h; simp [ConnWrites]
  case seeClosed g => split_ifs at h; cases h; simp [ConnWrites]
  case ctxDone g =>
    split at h
    · cases h
    · cases h
      rw [if_neg (show ¬ ConnWrites (.ctxDone g) = true by simp [ConnWrites])]
      split
      · rw [enterClose_writer]; exact Nat.le_refl _
      · exact Nat.le_refl _
  case recv =>
    split at h
    · rename_i hw _; cases h; rw [hw]; simp [writerRank, ConnWrites]
    · rename_i hw _; cases h; rw [hw]; simp [writerRank, ConnWrites]
    · cases h
  case recvClosed => split_ifs at h with hw; cases h; rw [hw.1]; simp [writerRank, ConnWrites]
  case rateOk => split at h; (rename_i hw; cases h; rw [hw]; simp [writerRank, ConnWrites]); cases h
  case rateErr => split at h; (rename_i hw; cases h; rw [hw]; simp [writerRank, ConnWrites]); cases h
  case writeOk =>
    split at h
    · rw [if_pos hc] at h; cases h
    · cases h
  case writeErr => split at h; (rename_i hw; cases h; rw [hw]; simp [writerRank, ConnWrites]); cases h
  case writerClose =>
    split at h
    · rename_i hw; cases h; rw [enterClose_writer, hw]; simp [writerRank, ConnWrites]
    · cases h
  case closeCall => cases h; rw [enterClose_writer]; exact Nat.le_refl _
  case closeSock => split_ifs at h; cases h; exact Nat.le_refl _
  case closeCh => split_ifs at h; cases h; exact Nat.le_refl _

/-- C33: a closed connection leaves no goroutine behind, first half: once the socket is closed the goroutine that writes takes
four more steps at most, whatever is queued and whatever is sent meanwhile. -/
theorem C33_ends (s t : ConnState) (evs : List ConnEv) (h : connRun s evs = some t)
    (hc : s.close = .sockClosed ∨ s.close = .finished) : evs.countP ConnWrites ≤ 4 := by
  suffices hr : writerRank t.writer + evs.countP ConnWrites ≤ writerRank s.writer by
    have : writerRank s.writer ≤ 4 := by cases s.writer <;> simp [writerRank]
    omega
  induction evs generalizing s with
  | nil => simp [connRun] at h; rw [h]; simp
  | cons e evs ih =>
    simp only [connRun, Option.bind_eq_some_iff] at h
    obtain ⟨u, h1, h2⟩ := h
    have a := ih u h2 (close_mono h1 hc).2
    have b := writer_rank h1 hc
    rw [List.countP_cons]
    omega

example : ((connRun { close := .finished, queue := [some 1, some 2] } [.recv, .rateOk, .writeErr, .writerClose]).map (·.writer))
    = some .finished := by decide

/-- C33: a closed connection leaves no goroutine behind, second half: once the connection is closed, the goroutine that writes can
always take its next step until it has ended (conn.go:266-282: its context is done then), and so can everyone who waits to
send. -/
theorem C33_not_stuck (s : ConnState) (hc : s.close = .finished) :
    (s.writer ≠ .finished → ∃ e t, ConnWrites e = true ∧ connStep s e = some t) ∧
    (∀ g, (s.pending.lookup g).isSome → ∃ t, connStep s (.seeClosed g) = some t ∧ t.pending.lookup g = none) := by
  refine ⟨fun hw => ?_, fun g hg => ?_⟩
  · cases e : s.writer with
    | idle => exact ⟨.recvClosed, _, rfl, by simp only [connStep]; rw [if_pos ⟨e, hc⟩]⟩
    | limited m => exact ⟨.rateErr, { s with writer := .leaving }, rfl, by simp only [connStep, e]⟩
    | ready m => exact ⟨.writeErr, { s with writer := .leaving }, rfl, by simp only [connStep, e]⟩
    | leaving => exact ⟨.writerClose, enterClose { s with writer := .finished }, rfl, by simp only [connStep, e]⟩
    | finished => exact absurd e hw
  · refine ⟨{ s with pending := dropPending s.pending g }, by simp only [connStep]; rw [if_pos ⟨hg, hc⟩], ?_⟩
    unfold dropPending
    generalize s.pending = l
    induction l with
    | nil => rfl
    | cons p l ih =>
      obtain ⟨k, v⟩ := p
      by_cases ek : k = g
      · simp [ek]; simpa using ih
      · have : (g == k) = false := by simpa using Ne.symm ek
        simp [ek, List.lookup, this]; simpa using ih

example : ((connRun {} [.call 1 (some 7), .enqueue 1, .recv, .closeCall, .closeSock, .closeCh]).map
    (fun s => (s.close, s.writer))) = some (.finished, .limited 7) := by decide

end Verif.Props
