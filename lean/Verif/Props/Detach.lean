import Verif.Model.Detach
import Verif.Proof.Util

/-! # C22: detaching hides a channel and attaching restores it; C61: auto-detach waits for inactivity -/

namespace Verif.Props
open Verif.Model Verif.Proof

variable {M : Type}

/-! ## Specification -/

/-- Which messages of a detached channel the user wants to be told about. -/
def relayWanted : MsgFilter → (highlight : Bool) → Bool
  | .message, _ => true
  | .highlight, h => h
  | .default, h => h
  | .none, _ => false

/-- Which messages bring a detached channel back. -/
def reattachWanted : MsgFilter → (highlight : Bool) → Bool
  | .message, _ => true
  | .highlight, h => h
  | .default, _ => false
  | .none, _ => false

/-- The messages shown to a client as messages of the channel. -/
def shownMsgs (outs : List DtOut) : List Nat :=
  outs.filterMap (fun o => match o with
    | .send i => some i
    | .replay i => some i
    | _ => none)

/-! ## Lemmas -/

private theorem shown_append (a b : List DtOut) : shownMsgs (a ++ b) = shownMsgs a ++ shownMsgs b := by
  unfold shownMsgs; rw [List.filterMap_append]

private theorem shown_replay (l : List Nat) : shownMsgs (l.map DtOut.replay) = l := by
  unfold shownMsgs
  induction l with
  | nil => rfl
  | cons a l ih => simp [ih]

private theorem relay_eq (f : MsgFilter) (h : Bool) : detachedMessageNeedsRelay f h = relayWanted f h := by
  cases f <;> cases h <;> rfl

private theorem uca_detached {st : DtState M} (h : st.detached = true) : updateChannelAutoDetach st = st := by
  unfold updateChannelAutoDetach; rw [if_pos h]

@[simp] private theorem uca_det (st : DtState M) : (updateChannelAutoDetach st).detached = st.detached := by
  unfold updateChannelAutoDetach; split <;> rfl
@[simp] private theorem uca_log (st : DtState M) : (updateChannelAutoDetach st).log = st.log := by
  unfold updateChannelAutoDetach; split <;> rfl
@[simp] private theorem uca_mark (st : DtState M) : (updateChannelAutoDetach st).mark = st.mark := by
  unfold updateChannelAutoDetach; split <;> rfl
@[simp] private theorem uca_clients (st : DtState M) : (updateChannelAutoDetach st).clients = st.clients := by
  unfold updateChannelAutoDetach; split <;> rfl
@[simp] private theorem uca_conf (st : DtState M) : (updateChannelAutoDetach st).conf = st.conf := by
  unfold updateChannelAutoDetach; split <;> rfl
@[simp] private theorem uca_stray (st : DtState M) : (updateChannelAutoDetach st).stray = st.stray := by
  unfold updateChannelAutoDetach; split <;> rfl
@[simp] private theorem uca_queued (st : DtState M) : (updateChannelAutoDetach st).queued = st.queued := by
  unfold updateChannelAutoDetach; split <;> rfl
@[simp] private theorem uca_now (st : DtState M) : (updateChannelAutoDetach st).now = st.now := by
  unfold updateChannelAutoDetach; split <;> rfl

/-- What `attach` does when it does not panic. -/
private theorem attach_some {limit : Nat} {st : DtState M} {r : DtState M × List DtOut}
    (hd : st.detached = true) (h : attach limit st = some r) :
    r.1 = updateChannelAutoDetach { st with detached := false, mark := none } ∧
    (st.clients = false → r.2 = []) ∧
    (st.clients = true → ∃ pre, (∀ o ∈ pre, o = .join ∨ o = .chanState) ∧
      r.2 = .join :: pre ++ (match st.mark with
        | some p => (latestAfter st.log.length p limit).map .replay
        | none => [])) := by
  unfold attach at h
  simp only [hd, Bool.not_true, Bool.false_eq_true, if_false] at h
  split at h
  · rename_i hc
    split at h
    · split at h
      · simp only [Option.some.injEq] at h
        subst h
        refine ⟨rfl, by simp [hc], fun _ => ⟨[.chanState], by simp, rfl⟩⟩
      · cases h
    · simp only [Option.some.injEq] at h
      subst h
      refine ⟨rfl, by simp [hc], fun _ => ⟨[], by simp, rfl⟩⟩
  · rename_i hc
    simp only [Option.some.injEq] at h
    subst h
    refine ⟨rfl, fun _ => rfl, fun hh => absurd hh hc⟩

private theorem shown_attach {limit : Nat} {st : DtState M} {r : DtState M × List DtOut}
    (hd : st.detached = true) (hc : st.clients = true) {p : Nat} (hm : st.mark = some p)
    (h : attach limit st = some r) : shownMsgs r.2 = latestAfter st.log.length p limit := by
  obtain ⟨_, _, h3⟩ := attach_some hd h
  obtain ⟨pre, hp, h3⟩ := h3 hc
  rw [h3, shown_append, hm, shown_replay]
  have : shownMsgs (DtOut.join :: pre) = [] := by
    unfold shownMsgs
    rw [List.filterMap_eq_nil_iff]
    intro o ho
    rcases List.mem_cons.1 ho with rfl | ho
    · rfl
    · rcases hp o ho with rfl | rfl <;> rfl
  rw [this, List.nil_append]

/-! ## Detaching and attaching -/

/-- **C22** (detach is idempotent): detaching a detached channel changes nothing and tells nobody. -/
theorem C22_detach_idempotent (st : DtState M) :
    detach (detach st).1 = ((detach st).1, []) := by
  unfold detach
  by_cases h : st.detached
  · simp [h]
  · simp [h]

/-- **C22** (attach is idempotent): attaching an attached channel changes nothing and tells nobody. -/
theorem C22_attach_idempotent (limit : Nat) (st : DtState M) (r : DtState M × List DtOut)
    (h : attach limit st = some r) : attach limit r.1 = some (r.1, []) := by
  by_cases hd : st.detached = true
  · obtain ⟨h1, _⟩ := attach_some hd h
    rw [h1]
    unfold attach
    simp
  · have : st.detached = false := by simpa using hd
    unfold attach at h
    simp only [this, Bool.not_false, if_true, Option.some.injEq] at h
    subst h
    unfold attach
    simp [this]

/-- **C22** (round trip): detaching an attached channel and attaching it again gives back the same channel; only
its auto-detach timer starts again.  Every attached client sees it leave and come back, and no message twice. -/
theorem C22_detach_attach (limit : Nat) (st : DtState M) (hd : st.detached = false) (hm : st.mark = none)
    (hc : ∀ u, st.joined = some u → u.complete = true) :
    ∃ outs, attach limit (detach st).1
        = some ({ st with joined := st.joined.map (updateAutoDetach st.now st.conf.detachAfter) }, outs) ∧
      (st.clients = true → (detach st).2 = [.part] ∧ DtOut.join ∈ outs ∧ shownMsgs outs = []) := by
  have hdet : (detach st).1 = ⟨st.conf, st.clients, true, some st.log.length, st.log,
      st.joined.map (updateAutoDetach st.now 0), st.stray, st.queued, st.now⟩ := by unfold detach; simp [hd]
  have key : ∃ outs, attach limit (detach st).1
      = some ({ st with joined := st.joined.map (updateAutoDetach st.now st.conf.detachAfter) }, outs) := by
    rw [hdet]
    unfold attach
    obtain ⟨conf, clients, detached, mark, log, joined, stray, queued, now⟩ := st
    simp only at hd hm hc
    subst hd hm
    cases clients <;> cases joined with
    | none => simp [updateChannelAutoDetach]
    | some u => have := hc u rfl; simp [updateChannelAutoDetach, updateAutoDetach, this]
  obtain ⟨outs, ho⟩ := key
  refine ⟨outs, ho, fun hcl => ?_⟩
  have hdd : (detach st).1.detached = true := by rw [hdet]
  have hcc : (detach st).1.clients = true := by rw [hdet]; exact hcl
  have hs := shown_attach hdd hcc (p := st.log.length) (by rw [hdet]) ho
  refine ⟨by unfold detach; simp [hd, hcl], ?_, ?_⟩
  · obtain ⟨_, _, h3⟩ := attach_some hdd ho
    obtain ⟨pre, _, h3⟩ := h3 hcc
    simp only at h3
    rw [h3]; simp
  · rw [hs, hdet]; simp [latestAfter]

/-! ## Messages for a detached channel -/

/-- **C22** (hidden): a message for a detached channel that does not bring it back is logged; the clients are not
sent it, and are told about it by the service exactly if the relay policy asks for it. -/
theorem C22_hidden (limit : Nat) (st : DtState M) (m : M) (highlight : Bool) (hd : st.detached = true)
    (hr : reattachWanted st.conf.reattachOn highlight = false) :
    dtReceive limit st m false highlight
      = some ({ st with log := st.log ++ [m] },
          if st.clients && relayWanted st.conf.relayDetached highlight then [.relay highlight st.log.length] else []) := by
  have hno : ¬ (st.conf.reattachOn = .message ∨ (st.conf.reattachOn = .highlight ∧ highlight = true)) := by
    cases h : st.conf.reattachOn <;> simp_all [reattachWanted]
  unfold dtReceive handleDetachedMessage
  simp only [Bool.false_eq_true, if_false, hd, if_true, if_neg hno, Option.map_some, relay_eq]
  unfold dtProduce
  simp only [uca_detached hd, ite_self, hd, Bool.not_true, Bool.and_false, Bool.false_eq_true, if_false,
    List.append_nil]

/-- **C22** (own messages): a message of the user itself for a detached channel is logged and shown to nobody, and
the channel stays detached. -/
theorem C22_own_hidden (limit : Nat) (st : DtState M) (m : M) (highlight : Bool) (hd : st.detached = true) :
    dtReceive limit st m true highlight = some ({ st with log := st.log ++ [m] }, []) ∧
    dtStep limit st (.own m) = some ({ st with log := st.log ++ [m] }, []) ∧
    dtStep limit st .recvTag = some (st, []) := by
  refine ⟨?_, ?_, ?_⟩
  · unfold dtReceive dtProduce; simp [hd]
  · unfold dtStep dtProduce; simp [hd, updateChannelAutoDetach]
  · unfold dtStep; simp [hd]

/-- **C22** (reattachment): a message that brings a detached channel back makes it attached, and the clients are
shown the messages since it was detached (up to the limit) followed by that message. -/
theorem C22_reattach (limit : Nat) (st : DtState M) (m : M) (highlight : Bool) (p : Nat) (hd : st.detached = true)
    (hcl : st.clients = true) (hm : st.mark = some p) (hr : reattachWanted st.conf.reattachOn highlight = true)
    (hp : p ≤ st.log.length) (hlim : st.log.length - p ≤ limit) (hc : ∀ u, st.joined = some u → u.complete = true) :
    ∃ r, dtReceive limit st m false highlight = some r ∧ r.1.detached = false ∧ r.1.mark = none ∧
      r.1.log = st.log ++ [m] ∧ shownMsgs r.2 = List.range' p (st.log.length + 1 - p) ∧ DtOut.join ∈ r.2 := by
  have hyes : st.conf.reattachOn = .message ∨ (st.conf.reattachOn = .highlight ∧ highlight = true) := by
    cases h : st.conf.reattachOn <;> simp_all [reattachWanted]
  have hatt : ∃ r, attach limit st = some r := by
    unfold attach
    simp only [hd, hcl, Bool.not_true, Bool.false_eq_true, if_false, if_true]
    cases h : st.joined with
    | none => exact ⟨_, rfl⟩
    | some u => simp [hc u h]
  obtain ⟨a, ha⟩ := hatt
  have hs := shown_attach hd hcl hm ha
  obtain ⟨h1, _, h3⟩ := attach_some hd ha
  obtain ⟨pre, _, h3⟩ := h3 hcl
  unfold dtReceive handleDetachedMessage
  simp only [Bool.false_eq_true, if_false, hd, if_true, if_pos hyes, ha, Option.map_some]
  refine ⟨_, rfl, ?_, ?_, ?_, ?_, ?_⟩
  · unfold dtProduce; simp only; split <;> simp [h1]
  · unfold dtProduce; simp only; split <;> simp [h1]
  · unfold dtProduce; simp only; split <;> simp [h1]
  · rw [shown_append, shown_append, hs]
    have e1 : shownMsgs (if (st.clients && detachedMessageNeedsRelay st.conf.relayDetached highlight) = true then
        [DtOut.relay highlight st.log.length] else []) = [] := by split <;> rfl
    rw [e1, List.nil_append]
    unfold dtProduce
    have e2 : ∀ x : DtState M, x.clients = true → x.detached = false → x.log = st.log →
        shownMsgs (if (x.clients && !x.detached) = true then [DtOut.send x.log.length] else []) = [st.log.length] := by
      intro x h1 h2 h3; simp [h1, h2, h3, shownMsgs]
    rw [e2]
    · unfold latestAfter
      rw [show max p (st.log.length - limit) = p by omega]
      have hr := List.range'_append_1 (s := p) (m := st.log.length - p) (n := 1)
      rw [show p + (st.log.length - p) = st.log.length by omega] at hr
      rw [show List.range' st.log.length 1 = [st.log.length] from rfl] at hr
      rw [hr]; congr 1; omega
    · split <;> simp [h1, hcl]
    · split <;> simp [h1]
    · split <;> simp [h1]
  · simp [h3]

/-! ## What a client sees of a channel over a whole history -/

private structure DInv (n0 limit : Nat) (st : DtState M) (outs : List DtOut) : Prop where
  cl : st.clients = true
  len : n0 ≤ st.log.length
  att : st.detached = false → st.mark = none ∧ shownMsgs outs = List.range' n0 (st.log.length - n0)
  det : st.detached = true → ∃ p, st.mark = some p ∧ n0 ≤ p ∧ p ≤ st.log.length ∧ shownMsgs outs = List.range' n0 (p - n0)

private theorem range_join {a b c : Nat} (h1 : a ≤ b) (h2 : b ≤ c) :
    List.range' a (b - a) ++ List.range' b (c - b) = List.range' a (c - a) := by
  have hr := List.range'_append_1 (s := a) (m := b - a) (n := c - b)
  rw [show a + (b - a) = b by omega] at hr
  rw [hr]; congr 1; omega

private theorem dinv_uca {n0 limit : Nat} {st : DtState M} {outs : List DtOut} (i : DInv n0 limit st outs) :
    DInv n0 limit (updateChannelAutoDetach st) outs :=
  ⟨by simpa using i.cl, by simpa using i.len, by simpa using i.att, by simpa using i.det⟩

private theorem dinv_congr {n0 limit : Nat} {st st' : DtState M} {outs extra : List DtOut} (i : DInv n0 limit st outs)
    (h1 : st'.clients = st.clients) (h2 : st'.log = st.log) (h3 : st'.detached = st.detached) (h4 : st'.mark = st.mark)
    (h5 : shownMsgs extra = []) : DInv n0 limit st' (outs ++ extra) := by
  refine ⟨h1 ▸ i.cl, h2 ▸ i.len, ?_, ?_⟩
  · intro h; rw [shown_append, h5, List.append_nil, h4, h2]; exact i.att (h3 ▸ h)
  · intro h; rw [shown_append, h5, List.append_nil, h4, h2]; exact i.det (h3 ▸ h)

private theorem dinv_detach {n0 limit : Nat} {st : DtState M} {outs : List DtOut} (i : DInv n0 limit st outs) :
    DInv n0 limit (detach st).1 (outs ++ (detach st).2) := by
  unfold detach
  by_cases h : st.detached = true
  · rw [if_pos h, List.append_nil]; exact i
  · rw [if_neg h]
    have hf : st.detached = false := by simpa using h
    obtain ⟨_, hs⟩ := i.att hf
    refine ⟨i.cl, i.len, by simp, fun _ => ⟨st.log.length, rfl, i.len, Nat.le_refl _, ?_⟩⟩
    rw [shown_append, hs]
    split <;> simp [shownMsgs]

private theorem dinv_attach {n0 limit : Nat} {st : DtState M} {outs : List DtOut} {r : DtState M × List DtOut}
    (i : DInv n0 limit st outs) (hlim : ∀ p, st.mark = some p → st.log.length - p ≤ limit)
    (h : attach limit st = some r) : DInv n0 limit r.1 (outs ++ r.2) := by
  by_cases hd : st.detached = true
  · obtain ⟨p, hp, hp1, hp2, hs⟩ := i.det hd
    have hs' := shown_attach hd i.cl hp h
    obtain ⟨h1, _⟩ := attach_some hd h
    rw [h1]
    refine ⟨by simpa using i.cl, by simpa using i.len, ?_, by simp⟩
    intro _
    refine ⟨by simp, ?_⟩
    rw [shown_append, hs, hs']
    unfold latestAfter
    have := hlim p hp
    rw [show max p (st.log.length - limit) = p by omega]
    simpa using range_join hp1 hp2
  · have : st.detached = false := by simpa using hd
    unfold attach at h
    simp only [this, Bool.not_false, if_true, Option.some.injEq] at h
    subst h
    simpa using i

private theorem dinv_produce {n0 limit : Nat} {st : DtState M} {outs : List DtOut} (i : DInv n0 limit st outs) (m : M) :
    DInv n0 limit (dtProduce st m).1 (outs ++ (dtProduce st m).2) := by
  unfold dtProduce
  have hl := i.len
  refine ⟨i.cl, by simp; omega, ?_, ?_⟩
  · intro h
    simp only at h
    obtain ⟨h1, h2⟩ := i.att h
    refine ⟨h1, ?_⟩
    rw [shown_append, h2]
    simp only [i.cl, h, Bool.not_false, Bool.and_self, if_true, List.length_append, List.length_singleton]
    have := range_join (a := n0) (b := st.log.length) (c := st.log.length + 1) hl (by omega)
    rw [show st.log.length + 1 - st.log.length = 1 by omega] at this
    exact this
  · intro h
    simp only at h
    obtain ⟨p, h1, h2, h3, h4⟩ := i.det h
    refine ⟨p, h1, h2, by simp; omega, ?_⟩
    rw [shown_append, h4]
    simp [h, shownMsgs]

private theorem dinv_step {n0 limit : Nat} {st : DtState M} {outs : List DtOut} {r : DtState M × List DtOut}
    (i : DInv n0 limit st outs) (hlim : ∀ p, st.mark = some p → st.log.length - p ≤ limit) (op : DtOp M)
    (h : dtStep limit st op = some r) : DInv n0 limit r.1 (outs ++ r.2) := by
  cases op with
  | recv m self hl =>
    simp only [dtStep, dtReceive] at h
    split at h
    · simp only [Option.some.injEq] at h; subst h; exact dinv_produce i m
    · rename_i hself
      obtain ⟨a, ha, rfl⟩ := Option.map_eq_some_iff.1 h
      have ia : DInv n0 limit a.1 (outs ++ a.2) := by
        split at ha
        · rename_i hd
          unfold handleDetachedMessage at ha
          simp only at ha
          generalize hrel : (if (st.clients && detachedMessageNeedsRelay st.conf.relayDetached hl) = true then
            [DtOut.relay hl st.log.length] else []) = rel at ha
          have hrs : shownMsgs rel = [] := by rw [← hrel]; split <;> rfl
          split at ha
          · obtain ⟨b, hb, rfl⟩ := Option.map_eq_some_iff.1 ha
            have := dinv_attach (dinv_congr (extra := rel) i rfl rfl rfl rfl hrs) hlim hb
            simpa [List.append_assoc] using this
          · simp only [Option.some.injEq] at ha
            subst ha
            exact dinv_congr i rfl rfl rfl rfl hrs
        · simp only [Option.some.injEq] at ha
          subst ha
          simpa using i
      simp only
      rw [← List.append_assoc]
      apply dinv_produce
      split
      · exact dinv_uca ia
      · exact ia
  | recvTag =>
    simp only [dtStep, Option.some.injEq] at h; subst h
    exact dinv_congr i rfl rfl rfl rfl (by simp only; split <;> rfl)
  | own m =>
    simp only [dtStep, Option.some.injEq] at h; subst h
    exact dinv_uca (dinv_produce i m)
  | cmdDetach => simp only [dtStep, Option.some.injEq] at h; subst h; exact dinv_detach i
  | cmdAttach => exact dinv_attach i hlim h
  | configure conf =>
    simp only [dtStep, Option.some.injEq] at h; subst h
    exact dinv_uca (dinv_congr i rfl rfl rfl rfl rfl)
  | srvJoin =>
    simp only [dtStep, Option.some.injEq] at h; subst h
    exact dinv_uca (dinv_congr i rfl rfl rfl rfl rfl)
  | srvEndOfNames =>
    simp only [dtStep, Option.some.injEq] at h; subst h
    exact dinv_congr i rfl rfl rfl rfl (by simp only; split <;> rfl)
  | srvPart => simp only [dtStep, Option.some.injEq] at h; subst h; exact dinv_congr i rfl rfl rfl rfl rfl
  | srvKick => simp only [dtStep, Option.some.injEq] at h; subst h; exact dinv_congr i rfl rfl rfl rfl rfl
  | disconnect => simp only [dtStep, Option.some.injEq] at h; subst h; exact dinv_congr i rfl rfl rfl rfl rfl
  | update => simp only [dtStep, Option.some.injEq] at h; subst h; exact dinv_congr i rfl rfl rfl rfl rfl
  | tick n => simp only [dtStep, Option.some.injEq] at h; subst h; exact dinv_congr i rfl rfl rfl rfl rfl
  | deliver =>
    simp only [dtStep] at h
    split at h
    · simp only [Option.some.injEq] at h; subst h; simpa using i
    · simp only [Option.some.injEq] at h; subst h
      exact dinv_detach ⟨i.cl, i.len, i.att, i.det⟩

/-- In every intermediate state, at most `limit` messages have been logged since the channel was detached. -/
def DetachedWithinLimit (limit : Nat) (st : DtState M) (ops : List (DtOp M)) : Prop :=
  ∀ k r, dtRun limit st (ops.take k) = some r → ∀ p, r.1.mark = some p → r.1.log.length - p ≤ limit

/-- **C22** (whole histories): over any history of messages, detachments, reattachments, joins, disconnections, changes
of the network's settings and timers that does not crash, a client that is there all along is shown the messages of the channel in order, each
exactly once: all of them when the channel is attached, those up to its detachment when it is detached. -/
theorem C22_history (limit : Nat) (ops : List (DtOp M)) (st : DtState M) (r : DtState M × List DtOut)
    (hd : st.detached = false) (hm : st.mark = none) (hcl : st.clients = true)
    (hlim : DetachedWithinLimit limit st ops) (h : dtRun limit st ops = some r) :
    (r.1.detached = false →
      shownMsgs r.2 = List.range' st.log.length (r.1.log.length - st.log.length)) ∧
    (r.1.detached = true → ∃ p, r.1.mark = some p ∧ p ≤ r.1.log.length ∧
      shownMsgs r.2 = List.range' st.log.length (p - st.log.length)) := by
  have gen : ∀ (ops : List (DtOp M)) (s : DtState M) (outs : List DtOut) (r : DtState M × List DtOut),
      DInv st.log.length limit s outs → DetachedWithinLimit limit s ops → dtRun limit s ops = some r →
      DInv st.log.length limit r.1 (outs ++ r.2) := by
    intro ops
    induction ops with
    | nil => intro s outs r i _ h; simp only [dtRun, Option.some.injEq] at h; subst h; simpa using i
    | cons op ops ih =>
      intro s outs r i hlim h
      simp only [dtRun] at h
      cases hs : dtStep limit s op with
      | none => rw [hs] at h; cases h
      | some a =>
        rw [hs] at h
        simp only at h
        obtain ⟨b, hb, rfl⟩ := Option.map_eq_some_iff.1 h
        have ia := dinv_step i (hlim 0 (s, []) rfl) op hs
        have := ih a.1 (outs ++ a.2) b ia (fun k r' hk p hp => by
          refine hlim (k + 1) (r'.1, a.2 ++ r'.2) ?_ p hp
          simp only [List.take_succ_cons, dtRun, hs, hk, Option.map_some]) hb
        simpa [List.append_assoc] using this
  have i0 : DInv st.log.length limit st [] :=
    ⟨hcl, Nat.le_refl _, fun _ => ⟨hm, by simp [shownMsgs]⟩, fun h => by simp [hd] at h⟩
  have i := gen ops st [] r i0 hlim h
  rw [List.nil_append] at i
  refine ⟨fun h => (i.att h).2, fun h => ?_⟩
  obtain ⟨p, h1, _, h2, h3⟩ := i.det h
  exact ⟨p, h1, h2, h3⟩

/-! ## A crash -/

private def conf0 : ChanConf := ⟨.default, .message, 10, .default⟩
private def chan0 : DtState Nat := ⟨conf0, true, false, none, [], none, [], 0, 0⟩

/-- The code does not always manage to attach: while the list of members of the channel is still being received, a
message that brings the channel back, or a client's JOIN, makes the user's goroutine panic. -/
theorem C22_attach_crash_violated :
    dtRun 4000 chan0 [.cmdDetach, .srvJoin, .recv 1 false false] = none ∧
    dtRun 4000 chan0 [.cmdDetach, .srvJoin, .cmdAttach] = none := by decide

/-- The only thing that can crash is attaching a channel whose list of members is not complete. -/
theorem C22_crash_only_incomplete (limit : Nat) (st : DtState M) (op : DtOp M)
    (h : dtStep limit st op = none) : st.detached = true ∧ ∃ u, st.joined = some u ∧ u.complete = false := by
  have hatt : ∀ s : DtState M, attach limit s = none → s.detached = true ∧ ∃ u, s.joined = some u ∧ u.complete = false := by
    intro s h
    unfold attach at h
    by_cases hd : s.detached = true
    · refine ⟨hd, ?_⟩
      simp only [hd, Bool.not_true, Bool.false_eq_true, if_false] at h
      split at h
      · split at h
        · rename_i u hu
          split at h
          · cases h
          · rename_i hc; exact ⟨u, hu, by simpa using hc⟩
        · cases h
      · cases h
    · have : s.detached = false := by simpa using hd
      simp [this] at h
  cases op with
  | recv m self hl =>
    simp only [dtStep, dtReceive] at h
    split at h
    · cases h
    · rw [Option.map_eq_none_iff] at h
      split at h
      · unfold handleDetachedMessage at h
        simp only at h
        split at h
        · exact hatt st (Option.map_eq_none_iff.1 h)
        · cases h
      · cases h
  | cmdAttach => exact hatt st h
  | deliver => simp only [dtStep] at h; split at h <;> cases h
  | _ => simp [dtStep] at h

/-- A history that meets the hypotheses: detached, two messages missed, brought back by a third one. -/
example : (dtRun 4000 { chan0 with conf := ⟨.default, .highlight, 10, .default⟩ }
      [.srvJoin, .srvEndOfNames, .recv 1 false false, .cmdDetach, .recv 2 false false, .own 3,
       .recv 4 false true]).map (fun r => (r.1.detached, shownMsgs r.2))
    = some (false, [0, 1, 2, 3]) := by decide

example : ∃ st : DtState Nat, st.detached = true ∧ reattachWanted st.conf.reattachOn false = false ∧
    st.clients = true ∧ relayWanted st.conf.relayDetached true = true :=
  ⟨⟨⟨.default, .none, 10, .default⟩, true, true, some 0, [], none, [], 0, 0⟩, by decide⟩

/-! ## C61: auto-detach -/

/-- The time that passes during some events. -/
def elapsed : List (DtOp M) → Nat
  | [] => 0
  | .tick n :: ops => n + elapsed ops
  | _ :: ops => elapsed ops

/-- An event that leaves no timer of the channel behind: no JOIN of a channel the user is already in, no KICK while
the timer of the channel runs; and `detach-after` stays the same when the channel's settings are changed. -/
def smoothOp (after : Nat) (st : DtState M) : DtOp M → Prop
  | .srvKick => st.joined.bind (·.timer) = none
  | .srvJoin => st.joined = none
  | .configure conf => conf.detachAfter = after
  | _ => True

/-- Something that restarts the auto-detach timer of the (attached) channel: the user speaks or comes back, or a
message the `detach-on` setting asks for is received. -/
def isActivity (conf : ChanConf) : DtOp M → Bool
  | .own _ => true
  | .recv _ self highlight => !self && (decide (conf.detachOn = .message) || decide (conf.detachOn = .default) ||
      (decide (conf.detachOn = .highlight) && highlight))
  | _ => false

private structure TInv (t0 D : Nat) (st : DtState M) : Prop where
  conf : st.conf.detachAfter = D
  timer : ∀ u d, st.joined = some u → u.timer = some d → t0 + D ≤ d
  stray : st.stray = []
  queue : 0 < st.queued → t0 + D ≤ st.now
  now : t0 ≤ st.now

private theorem tinv_uca {t0 D : Nat} {st : DtState M} (i : TInv t0 D st) : TInv t0 D (updateChannelAutoDetach st) := by
  refine ⟨by simpa using i.conf, ?_, by simpa using i.stray, by simpa using i.queue, by simpa using i.now⟩
  intro u d hu hd
  unfold updateChannelAutoDetach at hu
  split at hu
  · exact i.timer u d hu hd
  · obtain ⟨u', hu', rfl⟩ := Option.map_eq_some_iff.1 hu
    simp only [updateAutoDetach] at hd
    split at hd
    · cases hd
    · simp only [Option.some.injEq] at hd
      have := i.now; have := i.conf; omega

private theorem tinv_detach {t0 D : Nat} {st : DtState M} (i : TInv t0 D st) : TInv t0 D (detach st).1 := by
  unfold detach
  split
  · exact i
  · refine ⟨i.conf, ?_, i.stray, i.queue, i.now⟩
    intro u d hu hd
    obtain ⟨u', hu', rfl⟩ := Option.map_eq_some_iff.1 hu
    simp [updateAutoDetach] at hd

private theorem tinv_attach {t0 D limit : Nat} {st : DtState M} {r : DtState M × List DtOut} (i : TInv t0 D st)
    (h : attach limit st = some r) : TInv t0 D r.1 := by
  by_cases hd : st.detached = true
  · rw [(attach_some hd h).1]
    exact tinv_uca ⟨i.conf, i.timer, i.stray, i.queue, i.now⟩
  · have : st.detached = false := by simpa using hd
    unfold attach at h
    simp only [this, Bool.not_false, if_true, Option.some.injEq] at h
    subst h
    exact i

private theorem tinv_step {t0 D limit : Nat} {st : DtState M} {r : DtState M × List DtOut} (i : TInv t0 D st)
    (op : DtOp M) (hp : smoothOp D st op) (h : dtStep limit st op = some r) : TInv t0 D r.1 := by
  have prod : ∀ (s : DtState M) (m : M), TInv t0 D s → TInv t0 D (dtProduce s m).1 :=
    fun s m i => ⟨i.conf, i.timer, i.stray, i.queue, i.now⟩
  cases op with
  | recv m self hl =>
    simp only [dtStep, dtReceive] at h
    split at h
    · simp only [Option.some.injEq] at h; subst h; exact prod _ _ i
    · obtain ⟨a, ha, rfl⟩ := Option.map_eq_some_iff.1 h
      have ia : TInv t0 D a.1 := by
        split at ha
        · unfold handleDetachedMessage at ha
          simp only at ha
          split at ha
          · obtain ⟨b, hb, rfl⟩ := Option.map_eq_some_iff.1 ha
            exact tinv_attach (r := b) i hb
          · simp only [Option.some.injEq] at ha; subst ha; exact i
        · simp only [Option.some.injEq] at ha; subst ha; exact i
      apply prod
      split
      · exact tinv_uca ia
      · exact ia
  | recvTag => simp only [dtStep, Option.some.injEq] at h; subst h; exact i
  | own m => simp only [dtStep, Option.some.injEq] at h; subst h; exact tinv_uca (prod _ _ i)
  | cmdDetach => simp only [dtStep, Option.some.injEq] at h; subst h; exact tinv_detach i
  | cmdAttach => exact tinv_attach i h
  | configure conf =>
    simp only [dtStep, Option.some.injEq] at h; subst h
    exact tinv_uca ⟨hp, i.timer, i.stray, i.queue, i.now⟩
  | srvJoin =>
    simp only [dtStep, Option.some.injEq] at h; subst h
    have hj : st.joined = none := hp
    refine tinv_uca ⟨i.conf, ?_, by simp [dropTimer, hj, i.stray], i.queue, i.now⟩
    intro u d hu hd
    simp only [Option.some.injEq] at hu
    subst hu; cases hd
  | srvEndOfNames =>
    simp only [dtStep, Option.some.injEq] at h; subst h
    refine ⟨i.conf, ?_, i.stray, i.queue, i.now⟩
    intro u d hu hd
    obtain ⟨u', hu', rfl⟩ := Option.map_eq_some_iff.1 hu
    exact i.timer u' d hu' hd
  | srvPart =>
    simp only [dtStep, Option.some.injEq] at h; subst h
    exact ⟨i.conf, by simp, i.stray, i.queue, i.now⟩
  | srvKick =>
    simp only [dtStep, Option.some.injEq] at h; subst h
    have hj : st.joined.bind (·.timer) = none := hp
    exact ⟨i.conf, by simp, by simp [dropTimer, hj, i.stray], i.queue, i.now⟩
  | disconnect =>
    simp only [dtStep, Option.some.injEq] at h; subst h
    exact ⟨i.conf, by simp, i.stray, i.queue, i.now⟩
  | update =>
    simp only [dtStep, Option.some.injEq] at h; subst h
    exact ⟨i.conf, by simp, rfl, by simp, i.now⟩
  | tick n =>
    simp only [dtStep, Option.some.injEq] at h; subst h
    have hnow := i.now
    refine ⟨i.conf, ?_, by simp [dtTick, i.stray], ?_, by simp [dtTick]; omega⟩
    · intro u d hu hd
      simp only [dtTick] at hu
      have : ∀ due : Bool, (if due = true then st.joined.map (fun u => { u with timer := none }) else st.joined) = some u →
          t0 + D ≤ d := by
        intro due hu
        split at hu
        · obtain ⟨u', hu', rfl⟩ := Option.map_eq_some_iff.1 hu
          simp at hd
        · exact i.timer u d hu hd
      exact this _ hu
    · intro hq
      simp only [dtTick, i.stray, List.filter_nil, List.length_nil, Nat.add_zero] at hq ⊢
      by_cases hq0 : 0 < st.queued
      · have := i.queue hq0; omega
      · cases hj : st.joined with
        | none => rw [hj] at hq; simp at hq; omega
        | some u =>
          obtain ⟨c, tm⟩ := u
          cases tm with
          | none => rw [hj] at hq; simp at hq; omega
          | some d =>
            rw [hj] at hq
            have := i.timer ⟨c, some d⟩ d hj rfl
            by_cases hdue : d ≤ st.now + n
            · omega
            · simp [hdue] at hq; omega
  | deliver =>
    simp only [dtStep] at h
    split at h
    · simp only [Option.some.injEq] at h; subst h; exact i
    · simp only [Option.some.injEq] at h; subst h
      exact tinv_detach ⟨i.conf, i.timer, i.stray, fun _ => i.queue (by omega), i.now⟩

private theorem dtRun_now (limit : Nat) (ops : List (DtOp M)) : ∀ (st : DtState M) (r : DtState M × List DtOut),
    dtRun limit st ops = some r → r.1.now = st.now + elapsed ops := by
  have hstep : ∀ (st : DtState M) (op : DtOp M) (r : DtState M × List DtOut), dtStep limit st op = some r →
      r.1.now = st.now + elapsed [op] := by
    have hatt : ∀ (s : DtState M) r, attach limit s = some r → r.1.now = s.now := by
      intro s r h
      by_cases hd : s.detached = true
      · rw [(attach_some hd h).1]; simp
      · have : s.detached = false := by simpa using hd
        unfold attach at h
        simp only [this, Bool.not_false, if_true, Option.some.injEq] at h
        subst h; rfl
    have hdet : ∀ s : DtState M, (detach s).1.now = s.now := by
      intro s; unfold detach; split <;> rfl
    intro st op r h
    cases op with
    | recv m self hl =>
      simp only [dtStep, dtReceive] at h
      split at h
      · simp only [Option.some.injEq] at h; subst h; rfl
      · obtain ⟨a, ha, rfl⟩ := Option.map_eq_some_iff.1 h
        have : a.1.now = st.now := by
          split at ha
          · unfold handleDetachedMessage at ha
            simp only at ha
            split at ha
            · obtain ⟨b, hb, rfl⟩ := Option.map_eq_some_iff.1 ha
              exact hatt _ b hb
            · simp only [Option.some.injEq] at ha; subst ha; rfl
          · simp only [Option.some.injEq] at ha; subst ha; rfl
        simp only [dtProduce, elapsed, Nat.add_zero]
        split <;> simp [this]
    | cmdAttach => exact hatt _ _ h
    | cmdDetach => simp only [dtStep, Option.some.injEq] at h; subst h; exact hdet _
    | deliver =>
      simp only [dtStep] at h
      split at h
      · simp only [Option.some.injEq] at h; subst h; rfl
      · simp only [Option.some.injEq] at h; subst h; exact hdet _
    | _ => simp only [dtStep, Option.some.injEq] at h; subst h; simp [elapsed, dtTick, dtProduce]
  have hel : ∀ (op : DtOp M) ops, elapsed (op :: ops) = elapsed [op] + elapsed ops := by
    intro op ops; cases op <;> simp [elapsed]
  induction ops with
  | nil => intro st r h; simp only [dtRun, Option.some.injEq] at h; subst h; rfl
  | cons op ops ih =>
    intro st r h
    simp only [dtRun] at h
    cases hs : dtStep limit st op with
    | none => rw [hs] at h; cases h
    | some a =>
      rw [hs] at h
      simp only at h
      obtain ⟨b, hb, rfl⟩ := Option.map_eq_some_iff.1 h
      have := ih _ _ hb
      have := hstep _ _ _ hs
      rw [hel]; simp only; omega

/-- **C61** (partial: without a KICK while the timer runs and without a JOIN of a channel the user is in, see the
witnesses below): after activity in an attached channel whose timer has not fired yet, the channel is not detached by
itself before `detach-after` has passed.  In between the user may leave and join the channel, the connection may be
lost and come back, the settings of the network and the other settings of the channel may change. -/
theorem C61_auto_detach_waits_partial (limit : Nat) (st : DtState M) (ev : DtOp M) (ops : List (DtOp M))
    (r1 r2 r3 : DtState M × List DtOut) (hact : isActivity st.conf ev = true) (hdet : st.detached = false)
    (hstray : st.stray = []) (hq : st.queued = 0) 
    (hsmooth : ∀ pre op post s, ops = pre ++ op :: post → dtRun limit r1.1 pre = some s →
      smoothOp st.conf.detachAfter s.1 op)
    (h1 : dtStep limit st ev = some r1) (h2 : dtRun limit r1.1 ops = some r2)
    (h3 : dtStep limit r2.1 .deliver = some r3) (hbefore : r2.1.detached = false) (hafter : r3.1.detached = true) :
    st.conf.detachAfter ≤ elapsed ops := by
  have t1 : TInv st.now st.conf.detachAfter r1.1 ∧ r1.1.now = st.now := by
    have upd : ∀ s : DtState M, s.detached = false → s.conf = st.conf → s.now = st.now → s.stray = [] → s.queued = 0 →
        TInv st.now st.conf.detachAfter (updateChannelAutoDetach s) := by
      intro s h1 h2 h3 h4 h5
      refine ⟨by simp [h2], ?_, by simp [h4], by simp [h5], by simp [h3]⟩
      intro u d hu hd
      unfold updateChannelAutoDetach at hu
      rw [h1] at hu
      simp only [Bool.false_eq_true, if_false] at hu
      obtain ⟨u', hu', rfl⟩ := Option.map_eq_some_iff.1 hu
      simp only [updateAutoDetach] at hd
      split at hd
      · cases hd
      · simp only [Option.some.injEq] at hd
        rw [h2, h3] at hd; omega
    cases ev with
    | own m =>
      simp only [dtStep, Option.some.injEq] at h1; subst h1
      exact ⟨upd _ hdet rfl rfl hstray hq, by simp [dtProduce]⟩
    | recv m self hl =>
      simp only [isActivity, Bool.and_eq_true, Bool.not_eq_true', Bool.or_eq_true, decide_eq_true_eq] at hact
      obtain ⟨hself, hf⟩ := hact
      subst hself
      simp only [dtStep, dtReceive, Bool.false_eq_true, if_false, hdet, Option.map_some, Option.some.injEq] at h1
      have hf' : st.conf.detachOn = .message ∨ st.conf.detachOn = .default ∨ (st.conf.detachOn = .highlight ∧ hl = true) := by
        rcases hf with (h | h) | h
        · exact Or.inl h
        · exact Or.inr (Or.inl h)
        · exact Or.inr (Or.inr h)
      rw [if_pos hf'] at h1
      subst h1
      have := upd st hdet rfl rfl hstray hq
      exact ⟨⟨this.conf, this.timer, this.stray, this.queue, this.now⟩, by simp [dtProduce]⟩
    | _ => simp [isActivity] at hact
  have gen : ∀ (ops : List (DtOp M)) (s : DtState M) (r : DtState M × List DtOut), TInv st.now st.conf.detachAfter s →
      (∀ pre op post s', ops = pre ++ op :: post → dtRun limit s pre = some s' →
        smoothOp st.conf.detachAfter s'.1 op) → dtRun limit s ops = some r → TInv st.now st.conf.detachAfter r.1 := by
    intro ops
    induction ops with
    | nil => intro s r i _ h; simp only [dtRun, Option.some.injEq] at h; subst h; exact i
    | cons op ops ih =>
      intro s r i hp h
      simp only [dtRun] at h
      cases hs : dtStep limit s op with
      | none => rw [hs] at h; cases h
      | some a =>
        rw [hs] at h
        simp only at h
        obtain ⟨b, hb, rfl⟩ := Option.map_eq_some_iff.1 h
        refine ih a.1 b (tinv_step i op (hp [] op ops (s, []) rfl rfl) hs) ?_ hb
        intro pre o post s' he hr
        refine hp (op :: pre) o post (s'.1, a.2 ++ s'.2) (by rw [he]; rfl) ?_
        simp only [dtRun, hs, hr, Option.map_some]
  have i := gen ops r1.1 r2 t1.1 hsmooth h2
  have hnow := dtRun_now limit ops _ _ h2
  have hqpos : 0 < r2.1.queued := by
    rcases Nat.eq_zero_or_pos r2.1.queued with h | h
    · simp only [dtStep, h, if_true, Option.some.injEq] at h3
      subst h3
      rw [hbefore] at hafter; cases hafter
    · exact h
  have := i.queue hqpos
  omega

/-- The hypotheses hold for a channel that does get detached: `detach-after` is 10, and 10 units pass. -/
example : ∃ r, dtRun 4000 chan0 [.srvJoin, .srvEndOfNames, .tick 5, .own 1, .tick 6, .tick 4, .deliver] = some r ∧
    r.1.detached = true := by refine ⟨_, rfl, ?_⟩; decide

/-- So do they when the user leaves the channel and joins it again, and the settings of the network are changed. -/
example : ∀ pre op post s,
    ([.tick 6, .srvPart, .srvJoin, .update, .srvJoin, .tick 10] : List (DtOp Nat)) = pre ++ op :: post →
    dtRun 4000 { chan0 with joined := some ⟨true, some 10⟩ } pre = some s → smoothOp 10 s.1 op := by
  intro pre op post s he hr
  rcases pre with _ | ⟨a, _ | ⟨b, _ | ⟨c, _ | ⟨d, _ | ⟨e, _ | ⟨f, pre⟩⟩⟩⟩⟩⟩ <;>
    simp only [List.cons_append, List.nil_append, List.cons.injEq] at he
  · obtain ⟨rfl, -⟩ := he; trivial
  · obtain ⟨rfl, rfl, -⟩ := he; trivial
  · obtain ⟨rfl, rfl, rfl, -⟩ := he; cases hr; rfl
  · obtain ⟨rfl, rfl, rfl, rfl, -⟩ := he; trivial
  · obtain ⟨rfl, rfl, rfl, rfl, rfl, -⟩ := he; cases hr; rfl
  · obtain ⟨rfl, rfl, rfl, rfl, rfl, rfl, -⟩ := he; trivial
  · simp at he

/-- The full claim fails: the timer of a channel we have been kicked from keeps running.  Here the channel is
detached 1 unit after being joined again and spoken in, with `detach-after` 10. -/
theorem C61_kick_timer_violated :
    (dtRun 4000 chan0 [.srvJoin, .srvEndOfNames, .own 1, .tick 9, .srvKick, .srvJoin, .srvEndOfNames, .own 2,
      .tick 1, .deliver]).map (fun r => r.1.detached) = some true := by decide

/-- It also fails because a timer that has just fired cannot be stopped: a message processed before the timer's
event does not prevent the detachment. -/
theorem C61_stale_event_violated :
    (dtRun 4000 chan0 [.srvJoin, .srvEndOfNames, .own 1, .tick 10, .own 2, .deliver]).map (fun r => r.1.detached)
      = some true := by decide

end Verif.Props
