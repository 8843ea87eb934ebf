import Verif.Model.PendingCmds
import Verif.Proof.GoMap
import Verif.Proof.Util

/-! # C17: serialized upstream queries -/

namespace Verif.Props
open Verif.Model Verif.Proof

/-- What happens on one upstream connection while it is up. -/
inductive QOp where
  /-- a client issues a query -/
  | query (client : Nat) (msg : Msg) (now : Nat)
  /-- the server ends its reply to a kind of query -/
  | reply (kind : Str) (now : Nat)
  /-- a client disconnects -/
  | gone (client : Nat)
deriving DecidableEq, Repr

/-- What the bouncer does: sends a query upstream, or takes a reply as being for a query. -/
inductive QOut where
  | sent (client : Nat) (msg : Msg)
  | answered (client : Nat) (msg : Msg)
deriving DecidableEq, Repr

/-- One event, on the model. -/
def qStep (p : PendingCmds) : QOp → Option (PendingCmds × List QOut)
  | .query c m now => (enqueueCommand p c m now).map
      (fun r => (r.1, r.2.map (fun s => .sent s.client s.msg)))
  | .reply k now =>
    let r := dequeueCommand p k now
    some (r.1, (r.2.1.map (fun c => QOut.answered c.downstreamID c.msg)).toList
      ++ r.2.2.map (fun s => .sent s.client s.msg))
  | .gone c => some (cancelPending p c, [])

/-- A history, from a fresh connection, with everything the bouncer did; `none` is a crash. -/
def qRun : List QOp → Option (PendingCmds × List QOut) :=
  List.foldl (fun acc op => acc.bind (fun s => (qStep s.1 op).map (fun r => (r.1, s.2 ++ r.2)))) (some ([], []))

/-- The queries of one kind that clients issued, in order. -/
def issued (kind : Str) (ops : List QOp) : List (Nat × Msg) :=
  ops.filterMap (fun op => match op with
    | .query c m _ => if m.command = kind then some (c, m) else none
    | _ => none)

/-- The queries of one kind sent upstream, in order. -/
def sentOf (kind : Str) (outs : List QOut) : List (Nat × Msg) :=
  outs.filterMap (fun o => match o with
    | .sent c m => if m.command = kind then some (c, m) else none
    | _ => none)

/-- The queries of one kind that got their reply, in order. -/
def answeredOf (kind : Str) (outs : List QOut) : List (Nat × Msg) :=
  outs.filterMap (fun o => match o with
    | .answered c m => if m.command = kind then some (c, m) else none
    | _ => none)

/-- The commands clients can issue. -/
def QueryKinds : List Str := [b!"LIST", b!"WHO", b!"WHOIS", b!"AUTHENTICATE", b!"REGISTER", b!"VERIFY"]

/-- The server never leaves a query unanswered for over 30 seconds while another one of the same kind
arrives. -/
def Timely (ops : List QOp) : Prop :=
  ∀ pre c m now suf, ops = pre ++ .query c m now :: suf → ∀ p outs, qRun pre = some (p, outs) →
    ∀ h ∈ (pendingOf p m.command).head?, ∀ t, h.sentAt = some t → now - t ≤ 30000000000

private def pm (c : PendingCmd) : Nat × Msg := (c.downstreamID, c.msg)

private structure QInv (ops : List QOp) (p : PendingCmds) (outs : List QOut) : Prop where
  keys : (p.map Prod.fst).Nodup
  kind : ∀ k c, c ∈ pendingOf p k → c.msg.command = k
  sent : ∀ k, sentOf k outs = answeredOf k outs ++ ((pendingOf p k).take 1).map pm
  sub : ∀ k, List.Sublist (sentOf k outs ++ ((pendingOf p k).drop 1).map pm) (issued k ops)
  cl : ∀ k c, QOp.gone c ∉ ops → (sentOf k outs ++ ((pendingOf p k).drop 1).map pm).filter (fun x => decide (x.1 = c))
      = (issued k ops).filter (fun x => decide (x.1 = c))

private theorem pendingOf_set (p : PendingCmds) (k k' : Str) (l : List PendingCmd) :
    pendingOf (GoMap.set p k l) k' = if k = k' then l else pendingOf p k' := by
  unfold pendingOf
  rw [mget_mset]
  split <;> simp

private theorem pendingOf_cancel (p : PendingCmds) (c : Nat) (k : Str) :
    pendingOf (cancelPending p c) k = cancelTail c (pendingOf p k) := by
  unfold pendingOf cancelPending
  induction p with
  | nil => rfl
  | cons e p ih =>
    simp only [List.map_cons, GoMap.get] at ih ⊢
    split <;> simp_all [cancelTail]

private theorem qRun_snoc (ops : List QOp) (op : QOp) :
    qRun (ops ++ [op]) = (qRun ops).bind (fun s => (qStep s.1 op).map (fun r => (r.1, s.2 ++ r.2))) := by
  unfold qRun; rw [List.foldl_append]; rfl

private theorem issued_append (k : Str) (a b : List QOp) : issued k (a ++ b) = issued k a ++ issued k b := by
  unfold issued; rw [List.filterMap_append]

private theorem sentOf_append (k : Str) (a b : List QOut) : sentOf k (a ++ b) = sentOf k a ++ sentOf k b := by
  unfold sentOf; rw [List.filterMap_append]

private theorem answeredOf_append (k : Str) (a b : List QOut) :
    answeredOf k (a ++ b) = answeredOf k a ++ answeredOf k b := by
  unfold answeredOf; rw [List.filterMap_append]

private theorem qinv (ops : List QOp) (ht : Timely ops) :
    ∀ p outs, qRun ops = some (p, outs) → QInv ops p outs := by
  induction ops using snocInd with
  | nil =>
    intro p outs h
    simp only [qRun, List.foldl_nil, Option.some.injEq, Prod.mk.injEq] at h
    obtain ⟨rfl, rfl⟩ := h
    exact ⟨by simp, by simp [pendingOf, GoMap.get], by simp [sentOf, answeredOf, pendingOf, GoMap.get],
      by simp [sentOf, issued, pendingOf, GoMap.get], by simp [sentOf, issued, pendingOf, GoMap.get]⟩
  | snoc ops op ih =>
    intro p outs h
    have ht' : Timely ops := by
      intro pre c m now suf he
      exact ht pre c m now (suf ++ [op]) (by rw [he]; simp)
    rw [qRun_snoc] at h
    cases hr : qRun ops with
    | none => rw [hr] at h; simp at h
    | some s =>
      obtain ⟨p0, outs0⟩ := s
      have inv := ih ht' p0 outs0 hr
      rw [hr] at h
      simp only [Option.bind_some] at h
      cases op with
      | query c m now =>
        have hfresh := ht ops c m now [] rfl p0 outs0 hr
        simp only [qStep, enqueueCommand] at h
        split at h
        · rename_i hm
          have hst : pendingStale now ((pendingOf p0 m.command ++ [(⟨c, m, none⟩ : PendingCmd)]).head?.bind (·.sentAt)) = false := by
            cases hp : pendingOf p0 m.command with
            | nil => rfl
            | cons a l =>
              simp only [List.cons_append, List.head?_cons, Option.bind_some]
              unfold pendingStale
              cases hs : a.sentAt with
              | none => rfl
              | some t =>
                have := hfresh a (by rw [hp]; simp) t hs
                simp; omega
          simp only [hst, Bool.false_eq_true, if_false] at h
          cases hp : pendingOf p0 m.command with
          | nil =>
            simp only [hp, List.nil_append, List.length_cons, List.length_nil, if_true,
              sendNextPendingCommand, pendingOf_set, Option.map_some, Option.some.injEq, Prod.mk.injEq,
              List.map_cons, List.map_nil] at h
            obtain ⟨rfl, rfl⟩ := h
            refine ⟨?_, ?_, ?_, ?_, ?_⟩
            · exact mset_nodup (mset_nodup inv.keys _ _) _ _
            · intro k c' hc'
              rw [pendingOf_set, pendingOf_set] at hc'
              split at hc'
              · rename_i hk
                simp at hc'; rw [hc']; exact hk
              · exact inv.kind k c' hc'
            · intro k
              rw [sentOf_append, answeredOf_append, pendingOf_set, pendingOf_set, inv.sent k]
              by_cases hk : m.command = k
              · subst hk; simp [hp, sentOf, answeredOf, pm]
              · simp [hk, sentOf, answeredOf]
            · intro k
              rw [sentOf_append, issued_append, pendingOf_set, pendingOf_set]
              have := inv.sub k
              by_cases hk : m.command = k
              · subst hk; simp [hp] at this; simpa [sentOf, issued] using List.Sublist.append this (List.Sublist.refl [(c, m)])
              · simpa [hk, sentOf, issued] using this
            · intro k c' hc'
              rw [sentOf_append, issued_append, pendingOf_set, pendingOf_set]
              have := inv.cl k c' (by intro hx; exact hc' (by simp [hx]))
              by_cases hk : m.command = k
              · subst hk
                simp only [hp, List.drop_nil, List.map_nil, List.append_nil] at this
                simp only [List.filter_append]
                rw [this]
                simp [sentOf, issued]
              · simpa [hk, sentOf, issued, List.filter_append] using this
          | cons a l =>
            have hlen : ¬ (a :: l ++ [(⟨c, m, none⟩ : PendingCmd)]).length = 1 := by simp
            rw [hp, if_neg hlen] at h
            simp only [Option.map_some, Option.some.injEq, Prod.mk.injEq, List.map_nil, List.append_nil] at h
            obtain ⟨rfl, rfl⟩ := h
            refine ⟨?_, ?_, ?_, ?_, ?_⟩
            · exact mset_nodup inv.keys _ _
            · intro k c' hc'
              rw [pendingOf_set] at hc'
              split at hc'
              · rename_i hk
                rw [← hp, List.mem_append] at hc'
                rcases hc' with h1 | h1
                · rw [← hk]; exact inv.kind _ c' h1
                · simp at h1; rw [h1]; exact hk
              · exact inv.kind k c' hc'
            · intro k
              rw [pendingOf_set, inv.sent k]
              by_cases hk : m.command = k
              · subst hk; simp [hp]
              · simp [hk]
            · intro k
              rw [pendingOf_set, issued_append]
              have := inv.sub k
              by_cases hk : m.command = k
              · subst hk; simp [hp] at this
                simpa [issued, pm] using List.Sublist.append this (List.Sublist.refl [(c, m)])
              · simpa [hk, issued] using this
            · intro k c' hc'
              rw [pendingOf_set, issued_append]
              have := inv.cl k c' (by intro hx; exact hc' (by simp [hx]))
              by_cases hk : m.command = k
              · subst hk
                simp only [hp, List.drop_succ_cons, List.drop_zero] at this
                simp only [if_true, List.cons_append, List.drop_succ_cons, List.drop_zero, List.map_append,
                  List.filter_append, issued] at this ⊢
                rw [← this]
                simp [pm]
              · simpa [hk, issued, List.filter_append] using this
        · simp at h
      | reply kd now =>
        simp only [qStep, dequeueCommand] at h
        cases hp : pendingOf p0 kd with
        | nil =>
          simp only [hp, Option.map_none, Option.toList_none, List.map_nil, List.append_nil, Option.map_some,
            Option.some.injEq, Prod.mk.injEq] at h
          obtain ⟨rfl, rfl⟩ := h
          refine ⟨inv.keys, inv.kind, inv.sent, ?_, ?_⟩
          · intro k; rw [issued_append]; simpa [issued] using inv.sub k
          · intro k c' hc'
            rw [issued_append]
            simpa [issued] using inv.cl k c' (by intro hx; exact hc' (by simp [hx]))
        | cons a l =>
          have hak := inv.kind kd a (by rw [hp]; simp)
          cases l with
          | nil =>
            simp only [hp, sendNextPendingCommand, pendingOf_set, if_true, Option.map_some,
              Option.toList_some, List.map_nil, List.append_nil, Option.some.injEq, Prod.mk.injEq] at h
            obtain ⟨rfl, rfl⟩ := h
            refine ⟨mset_nodup inv.keys _ _, ?_, ?_, ?_, ?_⟩
            · intro k c' hc'
              rw [pendingOf_set] at hc'
              split at hc'
              · simp at hc'
              · exact inv.kind k c' hc'
            · intro k
              rw [sentOf_append, answeredOf_append, pendingOf_set, inv.sent k]
              by_cases hk : kd = k
              · subst hk; simp [hp, sentOf, answeredOf, pm, hak]
              · simp [hk, sentOf, answeredOf, hak]
            · intro k
              rw [sentOf_append, issued_append, pendingOf_set]
              have := inv.sub k
              by_cases hk : kd = k
              · subst hk; simpa [hp, sentOf, issued] using this
              · simpa [hk, sentOf, issued] using this
            · intro k c' hc'
              rw [sentOf_append, issued_append, pendingOf_set]
              have := inv.cl k c' (by intro hx; exact hc' (by simp [hx]))
              by_cases hk : kd = k
              · subst hk; simpa [hp, sentOf, issued] using this
              · simpa [hk, sentOf, issued] using this
          | cons b l =>
            have hbk := inv.kind kd b (by rw [hp]; simp)
            simp only [hp, sendNextPendingCommand, pendingOf_set, if_true, Option.map_some,
              Option.toList_some, List.map_cons, List.map_nil, Option.some.injEq, Prod.mk.injEq] at h
            obtain ⟨rfl, rfl⟩ := h
            refine ⟨mset_nodup (mset_nodup inv.keys _ _) _ _, ?_, ?_, ?_, ?_⟩
            · intro k c' hc'
              rw [pendingOf_set, pendingOf_set] at hc'
              split at hc'
              · rename_i hk
                subst hk
                rw [List.mem_cons] at hc'
                rcases hc' with h1 | h1
                · rw [h1]; exact hbk
                · exact inv.kind _ c' (by rw [hp]; simp [h1])
              · exact inv.kind k c' hc'
            · intro k
              rw [sentOf_append, answeredOf_append, pendingOf_set, pendingOf_set, inv.sent k]
              by_cases hk : kd = k
              · subst hk; simp [hp, sentOf, answeredOf, pm, hak, hbk]
              · simp [hk, sentOf, answeredOf, hak, hbk]
            · intro k
              rw [sentOf_append, issued_append, pendingOf_set, pendingOf_set]
              have := inv.sub k
              by_cases hk : kd = k
              · subst hk; simpa [hp, sentOf, issued, pm, hbk] using this
              · simpa [hk, sentOf, issued, hbk] using this
            · intro k c' hc'
              rw [sentOf_append, issued_append, pendingOf_set, pendingOf_set]
              have := inv.cl k c' (by intro hx; exact hc' (by simp [hx]))
              by_cases hk : kd = k
              · subst hk; simpa [hp, sentOf, issued, pm, hbk] using this
              · simpa [hk, sentOf, issued, hbk] using this
      | gone d =>
        simp only [qStep, Option.map_some, Option.some.injEq, Prod.mk.injEq, List.append_nil] at h
        obtain ⟨rfl, rfl⟩ := h
        have htake : ∀ k, (pendingOf (cancelPending p0 d) k).take 1 = (pendingOf p0 k).take 1 := by
          intro k; rw [pendingOf_cancel]; cases pendingOf p0 k <;> simp [cancelTail]
        have hdrop : ∀ k, (pendingOf (cancelPending p0 d) k).drop 1
            = ((pendingOf p0 k).drop 1).filter (fun x => decide (x.downstreamID ≠ d)) := by
          intro k; rw [pendingOf_cancel]; cases pendingOf p0 k <;> simp [cancelTail]
        refine ⟨?_, ?_, ?_, ?_, ?_⟩
        · have := inv.keys
          unfold cancelPending
          rw [List.map_map]; exact this
        · intro k c' hc'
          rw [pendingOf_cancel] at hc'
          refine inv.kind k c' ?_
          cases hp : pendingOf p0 k with
          | nil => rw [hp] at hc'; simp [cancelTail] at hc'
          | cons a l =>
            rw [hp] at hc'; simp only [cancelTail, List.mem_cons, List.mem_filter] at hc' ⊢
            rcases hc' with h1 | h1
            · exact Or.inl h1
            · exact Or.inr h1.1
        · intro k; rw [htake, inv.sent k]
        · intro k
          rw [hdrop, issued_append]
          simp only [issued, List.filterMap_cons, List.filterMap_nil, List.append_nil]
          exact List.Sublist.trans
            (List.Sublist.append (List.Sublist.refl _) (List.Sublist.map _ List.filter_sublist)) (inv.sub k)
        · intro k c' hc'
          rw [hdrop, issued_append]
          have hne : c' ≠ d := by intro he; subst he; exact hc' (by simp)
          have := inv.cl k c' (by intro hx; exact hc' (by simp [hx]))
          simp only [issued, List.filterMap_cons, List.filterMap_nil, List.append_nil] at this ⊢
          rw [← this, List.filter_append, List.filter_append]
          congr 1
          generalize (pendingOf p0 k).drop 1 = l
          induction l with
          | nil => rfl
          | cons a l ih2 =>
            by_cases ha : a.downstreamID = d
            · have : ¬ d = c' := fun h => hne h.symm
              simp [ha, pm, this] at ih2 ⊢; exact ih2
            · by_cases ha2 : a.downstreamID = c' <;> simp [ha, ha2, pm, hne] at ih2 ⊢ <;> exact ih2

/-- C17: queries of each kind are sent in the order they were issued, never two at the same time, and the
end of a reply completes the oldest one.  `inflight` and `waiting` are what remains of the queue.

Partial: it needs `Timely`, the server answering each query within 30 seconds; see
`C17_stale_violated` for what happens otherwise. -/
theorem C17_one_in_flight_partial (ops : List QOp) (ht : Timely ops) (p : PendingCmds) (outs : List QOut)
    (hr : qRun ops = some (p, outs)) (kind : Str) :
    ∃ inflight waiting : List (Nat × Msg),
      inflight.length ≤ 1 ∧
      -- what was sent is what was answered plus at most one query in flight
      sentOf kind outs = answeredOf kind outs ++ inflight ∧
      -- what was sent or still waits was issued in that order
      List.Sublist (sentOf kind outs ++ waiting) (issued kind ops) ∧
      -- nothing of a client that is still there is lost, duplicated or reordered
      (∀ c, QOp.gone c ∉ ops → (sentOf kind outs ++ waiting).filter (fun x => decide (x.1 = c))
        = (issued kind ops).filter (fun x => decide (x.1 = c))) ∧
      -- a query waits only if another one is in flight
      (waiting ≠ [] → inflight ≠ []) := by
  have inv := qinv ops ht p outs hr
  refine ⟨((pendingOf p kind).take 1).map pm, ((pendingOf p kind).drop 1).map pm, ?_, inv.sent kind,
    inv.sub kind, inv.cl kind, ?_⟩
  · simp; omega
  · cases pendingOf p kind <;> simp

/-- C17: the bouncer never crashes on the queries clients can make. -/
theorem C17_no_crash (ops : List QOp) (h : ∀ c m now, QOp.query c m now ∈ ops → m.command ∈ QueryKinds) :
    ∃ p outs, qRun ops = some (p, outs) := by
  induction ops using snocInd with
  | nil => exact ⟨_, _, rfl⟩
  | snoc ops op ih =>
    obtain ⟨p, outs, hr⟩ := ih (fun c m now hm => h c m now (by simp [hm]))
    rw [qRun_snoc, hr]
    simp only [Option.bind_some]
    cases op with
    | query c m now =>
      have hm : m.command ∈ queueable := h c m now (by simp)
      simp only [qStep, enqueueCommand, if_pos hm]
      split <;> (try split) <;> exact ⟨_, _, rfl⟩
    | reply k now => exact ⟨_, _, rfl⟩
    | gone c => exact ⟨_, _, rfl⟩

/-- C17: when the upstream connection goes down, every query still pending is aborted exactly once, to its
client if it is still connected, and the queue is empty. -/
theorem C17_abort (ops : List QOp) (ht : Timely ops) (p : PendingCmds) (outs : List QOut)
    (hr : qRun ops = some (p, outs)) (connected : List Nat) (kind : Str) :
    (abortPendingCommands p connected).1 = [] ∧
    ((abortPendingCommands p connected).2.filter (fun a => decide (a.1.msg.command = kind))).map
        (fun a => (a.1.downstreamID, a.1.msg))
      = ((pendingOf p kind).map (fun c => (c.downstreamID, c.msg))).filter (fun x => decide (x.1 ∈ connected)) := by
  have inv := qinv ops ht p outs hr
  refine ⟨rfl, ?_⟩
  have hk : ∀ e ∈ p, ∀ c ∈ e.2, c.msg.command = e.1 := by
    intro e he c hc
    refine inv.kind e.1 c ?_
    unfold pendingOf
    rw [mget_of_mem inv.keys (k := e.1) (e := e.2) he]
    exact hc
  have hnd := inv.keys
  simp only [abortPendingCommands]
  clear inv hr ht
  induction p with
  | nil => simp [pendingOf, GoMap.get]
  | cons e p ih =>
    have hnd' := (List.nodup_cons.1 (by simpa using hnd : (e.1 :: p.map Prod.fst).Nodup))
    have ih := ih (fun e' he' => hk e' (by simp [he'])) hnd'.2
    simp only [List.flatMap_cons, List.filterMap_append, List.filter_append, List.map_append] at ih ⊢
    rw [ih]
    have hp : pendingOf (e :: p) kind = if e.1 = kind then e.2 else pendingOf p kind := by
      unfold pendingOf
      rw [show GoMap.get (e :: p) kind = if e.1 = kind then some e.2 else GoMap.get p kind from rfl]
      by_cases h : e.1 = kind <;> simp [h]
    have hp0 : e.1 = kind → pendingOf p kind = [] := by
      intro h
      unfold pendingOf
      rw [mget_none_iff.2 (h ▸ hnd'.1)]; rfl
    rw [hp]
    have hke := hk e (by simp)
    by_cases h : e.1 = kind
    · rw [if_pos h, hp0 h]
      simp only [List.map_nil, List.filter_nil, List.append_nil]
      revert hke
      generalize e.2 = l
      intro hke
      clear ih hp hp0 hk hnd hnd'
      induction l with
      | nil => rfl
      | cons c l ih =>
        have ih := ih (fun c' hc' => hke c' (by simp [hc']))
        have hc := hke c (by simp)
        by_cases hm : c.downstreamID ∈ connected
        · simp [hm, hc, h] at ih ⊢; exact ih
        · simp [hm] at ih ⊢; exact ih
    · rw [if_neg h]
      have : (e.2.filterMap (fun c => if c.downstreamID ∈ connected then some (c, abortReply c.msg) else none)).filter
          (fun a => decide (a.1.msg.command = kind)) = [] := by
        rw [List.filter_eq_nil_iff]
        intro a ha
        simp only [List.mem_filterMap] at ha
        obtain ⟨c, hc, hc2⟩ := ha
        split at hc2
        · simp at hc2; subst hc2
          simp [hke c hc, h]
        · simp at hc2
      rw [this]; rfl

/-- C17: at the moment the upstream connection goes down, each query of a client that stayed connected has
been answered, or is aborted now, exactly once. -/
theorem C17_answered_or_aborted_partial (ops : List QOp) (ht : Timely ops) (p : PendingCmds) (outs : List QOut)
    (hr : qRun ops = some (p, outs)) (connected : List Nat) (kind : Str) (c : Nat)
    (hc : c ∈ connected) (hg : QOp.gone c ∉ ops) :
    (answeredOf kind outs ++ ((abortPendingCommands p connected).2.filter
        (fun a => decide (a.1.msg.command = kind))).map (fun a => (a.1.downstreamID, a.1.msg))).filter
        (fun x => decide (x.1 = c))
      = (issued kind ops).filter (fun x => decide (x.1 = c)) := by
  have inv := qinv ops ht p outs hr
  rw [(C17_abort ops ht p outs hr connected kind).2, ← inv.cl kind c hg, inv.sent kind,
    List.append_assoc, ← List.map_append, List.take_append_drop, List.filter_append, List.filter_append,
    List.filter_filter]
  congr 1
  apply List.filter_congr
  intro x hx
  by_cases h : x.1 = c
  · simp [h, hc]
  · simp [h]

/-- C17: the abort is announced with the end-of-reply of the query, for every query a client can issue
(WHOIS, REGISTER and VERIFY always have a parameter, downstream.go:2310-2386 and 2595-2610). -/
theorem C17_abort_reply (m : Msg) (hk : m.command ∈ QueryKinds)
    (hp : m.command ∈ [b!"WHOIS", b!"REGISTER", b!"VERIFY"] → m.params ≠ []) :
    ∃ r, abortReply m = some r ∧
      (m.command = b!"LIST" → r.command = b!"323") ∧ 
      (m.command = b!"WHO" → r.command = b!"315" ∧ r.params.head? = some (m.params.head?.getD b!"*")) ∧
      (m.command = b!"WHOIS" → r.command = b!"318" ∧ r.params.head? = m.params.getLast?) ∧ (m.command = b!"AUTHENTICATE" → r.command = b!"906") ∧
      (m.command = b!"REGISTER" ∨ m.command = b!"VERIFY" → r.command = b!"FAIL" ∧
        ∃ account code text, m.params.head? = some account ∧ r.params = [m.command, code, account, text]) := by
  obtain ⟨cmd, params⟩ := m
  simp only [QueryKinds, List.mem_cons, List.not_mem_nil, or_false] at hk
  rcases hk with rfl | rfl | rfl | rfl | rfl | rfl
  · exact ⟨_, rfl, by simp⟩
  · exact ⟨_, rfl, by simp⟩
  · have hp := hp (by simp)
    cases params using snocInd with
    | nil => exact absurd rfl hp
    | snoc l a => refine ⟨_, by simp [abortReply]; rfl, by simp⟩
  · exact ⟨_, rfl, by simp⟩
  · cases params with
    | nil => exact absurd rfl (hp (by simp))
    | cons a l => exact ⟨_, rfl, by simp⟩
  · cases params with
    | nil => exact absurd rfl (hp (by simp))
    | cons a l => exact ⟨_, rfl, by simp⟩

/-- C17 fails once a query has been unanswered for over 30 seconds: the next query of that kind is queued
twice, is not sent, and nor is any query of that kind that any client issues later (until the server
answers the first one after all, or the connection is closed). -/
theorem C17_stale_violated (a b : Nat) (ma mb : Msg) (t now : Nat) (kind : Str) (hk : kind ∈ QueryKinds)
    (ha : ma.command = kind) (hb : mb.command = kind) (hstale : now - t > 30000000000)
    (later : List (Nat × Msg × Nat)) (hl : ∀ q ∈ later, q.2.1.command = kind) :
    ∃ p outs, qRun ([.query a ma t, .query b mb now] ++ later.map (fun q => .query q.1 q.2.1 q.2.2)) = some (p, outs) ∧
      outs = [.sent a ma] ∧
      ∃ rest, pendingOf p kind = ⟨b, mb, none⟩ :: ⟨b, mb, none⟩ :: rest := by
  have hq : kind ∈ queueable := hk
  induction later using snocInd with
  | nil =>
    refine ⟨GoMap.set (GoMap.set (GoMap.set [] kind [⟨a, ma, none⟩]) kind [⟨a, ma, some t⟩]) kind
      [⟨b, mb, none⟩, ⟨b, mb, none⟩], _, ?_, rfl, ?_⟩
    · have h0 : pendingOf [] kind = [] := rfl
      simp [qRun, qStep, enqueueCommand, ha, hb, hq, sendNextPendingCommand, pendingOf_set, h0, pendingStale,
        copyShift, hstale]
    · exact ⟨[], by rw [pendingOf_set, if_pos rfl]⟩
  | snoc later q ih =>
    obtain ⟨p, outs, hr, ho, rest, hc⟩ := ih (fun q' hq' => hl q' (by simp [hq']))
    rw [List.map_append, ← List.append_assoc, List.map_cons, List.map_nil, qRun_snoc, hr]
    have hqk := hl q (by simp)
    refine ⟨GoMap.set p kind (⟨b, mb, none⟩ :: ⟨b, mb, none⟩ :: (rest ++ [⟨q.1, q.2.1, none⟩])), outs, ?_, ho,
      rest ++ [⟨q.1, q.2.1, none⟩], by rw [pendingOf_set, if_pos rfl]⟩
    simp [qStep, enqueueCommand, hqk, hq, hc, pendingStale]

/-- Any history that fits in 30 seconds is timely. -/
example (ops : List QOp) (h : ∀ c m now, QOp.query c m now ∈ ops → now ≤ 30000000000) : Timely ops := by
  intro pre c m now suf he p outs _ hd _ t _
  have := h c m now (by rw [he]; simp)
  omega

example :
    let l (n : Nat) : Msg := ⟨b!"LIST", [[n]]⟩
    let ops : List QOp := [.query 1 (l 65) 5, .query 2 (l 66) 6, .query 1 (l 67) 7, .gone 1, .reply b!"LIST" 8]
    (qRun ops).map (·.2) = some [.sent 1 (l 65), .answered 1 (l 65), .sent 2 (l 66)] := by decide

end Verif.Props
