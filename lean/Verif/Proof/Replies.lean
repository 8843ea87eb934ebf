import Verif.Spec.Replies
import Verif.Proof.GoMap
import Verif.Proof.Util
import Mathlib.Data.List.Basic

/-! # Lemmas for C118 -/

namespace Verif.Proof
open Verif.Model Verif.Spec

theorem qr_pendingOf_set (p : PendingCmds) (k k' : Str) (l : List PendingCmd) :
    pendingOf (GoMap.set p k l) k' = if k = k' then l else pendingOf p k' := by
  unfold pendingOf
  rw [mget_mset]
  split <;> simp

theorem qr_pendingOf_cancel (p : PendingCmds) (c : Nat) (k : Str) :
    pendingOf (cancelPending p c) k = cancelTail c (pendingOf p k) := by
  unfold pendingOf cancelPending
  induction p with
  | nil => rfl
  | cons e p ih =>
    simp only [List.map_cons, GoMap.get] at ih ⊢
    split <;> simp_all [cancelTail]

/-- What is left of an answer. -/
def AnsTail (q : Msg) (l : List Msg) : Prop :=
  ∃ lines last, l = lines ++ [last] ∧ (∀ x ∈ lines, IsLine q.command x) ∧
    (IsEnd q.command last ∨ IsRefusal q.command last ∨ IsNobody q last)

theorem ansTail_of {q : Msg} {l : List Msg} (h : IsAnswer q l) : AnsTail q l := by
  cases h with
  | reply lines last h1 h2 => exact ⟨lines, last, rfl, h1, .inl h2⟩
  | refusal x h => exact ⟨[], x, rfl, by simp, .inr (.inl h)⟩
  | nobody x h => exact ⟨[], x, rfl, by simp, .inr (.inr h)⟩

theorem ansTail_cons {q x : Msg} {l : List Msg} (h : AnsTail q (x :: l)) :
    (l = [] ∧ (IsEnd q.command x ∨ IsRefusal q.command x ∨ IsNobody q x)) ∨ (l ≠ [] ∧ IsLine q.command x ∧ AnsTail q l) := by
  obtain ⟨lines, last, h1, h2, h3⟩ := h
  cases lines with
  | nil => simp at h1; obtain ⟨rfl, rfl⟩ := h1; exact .inl ⟨rfl, h3⟩
  | cons y ys =>
    simp at h1
    obtain ⟨rfl, rfl⟩ := h1
    exact .inr ⟨by simp, h2 x (by simp), ys, last, rfl, fun z hz => h2 z (by simp [hz]), h3⟩

theorem ansTail_ne {q : Msg} {l : List Msg} (h : AnsTail q l) : l ≠ [] := by
  obtain ⟨lines, last, h1, -⟩ := h; simp [h1]

/-! ## The queue -/

theorem enq_empty (p : PendingCmds) (c : Nat) (m : Msg) (now : Nat) (hk : m.command ∈ queueable)
    (h : pendingOf p m.command = []) :
    ∃ P, enqueueCommand p c m now = some (P, [⟨c, m⟩]) ∧
      ∀ j, pendingOf P j = if m.command = j then [⟨c, m, some now⟩] else pendingOf p j := by
  unfold enqueueCommand
  rw [if_pos hk]
  simp only [h, List.nil_append, List.head?_cons, Option.bind_some, pendingStale, Bool.false_eq_true, if_false,
    List.length_singleton, if_true, sendNextPendingCommand, qr_pendingOf_set, Option.some.injEq]
  refine ⟨_, rfl, ?_⟩
  intro j
  rw [qr_pendingOf_set, qr_pendingOf_set]
  split <;> rfl

theorem enq_more (p : PendingCmds) (c : Nat) (m : Msg) (now : Nat) (hk : m.command ∈ queueable) (x : PendingCmd)
    (t : List PendingCmd) (s : Nat) (h : pendingOf p m.command = x :: t) (hs : x.sentAt = some s) (ht : now ≤ s + 30000000000) :
    ∃ P, enqueueCommand p c m now = some (P, []) ∧
      ∀ j, pendingOf P j = if m.command = j then x :: t ++ [⟨c, m, none⟩] else pendingOf p j := by
  unfold enqueueCommand
  rw [if_pos hk]
  have hst : pendingStale now (some s) = false := by simp [pendingStale]; omega
  simp only [h, List.cons_append, List.head?_cons, Option.bind_some, hs, hst, Bool.false_eq_true, if_false]
  rw [if_neg (by simp)]
  refine ⟨_, rfl, ?_⟩
  intro j
  rw [qr_pendingOf_set]

theorem deq_last (p : PendingCmds) (k : Str) (now : Nat) (x : PendingCmd) (h : pendingOf p k = [x]) :
    ∃ P, dequeueCommand p k now = (P, some x, []) ∧ ∀ j, pendingOf P j = if k = j then [] else pendingOf p j := by
  unfold dequeueCommand
  simp only [h, sendNextPendingCommand, qr_pendingOf_set, if_true]
  exact ⟨_, rfl, fun j => by rw [qr_pendingOf_set]⟩

theorem deq_next (p : PendingCmds) (k : Str) (now : Nat) (x y : PendingCmd) (t : List PendingCmd) (h : pendingOf p k = x :: y :: t) :
    ∃ P, dequeueCommand p k now = (P, some x, [⟨y.downstreamID, y.msg⟩]) ∧
      ∀ j, pendingOf P j = if k = j then { y with sentAt := some now } :: t else pendingOf p j := by
  unfold dequeueCommand
  simp only [h, sendNextPendingCommand, qr_pendingOf_set, if_true]
  refine ⟨_, rfl, fun j => ?_⟩
  rw [qr_pendingOf_set, qr_pendingOf_set]
  split <;> rfl

/-! ## What is done with a line of an answer -/

theorem isLine_handle (cm : CaseMapping) (st : QrState) (id now : Nat) (k : Str) (x : Msg) (c : PendingCmd) (t : List PendingCmd)
    (hp : pendingOf st.pending k = c :: t) (h : IsLine k x) :
    qrHandle cm st id x now = (qrSend st c.downstreamID x, []) := by
  have hl : ∀ j, k = j → qrLine st j x = qrSend st c.downstreamID x := by
    intro j hj; subst hj; simp [qrLine, hp]
  obtain ⟨cmd, ps⟩ := x
  rcases h with ⟨hk, hx⟩ | ⟨hk, hx | ⟨hx, a, b, c, d, e, f, g, t, l, hps, hsp⟩⟩ | ⟨hk, hx⟩
  · simp only [List.mem_cons, List.not_mem_nil, or_false] at hx
    unfold qrHandle
    rw [if_pos (by rcases hx with rfl | rfl <;> simp), hl _ hk]
  · subst hx
    have : qrHandle cm st id ⟨b!"354", ps⟩ now = (qrLine st b!"WHO" ⟨b!"354", ps⟩, []) := rfl
    rw [this, hl _ hk]
  · dsimp only at hx hps
    subst hx; subst hps
    have : qrHandle cm st id ⟨b!"352", a :: b :: c :: d :: e :: f :: g :: t :: l⟩ now =
        if (a :: b :: c :: d :: e :: f :: g :: t :: l).length < 8 ∨ t.contains 32 = false then (st, [])
        else (qrLine st b!"WHO" ⟨b!"352", a :: b :: c :: d :: e :: f :: g :: t :: l⟩, []) := rfl
    rw [this, if_neg, hl _ hk]
    simp [hsp]
  · simp only [List.mem_cons, List.not_mem_nil, or_false] at hx
    have : qrHandle cm st id ⟨cmd, ps⟩ now = (qrLine st b!"WHOIS" ⟨cmd, ps⟩, []) := by
      rcases hx with rfl | rfl | rfl | rfl | rfl | rfl | rfl | rfl | rfl | rfl | rfl | rfl | rfl <;> rfl
    rw [this, hl _ hk]

theorem qrForward_eq (st : QrState) (c : Nat) (m : Msg) (hc : c ≠ 0) : qrForward st c m = qrSend st c m := by
  unfold qrForward qrSend
  congr 1
  apply List.map_congr_left
  intro p _
  by_cases h : p.1 = c
  · rw [if_neg (by simp [h]), if_pos h]
  · rw [if_pos ⟨hc, fun e => h e.symm⟩, if_neg h]

theorem last_handle (cm : CaseMapping) (st : QrState) (id now : Nat) (k : Str) (x : Msg) (c : PendingCmd) (t : List PendingCmd)
    (hp : pendingOf st.pending k = c :: t) (hk : c.msg.command = k) (hq : IsQuery c.msg) (hc : c.downstreamID ≠ 0)
    (h : IsEnd k x ∨ IsRefusal k x ∨ IsNobody c.msg x)
    (hid : IsRefusal k x → id = c.downstreamID ∨ (id = 0 ∧ c.downstreamID ∈ st.clients.map (·.1))) :
    qrHandle cm st id x now =
      (qrSend { st with pending := (dequeueCommand st.pending k now).1 } c.downstreamID x, (dequeueCommand st.pending k now).2.2) := by
  have hd : (dequeueCommand st.pending k now).2.1 = some c := by simp [dequeueCommand, hp]
  have he : ∀ j, k = j → qrEnd st j x now =
      (qrSend { st with pending := (dequeueCommand st.pending k now).1 } c.downstreamID x, (dequeueCommand st.pending k now).2.2) := by
    intro j hj; subst hj; simp only [qrEnd, hd]
  obtain ⟨cmd, ps⟩ := x
  rcases h with h | h | h
  · rcases h with ⟨h1, h2⟩ | ⟨h1, h2⟩ | ⟨h1, h2⟩ | ⟨h1, h2, h3⟩ | ⟨h1, h2⟩
    · dsimp only at h2; subst h2; exact he _ h1
    · dsimp only at h2; subst h2; exact he _ h1
    · dsimp only at h2; subst h2; exact he _ h1
    · dsimp only at h2 h3; subst h2
      have : qrHandle cm st id ⟨b!"REGISTER", ps⟩ now = qrRegistered st ⟨b!"REGISTER", ps⟩ now := rfl
      rw [this]
      unfold qrRegistered
      dsimp only
      rw [← h1, hd]
      dsimp only
      have := hq.2.2.1 (hk.trans h1)
      rw [if_neg (by omega)]
    · dsimp only at h2; subst h2
      have : qrHandle cm st id ⟨b!"VERIFY", ps⟩ now = qrRegistered st ⟨b!"VERIFY", ps⟩ now := rfl
      rw [this]
      unfold qrRegistered
      dsimp only
      rw [← h1, hd]
      dsimp only
      rw [if_neg]
      rw [h1]; simp
  · have hid := hid h
    have href : ∀ m, qrRefused st id k m now =
        (qrSend { st with pending := (dequeueCommand st.pending k now).1 } c.downstreamID m, (dequeueCommand st.pending k now).2.2) := by
      intro m
      unfold qrRefused
      simp only [hd]
      congr 1
      rw [← qrForward_eq _ _ _ hc]
      congr 1
      rcases hid with hid | ⟨hid, hm⟩
      · subst hid; simp
      · rw [if_pos]
        refine ⟨?_, hid⟩
        simpa [qrConnected] using hm
    rcases h with ⟨h1, nick, reason, l, h2⟩ | ⟨h1, code, l, h2⟩
    · dsimp only at h1 h2
      subst h2
      have h3 : qrHandle cm st id ⟨cmd, nick :: k :: reason :: l⟩ now = qrRefused st id k ⟨cmd, nick :: k :: reason :: l⟩ now := by
        simp only [List.mem_cons, List.not_mem_nil, or_false] at h1
        rcases h1 with rfl | rfl | rfl | rfl
        all_goals
          refine Eq.trans (b := if (nick :: k :: reason :: l).length < 3 then (st, []) else qrRefused st id k _ now) rfl ?_
          rw [if_neg (by simp)]
      rw [h3, href]
    · dsimp only at h1 h2
      subst h2; subst h1
      have h3 : qrHandle cm st id ⟨b!"FAIL", k :: code :: l⟩ now = qrRefused st id k ⟨b!"FAIL", k :: code :: l⟩ now := by
        refine Eq.trans (b := if (k :: code :: l).length < 2 then (st, []) else qrRefused st id k _ now) rfl ?_
        rw [if_neg (by simp)]
      rw [h3, href]
  · obtain ⟨h1, h2, nick, name, reason, l, h3, h4⟩ := h
    dsimp only at h2 h3
    subst h3
    have hkw : k = b!"WHOIS" := hk.symm.trans h1
    have h5 : qrHandle cm st id ⟨cmd, nick :: name :: reason :: l⟩ now = qrNoSuchNick cm st id ⟨cmd, nick :: name :: reason :: l⟩ now := by
      simp only [List.mem_cons, List.not_mem_nil, or_false] at h2
      rcases h2 with rfl | rfl <;> rfl
    rw [h5]
    unfold qrNoSuchNick
    rw [if_neg (by simp)]
    rw [hkw] at hp ⊢
    simp only [hp, h4, Option.getD_some, List.tail_cons, List.headD_cons, if_true]

/-! ## What clients were sent -/

theorem sentTo_qrSend (st : QrState) (c d : Nat) (m : Msg) (hn : (st.clients.map (·.1)).Nodup) :
    sentTo (qrSend st c m) d = sentTo st d ++ if d = c ∧ d ∈ st.clients.map (·.1) then [m] else [] := by
  unfold sentTo qrSend
  dsimp only
  generalize st.clients = l at hn
  induction l with
  | nil => simp
  | cons p l ih =>
    simp only [List.map_cons, List.nodup_cons] at hn
    have ih := ih hn.2
    obtain ⟨i, o⟩ := p
    by_cases hi : i = c
    · subst hi
      by_cases hd : i = d
      · subst hd
        have hnone : l.filter (fun p => decide (p.1 = i)) = [] := by
          rw [List.filter_eq_nil_iff]
          intro p hp; simp; intro e; exact hn.1 (List.mem_map.mpr ⟨p, hp, e⟩)
        have hnone2 : (l.map (fun p => if p.1 = i then (p.1, p.2 ++ [m]) else p)).filter (fun p => decide (p.1 = i)) = [] := by
          rw [List.filter_eq_nil_iff]
          intro p hp
          obtain ⟨q, hq, rfl⟩ := List.mem_map.mp hp
          have : q.1 ≠ i := fun e => hn.1 (List.mem_map.mpr ⟨q, hq, e⟩)
          simp [this]
        simp [hnone, hnone2]
      · have hd' : ¬ d = i := fun e => hd e.symm
        simp only [hd', false_and, if_false, List.append_nil] at ih ⊢
        simp [hd, ih]
    · by_cases hd : i = d
      · subst hd
        simp only [hi, false_and, if_false, List.append_nil] at ih ⊢
        simp [hi, ih]
      · have hd' : ¬ d = i := fun e => hd e.symm
        simp only [List.map_cons, if_neg hi, List.mem_cons, hd', false_or] at ih ⊢
        simp [hd, ih]

theorem qrSend_keys (st : QrState) (c : Nat) (m : Msg) : (qrSend st c m).clients.map (·.1) = st.clients.map (·.1) := by
  unfold qrSend
  dsimp only
  rw [List.map_map]
  apply List.map_congr_left
  intro p _
  simp only [Function.comp]
  split <;> rfl

theorem qrSend_pending (st : QrState) (c : Nat) (m : Msg) : (qrSend st c m).pending = st.pending := rfl

end Verif.Proof
