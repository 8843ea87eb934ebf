import Verif.Model.ReadMarker
import Verif.Proof.GoMap

/-! # C16: read markers only move forward -/

namespace Verif.Props
open Verif.Model Verif.Proof

private theorem toMillis_le (t : Int) : toMillis t ≤ t := by unfold toMillis; omega

private theorem toMillis_mono {a b : Int} (h : a ≤ b) : toMillis a ≤ toMillis b := by
  unfold toMillis; omega

private theorem toMillis_idem (t : Int) : toMillis (toMillis t) = toMillis t := by unfold toMillis; omega

/-- Stored markers are whole milliseconds. -/
private def Stored (tbl : ReceiptTable) : Prop := ∀ net key, toMillis (getReceipt tbl net key) = getReceipt tbl net key

private theorem getReceipt_set (tbl : ReceiptTable) (k : Nat × Str) (t : Int) (net : Nat) (key : Str) :
    getReceipt (GoMap.set tbl k t) net key = if (net, key) = k then t else getReceipt tbl net key := by
  unfold getReceipt
  rw [mget_mset]
  by_cases h : k = (net, key)
  · subst h; simp
  · rw [if_neg h, if_neg (Ne.symm h)]

private theorem markCriteria_spec {r : Int} {q : MarkRead} {t : Int} {b : Bool}
    (h : markCriteria r q = some (t, b)) :
    (b = true ∧ r < t ∧ t ≤ q.now ∧ ∃ c, q.criteria = .timestamp c ∧ t ≤ c ∧ (t = c ∨ t = q.now)) ∨
    (b = false ∧ t = r) := by
  unfold markCriteria at h
  split at h
  · simp at h; right; exact ⟨h.2, h.1.symm⟩
  · simp at h
  · simp at h
  · rename_i c hc
    simp only at h
    split at h
    · split at h
      · split at h
        · simp at h
        · simp at h; left; refine ⟨h.2, by omega, by omega, c, hc, by omega, by omega⟩
      · simp at h; right; exact ⟨h.2, h.1.symm⟩
    · split at h
      · split at h
        · simp at h
        · simp at h; left; refine ⟨h.2, by omega, by omega, c, hc, by omega, by omega⟩
      · simp at h; right; exact ⟨h.2, h.1.symm⟩

/-- How one command changes the table. -/
private theorem markRead_cases (cm : CaseMapping) (clients : List RmClient) (tbl : ReceiptTable) (q : MarkRead) :
    (markRead cm clients tbl q).1 = tbl ∨
    ∃ net t, q.client.network = some net ∧ getReceipt tbl net (casemap cm q.target) < t ∧ t ≤ q.now ∧
      markRead cm clients tbl q
        = (GoMap.set tbl (net, casemap cm q.target) (toMillis t), markReplies clients net q t true) := by
  unfold markRead
  split
  · left; rfl
  · split
    · left; rfl
    · rename_i net hnet
      simp only
      cases hc : markCriteria (getReceipt tbl net (casemap cm q.target)) q with
      | none => left; rfl
      | some p =>
        obtain ⟨t, b⟩ := p
        rcases markCriteria_spec hc with ⟨rfl, h1, h2, _⟩ | ⟨rfl, h1⟩
        · right; exact ⟨net, t, hnet, h1, h2, rfl⟩
        · left; rfl

private theorem stored_step {cm : CaseMapping} {clients : List RmClient} {tbl : ReceiptTable} {q : MarkRead}
    (h : Stored tbl) : Stored (markRead cm clients tbl q).1 := by
  rcases markRead_cases cm clients tbl q with h1 | ⟨net, t, _, _, _, h1⟩
  · rw [h1]; exact h
  · rw [h1]; intro n k; rw [getReceipt_set]; split
    · exact toMillis_idem t
    · exact h n k

/-- C16: whatever commands are executed, from whichever clients and with whatever clock, no stored read
marker of any network and target ever decreases. -/
theorem C16_monotone (cm : CaseMapping) (hist later : List (List RmClient × MarkRead)) (net : Nat) (target : Str) :
    getReceipt (markReadRun cm [] hist) net (casemap cm target)
      ≤ getReceipt (markReadRun cm [] (hist ++ later)) net (casemap cm target) := by
  have hrun : ∀ (h1 h2 : List (List RmClient × MarkRead)) tbl,
      markReadRun cm tbl (h1 ++ h2) = markReadRun cm (markReadRun cm tbl h1) h2 := by
    intro h1
    induction h1 with
    | nil => intro h2 tbl; rfl
    | cons p h1 ih => intro h2 tbl; exact ih h2 _
  have hst : ∀ (h1 : List (List RmClient × MarkRead)) tbl, Stored tbl → Stored (markReadRun cm tbl h1) := by
    intro h1
    induction h1 with
    | nil => intro tbl h; exact h
    | cons p h1 ih => intro tbl h; exact ih _ (stored_step h)
  have key : ∀ (h2 : List (List RmClient × MarkRead)) tbl, Stored tbl →
      getReceipt tbl net (casemap cm target) ≤ getReceipt (markReadRun cm tbl h2) net (casemap cm target) := by
    intro h2
    induction h2 with
    | nil => intro tbl _; exact Int.le_refl _
    | cons p h2 ih =>
      intro tbl hs
      refine Int.le_trans ?_ (ih _ (stored_step hs))
      rcases markRead_cases cm p.1 tbl p.2 with h1 | ⟨n, t, _, hlt, _, h1⟩
      · rw [h1]; exact Int.le_refl _
      · rw [h1, getReceipt_set]
        split
        · rename_i heq
          simp only [Prod.mk.injEq] at heq
          rw [heq.1, heq.2, ← hs n _]
          exact toMillis_mono (Int.le_of_lt hlt)
        · exact Int.le_refl _
  rw [hrun]
  exact key later _ (hst hist [] (by intro n k; rfl))

/-- C16: no stored marker is ever later than the server clock, which is assumed not to go backwards. -/
theorem C16_not_future (cm : CaseMapping) (hist : List (List RmClient × MarkRead)) (now : Int)
    (h0 : 0 ≤ now) (hclock : ∀ p ∈ hist, p.2.now ≤ now) (net : Nat) (target : Str) :
    getReceipt (markReadRun cm [] hist) net (casemap cm target) ≤ now := by
  have key : ∀ (h2 : List (List RmClient × MarkRead)) tbl, (∀ p ∈ h2, p.2.now ≤ now) →
      (∀ n k, getReceipt tbl n k ≤ now) →
      getReceipt (markReadRun cm tbl h2) net (casemap cm target) ≤ now := by
    intro h2
    induction h2 with
    | nil => intro tbl _ h; exact h _ _
    | cons p h2 ih =>
      intro tbl hp h
      refine ih _ (fun x hx => hp x (by simp [hx])) ?_
      intro n k
      rcases markRead_cases cm p.1 tbl p.2 with h1 | ⟨n', t, _, _, hle, h1⟩
      · rw [h1]; exact h n k
      · rw [h1, getReceipt_set]
        split
        · exact Int.le_trans (toMillis_le t) (Int.le_trans hle (hp p (by simp)))
        · exact h n k
  exact key hist [] hclock (fun _ _ => h0)

/-- C16: every marker reply to a client reports, to the millisecond, the value stored after the command
(`none` is sent as `*`: nothing stored). -/
theorem C16_reply_reports_stored (cm : CaseMapping) (hist : List (List RmClient × MarkRead))
    (clients : List RmClient) (q : MarkRead) (net : Nat) (id : Nat) (c target : Str) (t : Option Int)
    (hs : casemap cm q.target ≠ b!"bouncerserv") (hn : q.client.network = some net)
    (hpos : ∀ x, q.criteria = .timestamp x → 1000000 ≤ x) (hnow : 1000000 ≤ q.now)
    (hr : (id, RmReply.marker c target t) ∈ (markRead cm clients (markReadRun cm [] hist) q).2) :
    target = q.target ∧
    getReceipt (markRead cm clients (markReadRun cm [] hist) q).1 net (casemap cm q.target) = t.getD 0 := by
  have hst : ∀ (h1 : List (List RmClient × MarkRead)) tbl, Stored tbl → Stored (markReadRun cm tbl h1) := by
    intro h1
    induction h1 with
    | nil => intro tbl h; exact h
    | cons p h1 ih => intro tbl h; exact ih _ (stored_step h)
  have hs0 := hst hist [] (by intro n k; rfl)
  generalize markReadRun cm [] hist = tbl at hr hs0
  unfold markRead at hr ⊢
  have hs' : ¬ casemap cm q.target = serviceNickCM := hs
  rw [if_neg hs'] at hr ⊢
  rw [hn] at hr ⊢
  simp only at hr ⊢
  cases hc : markCriteria (getReceipt tbl net (casemap cm q.target)) q with
  | none => rw [hc] at hr; simp at hr
  | some p =>
    obtain ⟨t', b⟩ := p
    rw [hc] at hr
    simp only [markReplies, List.mem_map, List.mem_filter] at hr
    obtain ⟨d, _, hd⟩ := hr
    simp only [Prod.mk.injEq, RmReply.marker.injEq] at hd
    obtain ⟨_, _, rfl, ht⟩ := hd
    refine ⟨rfl, ?_⟩
    simp only
    rcases markCriteria_spec hc with ⟨rfl, h1, h2, x, hx, _, hor⟩ | ⟨rfl, rfl⟩
    · rw [if_pos rfl, getReceipt_set, if_pos rfl]
      have hp := hpos x hx
      rw [if_neg (by omega)] at ht
      rw [← ht]; rfl
    · simp only [Bool.false_eq_true, if_false]
      rw [← ht]
      split
      · rename_i h0; simp [h0]
      · simp [hs0 net _]

/-- C16: when a command changes the stored marker, every connected client of that network is sent the new
value, and no client of another network is sent anything. -/
theorem C16_change_is_broadcast (cm : CaseMapping) (hist : List (List RmClient × MarkRead))
    (clients : List RmClient) (q : MarkRead) (net : Nat) (key : Str)
    (hch : getReceipt (markRead cm clients (markReadRun cm [] hist) q).1 net key
      ≠ getReceipt (markReadRun cm [] hist) net key) :
    q.client.network = some net ∧ key = casemap cm q.target ∧
    (∀ d ∈ clients, d.network = some net → ∃ c,
      (d.id, RmReply.marker c q.target
        (some (getReceipt (markRead cm clients (markReadRun cm [] hist) q).1 net key)))
        ∈ (markRead cm clients (markReadRun cm [] hist) q).2) ∧
    (∀ m ∈ (markRead cm clients (markReadRun cm [] hist) q).2,
      ∃ d ∈ clients, d.id = m.1 ∧ d.network = some net) := by
  have hnn : ∀ k, 0 ≤ getReceipt (markReadRun cm [] hist) net k := by
    intro k
    have key : ∀ (h2 : List (List RmClient × MarkRead)) tbl, (∀ n k, 0 ≤ getReceipt tbl n k) →
        0 ≤ getReceipt (markReadRun cm tbl h2) net k := by
      intro h2
      induction h2 with
      | nil => intro tbl h; exact h _ _
      | cons p h2 ih =>
        intro tbl h
        refine ih _ ?_
        intro n k
        rcases markRead_cases cm p.1 tbl p.2 with h1 | ⟨n', t, _, hlt, _, h1⟩
        · rw [h1]; exact h n k
        · rw [h1, getReceipt_set]
          have := h n' (casemap cm p.2.target)
          split
          · unfold toMillis; omega
          · exact h n k
    exact key hist [] (fun _ _ => Int.le_refl _)
  generalize markReadRun cm [] hist = tbl at hch hnn ⊢
  rcases markRead_cases cm clients tbl q with h1 | ⟨n, t, hn, hlt, _, h1⟩
  · rw [h1] at hch; exact absurd rfl hch
  · rw [h1] at hch ⊢
    rw [getReceipt_set] at hch
    split at hch
    · rename_i heq
      simp only [Prod.mk.injEq] at heq
      obtain ⟨rfl, rfl⟩ := heq
      refine ⟨hn, rfl, ?_, ?_⟩
      · intro d hd hdn
        have h0 : t ≠ 0 := by have := hnn (casemap cm q.target); omega
        refine ⟨if d.readMarker then b!"MARKREAD" else b!"READ", ?_⟩
        simp only
        rw [getReceipt_set, if_pos rfl]
        simp only [markReplies, List.mem_map, List.mem_filter]
        exact ⟨d, ⟨hd, by simp [hdn]⟩, by simp [h0]⟩
      · intro m hm
        simp only [markReplies, List.mem_map, List.mem_filter] at hm
        obtain ⟨d, ⟨hd, hd2⟩, rfl⟩ := hm
        simp only [true_or, and_true, decide_eq_true_eq] at hd2
        exact ⟨d, hd, rfl, hd2⟩
    · exact absurd rfl hch

/-- C16: a client that asks for a later point in time, not in the future, moves the marker there; a
request for a future one moves it to the present. -/
theorem C16_advances (cm : CaseMapping) (clients : List RmClient) (tbl : ReceiptTable) (q : MarkRead)
    (net : Nat) (t : Int) (hs : casemap cm q.target ≠ b!"bouncerserv") (hn : q.client.network = some net)
    (hc : q.criteria = .timestamp t) (hdb : q.dbFails = false)
    (hlt : getReceipt tbl net (casemap cm q.target) < min t q.now) :
    getReceipt (markRead cm clients tbl q).1 net (casemap cm q.target)
      = min t q.now - min t q.now % 1000000 := by
  have hs' : ¬ casemap cm q.target = serviceNickCM := hs
  unfold markRead
  rw [if_neg hs', hn]
  have hmin : (if t > q.now then q.now else t) = min t q.now := by split <;> omega
  simp only [markCriteria, hc, hdb, hmin, if_pos hlt, Bool.false_eq_true, if_false, if_true]
  rw [getReceipt_set, if_pos rfl]; rfl

/-- C16: a connected client that sends the command is always answered. -/
theorem C16_sender_answered (cm : CaseMapping) (clients : List RmClient) (tbl : ReceiptTable) (q : MarkRead)
    (h : q.client ∈ clients) : ∃ r, (q.client.id, r) ∈ (markRead cm clients tbl q).2 := by
  unfold markRead
  split
  · exact ⟨_, List.mem_singleton.2 rfl⟩
  · split
    · exact ⟨_, List.mem_singleton.2 rfl⟩
    · rename_i net hn
      simp only
      split
      · exact ⟨_, List.mem_singleton.2 rfl⟩
      · simp only [markReplies, List.mem_map, List.mem_filter]
        exact ⟨_, q.client, ⟨h, by simp [hn]⟩, rfl⟩

/-- C16: a command that changes nothing is answered to its sender only. -/
theorem C16_query_is_private (cm : CaseMapping) (clients : List RmClient) (tbl : ReceiptTable) (q : MarkRead)
    (hc : q.criteria = .absent) : ∀ m ∈ (markRead cm clients tbl q).2, m.1 = q.client.id := by
  intro m hm
  unfold markRead at hm
  split at hm
  · simp at hm; rw [hm]
  · split at hm
    · simp at hm; rw [hm]
    · simp only [markCriteria, hc, markReplies, List.mem_map, List.mem_filter] at hm
      obtain ⟨d, ⟨_, hd⟩, rfl⟩ := hm
      simp at hd
      exact hd.2.symm

example :
    let c1 : RmClient := ⟨1, some 1, true⟩
    let c2 : RmClient := ⟨2, some 1, false⟩
    let c3 : RmClient := ⟨3, some 2, true⟩
    let q : MarkRead := ⟨c1, b!"MARKREAD", b!"#Soju", .timestamp 7000000, 5500000, false⟩
    markRead .ascii [c1, c2, c3] [] q = ([((1, b!"#soju"), 5000000)],
      [(1, .marker b!"MARKREAD" b!"#Soju" (some 5000000)), (2, .marker b!"READ" b!"#Soju" (some 5000000))]) := by
  decide

end Verif.Props
