import Verif.Spec.SqDb
import Verif.Proof.PgDb
import Verif.Proof.MsgDb

/-! # Proofs about the account tables of an SQLite database

The records satisfy the invariants of `Proof.PgDb`: a call that does the same with both databases is compared with the
call on the PostgreSQL tables that hold the same records. -/

namespace Verif.Proof
open Verif.Model Verif.Spec

theorem sq_format_ms (t : Int) : sqliteFormat (toMillis t) = sqliteFormat t := by
  have h1 : toMillis t / dayNanos = t / dayNanos := by unfold toMillis dayNanos; omega
  have h2 : (toMillis t % dayNanos) / 1000000 = (t % dayNanos) / 1000000 := by unfold toMillis dayNanos; omega
  unfold sqliteFormat
  rw [h1, h2]

/-- The PostgreSQL tables that hold the records. -/
def sqPd (k : PdKept) : PdDb :=
  { users := k.users.map (fun p => pdUserColumns toMillis p.2 p.1)
    networks := k.networks.map (fun p => pdNetRow p.1 p.2)
    channels := k.channels.map (fun p => pdChanColumns p.1 p.2)
    receipts := k.receipts.map (fun p => ⟨0, p.1, p.2.target, p.2.client, p.2.msgID⟩)
    reads := k.reads.map (pdReadRow toMillis)
    subs := k.subs.map pdSubRow
    configs := k.configs
    seqU := nextRowId (k.users.map (·.1.id))
    seqN := nextRowId (k.networks.map (·.2.id))
    seqC := nextRowId (k.channels.map (·.2.id))
    seqD := 1
    seqR := nextRowId (k.reads.map (·.2.id))
    seqS := nextRowId (k.subs.map (·.2.2.id))
    seqW := nextRowId (k.configs.map (·.id)) }

theorem sq_next_pos (l : List Nat) : 0 < nextRowId l := Nat.succ_pos _

theorem sq_next {α : Type} (l : List α) (f : α → Nat) : ∀ p ∈ l, f p < nextRowId (l.map f) :=
  fun _ hp => lt_nextRowId _ _ (List.mem_map_of_mem hp)

theorem sq_canon (k : PdKept) (pd : PdDb) (h : PdRel toMillis k pd) : PdRel toMillis k (sqPd k) := by
  refine { h with
    users := rfl, networks := rfl, channels := rfl, receipts := ?_, reads := rfl, subs := rfl, configs := rfl
    seqs := ⟨sq_next_pos _, sq_next_pos _, sq_next_pos _, sq_next_pos _, sq_next_pos _⟩
    uPos := fun p hp => ⟨(h.uPos p hp).1, sq_next k.users (fun p => p.1.id) p hp⟩
    nPos := fun p hp => ⟨(h.nPos p hp).1, sq_next k.networks (fun p => p.2.id) p hp⟩
    cPos := fun p hp => ⟨(h.cPos p hp).1, sq_next k.channels (fun p => p.2.id) p hp⟩
    rPos := fun p hp => ⟨(h.rPos p hp).1, sq_next k.reads (fun p => p.2.id) p hp⟩
    sPos := fun p hp => ⟨(h.sPos p hp).1, sq_next k.subs (fun p => p.2.2.id) p hp⟩ }
  simp only [sqPd, List.map_map]
  rw [← h.receipts, List.map_map]
  apply List.map_congr_left
  intro r _
  rfl

/-- The row of a read receipt. -/
def sqReadRow (p : Nat × PdRead) : SqReadRow := ⟨p.2.id, p.1, p.2.target, sqliteFormat p.2.timestamp⟩

/-- The row of a push subscription. -/
def sqSubRow (p : Nat × Nat × PdSub) : SqSubRow :=
  ⟨p.2.2.id, sqliteFormat p.2.2.createdAt, sqliteFormat p.2.2.updatedAt, p.1, if p.2.1 ≠ 0 then some p.2.1 else none,
    p.2.2.endpoint, p.2.2.vapid, p.2.2.auth, p.2.2.p256dh⟩

/-- What a row of DeliveryReceipt says. -/
def sqReceiptOf (r : SqReceiptRow) : Nat × PdReceipt := (r.network, ⟨0, r.target, r.client.getD [], r.msgID⟩)

/-- The tables hold the records. -/
structure SqRel (k : PdKept) (db : SqDb) : Prop where
  base : PdRel toMillis k (sqPd k)
  users : db.users = k.users.map (fun p => sqUserColumns p.2 p.1)
  networks : db.networks = k.networks.map (fun p => pdNetRow p.1 p.2)
  channels : db.channels = k.channels.map (fun p => pdChanColumns p.1 p.2)
  receipts : db.receipts.map sqReceiptOf = k.receipts
  client : ∀ r ∈ db.receipts, r.client ≠ some []
  reads : db.reads = k.reads.map sqReadRow
  subs : db.subs = k.subs.map sqSubRow
  configs : db.configs = k.configs
  idU : (k.users.map (·.1.id)).Nodup
  idN : (k.networks.map (·.2.id)).Nodup
  idC : (k.channels.map (·.2.id)).Nodup
  idD : (db.receipts.map (·.id)).Nodup
  idR : (k.reads.map (·.2.id)).Nodup
  idS : (k.subs.map (·.2.2.id)).Nodup
  idW : (k.configs.map (·.id)).Nodup
  posW : ∀ c ∈ k.configs, 0 < c.id
  posD : ∀ r ∈ db.receipts, 0 < r.id

theorem sq_init : SqRel {} {} := by
  have hb : PdRel toMillis {} (sqPd {}) := sq_canon {} {} (pd_init toMillis)
  refine ⟨hb, rfl, rfl, rfl, rfl, (fun r hr => nomatch hr), rfl, rfl, rfl, ?_, ?_, ?_, ?_, ?_, ?_, ?_,
    (fun r hr => nomatch hr), (fun r hr => nomatch hr)⟩ <;> exact List.nodup_nil

theorem sq_user {k : PdKept} {db : SqDb} (h : db.users = k.users.map (fun p => sqUserColumns p.2 p.1)) (user : Nat) :
    db.users.any (fun u => decide (u.id = user)) = true ↔ PdUser k user := by
  rw [h, PdUser]
  simp [sqUserColumns]

theorem sq_net {k : PdKept} {db : SqDb} (h : db.networks = k.networks.map (fun p => pdNetRow p.1 p.2)) (net : Nat) :
    sqNetThere db net = true ↔ PdNet k net := by
  rw [sqNetThere, h, PdNet]
  simp [pdNetRow]

theorem sq_fk_iff {k : PdKept} {db : SqDb} (hu : db.users = k.users.map (fun p => sqUserColumns p.2 p.1))
    (hn : db.networks = k.networks.map (fun p => pdNetRow p.1 p.2)) :
    sqFk db = true ↔ (∀ p ∈ k.networks, PdUser k p.1) ∧ (∀ c ∈ db.channels, PdNet k c.network) ∧
      (∀ c ∈ db.receipts, PdNet k c.network) ∧ (∀ c ∈ db.reads, PdNet k c.network) ∧
      ∀ s ∈ db.subs, PdUser k s.user ∧ ∀ i, s.network = some i → PdNet k i := by
  unfold sqFk
  simp only [Bool.and_eq_true, List.all_eq_true, sq_user hu, sq_net hn]
  rw [and_assoc, and_assoc, and_assoc]
  refine and_congr ?_ (and_congr Iff.rfl (and_congr Iff.rfl (and_congr Iff.rfl ?_)))
  · rw [hn]
    constructor
    · intro h p hp
      exact h _ (List.mem_map_of_mem hp)
    · intro h r hr
      rw [List.mem_map] at hr
      obtain ⟨p, hp, rfl⟩ := hr
      exact h p hp
  · constructor
    · intro h s hs
      refine ⟨(h s hs).1, ?_⟩
      intro i e
      have := (h s hs).2
      rw [e] at this
      exact (sq_net hn i).1 this
    · intro h s hs
      refine ⟨(h s hs).1, ?_⟩
      cases e : s.network with
      | none => rfl
      | some i => exact (sq_net hn i).2 ((h s hs).2 i e)

theorem sq_fk {k : PdKept} {db : SqDb} (h : SqRel k db) : sqFk db = true := by
  rw [sq_fk_iff h.users h.networks]
  refine ⟨h.base.fkN, ?_, ?_, ?_, ?_⟩
  · rw [h.channels]
    intro c hc
    rw [List.mem_map] at hc
    obtain ⟨p, hp, rfl⟩ := hc
    exact h.base.fkC p hp
  · intro c hc
    exact h.base.fkD (sqReceiptOf c) (by rw [← h.receipts]; exact List.mem_map_of_mem hc)
  · rw [h.reads]
    intro c hc
    rw [List.mem_map] at hc
    obtain ⟨p, hp, rfl⟩ := hc
    exact h.base.fkR p hp
  · rw [h.subs]
    intro c hc
    rw [List.mem_map] at hc
    obtain ⟨p, hp, rfl⟩ := hc
    refine ⟨(h.base.fkS p hp).1, ?_⟩
    intro i e
    simp only [sqSubRow] at e
    split at e
    · cases e
      rcases (h.base.fkS p hp).2 with hz | hz
      · exact absurd hz (by assumption)
      · exact hz
    · cases e

theorem sq_commit {k : PdKept} {db after : SqDb} (id : Nat) (h : SqRel k after) :
    sqCommit db (sqStatement after) id = (after, some id) := by
  unfold sqStatement
  rw [if_pos (sq_fk h)]
  rfl

/-- What one call must do. -/
def SqGood (k : PdKept) (db : SqDb) (op : PdOp) : Prop :=
  SqRel (sqKeep k (op, (sqStep db op).2)) (sqStep db op).1 ∧ ((sqStep db op).2.isSome = true ↔ SqAllowed k op)

/-- Every text is accepted. -/
def sqOk : Nat → Str → Bool := fun _ _ => true

/-- The records after a call that does the same with PostgreSQL. -/
theorem sq_base {k : PdKept} (h : PdRel toMillis k (sqPd k)) (op : PdOp) (res : Option Nat)
    (hr : (pdStep sqOk toMillis (sqPd k) op).2 = res) :
    PdRel toMillis (pdKeep k (op, res)) (sqPd (pdKeep k (op, res))) := by
  have := (pd_step sqOk toMillis k (sqPd k) h op).1
  rw [hr] at this
  exact sq_canon _ _ this

theorem sq_fits (n : Nat) (s : Str) : PdFits sqOk n s := .inr rfl

theorem sq_nodup_next {α : Type} (l : List α) (f : α → Nat) (h : (l.map f).Nodup) (x : α)
    (hx : f x = nextRowId (l.map f)) : ((l ++ [x]).map f).Nodup := by
  rw [List.map_append, List.nodup_append]
  refine ⟨h, by simp, ?_⟩
  intro a ha b hb e
  simp only [List.map_cons, List.map_nil, List.mem_singleton] at hb
  have := lt_nextRowId (l.map f) a ha
  omega

theorem sq_nodup_map {α : Type} (l : List α) (f : α → Nat) (g : α → α) (h : (l.map f).Nodup)
    (hg : ∀ x ∈ l, f (g x) = f x) : ((l.map g).map f).Nodup := by
  have e : (l.map g).map f = l.map f := by
    rw [List.map_map]
    exact List.map_congr_left hg
  rw [e]; exact h

theorem sq_step_user (k : PdKept) (db : SqDb) (h : SqRel k db) (now : Int) (r : PdUserRec) :
    SqGood k db (.storeUser now r) := by
  unfold SqGood
  simp only [sqStep, SqAllowed]
  unfold sqStoreUser
  by_cases h0 : r.id = 0
  · simp only [h0, ne_eq, not_true_eq_false, if_false]
    have hn : db.users.any (fun o => decide (o.username = r.username)) = false ↔
        ∀ p ∈ k.users, p.1.username ≠ r.username := by
      rw [h.users]
      simp [sqUserColumns]
    cases hc : db.users.any (fun o => decide (o.username = r.username)) with
    | true =>
      rw [if_pos rfl]
      refine ⟨h, ?_⟩
      constructor
      · intro e; cases e
      · intro a
        rw [hn.2 (a trivial)] at hc
        cases hc
    | false =>
      rw [if_neg (by simp)]
      have hfree := hn.1 hc
      have hid : nextRowId (db.users.map (·.id)) = nextRowId (k.users.map (·.1.id)) := by
        rw [h.users, List.map_map]; rfl
      rw [hid]
      have hb := sq_base h.base (.storeUser (toMillis now) r) (some (nextRowId (k.users.map (·.1.id)))) (by
        simp only [pdStep, pdStoreUser, h0, if_true]
        rw [if_pos]
        · rfl
        · have hall := (pd_user_fits sqOk toMillis (toMillis now) r).2 ⟨sq_fits _ _, sq_fits _ _, sq_fits _ _⟩
          rw [hall]
          simp only [sqOk, Bool.true_and, Bool.not_eq_true', sqPd, List.any_map, List.any_eq_false]
          intro p hp e
          exact hfree p hp (of_decide_eq_true e))
      simp only [pdKeep, h0, if_true] at hb
      have hrel : SqRel { k with users := k.users ++ [({ r with id := nextRowId (k.users.map (·.1.id)) }, toMillis now)] }
          { db with users := db.users ++ [{ sqUserColumns now r with id := nextRowId (k.users.map (·.1.id)) }] } := by
        refine { h with base := hb, users := ?_, idU := ?_ }
        · simp only [List.map_append, List.map_cons, List.map_nil, h.users]
          have e : sqUserColumns (toMillis now) { r with id := nextRowId (k.users.map (·.1.id)) } =
              { sqUserColumns now r with id := nextRowId (k.users.map (·.1.id)) } := by
            simp only [sqUserColumns, sq_format_ms]
          rw [e]
        · exact sq_nodup_next k.users (·.1.id) h.idU _ rfl
      rw [sq_commit _ hrel]
      refine ⟨?_, by simp; exact fun a b hp => hfree (a, b) hp⟩
      simp only [sqKeep, h0, if_true]
      exact hrel
  · simp only [h0, ne_eq, not_false_eq_true, if_true]
    have hup : ∀ u, PdUser k u → PdUser { k with users := k.users.map (fun p =>
        if p.1.username = r.username then ({ r with id := p.1.id }, p.2) else p) } u := by
      rintro u ⟨p, hp, e⟩
      refine ⟨_, List.mem_map_of_mem hp, ?_⟩
      split <;> exact e
    have hb : PdRel toMillis { k with users := k.users.map (fun p =>
        if p.1.username = r.username then ({ r with id := p.1.id }, p.2) else p) }
        { sqPd k with users := (k.users.map (fun p =>
        if p.1.username = r.username then ({ r with id := p.1.id }, p.2) else p)).map (fun p => pdUserColumns toMillis p.2 p.1) } := by
      refine { h.base with users := rfl, uPos := ?_, uName := ?_, fkN := ?_, fkS := ?_ }
      · intro p hp
        rw [List.mem_map] at hp
        obtain ⟨q, hq, rfl⟩ := hp
        have := h.base.uPos q hq
        split <;> exact this
      · have e : (k.users.map (fun p => if p.1.username = r.username then ({ r with id := p.1.id }, p.2) else p)).map
            (·.1.username) = k.users.map (·.1.username) := by
          rw [List.map_map]
          apply List.map_congr_left
          intro p _
          simp only [Function.comp_apply]
          split
          · rename_i hh; exact hh.symm
          · rfl
        exact (congrArg List.Nodup e).mpr h.base.uName
      · intro p hp
        exact hup _ (h.base.fkN p hp)
      · intro p hp
        exact ⟨hup _ (h.base.fkS p hp).1, (h.base.fkS p hp).2⟩
    have hrel : SqRel { k with users := k.users.map (fun p =>
        if p.1.username = r.username then ({ r with id := p.1.id }, p.2) else p) }
        { db with users := db.users.map (fun o => if o.username = r.username then
          { sqUserColumns now r with id := o.id, createdAt := o.createdAt } else o) } := by
      refine { h with base := sq_canon _ _ hb, users := ?_, idU := ?_ }
      · simp only [h.users, List.map_map]
        apply List.map_congr_left
        intro p hp
        simp only [Function.comp_apply]
        by_cases hh : p.1.username = r.username
        · rw [if_pos hh, if_pos (show (sqUserColumns p.2 p.1).username = r.username from hh)]
          simp only [sqUserColumns]
        · rw [if_neg hh, if_neg (show ¬ (sqUserColumns p.2 p.1).username = r.username from hh)]
      · refine sq_nodup_map k.users (·.1.id) _ h.idU ?_
        intro p _
        split <;> rfl
    rw [sq_commit _ hrel]
    refine ⟨?_, by simp⟩
    simp only [sqKeep, h0, if_false]
    exact hrel

theorem sq_columns (user : Nat) (r : NetRec) : networkColumns user r = if PdMech r then some (pdNetRow user r) else none := by
  unfold networkColumns PdMech pdNetRow
  by_cases h1 : r.sasl.mechanism = []
  · simp [h1]
  · by_cases h2 : r.sasl.mechanism = b!"PLAIN"
    · simp [h2]
    · by_cases h3 : r.sasl.mechanism = b!"EXTERNAL"
      · simp [h3]
      · simp [h1, h2, h3]

theorem sq_net_fits (r : NetRec) : PdNetFits sqOk r ↔ PdMech r := by
  constructor
  · intro h
    exact ((pd_columns_fit sqOk 0 r).2 h).1
  · intro h
    refine ⟨sq_fits _ _, rfl, sq_fits _ _, sq_fits _ _, sq_fits _ _, sq_fits _ _, sq_fits _ _, sq_fits _ _, ?_⟩
    rcases h with h | h | h
    · exact .inl h
    · exact .inr (.inl h)
    · exact .inr (.inr ⟨h, sq_fits _ _, sq_fits _ _⟩)

theorem sq_isSome {α : Type} (o : Option α) (h : o.isSome = true) : ∃ a, o = some a := by
  cases o with
  | none => cases h
  | some a => exact ⟨a, rfl⟩

theorem sq_store_net_new (db : SqDb) (user : Nat) (r : NetRec) (hm : PdMech r) (h0 : r.id = 0) :
    sqStoreNetwork db user r =
      if networkUnique (db.networks ++ [pdNetRow user { r with id := nextRowId (db.networks.map (·.id)) }]) = true then
        sqCommit db (sqStatement { db with
          networks := db.networks ++ [pdNetRow user { r with id := nextRowId (db.networks.map (·.id)) }] })
          (nextRowId (db.networks.map (·.id)))
      else (db, none) := by
  unfold sqStoreNetwork dbStoreNetwork
  rw [sq_columns, if_pos hm]
  simp only [h0, ne_eq, not_true_eq_false, if_false]
  by_cases hu : networkUnique (db.networks ++ [pdNetRow user { r with id := nextRowId (db.networks.map (·.id)) }]) = true
  · rw [if_pos hu, if_pos (by exact hu)]
    rfl
  · rw [if_neg hu, if_neg (by exact hu)]

theorem sq_step_network (k : PdKept) (db : SqDb) (h : SqRel k db) (user : Nat) (r : NetRec) :
    SqGood k db (.storeNetwork user r) := by
  unfold SqGood
  simp only [sqStep, SqAllowed]
  have hpd := pd_step sqOk toMillis k (sqPd k) h.base (.storeNetwork user r)
  have hall := hpd.2
  simp only [PdAllowed, sq_net_fits] at hall
  by_cases hm : PdMech r
  · by_cases h0 : r.id = 0
    · rw [sq_store_net_new db user r hm h0]
      have hid : nextRowId (db.networks.map (·.id)) = nextRowId (k.networks.map (·.2.id)) := by
        rw [h.networks, List.map_map]; rfl
      rw [hid]
      have erows : db.networks ++ [pdNetRow user { r with id := nextRowId (k.networks.map (·.2.id)) }] =
          (k.networks ++ [(user, { r with id := nextRowId (k.networks.map (fun p : Nat × NetRec => p.2.id)) })]).map
            (fun p : Nat × NetRec => pdNetRow p.1 p.2) := by
        simp only [List.map_append, List.map_cons, List.map_nil, h.networks]
      have hu : networkUnique (db.networks ++ [pdNetRow user { r with id := nextRowId (k.networks.map (·.2.id)) }]) = true ↔
          PdNetFree k user r := by
        rw [erows, pd_net_unique]
        exact pd_nets_add k h.base.nUniq user r _ h.base.nPos h0
      have hs : (pdStep sqOk toMillis (sqPd k) (.storeNetwork user r)).2.isSome = true →
          (pdStep sqOk toMillis (sqPd k) (.storeNetwork user r)).2 = some (nextRowId (k.networks.map (·.2.id))) := by
        intro hs
        obtain ⟨a, ha⟩ := sq_isSome _ hs
        rw [ha]
        simp only [pdStep, pdStoreNetwork, pd_columns, if_pos hm, h0, if_true] at ha
        split at ha
        · exact ha.symm
        · cases ha
      by_cases hun : networkUnique (db.networks ++ [pdNetRow user { r with id := nextRowId (k.networks.map (·.2.id)) }]) = true
      · rw [if_pos hun]
        by_cases hc : PdUser k user
        · have hb := sq_base h.base _ _ (hs (hall.2 ⟨hm, fun _ => ⟨hc, hu.1 hun⟩, fun x => absurd h0 x⟩))
          simp only [pdKeep, h0, if_true] at hb
          have hrel : SqRel { k with networks := k.networks ++ [(user, { r with id := nextRowId (k.networks.map (·.2.id)) })] }
              { db with networks := db.networks ++ [pdNetRow user { r with id := nextRowId (k.networks.map (·.2.id)) }] } := by
            refine { h with base := hb, networks := by exact erows, idN := ?_ }
            exact sq_nodup_next k.networks (fun p => p.2.id) h.idN _ rfl
          rw [sq_commit _ hrel]
          refine ⟨?_, by
            constructor
            · intro _; exact ⟨hm, fun _ => ⟨hc, hu.1 hun⟩, fun x => absurd h0 x⟩
            · intro _; rfl⟩
          simp only [sqKeep, pdKeep, h0, if_true]
          exact hrel
        · have hno : sqStatement { db with
              networks := db.networks ++ [pdNetRow user { r with id := nextRowId (k.networks.map (·.2.id)) }] } = none := by
            unfold sqStatement
            rw [if_neg]
            intro hf
            have hf' := (sq_fk_iff (k := { k with networks := k.networks ++ [(user, { r with id := nextRowId (k.networks.map (·.2.id)) })] })
              (db := { db with networks := db.networks ++ [pdNetRow user { r with id := nextRowId (k.networks.map (·.2.id)) }] })
              h.users (by exact erows)).1 hf
            have := hf'.1 (user, { r with id := nextRowId (k.networks.map (·.2.id)) }) (by simp)
            exact hc this
          rw [hno]
          refine ⟨h, ?_⟩
          constructor
          · intro e; cases e
          · rintro ⟨_, b, _⟩
            exact absurd (b h0).1 hc
      · rw [if_neg hun]
        refine ⟨h, ?_⟩
        constructor
        · intro e; cases e
        · rintro ⟨_, b, _⟩
          exact absurd (hu.2 (b h0).2) hun
    · unfold sqStoreNetwork dbStoreNetwork
      rw [sq_columns, if_pos hm]
      simp only [h0, ne_eq, not_false_eq_true, if_true]
      have erows : db.networks.map (fun o => if o.id = r.id then { pdNetRow user r with user := o.user } else o) =
          (k.networks.map (fun p => if p.2.id = r.id then (p.1, r) else p)).map (fun p => pdNetRow p.1 p.2) := by
        simp only [h.networks, List.map_map]
        apply List.map_congr_left
        intro p _
        simp only [Function.comp_apply]
        by_cases hh : p.2.id = r.id
        · rw [if_pos hh, if_pos (show (pdNetRow p.1 p.2).id = r.id from hh)]
          rfl
        · rw [if_neg hh, if_neg (show ¬ (pdNetRow p.1 p.2).id = r.id from hh)]
      have hu : networkUnique (db.networks.map (fun o => if o.id = r.id then { pdNetRow user r with user := o.user } else o)) = true ↔
          ∀ p ∈ k.networks, p.2.id = r.id → PdNetFree k p.1 r := by
        rw [erows, pd_net_unique]
        exact pd_nets_set k h.base.nUniq r
      by_cases hc : ∀ p ∈ k.networks, p.2.id = r.id → PdNetFree k p.1 r
      · rw [if_pos (hu.2 hc)]
        have hs := hall.2 ⟨hm, fun x => absurd x h0, fun _ => hc⟩
        have hres : (pdStep sqOk toMillis (sqPd k) (.storeNetwork user r)).2 = some r.id := by
          obtain ⟨a, ha⟩ := sq_isSome _ hs
          rw [ha]
          simp only [pdStep, pdStoreNetwork, pd_columns, if_pos hm, h0, if_false] at ha
          split at ha
          · exact ha.symm
          · cases ha
        have hb := sq_base h.base _ _ hres
        simp only [pdKeep, h0, if_false] at hb
        have hrel : SqRel { k with networks := k.networks.map (fun p => if p.2.id = r.id then (p.1, r) else p) }
            { db with networks := db.networks.map (fun o => if o.id = r.id then { pdNetRow user r with user := o.user } else o) } := by
          refine { h with base := hb, networks := by exact erows, idN := ?_ }
          refine sq_nodup_map k.networks (·.2.id) _ h.idN ?_
          intro p _
          split
          · rename_i hh; exact hh.symm
          · rfl
        simp only
        rw [sq_commit _ hrel]
        refine ⟨?_, by
          constructor
          · intro _; exact ⟨hm, fun x => x.elim, fun _ => hc⟩
          · intro _; rfl⟩
        simp only [sqKeep, pdKeep, h0, if_false]
        exact hrel
      · rw [if_neg (fun x => hc (hu.1 x))]
        refine ⟨h, ?_⟩
        constructor
        · intro e; cases e
        · rintro ⟨_, _, b⟩
          exact absurd (b trivial) hc
  · unfold sqStoreNetwork dbStoreNetwork
    rw [sq_columns, if_neg hm]
    refine ⟨h, ?_⟩
    constructor
    · intro e; cases e
    · rintro ⟨a, _, _⟩
      exact absurd a hm

theorem sq_chans_move (l : List (Nat × ChanRec)) (h : PdChansOK l) (network : Nat) (c : ChanRec) :
    PdChansOK (l.map (fun p => if p.2.id = c.id then (network, c) else p)) ↔
      ∀ p ∈ l, p.2.id = c.id → ∀ q ∈ l, q.1 = network → q.2.id ≠ c.id → q.2.name ≠ c.name := by
  constructor
  · intro hh p hp he q hq hu hid
    exact hh q (by
      rw [List.mem_map]; exact ⟨q, hq, by rw [if_neg hid]⟩) (network, c) (by
      rw [List.mem_map]; exact ⟨p, hp, by rw [if_pos he]⟩) hid hu
  · intro hf a ha b hb hid hu
    rw [List.mem_map] at ha hb
    obtain ⟨a', ha, rfl⟩ := ha
    obtain ⟨b', hb, rfl⟩ := hb
    by_cases h1 : a'.2.id = c.id <;> by_cases h2 : b'.2.id = c.id
    · rw [if_pos h1, if_pos h2] at hid
      exact absurd rfl hid
    · rw [if_pos h1, if_neg h2] at hu ⊢
      exact fun e => hf a' ha h1 b' hb hu.symm h2 e.symm
    · rw [if_neg h1, if_pos h2] at hu ⊢
      exact hf b' hb h2 a' ha hu h1
    · rw [if_neg h1, if_neg h2] at hid hu ⊢
      exact h a' ha b' hb hid hu

theorem sq_chan_columns (network : Nat) (c : ChanRec) : channelColumns network c = pdChanColumns network c := rfl

theorem sq_step_channel (k : PdKept) (db : SqDb) (h : SqRel k db) (network : Nat) (c : ChanRec) :
    SqGood k db (.storeChannel network c) := by
  unfold SqGood
  simp only [sqStep, SqAllowed]
  unfold sqStoreChannel dbStoreChannel
  rw [sq_chan_columns]
  by_cases h0 : c.id = 0
  · simp only [h0, ne_eq, not_true_eq_false, if_false]
    have hid : nextRowId (db.channels.map (·.id)) = nextRowId (k.channels.map (·.2.id)) := by
      rw [h.channels, List.map_map]; rfl
    rw [hid]
    generalize hN : nextRowId (k.channels.map (·.2.id)) = N
    have erows : db.channels ++ [{ pdChanColumns network c with id := N }] =
        (k.channels ++ [(network, { c with id := N })]).map (fun p : Nat × ChanRec => pdChanColumns p.1 p.2) := by
      simp only [List.map_append, List.map_cons, List.map_nil, h.channels]
      rfl
    have hadd := pd_chans_add k.channels h.base.cUniq network c N (fun p hp => by
      rw [← hN]; exact sq_next k.channels (fun p => p.2.id) p hp)
    have hu : channelUnique (db.channels ++ [{ pdChanColumns network c with id := N }]) = true ↔
        ∀ p ∈ k.channels, p.1 = network → p.2.name ≠ c.name := by
      rw [erows, pd_chan_unique]
      exact hadd
    by_cases hun : channelUnique (db.channels ++ [{ pdChanColumns network c with id := N }]) = true
    · rw [if_pos hun]
      have hfree := hu.1 hun
      simp only
      by_cases hnet : PdNet k network
      · have hb : PdRel toMillis { k with channels := k.channels ++ [(network, { c with id := N })] }
            { sqPd k with
              channels := (k.channels ++ [(network, { c with id := N })]).map (fun p : Nat × ChanRec => pdChanColumns p.1 p.2)
              seqC := N + 1 } := by
          refine { h.base with channels := rfl, seqs := ?_, cPos := ?_, cUniq := hadd.2 hfree, fkC := ?_ }
          · have := h.base.seqs
            simp only; omega
          · intro p hp
            rw [List.mem_append, List.mem_singleton] at hp
            rcases hp with hp | rfl
            · have := h.base.cPos p hp
              have e : (sqPd k).seqC = N := hN
              simp only; omega
            · have := sq_next_pos (k.channels.map (·.2.id))
              simp only; omega
          · intro p hp
            rw [List.mem_append, List.mem_singleton] at hp
            rcases hp with hp | rfl
            · exact h.base.fkC p hp
            · exact hnet
        have hrel : SqRel { k with channels := k.channels ++ [(network, { c with id := N })] }
            { db with channels := db.channels ++ [{ pdChanColumns network c with id := N }] } := by
          refine { h with base := sq_canon _ _ hb, channels := by exact erows, idC := ?_ }
          exact sq_nodup_next k.channels (·.2.id) h.idC _ hN.symm
        rw [sq_commit _ hrel]
        refine ⟨?_, by
          constructor
          · intro _; exact ⟨fun _ => ⟨hnet, hfree⟩, fun x => x.elim⟩
          · intro _; rfl⟩
        simp only [sqKeep, h0, if_true]
        exact hrel
      · have hno : sqStatement { db with channels := db.channels ++ [{ pdChanColumns network c with id := N }] } = none := by
          unfold sqStatement
          rw [if_neg]
          intro hf
          have := ((sq_fk_iff (k := k) (db := { db with channels := db.channels ++ [{ pdChanColumns network c with id := N }] })
            h.users h.networks).1 hf).2.1 { pdChanColumns network c with id := N } (by simp)
          exact hnet this
        rw [hno]
        refine ⟨h, ?_⟩
        constructor
        · intro e; cases e
        · rintro ⟨b, _⟩
          exact absurd (b trivial).1 hnet
    · rw [if_neg hun]
      refine ⟨h, ?_⟩
      constructor
      · intro e; cases e
      · rintro ⟨b, _⟩
        exact absurd (hu.2 (b trivial).2) hun
  · simp only [h0, ne_eq, not_false_eq_true, if_true]
    have erows : db.channels.map (fun o => if o.id = c.id then pdChanColumns network c else o) =
        (k.channels.map (fun p => if p.2.id = c.id then (network, c) else p)).map (fun p => pdChanColumns p.1 p.2) := by
      simp only [h.channels, List.map_map]
      apply List.map_congr_left
      intro p _
      simp only [Function.comp_apply]
      by_cases hh : p.2.id = c.id
      · rw [if_pos hh, if_pos (show (pdChanColumns p.1 p.2).id = c.id from hh)]
      · rw [if_neg hh, if_neg (show ¬ (pdChanColumns p.1 p.2).id = c.id from hh)]
    have hset := sq_chans_move k.channels h.base.cUniq network c
    have hu : channelUnique (db.channels.map (fun o => if o.id = c.id then pdChanColumns network c else o)) = true ↔
        ∀ p ∈ k.channels, p.2.id = c.id → ∀ q ∈ k.channels, q.1 = network → q.2.id ≠ c.id → q.2.name ≠ c.name := by
      rw [erows, pd_chan_unique]
      exact hset
    by_cases hun : channelUnique (db.channels.map (fun o => if o.id = c.id then pdChanColumns network c else o)) = true
    · rw [if_pos hun]
      have hfree := hu.1 hun
      simp only
      by_cases hnet : ∀ p ∈ k.channels, p.2.id = c.id → PdNet k network
      · have hb : PdRel toMillis { k with channels := k.channels.map (fun p => if p.2.id = c.id then (network, c) else p) }
            { sqPd k with
              channels := (k.channels.map (fun p => if p.2.id = c.id then (network, c) else p)).map (fun p => pdChanColumns p.1 p.2) } := by
          refine { h.base with channels := rfl, cPos := ?_, cUniq := hset.2 hfree, fkC := ?_ }
          · intro p hp
            rw [List.mem_map] at hp
            obtain ⟨q, hq, rfl⟩ := hp
            have := h.base.cPos q hq
            split
            · rename_i hh; rw [← hh]; exact this
            · exact this
          · intro p hp
            rw [List.mem_map] at hp
            obtain ⟨q, hq, rfl⟩ := hp
            split
            · rename_i hh; exact hnet q hq hh
            · exact h.base.fkC q hq
        have hrel : SqRel { k with channels := k.channels.map (fun p => if p.2.id = c.id then (network, c) else p) }
            { db with channels := db.channels.map (fun o => if o.id = c.id then pdChanColumns network c else o) } := by
          refine { h with base := sq_canon _ _ hb, channels := by exact erows, idC := ?_ }
          refine sq_nodup_map k.channels (·.2.id) _ h.idC ?_
          intro p _
          split
          · rename_i hh; exact hh.symm
          · rfl
        rw [sq_commit _ hrel]
        refine ⟨?_, by
          constructor
          · intro _; exact ⟨fun x => x.elim, fun _ p hp e => ⟨hnet p hp e, hfree p hp e⟩⟩
          · intro _; rfl⟩
        simp only [sqKeep, h0, if_false]
        exact hrel
      · have hno : sqStatement { db with channels := db.channels.map (fun o => if o.id = c.id then pdChanColumns network c else o) } = none := by
          unfold sqStatement
          rw [if_neg]
          intro hf
          apply hnet
          intro p hp e
          have := ((sq_fk_iff (k := k) (db := { db with channels := db.channels.map (fun o => if o.id = c.id then pdChanColumns network c else o) })
            h.users h.networks).1 hf).2.1 (pdChanColumns network c) (by
              rw [erows, List.map_map]
              refine List.mem_map.2 ⟨p, hp, ?_⟩
              simp only [Function.comp_apply, if_pos e])
          exact this
        rw [hno]
        refine ⟨h, ?_⟩
        constructor
        · intro e; cases e
        · rintro ⟨_, b⟩
          exact absurd (fun p hp e => (b trivial p hp e).1) hnet
    · rw [if_neg hun]
      refine ⟨h, ?_⟩
      constructor
      · intro e; cases e
      · rintro ⟨_, b⟩
        exact absurd (hu.2 (fun p hp e => (b trivial p hp e).2)) hun

theorem sq_receipts_base {k : PdKept} (h : PdRel toMillis k (sqPd k)) (l : List (Nat × PdReceipt))
    (hz : ∀ p ∈ l, p.2.id = 0) (hf : ∀ p ∈ l, PdNet k p.1) :
    PdRel toMillis { k with receipts := l } (sqPd { k with receipts := l }) := by
  refine { h with receipts := ?_, fkD := hf }
  simp only [sqPd, List.map_map]
  have e : l.map (pdReceiptOf ∘ fun p => (⟨0, p.1, p.2.target, p.2.client, p.2.msgID⟩ : PdReceiptRow)) = l.map (fun p => p) := by
    apply List.map_congr_left
    intro p hp
    have := hz p hp
    obtain ⟨a, b⟩ := p
    cases b
    simp only at this
    simp only [Function.comp_apply, pdReceiptOf, this]
  rw [e, List.map_id']

theorem sq_zero {k : PdKept} {db : SqDb} (h : SqRel k db) : ∀ p ∈ k.receipts, p.2.id = 0 := by
  rw [← h.receipts]
  intro p hp
  rw [List.mem_map] at hp
  obtain ⟨r, _, rfl⟩ := hp
  rfl

theorem sq_client {o : SqReceiptRow} (ho : o.client ≠ some []) (client : Str) :
    o.client = toNull client ↔ (sqReceiptOf o).2.client = client := by
  simp only [sqReceiptOf]
  cases hc : o.client with
  | none =>
    simp only [Option.getD_none]
    constructor
    · intro e
      exact (((pd_null_none client).1 (by rw [← e]; rfl))).symm
    · intro e
      have := (pd_null_none client).2 e.symm
      cases ht : toNull client with
      | none => rfl
      | some x => rw [ht] at this; cases this
  | some x =>
    simp only [Option.getD_some]
    have hx : x ≠ [] := fun e => ho (by rw [hc, e])
    have ex : some x = toNull x := by
      unfold toNull
      rw [if_neg hx]
    rw [ex, pd_null_inj]

theorem sq_null_client (client : Str) : toNull client ≠ some [] := by
  unfold toNull
  split
  · intro e; cases e
  · rename_i h; intro e; cases e; exact h rfl

/-- What it takes for the delivery receipts to be added. -/
def SqAddable (k : PdKept) (network : Nat) (client : Str) (rs : List PdReceipt) : Prop :=
  rs ≠ [] → PdNet k network ∧ (client ≠ [] → (rs.map (·.target)).Nodup ∧
    ∀ r ∈ rs, ∀ p ∈ k.receipts, p.1 = network → p.2.client = client → p.2.target ≠ r.target)

theorem sq_insert (network : Nat) (client : Str) (rs : List PdReceipt) : ∀ (k : PdKept) (db : SqDb), SqRel k db →
    match sqInsertReceipts network client db rs with
    | some after => SqRel { k with
        receipts := k.receipts ++ rs.map (fun r => (network, ⟨0, r.target, client, r.msgID⟩)) } after ∧
        SqAddable k network client rs
    | none => ¬ SqAddable k network client rs := by
  induction rs with
  | nil =>
    intro k db h
    simp only [sqInsertReceipts, List.map_nil, List.append_nil]
    exact ⟨h, fun x => absurd rfl x⟩
  | cons r rs ih =>
    intro k db h
    simp only [sqInsertReceipts]
    have hany : db.receipts.any (fun o => decide (o.network = network ∧ o.target = r.target ∧ o.client = toNull client)) = true ↔
        ∃ p ∈ k.receipts, p.1 = network ∧ p.2.client = client ∧ p.2.target = r.target := by
      rw [List.any_eq_true, ← h.receipts]
      constructor
      · rintro ⟨o, ho, e⟩
        have e := of_decide_eq_true e
        exact ⟨sqReceiptOf o, List.mem_map_of_mem ho, e.1, (sq_client (h.client o ho) client).1 e.2.2, e.2.1⟩
      · rintro ⟨p, hp, e1, e2, e3⟩
        rw [List.mem_map] at hp
        obtain ⟨o, ho, rfl⟩ := hp
        exact ⟨o, ho, decide_eq_true ⟨e1, e3, (sq_client (h.client o ho) client).2 e2⟩⟩
    by_cases hc : client ≠ [] ∧ db.receipts.any (fun o =>
        decide (o.network = network ∧ o.target = r.target ∧ o.client = toNull client)) = true
    · rw [if_pos hc]
      intro ha
      obtain ⟨p, hp, e1, e2, e3⟩ := hany.1 hc.2
      exact ((ha (List.cons_ne_nil _ _)).2 hc.1).2 r (List.mem_cons_self ..) p hp e1 e2 e3
    · rw [if_neg hc]
      by_cases hnet : PdNet k network
      · have hrel : SqRel { k with receipts := k.receipts ++ [(network, ⟨0, r.target, client, r.msgID⟩)] }
            { db with receipts := db.receipts ++
              [⟨nextRowId (db.receipts.map (·.id)), network, r.target, toNull client, r.msgID⟩] } := by
          refine { h with base := ?_, receipts := ?_, client := ?_, idD := ?_, posD := ?_ }
          · refine sq_receipts_base h.base _ ?_ ?_
            · intro p hp
              rw [List.mem_append, List.mem_singleton] at hp
              rcases hp with hp | rfl
              · exact sq_zero h p hp
              · rfl
            · intro p hp
              rw [List.mem_append, List.mem_singleton] at hp
              rcases hp with hp | rfl
              · exact h.base.fkD p hp
              · exact hnet
          · simp only [List.map_append, List.map_cons, List.map_nil, h.receipts]
            have e : (toNull client).getD [] = client := by
              unfold toNull
              split
              · rename_i hh; exact hh.symm
              · rfl
            simp only [sqReceiptOf, e]
          · intro o ho
            rw [List.mem_append, List.mem_singleton] at ho
            rcases ho with ho | rfl
            · exact h.client o ho
            · exact sq_null_client client
          · exact sq_nodup_next db.receipts (·.id) h.idD _ rfl
          · intro o ho
            rw [List.mem_append, List.mem_singleton] at ho
            rcases ho with ho | rfl
            · exact h.posD o ho
            · exact sq_next_pos _
        unfold sqStatement
        rw [if_pos (sq_fk hrel)]
        simp only
        have := ih _ _ hrel
        have hadd : SqAddable { k with receipts := k.receipts ++ [(network, ⟨0, r.target, client, r.msgID⟩)] } network client rs ↔
            SqAddable k network client (r :: rs) := by
          constructor
          · intro ha _
            refine ⟨hnet, ?_⟩
            intro hcl
            have hno : ∀ p ∈ k.receipts, p.1 = network → p.2.client = client → p.2.target ≠ r.target :=
              fun p hp e1 e2 e3 => hc ⟨hcl, hany.2 ⟨p, hp, e1, e2, e3⟩⟩
            cases rs with
            | nil =>
              refine ⟨by simp, ?_⟩
              intro x hx p hp e1 e2
              rw [List.mem_singleton] at hx
              subst hx
              exact hno p hp e1 e2
            | cons r' rs =>
              obtain ⟨_, hn2⟩ := ha (List.cons_ne_nil _ _)
              obtain ⟨hnd, hfree⟩ := hn2 hcl
              refine ⟨?_, ?_⟩
              · rw [List.map_cons, List.nodup_cons]
                refine ⟨?_, hnd⟩
                intro hm
                rw [List.mem_map] at hm
                obtain ⟨x, hx, ex⟩ := hm
                exact hfree x hx (network, ⟨0, r.target, client, r.msgID⟩) (by simp) rfl rfl ex.symm
              · intro x hx p hp e1 e2
                rw [List.mem_cons] at hx
                rcases hx with rfl | hx
                · exact hno p hp e1 e2
                · exact hfree x hx p (by simp [hp]) e1 e2
          · intro ha _
            refine ⟨hnet, ?_⟩
            intro hcl
            obtain ⟨hnd, hfree⟩ := (ha (List.cons_ne_nil _ _)).2 hcl
            rw [List.map_cons, List.nodup_cons] at hnd
            refine ⟨hnd.2, ?_⟩
            intro x hx p hp e1 e2
            rw [List.mem_append, List.mem_singleton] at hp
            rcases hp with hp | rfl
            · exact hfree x (List.mem_cons_of_mem _ hx) p hp e1 e2
            · intro e
              exact hnd.1 (by rw [List.mem_map]; exact ⟨x, hx, e.symm⟩)
        split at this
        · rename_i after he
          refine ⟨?_, hadd.1 this.2⟩
          have h2 := this.1
          simp only [List.append_assoc, List.singleton_append] at h2
          exact h2
        · exact fun x => this (hadd.2 x)
      · have hno : sqStatement { db with receipts := db.receipts ++
              [⟨nextRowId (db.receipts.map (·.id)), network, r.target, toNull client, r.msgID⟩] } = none := by
          unfold sqStatement
          rw [if_neg]
          intro hf
          have := ((sq_fk_iff (k := k) (db := { db with receipts := db.receipts ++
              [⟨nextRowId (db.receipts.map (·.id)), network, r.target, toNull client, r.msgID⟩] })
            h.users h.networks).1 hf).2.2.1 ⟨nextRowId (db.receipts.map (·.id)), network, r.target, toNull client, r.msgID⟩ (by simp)
          exact hnet this
        rw [hno]
        exact fun ha => hnet (ha (List.cons_ne_nil _ _)).1

theorem sq_step_receipts (k : PdKept) (db : SqDb) (h : SqRel k db) (network : Nat) (client : Str) (rs : List PdReceipt) :
    SqGood k db (.storeReceipts network client rs) := by
  unfold SqGood
  simp only [sqStep, SqAllowed]
  unfold sqStoreReceipts
  have hrel : SqRel { k with receipts := k.receipts.filter (fun p => !(decide (p.1 = network) && decide (p.2.client = client))) }
      { db with receipts := db.receipts.filter (fun o => !(decide (o.network = network) && decide (o.client = toNull client))) } := by
    refine { h with base := ?_, receipts := ?_, client := ?_, idD := ?_, posD := ?_ }
    · exact sq_receipts_base h.base _ (fun p hp => sq_zero h p (pd_mem_filter hp)) (fun p hp => h.base.fkD p (pd_mem_filter hp))
    · show List.map _ (List.filter _ _) = List.filter _ _
      rw [← h.receipts, List.filter_map]
      congr 1
      apply List.filter_congr
      intro o ho
      simp only [Function.comp_apply]
      have e : decide (o.client = toNull client) = decide ((sqReceiptOf o).2.client = client) :=
        decide_eq_decide.2 (sq_client (h.client o ho) client)
      rw [e]
      rfl
    · exact fun o ho => h.client o (pd_mem_filter ho)
    · exact pd_nodup_filter _ _ _ h.idD
    · exact fun o ho => h.posD o (pd_mem_filter ho)
  have hst : ∀ x, sqFk x = true → sqStatement x = some x := fun x hx => by unfold sqStatement; rw [if_pos hx]
  rw [hst _ (sq_fk hrel)]
  simp only [Option.bind_some]
  have hi := sq_insert network client rs _ _ hrel
  have hadd : SqAddable { k with receipts := k.receipts.filter (fun p => !(decide (p.1 = network) && decide (p.2.client = client))) }
      network client rs ↔ (rs ≠ [] → PdNet k network ∧ (client ≠ [] → (rs.map (·.target)).Nodup)) := by
    constructor
    · exact fun ha hne => ⟨(ha hne).1, fun hcl => ((ha hne).2 hcl).1⟩
    · refine fun ha hne => ⟨(ha hne).1, fun hcl => ⟨(ha hne).2 hcl, ?_⟩⟩
      intro r _ p hp e1 e2
      have := (List.mem_filter.1 hp).2
      rw [decide_eq_true e1, decide_eq_true e2] at this
      cases this
  rw [hadd] at hi
  split at hi
  · rename_i after he
    rw [he]
    simp only [sqCommit]
    refine ⟨hi.1, ?_⟩
    constructor
    · intro _; exact hi.2
    · intro _; rfl
  · rename_i he
    rw [he]
    simp only [sqCommit]
    refine ⟨h, ?_⟩
    constructor
    · intro e; cases e
    · intro a; exact absurd a hi

theorem sq_value (t : Int) : sqliteValue t = if t = 0 then none else some (sqliteFormat t) := rfl

theorem sq_step_read (k : PdKept) (db : SqDb) (h : SqRel k db) (network : Nat) (r : PdRead) :
    SqGood k db (.storeRead network r) := by
  unfold SqGood
  simp only [sqStep, SqAllowed]
  unfold sqStoreRead
  have hall := (pd_step sqOk toMillis k (sqPd k) h.base (.storeRead network r)).2
  simp only [PdAllowed] at hall
  rw [sq_value]
  by_cases h0 : r.id = 0
  · simp only [h0, ne_eq, not_true_eq_false, if_false]
    by_cases ht : r.timestamp = 0
    · rw [if_pos ht]
      refine ⟨h, ?_⟩
      constructor
      · intro e; cases e
      · rintro ⟨a, _⟩
        exact absurd ht (a trivial).1
    · rw [if_neg ht]
      simp only
      have hany : db.reads.any (fun o => decide (o.network = network ∧ o.target = r.target)) = true ↔
          ¬ ∀ p ∈ k.reads, p.1 = network → p.2.target ≠ r.target := by
        rw [h.reads, List.any_eq_true]
        constructor
        · rintro ⟨o, ho, e⟩ ha
          rw [List.mem_map] at ho
          obtain ⟨p, hp, rfl⟩ := ho
          have e := of_decide_eq_true e
          exact ha p hp e.1 e.2
        · intro ha
          apply Classical.byContradiction
          intro hn
          exact ha (fun p hp e1 e2 => hn ⟨sqReadRow p, List.mem_map_of_mem hp, decide_eq_true ⟨e1, e2⟩⟩)
      by_cases hc : db.reads.any (fun o => decide (o.network = network ∧ o.target = r.target)) = true
      · rw [if_pos hc]
        refine ⟨h, ?_⟩
        constructor
        · intro e; cases e
        · rintro ⟨a, _⟩
          exact absurd (a trivial).2.2 (hany.1 hc)
      · rw [if_neg hc]
        have hfree : ∀ p ∈ k.reads, p.1 = network → p.2.target ≠ r.target := by
          apply Classical.byContradiction
          intro hn
          exact hc (hany.2 hn)
        have hid : nextRowId (db.reads.map (·.id)) = nextRowId (k.reads.map (·.2.id)) := by
          rw [h.reads, List.map_map]; rfl
        rw [hid]
        by_cases hnet : PdNet k network
        · have hres : (pdStep sqOk toMillis (sqPd k) (.storeRead network r)).2 = some (nextRowId (k.reads.map (·.2.id))) := by
            obtain ⟨a, ha⟩ := sq_isSome _ (hall.2 (fun _ => ⟨rfl, hnet, hfree⟩))
            rw [ha]
            simp only [pdStep, pdStoreRead, h0, ne_eq, not_true_eq_false, if_false] at ha
            split at ha
            · exact ha.symm
            · cases ha
          have hb := sq_base h.base _ _ hres
          simp only [pdKeep, h0, if_true] at hb
          have hrel : SqRel { k with reads := k.reads ++ [(network, { r with id := nextRowId (k.reads.map (·.2.id)) })] }
              { db with reads := db.reads ++ [⟨nextRowId (k.reads.map (·.2.id)), network, r.target, sqliteFormat r.timestamp⟩] } := by
            refine { h with base := hb, reads := ?_, idR := ?_ }
            · simp only [List.map_append, List.map_cons, List.map_nil, h.reads]
              rfl
            · exact sq_nodup_next k.reads (fun p => p.2.id) h.idR _ rfl
          rw [sq_commit _ hrel]
          refine ⟨?_, by
            constructor
            · intro _; exact ⟨fun _ => ⟨ht, hnet, hfree⟩, fun x => x.elim⟩
            · intro _; rfl⟩
          simp only [sqKeep, pdKeep, h0, if_true]
          exact hrel
        · have hno : sqStatement { db with
              reads := db.reads ++ [⟨nextRowId (k.reads.map (·.2.id)), network, r.target, sqliteFormat r.timestamp⟩] } = none := by
            unfold sqStatement
            rw [if_neg]
            intro hf
            have := ((sq_fk_iff (k := k) (db := { db with
              reads := db.reads ++ [⟨nextRowId (k.reads.map (·.2.id)), network, r.target, sqliteFormat r.timestamp⟩] })
              h.users h.networks).1 hf).2.2.2.1 ⟨nextRowId (k.reads.map (·.2.id)), network, r.target, sqliteFormat r.timestamp⟩ (by simp)
            exact hnet this
          rw [hno]
          refine ⟨h, ?_⟩
          constructor
          · intro e; cases e
          · rintro ⟨a, _⟩
            exact absurd (a trivial).2.1 hnet
  · simp only [h0, ne_eq, not_false_eq_true, if_true]
    by_cases ht : r.timestamp = 0
    · rw [if_pos ht]
      simp only
      have hany : db.reads.any (fun o => decide (o.id = r.id)) = true ↔ ¬ ∀ p ∈ k.reads, p.2.id ≠ r.id := by
        rw [h.reads, List.any_eq_true]
        constructor
        · rintro ⟨o, ho, e⟩ ha
          rw [List.mem_map] at ho
          obtain ⟨p, hp, rfl⟩ := ho
          exact ha p hp (of_decide_eq_true e)
        · intro ha
          apply Classical.byContradiction
          intro hn
          exact ha (fun p hp e => hn ⟨sqReadRow p, List.mem_map_of_mem hp, decide_eq_true e⟩)
      by_cases hc : db.reads.any (fun o => decide (o.id = r.id)) = true
      · rw [if_pos hc]
        refine ⟨h, ?_⟩
        constructor
        · intro e; cases e
        · rintro ⟨_, a⟩
          exact absurd (a trivial ht) (hany.1 hc)
      · rw [if_neg hc]
        have hfree : ∀ p ∈ k.reads, p.2.id ≠ r.id := by
          apply Classical.byContradiction
          intro hn
          exact hc (hany.2 hn)
        refine ⟨?_, by
          constructor
          · intro _; exact ⟨fun x => x.elim, fun _ _ => hfree⟩
          · intro _; rfl⟩
        simp only [sqKeep, pdKeep, h0, if_false]
        have e : k.reads.map (fun p => if p.2.id = r.id then (p.1, { p.2 with timestamp := r.timestamp }) else p) = k.reads := by
          conv => rhs; rw [← List.map_id' k.reads]
          apply List.map_congr_left
          intro p hp
          rw [if_neg (hfree p hp)]
        rw [e]
        exact h
    · rw [if_neg ht]
      simp only
      have hres : (pdStep sqOk toMillis (sqPd k) (.storeRead network r)).2 = some r.id := by
        obtain ⟨a, ha⟩ := sq_isSome _ (hall.2 (fun x => absurd x h0))
        rw [ha]
        simp only [pdStep, pdStoreRead, h0, ne_eq, not_false_eq_true, if_true] at ha
        exact ha.symm
      have hb := sq_base h.base _ _ hres
      simp only [pdKeep, h0, if_false] at hb
      have hrel : SqRel { k with reads := k.reads.map (fun p => if p.2.id = r.id then (p.1, { p.2 with timestamp := r.timestamp }) else p) }
          { db with reads := db.reads.map (fun o => if o.id = r.id then { o with timestamp := sqliteFormat r.timestamp } else o) } := by
        refine { h with base := hb, reads := ?_, idR := ?_ }
        · simp only [h.reads, List.map_map]
          apply List.map_congr_left
          intro p _
          simp only [Function.comp_apply]
          by_cases hh : p.2.id = r.id
          · rw [if_pos hh, if_pos (show (sqReadRow p).id = r.id from hh)]
            rfl
          · rw [if_neg hh, if_neg (show ¬ (sqReadRow p).id = r.id from hh)]
        · refine sq_nodup_map k.reads (·.2.id) _ h.idR ?_
          intro p _
          split <;> rfl
      rw [sq_commit _ hrel]
      refine ⟨?_, by
        constructor
        · intro _; exact ⟨fun x => x.elim, fun _ x => absurd x ht⟩
        · intro _; rfl⟩
      simp only [sqKeep, pdKeep, h0, if_false]
      exact hrel

theorem sq_step_sub (k : PdKept) (db : SqDb) (h : SqRel k db) (now : Int) (user network : Nat) (s : PdSub) :
    SqGood k db (.storeSub now user network s) := by
  unfold SqGood
  simp only [sqStep, SqAllowed]
  unfold sqStoreSub
  have hall := (pd_step sqOk toMillis k (sqPd k) h.base (.storeSub (toMillis now) user network s)).2
  simp only [PdAllowed] at hall
  by_cases h0 : s.id = 0
  · simp only [h0, ne_eq, not_true_eq_false, if_false]
    have hany : sqSubTaken db (if ¬ network = 0 then some network else none) s.endpoint = true ↔
        ¬ (network ≠ 0 → ∀ p ∈ k.subs, p.2.1 = network → p.2.2.endpoint ≠ s.endpoint) := by
      unfold sqSubTaken
      rw [List.any_eq_true, h.subs]
      constructor
      · rintro ⟨o, ho, e⟩ ha
        rw [List.mem_map] at ho
        obtain ⟨p, hp, rfl⟩ := ho
        simp only [Bool.and_eq_true, sqSubRow] at e
        obtain ⟨⟨e1, e2⟩, e3⟩ := e
        by_cases hz : p.2.1 = 0
        · simp [hz] at e2
        · by_cases hz' : network = 0
          · simp [hz, hz'] at e1
          · simp [hz, hz'] at e1
            exact ha hz' p hp e1 (of_decide_eq_true e3)
      · intro ha
        apply Classical.byContradiction
        intro hn
        apply ha
        intro hz p hp e1 e2
        apply hn
        refine ⟨sqSubRow p, List.mem_map_of_mem hp, ?_⟩
        simp [sqSubRow, e1, e2, hz]
    by_cases hc : sqSubTaken db (if ¬ network = 0 then some network else none) s.endpoint = true
    · rw [if_pos hc]
      refine ⟨h, ?_⟩
      constructor
      · intro e; cases e
      · intro a
        exact absurd (fun hz => ((a trivial).2 hz).2) (hany.1 hc)
    · rw [if_neg hc]
      have hfree : network ≠ 0 → ∀ p ∈ k.subs, p.2.1 = network → p.2.2.endpoint ≠ s.endpoint := by
        apply Classical.byContradiction
        intro hn
        exact hc (hany.2 hn)
      have hid : nextRowId (db.subs.map (·.id)) = nextRowId (k.subs.map (·.2.2.id)) := by
        rw [h.subs, List.map_map]; rfl
      rw [hid]
      by_cases hpar : PdUser k user ∧ (network ≠ 0 → PdNet k network)
      · have hres : (pdStep sqOk toMillis (sqPd k) (.storeSub (toMillis now) user network s)).2 =
            some (nextRowId (k.subs.map (·.2.2.id))) := by
          obtain ⟨a, ha⟩ := sq_isSome _ (hall.2 ⟨⟨rfl, rfl, rfl⟩, fun _ => ⟨rfl, hpar.1, fun hz => ⟨hpar.2 hz, hfree hz⟩⟩⟩)
          rw [ha]
          simp only [pdStep, pdStoreSub, h0, ne_eq, not_true_eq_false, if_false] at ha
          generalize (if ¬ network = 0 then some network else none) = net at ha
          split at ha
          · exact ha.symm
          · cases ha
        have hb := sq_base h.base _ _ hres
        simp only [pdKeep, h0, if_true] at hb
        have hrel : SqRel { k with subs := k.subs ++ [(user, network, { s with id := nextRowId (k.subs.map (·.2.2.id)), createdAt := toMillis now, updatedAt := toMillis now })] }
            { db with subs := db.subs ++ [⟨nextRowId (k.subs.map (·.2.2.id)), sqliteFormat now, sqliteFormat now, user,
              if ¬ network = 0 then some network else none, s.endpoint, s.vapid, s.auth, s.p256dh⟩] } := by
          refine { h with base := hb, subs := ?_, idS := ?_ }
          · simp only [List.map_append, List.map_cons, List.map_nil, h.subs]
            simp only [sqSubRow, sq_format_ms]
          · exact sq_nodup_next k.subs (fun p => p.2.2.id) h.idS _ rfl
        rw [sq_commit _ hrel]
        refine ⟨?_, by
          constructor
          · intro _; exact fun _ => ⟨hpar.1, fun hz => ⟨hpar.2 hz, hfree hz⟩⟩
          · intro _; rfl⟩
        simp only [sqKeep, pdKeep, h0, if_true]
        exact hrel
      · have hno : sqStatement { db with subs := db.subs ++ [⟨nextRowId (k.subs.map (·.2.2.id)), sqliteFormat now, sqliteFormat now, user,
              if ¬ network = 0 then some network else none, s.endpoint, s.vapid, s.auth, s.p256dh⟩] } = none := by
          unfold sqStatement
          rw [if_neg]
          intro hf
          have := ((sq_fk_iff (k := k) (db := { db with subs := db.subs ++ [⟨nextRowId (k.subs.map (·.2.2.id)), sqliteFormat now, sqliteFormat now, user,
              if ¬ network = 0 then some network else none, s.endpoint, s.vapid, s.auth, s.p256dh⟩] })
            h.users h.networks).1 hf).2.2.2.2 ⟨nextRowId (k.subs.map (·.2.2.id)), sqliteFormat now, sqliteFormat now, user,
              if ¬ network = 0 then some network else none, s.endpoint, s.vapid, s.auth, s.p256dh⟩ (by simp)
          exact hpar ⟨this.1, fun hz => this.2 network (by simp only; rw [if_pos hz])⟩
        rw [hno]
        refine ⟨h, ?_⟩
        constructor
        · intro e; cases e
        · intro a
          exact absurd ⟨(a trivial).1, fun hz => ((a trivial).2 hz).1⟩ hpar
  · simp only [h0, ne_eq, not_false_eq_true, if_true]
    have hres : (pdStep sqOk toMillis (sqPd k) (.storeSub (toMillis now) user network s)).2 = some s.id := by
      obtain ⟨a, ha⟩ := sq_isSome _ (hall.2 ⟨⟨rfl, rfl, rfl⟩, fun x => absurd x h0⟩)
      rw [ha]
      simp only [pdStep, pdStoreSub, h0, ne_eq, not_false_eq_true, if_true] at ha
      split at ha
      · exact ha.symm
      · cases ha
    have hb := sq_base h.base _ _ hres
    simp only [pdKeep, h0, if_false] at hb
    have hrel : SqRel { k with subs := k.subs.map (fun p => if p.2.2.id = s.id then
          (p.1, p.2.1, { s with endpoint := p.2.2.endpoint, createdAt := p.2.2.createdAt, updatedAt := toMillis now }) else p) }
        { db with subs := db.subs.map (fun o => if o.id = s.id then
          { o with updatedAt := sqliteFormat now, auth := s.auth, p256dh := s.p256dh, vapid := s.vapid } else o) } := by
      refine { h with base := hb, subs := ?_, idS := ?_ }
      · simp only [h.subs, List.map_map]
        apply List.map_congr_left
        intro p _
        simp only [Function.comp_apply]
        by_cases hh : p.2.2.id = s.id
        · rw [if_pos hh, if_pos (show (sqSubRow p).id = s.id from hh)]
          simp only [sqSubRow, sq_format_ms, hh]
        · rw [if_neg hh, if_neg (show ¬ (sqSubRow p).id = s.id from hh)]
      · refine sq_nodup_map k.subs (·.2.2.id) _ h.idS ?_
        intro p _
        split
        · rename_i hh; exact hh.symm
        · rfl
    rw [sq_commit _ hrel]
    refine ⟨?_, by
      constructor
      · intro _; exact fun x => x.elim
      · intro _; rfl⟩
    simp only [sqKeep, pdKeep, h0, if_false]
    exact hrel

theorem sq_ids_filter {α : Type} (rows : List α) (id net : α → Nat) (nets : List NetworkRow) (user : Nat)
    (hn : (rows.map id).Nodup) :
    rows.filter (fun c => decide (id c ∉ sqIdsOfUser (rows.map (fun c => (id c, net c))) nets user)) =
      rows.filter (fun c => !(nets.any (fun n => decide (net c = n.id) && decide (n.user = user)))) := by
  apply List.filter_congr
  intro c hc
  have key : id c ∈ sqIdsOfUser (rows.map (fun c => (id c, net c))) nets user ↔
      nets.any (fun n => decide (net c = n.id) && decide (n.user = user)) = true := by
    unfold sqIdsOfUser
    rw [List.mem_flatMap, List.any_eq_true]
    constructor
    · rintro ⟨x, hx, hm⟩
      rw [List.mem_map] at hx
      obtain ⟨c', hc', rfl⟩ := hx
      rw [List.mem_map] at hm
      obtain ⟨n, hn', e⟩ := hm
      have : c' = c := eq_of_nodup_map hn hc' hc e
      subst this
      exact ⟨n, (List.mem_filter.1 hn').1, (List.mem_filter.1 hn').2⟩
    · rintro ⟨n, hn', e⟩
      refine ⟨(id c, net c), List.mem_map_of_mem hc, ?_⟩
      rw [List.mem_map]
      exact ⟨n, List.mem_filter.2 ⟨hn', e⟩, rfl⟩
  cases hb : nets.any (fun n => decide (net c = n.id) && decide (n.user = user)) with
  | true => exact decide_eq_false (fun x => x (key.2 hb))
  | false => exact decide_eq_true (fun x => by rw [key.1 x] at hb; cases hb)

/-- Removing rows that no other row refers to. -/
theorem sq_fk_less {k : PdKept} {db after : SqDb} (h : SqRel k db) (hu : after.users = db.users)
    (hn : after.networks = db.networks) (hc : ∀ x ∈ after.channels, x ∈ db.channels)
    (hd : ∀ x ∈ after.receipts, x ∈ db.receipts) (hr : ∀ x ∈ after.reads, x ∈ db.reads)
    (hs : ∀ x ∈ after.subs, x ∈ db.subs) : sqStatement after = some after := by
  have hf := (sq_fk_iff h.users h.networks).1 (sq_fk h)
  have : sqFk after = true := (sq_fk_iff (hu.trans h.users) (hn.trans h.networks)).2
    ⟨hf.1, fun x hx => hf.2.1 x (hc x hx), fun x hx => hf.2.2.1 x (hd x hx), fun x hx => hf.2.2.2.1 x (hr x hx),
      fun x hx => hf.2.2.2.2 x (hs x hx)⟩
  unfold sqStatement
  rw [if_pos this]

theorem sq_owned {k : PdKept} {db : SqDb} (h : SqRel k db) (user n : Nat) :
    db.networks.any (fun r => decide (n = r.id) && decide (r.user = user)) =
      (k.networks.filter (fun p => decide (p.1 = user))).any (fun p => decide (p.2.id = n)) := by
  rw [Bool.eq_iff_iff, List.any_eq_true, List.any_eq_true, h.networks]
  constructor
  · rintro ⟨r, hr, e⟩
    rw [List.mem_map] at hr
    obtain ⟨p, hp, rfl⟩ := hr
    rw [Bool.and_eq_true] at e
    exact ⟨p, List.mem_filter.2 ⟨hp, decide_eq_true (of_decide_eq_true e.2)⟩, decide_eq_true (of_decide_eq_true e.1).symm⟩
  · rintro ⟨p, hp, e⟩
    rw [List.mem_filter] at hp
    refine ⟨pdNetRow p.1 p.2, List.mem_map_of_mem hp.1, ?_⟩
    rw [Bool.and_eq_true]
    exact ⟨decide_eq_true (of_decide_eq_true e).symm, decide_eq_true (of_decide_eq_true hp.2)⟩

theorem sq_step_del_user (k : PdKept) (db : SqDb) (h : SqRel k db) (id : Nat) : SqGood k db (.deleteUser id) := by
  unfold SqGood
  simp only [sqStep, SqAllowed]
  have hb := sq_base h.base (.deleteUser id) (some 0) rfl
  have hidC : (db.channels.map (·.id)).Nodup := by
    rw [h.channels, List.map_map]; exact h.idC
  have hidR : (db.reads.map (·.id)).Nodup := by
    rw [h.reads, List.map_map]; exact h.idR
  generalize hgone : (fun n : Nat => !((k.networks.filter (fun p => decide (p.1 = id))).any (fun p => decide (p.2.id = n)))) = here
  have hhere : ∀ n, (!(db.networks.any (fun r => decide (n = r.id) && decide (r.user = id)))) = here n := by
    intro n
    rw [sq_owned h, ← hgone]
  have e1 := sq_ids_filter db.receipts (·.id) (·.network) db.networks id h.idD
  have e2 := sq_ids_filter db.reads (·.id) (·.network) db.networks id hidR
  have e3 := sq_ids_filter db.channels (·.id) (·.network) db.networks id hidC
  simp only [hhere] at e1 e2 e3
  have hdel : sqDeleteUser db id = (sqStatement { db with
      receipts := db.receipts.filter (fun c => here c.network)
      reads := db.reads.filter (fun c => here c.network)
      subs := db.subs.filter (fun s => decide (s.user ≠ id))
      channels := db.channels.filter (fun c => here c.network)
      networks := db.networks.filter (fun n => decide (n.user ≠ id)) }).bind (fun db =>
        sqStatement { db with users := db.users.filter (fun u => decide (u.id ≠ id)) }) := by
    unfold sqDeleteUser
    simp only [Option.bind_eq_bind]
    rw [e1]
    rw [sq_fk_less h (after := { db with receipts := db.receipts.filter (fun c => here c.network) }) rfl rfl
      (fun x hx => hx) (fun x hx => pd_mem_filter hx) (fun x hx => hx) (fun x hx => hx)]
    simp only [Option.bind_some]
    rw [e2]
    rw [sq_fk_less h (after := { db with
      receipts := db.receipts.filter (fun c => here c.network)
      reads := db.reads.filter (fun c => here c.network) }) rfl rfl
      (fun x hx => hx) (fun x hx => pd_mem_filter hx) (fun x hx => pd_mem_filter hx) (fun x hx => hx)]
    simp only [Option.bind_some]
    rw [sq_fk_less h (after := { db with
      receipts := db.receipts.filter (fun c => here c.network)
      reads := db.reads.filter (fun c => here c.network)
      subs := db.subs.filter (fun s => decide (s.user ≠ id)) }) rfl rfl
      (fun x hx => hx) (fun x hx => pd_mem_filter hx) (fun x hx => pd_mem_filter hx) (fun x hx => pd_mem_filter hx)]
    simp only [Option.bind_some]
    rw [e3]
    rw [sq_fk_less h (after := { db with
      receipts := db.receipts.filter (fun c => here c.network)
      reads := db.reads.filter (fun c => here c.network)
      subs := db.subs.filter (fun s => decide (s.user ≠ id))
      channels := db.channels.filter (fun c => here c.network) }) rfl rfl
      (fun x hx => pd_mem_filter hx) (fun x hx => pd_mem_filter hx) (fun x hx => pd_mem_filter hx) (fun x hx => pd_mem_filter hx)]
    simp only [Option.bind_some]
  have hnets : db.networks.filter (fun n => decide (n.user ≠ id)) =
      (k.networks.filter (fun p => !decide (p.1 = id))).map (fun p => pdNetRow p.1 p.2) := by
    rw [h.networks, List.filter_map]
    congr 1
    apply List.filter_congr
    intro p _
    simp only [Function.comp_apply, pdNetRow, ne_eq, decide_not]
  rw [hdel]
  by_cases hc : ∀ p ∈ k.subs, p.1 ≠ id → ∀ n ∈ k.networks, n.1 = id → n.2.id ≠ p.2.1
  · have hsubs : db.subs.filter (fun s => decide (s.user ≠ id)) =
        ((k.subs.filter (fun p => here p.2.1)).filter (fun p => decide (p.1 ≠ id))).map sqSubRow := by
      rw [h.subs, List.filter_map, List.filter_filter]
      congr 1
      apply List.filter_congr
      intro p hp
      show decide (p.1 ≠ id) = (decide (p.1 ≠ id) && here p.2.1)
      by_cases hp1 : p.1 ≠ id
      · have : here p.2.1 = true := by
          rw [← hgone]
          simp only [Bool.not_eq_true', List.any_eq_false, List.mem_filter]
          intro n hn e
          exact hc p hp hp1 n hn.1 (of_decide_eq_true hn.2) (of_decide_eq_true e)
        rw [this, Bool.and_true]
      · rw [decide_eq_false hp1, Bool.false_and]
    have hrel : SqRel (pdKeep k (.deleteUser id, some 0)) { db with
        receipts := db.receipts.filter (fun c => here c.network)
        reads := db.reads.filter (fun c => here c.network)
        subs := db.subs.filter (fun s => decide (s.user ≠ id))
        channels := db.channels.filter (fun c => here c.network)
        networks := db.networks.filter (fun n => decide (n.user ≠ id))
        users := db.users.filter (fun u => decide (u.id ≠ id)) } := by
      refine { h with
        base := hb, users := ?_, networks := ?_, channels := ?_, receipts := ?_, client := ?_, reads := ?_
        subs := ?_, idU := ?_, idN := ?_, idC := ?_, idD := ?_, idR := ?_, idS := ?_, posD := ?_ }
      · show db.users.filter _ = _
        rw [h.users, List.filter_map]
        rfl
      · exact hnets
      · show db.channels.filter _ = (k.channels.filter _).map _
        rw [h.channels, List.filter_map, ← hgone]
        rfl
      · show (db.receipts.filter _).map _ = k.receipts.filter _
        rw [← h.receipts, List.filter_map, ← hgone]
        rfl
      · exact fun r hr => h.client r (pd_mem_filter hr)
      · show db.reads.filter _ = (k.reads.filter _).map _
        rw [h.reads, List.filter_map, ← hgone]
        rfl
      · show db.subs.filter _ = ((k.subs.filter _).filter _).map _
        rw [hsubs, ← hgone]
      · exact pd_nodup_filter _ _ _ h.idU
      · exact pd_nodup_filter _ _ _ h.idN
      · exact pd_nodup_filter _ _ _ h.idC
      · exact pd_nodup_filter _ _ _ h.idD
      · exact pd_nodup_filter _ _ _ h.idR
      · exact pd_nodup_filter _ _ _ (pd_nodup_filter _ _ _ h.idS)
      · exact fun r hr => h.posD r (pd_mem_filter hr)
    have hf := (sq_fk_iff hrel.users hrel.networks).1 (sq_fk hrel)
    have hup : ∀ u, PdUser (pdKeep k (.deleteUser id, some 0)) u →
        PdUser { pdKeep k (.deleteUser id, some 0) with users := k.users } u := by
      rintro u ⟨p, hp, e⟩
      exact ⟨p, pd_mem_filter hp, e⟩
    have h5 : sqStatement { db with
        receipts := db.receipts.filter (fun c => here c.network)
        reads := db.reads.filter (fun c => here c.network)
        subs := db.subs.filter (fun s => decide (s.user ≠ id))
        channels := db.channels.filter (fun c => here c.network)
        networks := db.networks.filter (fun n => decide (n.user ≠ id)) } = some { db with
        receipts := db.receipts.filter (fun c => here c.network)
        reads := db.reads.filter (fun c => here c.network)
        subs := db.subs.filter (fun s => decide (s.user ≠ id))
        channels := db.channels.filter (fun c => here c.network)
        networks := db.networks.filter (fun n => decide (n.user ≠ id)) } := by
      unfold sqStatement
      rw [if_pos]
      refine (sq_fk_iff (k := { pdKeep k (.deleteUser id, some 0) with users := k.users }) (db := { db with
          receipts := db.receipts.filter (fun c => here c.network)
          reads := db.reads.filter (fun c => here c.network)
          subs := db.subs.filter (fun s => decide (s.user ≠ id))
          channels := db.channels.filter (fun c => here c.network)
          networks := db.networks.filter (fun n => decide (n.user ≠ id)) }) h.users (by exact hnets)).2 ?_
      exact ⟨fun p hp => hup _ (hf.1 p hp), hf.2.1, hf.2.2.1, hf.2.2.2.1, fun s hs => ⟨hup _ (hf.2.2.2.2 s hs).1, (hf.2.2.2.2 s hs).2⟩⟩
    rw [h5]
    simp only [Option.bind_some]
    rw [sq_commit _ hrel]
    refine ⟨hrel, ?_⟩
    constructor
    · intro _; exact hc
    · intro _; rfl
  · have h5 : sqStatement { db with
        receipts := db.receipts.filter (fun c => here c.network)
        reads := db.reads.filter (fun c => here c.network)
        subs := db.subs.filter (fun s => decide (s.user ≠ id))
        channels := db.channels.filter (fun c => here c.network)
        networks := db.networks.filter (fun n => decide (n.user ≠ id)) } = none := by
      unfold sqStatement
      rw [if_neg]
      intro hf
      have hf := (sq_fk_iff (k := { pdKeep k (.deleteUser id, some 0) with users := k.users }) (db := { db with
          receipts := db.receipts.filter (fun c => here c.network)
          reads := db.reads.filter (fun c => here c.network)
          subs := db.subs.filter (fun s => decide (s.user ≠ id))
          channels := db.channels.filter (fun c => here c.network)
          networks := db.networks.filter (fun n => decide (n.user ≠ id)) }) h.users (by exact hnets)).1 hf
      apply hc
      intro p hp hp1 n hn hn1 e
      have hs := hf.2.2.2.2 (sqSubRow p) (by
        rw [List.mem_filter, h.subs]
        exact ⟨List.mem_map_of_mem hp, decide_eq_true hp1⟩)
      have hz : p.2.1 ≠ 0 := by
        have := (h.base.nPos n hn).1
        omega
      obtain ⟨m, hm, em⟩ := hs.2 p.2.1 (by simp only [sqSubRow]; rw [if_pos hz])
      have hm' : m ∈ k.networks ∧ (!decide (m.1 = id)) = true := List.mem_filter.1 hm
      have : m = n := eq_of_nodup_map h.idN hm'.1 hn (by
        show m.2.id = n.2.id
        rw [em, e])
      subst this
      rw [decide_eq_true hn1] at hm'
      cases hm'.2
    rw [h5]
    refine ⟨h, ?_⟩
    constructor
    · intro e; cases e
    · intro a; exact absurd a hc

theorem sq_step_del_net (k : PdKept) (db : SqDb) (h : SqRel k db) (id : Nat) : SqGood k db (.deleteNetwork id) := by
  unfold SqGood
  simp only [sqStep, SqAllowed]
  have hb := sq_base h.base (.deleteNetwork id) (some 0) rfl
  have hhere : ∀ n, PdNet k n → (!((k.networks.filter (fun p => decide (p.2.id = id))).any (fun p => decide (p.2.id = n)))) =
      decide (n ≠ id) := by
    rintro n ⟨p, hp, rfl⟩
    by_cases e : p.2.id = id
    · rw [decide_eq_false (fun x => x e), Bool.not_eq_false', List.any_eq_true]
      exact ⟨p, List.mem_filter.2 ⟨hp, decide_eq_true e⟩, decide_eq_true rfl⟩
    · rw [decide_eq_true e, Bool.not_eq_true', List.any_eq_false]
      intro q hq eq
      have h1 := of_decide_eq_true (List.mem_filter.1 hq).2
      have h2 := of_decide_eq_true eq
      exact e (h2 ▸ h1)
  have hzero : (!((k.networks.filter (fun p => decide (p.2.id = id))).any (fun p => decide (p.2.id = 0)))) = true := by
    rw [Bool.not_eq_true', List.any_eq_false]
    intro q hq eq
    have h2 : q.2.id = 0 := of_decide_eq_true eq
    have := (h.base.nPos q (pd_mem_filter hq)).1
    omega
  have hrel : SqRel (pdKeep k (.deleteNetwork id, some 0)) { db with
      subs := db.subs.filter (fun s => decide (s.network ≠ some id))
      receipts := db.receipts.filter (fun c => decide (c.network ≠ id))
      reads := db.reads.filter (fun c => decide (c.network ≠ id))
      channels := db.channels.filter (fun c => decide (c.network ≠ id))
      networks := db.networks.filter (fun n => decide (n.id ≠ id)) } := by
    refine { h with
      base := hb, networks := ?_, channels := ?_, receipts := ?_, client := ?_, reads := ?_
      subs := ?_, idN := ?_, idC := ?_, idD := ?_, idR := ?_, idS := ?_, posD := ?_ }
    · show db.networks.filter _ = (k.networks.filter _).map _
      rw [h.networks, List.filter_map]
      congr 1
      apply List.filter_congr
      intro p _
      simp only [Function.comp_apply, pdNetRow, ne_eq, decide_not]
    · show db.channels.filter _ = (k.channels.filter _).map _
      rw [h.channels, List.filter_map]
      congr 1
      apply List.filter_congr
      intro p hp
      exact (hhere p.1 (h.base.fkC p hp)).symm
    · show (db.receipts.filter _).map _ = k.receipts.filter _
      have e : k.receipts.filter (fun p => !((k.networks.filter (fun p => decide (p.2.id = id))).any (fun q => decide (q.2.id = p.1)))) =
          k.receipts.filter (fun p => decide (p.1 ≠ id)) := by
        apply List.filter_congr
        intro p hp
        exact hhere p.1 (h.base.fkD p hp)
      rw [e, ← h.receipts, List.filter_map]
      rfl
    · exact fun r hr => h.client r (pd_mem_filter hr)
    · show db.reads.filter _ = (k.reads.filter _).map _
      rw [h.reads, List.filter_map]
      congr 1
      apply List.filter_congr
      intro p hp
      exact (hhere p.1 (h.base.fkR p hp)).symm
    · show db.subs.filter _ = (k.subs.filter _).map _
      rw [h.subs, List.filter_map]
      congr 1
      apply List.filter_congr
      intro p hp
      show decide ((sqSubRow p).network ≠ some id) = _
      by_cases hz : p.2.1 = 0
      · have e1 : (sqSubRow p).network = none := by
          simp only [sqSubRow, hz, ne_eq, not_true_eq_false, if_false]
        have e2 := hzero
        rw [← hz] at e2
        rw [e1]
        exact e2.symm
      · have e1 : (sqSubRow p).network = some p.2.1 := by
          simp only [sqSubRow, ne_eq, hz, not_false_eq_true, if_true]
        rcases (h.base.fkS p hp).2 with hz' | hz'
        · exact absurd hz' hz
        · refine Eq.trans ?_ (hhere _ hz').symm
          rw [e1]
          apply decide_eq_decide.2
          simp
    · exact pd_nodup_filter _ _ _ h.idN
    · exact pd_nodup_filter _ _ _ h.idC
    · exact pd_nodup_filter _ _ _ h.idD
    · exact pd_nodup_filter _ _ _ h.idR
    · exact pd_nodup_filter _ _ _ h.idS
    · exact fun r hr => h.posD r (pd_mem_filter hr)
  have hdel : sqDeleteNetwork db id = sqStatement { db with
      subs := db.subs.filter (fun s => decide (s.network ≠ some id))
      receipts := db.receipts.filter (fun c => decide (c.network ≠ id))
      reads := db.reads.filter (fun c => decide (c.network ≠ id))
      channels := db.channels.filter (fun c => decide (c.network ≠ id))
      networks := db.networks.filter (fun n => decide (n.id ≠ id)) } := by
    unfold sqDeleteNetwork
    simp only [Option.bind_eq_bind]
    rw [sq_fk_less h (after := { db with
      subs := db.subs.filter (fun s => decide (s.network ≠ some id)) }) rfl rfl
      (fun x hx => hx) (fun x hx => hx) (fun x hx => hx) (fun x hx => pd_mem_filter hx)]
    simp only [Option.bind_some]
    rw [sq_fk_less h (after := { db with
      subs := db.subs.filter (fun s => decide (s.network ≠ some id))
      receipts := db.receipts.filter (fun c => decide (c.network ≠ id)) }) rfl rfl
      (fun x hx => hx) (fun x hx => pd_mem_filter hx) (fun x hx => hx) (fun x hx => pd_mem_filter hx)]
    simp only [Option.bind_some]
    rw [sq_fk_less h (after := { db with
      subs := db.subs.filter (fun s => decide (s.network ≠ some id))
      receipts := db.receipts.filter (fun c => decide (c.network ≠ id))
      reads := db.reads.filter (fun c => decide (c.network ≠ id)) }) rfl rfl
      (fun x hx => hx) (fun x hx => pd_mem_filter hx) (fun x hx => pd_mem_filter hx) (fun x hx => pd_mem_filter hx)]
    simp only [Option.bind_some]
    rw [sq_fk_less h (after := { db with
      subs := db.subs.filter (fun s => decide (s.network ≠ some id))
      receipts := db.receipts.filter (fun c => decide (c.network ≠ id))
      reads := db.reads.filter (fun c => decide (c.network ≠ id))
      channels := db.channels.filter (fun c => decide (c.network ≠ id)) }) rfl rfl
      (fun x hx => pd_mem_filter hx) (fun x hx => pd_mem_filter hx) (fun x hx => pd_mem_filter hx) (fun x hx => pd_mem_filter hx)]
    simp only [Option.bind_some]
  rw [hdel, sq_commit _ hrel]
  refine ⟨hrel, ?_⟩
  constructor
  · intro _; trivial
  · intro _; rfl

theorem sq_step_del_chan (k : PdKept) (db : SqDb) (h : SqRel k db) (id : Nat) : SqGood k db (.deleteChannel id) := by
  refine ⟨?_, by simp [sqStep, SqAllowed]⟩
  refine { h with base := sq_base h.base (.deleteChannel id) (some 0) rfl, channels := ?_, idC := ?_ }
  · show db.channels.filter _ = (k.channels.filter _).map _
    rw [h.channels, List.filter_map]
    rfl
  · exact pd_nodup_filter _ _ _ h.idC

theorem sq_step_del_sub (k : PdKept) (db : SqDb) (h : SqRel k db) (id : Nat) : SqGood k db (.deleteSub id) := by
  refine ⟨?_, by simp [sqStep, SqAllowed]⟩
  refine { h with base := sq_base h.base (.deleteSub id) (some 0) rfl, subs := ?_, idS := ?_ }
  · show db.subs.filter _ = (k.subs.filter _).map _
    rw [h.subs, List.filter_map]
    rfl
  · exact pd_nodup_filter _ _ _ h.idS

theorem sq_step_config (k : PdKept) (db : SqDb) (h : SqRel k db) (c : PdConfig) : SqGood k db (.storeConfig c) := by
  unfold SqGood
  simp only [sqStep, SqAllowed]
  unfold sqStoreConfig
  have hn : db.configs.any (fun o => decide (o.pub = c.pub)) = false ↔ ∀ o ∈ k.configs, o.pub ≠ c.pub := by
    rw [h.configs]
    simp only [List.any_eq_false, decide_eq_true_eq, ne_eq]
  by_cases h0 : c.id = 0
  · rw [if_neg (by simp [h0])]
    cases hc : db.configs.any (fun o => decide (o.pub = c.pub)) with
    | true =>
      rw [if_pos rfl]
      refine ⟨h, ?_⟩
      constructor
      · intro e; cases e
      · rintro ⟨_, a⟩
        rw [hn.2 a] at hc
        cases hc
    | false =>
      rw [if_neg (by simp)]
      refine ⟨?_, by
        constructor
        · intro _; exact ⟨h0, hn.1 hc⟩
        · intro _; rfl⟩
      rw [h.configs]
      refine { h with base := { h.base with configs := rfl }, configs := rfl, idW := ?_, posW := ?_ }
      · exact sq_nodup_next k.configs (fun p => p.id) h.idW _ rfl
      · intro o ho
        have ho : o ∈ k.configs ++ [{ c with id := nextRowId (k.configs.map (·.id)) }] := ho
        rw [List.mem_append, List.mem_singleton] at ho
        rcases ho with ho | rfl
        · exact h.posW o ho
        · exact sq_next_pos _
  · rw [if_pos h0]
    refine ⟨h, ?_⟩
    constructor
    · intro e; cases e
    · rintro ⟨a, _⟩
      exact absurd a h0

theorem sq_step (k : PdKept) (db : SqDb) (h : SqRel k db) (op : PdOp) : SqGood k db op := by
  cases op with
  | storeUser now r => exact sq_step_user k db h now r
  | deleteUser id => exact sq_step_del_user k db h id
  | storeNetwork user r => exact sq_step_network k db h user r
  | deleteNetwork id => exact sq_step_del_net k db h id
  | storeChannel network c => exact sq_step_channel k db h network c
  | deleteChannel id => exact sq_step_del_chan k db h id
  | storeReceipts network client rs => exact sq_step_receipts k db h network client rs
  | storeRead network r => exact sq_step_read k db h network r
  | storeSub now user network s => exact sq_step_sub k db h now user network s
  | deleteSub id => exact sq_step_del_sub k db h id
  | storeConfig c => exact sq_step_config k db h c

theorem sq_run_snoc (ops : List PdOp) (op : PdOp) :
    sqRun (ops ++ [op]) = ((sqStep (sqRun ops).1 op).1, (sqRun ops).2 ++ [(op, (sqStep (sqRun ops).1 op).2)]) := by
  unfold sqRun
  rw [List.foldl_append]
  rfl

theorem sq_rel (ops : List PdOp) : SqRel (sqKept (sqRun ops).2) (sqRun ops).1 := by
  induction ops using snocInd with
  | nil => exact sq_init
  | snoc ops op ih =>
    rw [sq_run_snoc]
    unfold sqKept
    rw [List.foldl_append]
    exact (sq_step _ _ ih op).1

end Verif.Proof
