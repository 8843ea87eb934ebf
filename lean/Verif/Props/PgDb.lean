import Verif.Props.DbRows
import Verif.Proof.PgDb

/-! # C82: the account data in a PostgreSQL database -/

namespace Verif.Props
open Verif.Model Verif.Spec Verif.Proof

/-- The tables after the calls `ops`. -/
private abbrev tables (ok : Nat → Str → Bool) (tm : Int → Int) (ops : List PdOp) : PdDb := (pdRun ok tm ops).1

/-- The records that should be there after the calls `ops`. -/
private abbrev records (ok : Nat → Str → Bool) (tm : Int → Int) (ops : List PdOp) : PdKept := pdKept (pdRun ok tm ops).2

theorem pd_user_back (tm : Int → Int) (p : PdUserRec × Int) :
    pdUserOf (pdUserColumns tm p.2 p.1) = { p.1 with interactedAt := pdInstant tm p.1.interactedAt } := by
  simp only [pdUserOf, pdUserColumns, null_get, pdTime, pdInstant]
  congr 1
  split <;> rfl

/-- C82: the users listed are those that were stored and not deleted, with the settings stored last. -/
theorem C82_users (ok : Nat → Str → Bool) (tm : Int → Int) (ops : List PdOp) :
    (pdListUsers (tables ok tm ops)).Perm
      ((records ok tm ops).users.map (fun p => { p.1 with interactedAt := pdInstant tm p.1.interactedAt })) := by
  have h := pd_rel ok tm ops
  unfold pdListUsers
  rw [h.users, List.map_map]
  apply List.Perm.of_eq
  apply List.map_congr_left
  intro p _
  exact pd_user_back tm p

/-- C82: no two users listed have the same name, and asking for a user by name gives the one listed with this name,
if there is one. -/
theorem C82_get_user (ok : Nat → Str → Bool) (tm : Int → Int) (ops : List PdOp) (username : Str) (u : PdUserRec) :
    ((pdListUsers (tables ok tm ops)).map (·.username)).Nodup ∧
    (pdGetUser (tables ok tm ops) username = some u ↔ u ∈ pdListUsers (tables ok tm ops) ∧ u.username = username) := by
  have h := pd_rel ok tm ops
  have hn : ((pdListUsers (tables ok tm ops)).map (·.username)).Nodup := by
    unfold pdListUsers
    rw [h.users, List.map_map, List.map_map]
    exact h.uName
  refine ⟨hn, ?_⟩
  unfold pdGetUser
  rw [Option.map_eq_some_iff]
  constructor
  · rintro ⟨r, hr, rfl⟩
    have hm := List.mem_filter.1 (List.mem_of_mem_head? hr)
    have he : r.username = username := of_decide_eq_true hm.2
    refine ⟨?_, rfl⟩
    have : { pdUserOf r with username := username } = pdUserOf r := by rw [← he]; rfl
    rw [this]
    exact List.mem_map_of_mem hm.1
  · rintro ⟨hu, he⟩
    unfold pdListUsers at hu
    rw [List.mem_map] at hu
    obtain ⟨r, hr, rfl⟩ := hu
    have hmem : r ∈ (tables ok tm ops).users.filter (fun o => decide (o.username = username)) :=
      List.mem_filter.2 ⟨hr, decide_eq_true he⟩
    cases hh : (tables ok tm ops).users.filter (fun o => decide (o.username = username)) with
    | nil => rw [hh] at hmem; cases hmem
    | cons a l =>
      refine ⟨a, by simp, ?_⟩
      have ha : a ∈ (tables ok tm ops).users.filter (fun o => decide (o.username = username)) := by rw [hh]; simp
      have ha' := List.mem_filter.1 ha
      have hnd : ((tables ok tm ops).users.map (·.username)).Nodup := by
        rw [h.users, List.map_map]
        exact h.uName
      have e : a = r := eq_of_nodup_map hnd ha'.1 hr ((of_decide_eq_true ha'.2 : a.username = username).trans he.symm)
      rw [e, ← he]

/-- C82: the users listed as inactive are those whose last interaction — their creation if there was none — is before
the limit. -/
theorem C82_inactive (ok : Nat → Str → Bool) (tm : Int → Int) (ops : List PdOp) (limit : Int) :
    (pdListInactive tm (tables ok tm ops) limit).Perm
      (((records ok tm ops).users.filter (fun p =>
        decide ((if p.1.interactedAt = 0 then p.2 else tm p.1.interactedAt) < tm limit))).map (·.1.username)) := by
  have h := pd_rel ok tm ops
  unfold pdListInactive
  rw [h.users, List.filter_map, List.map_map]
  apply List.Perm.of_eq
  have : ((fun o : PdUserRow => decide (o.interactedAt.getD o.createdAt < tm limit)) ∘ fun p : PdUserRec × Int =>
      pdUserColumns tm p.2 p.1) = fun p => decide ((if p.1.interactedAt = 0 then p.2 else tm p.1.interactedAt) < tm limit) := by
    funext p
    simp only [Function.comp_apply, pdUserColumns, pdTime]
    congr 2
    split <;> rfl
  rw [this]
  rfl

theorem pd_net_back (user : Nat) (r : NetRec) (hm : PdMech r) (hc : CommandsOK r.connectCommands) :
    pdNetOf (pdNetRow user r) = keptNetwork r := by
  have e : networkColumns user r = some (pdNetRow user r) := by
    unfold networkColumns pdNetRow
    rcases hm with h | h | h
    · simp [h, toNull]
    · simp [h]
    · simp [h]
  exact (columns_back user r _ e hc r.id user).1

/-- The networks stored have lists of commands that can be read back. -/
def PdCommandsOK (ops : List PdOp) : Prop := ∀ user r, PdOp.storeNetwork user r ∈ ops → CommandsOK r.connectCommands

private theorem nets_good (ok : Nat → Str → Bool) (tm : Int → Int) (ops : List PdOp) (hc : PdCommandsOK ops) :
    ∀ p ∈ (records ok tm ops).networks, PdMech p.2 ∧ CommandsOK p.2.connectCommands := by
  induction ops using snocInd with
  | nil => intro p hp; cases hp
  | snoc ops op ih =>
    have ih := ih (fun u r hr => hc u r (by simp [hr]))
    have hg := pd_step ok tm _ _ (pd_rel ok tm ops) op
    unfold records pdKept at ih ⊢
    rw [pd_run_snoc, List.foldl_append]
    simp only [List.foldl_cons, List.foldl_nil]
    generalize hk : List.foldl pdKeep {} (pdRun ok tm ops).2 = k at ih
    have hk' : pdKept (pdRun ok tm ops).2 = k := hk
    rw [hk'] at hg
    have hall := hg.2
    generalize hres : (pdStep ok tm (pdRun ok tm ops).1 op).2 = res at hall ⊢
    cases res with
    | none => simpa [pdKeep] using ih
    | some id =>
      have hall := hall.1 rfl
      cases op with
      | storeNetwork user r =>
        have hm : PdMech r := ((pd_columns_fit ok user r).2 hall.1).1
        have hcr := hc user r (by simp)
        intro p hp
        simp only [pdKeep] at hp
        split at hp
        · rw [List.mem_append, List.mem_singleton] at hp
          rcases hp with hp | rfl
          · exact ih p hp
          · exact ⟨hm, hcr⟩
        · rw [List.mem_map] at hp
          obtain ⟨q, hq, rfl⟩ := hp
          split
          · exact ⟨hm, hcr⟩
          · exact ih q hq
      | storeUser now r =>
        intro p hp
        simp only [pdKeep] at hp
        split at hp <;> exact ih p hp
      | deleteUser i =>
        intro p hp
        exact ih p (pd_mem_filter hp)
      | deleteNetwork i =>
        intro p hp
        exact ih p (pd_mem_filter hp)
      | storeChannel n c =>
        intro p hp
        simp only [pdKeep] at hp
        split at hp <;> exact ih p hp
      | deleteChannel i => exact ih
      | storeReceipts n c rs => exact ih
      | storeRead n r =>
        intro p hp
        simp only [pdKeep] at hp
        split at hp <;> exact ih p hp
      | storeSub now u n s =>
        intro p hp
        simp only [pdKeep] at hp
        split at hp <;> exact ih p hp
      | deleteSub i => exact ih
      | storeConfig c => exact ih

/-- C82: the networks listed for a user are those stored for this user and not deleted, with the settings stored
last. -/
theorem C82_networks (ok : Nat → Str → Bool) (tm : Int → Int) (ops : List PdOp) (hc : PdCommandsOK ops) (user : Nat) :
    (pdListNetworks (tables ok tm ops) user).Perm
      (((records ok tm ops).networks.filter (fun p => decide (p.1 = user))).map (fun p => keptNetwork p.2)) := by
  have h := pd_rel ok tm ops
  unfold pdListNetworks
  rw [h.networks, List.filter_map, List.map_map]
  apply List.Perm.of_eq
  apply List.map_congr_left
  intro p hp
  have := nets_good ok tm ops hc p (pd_mem_filter hp)
  exact pd_net_back p.1 p.2 this.1 this.2

/-- C82: the channels listed for a network are those stored for it and not deleted, with the settings stored last. -/
theorem C82_channels (ok : Nat → Str → Bool) (tm : Int → Int) (ops : List PdOp) (network : Nat) :
    (pdListChannels (tables ok tm ops) network).Perm
      (((records ok tm ops).channels.filter (fun p => decide (p.1 = network))).map (fun p => keptChannel p.2)) := by
  have h := pd_rel ok tm ops
  unfold pdListChannels
  rw [h.channels, List.filter_map, List.map_map]
  apply List.Perm.of_eq
  apply List.map_congr_left
  intro p _
  simp only [Function.comp_apply, pdChanOf, pdChanColumns, null_get, keptChannel]

/-- C82: the delivery receipts listed for a network are those stored last for each client. -/
theorem C82_receipts (ok : Nat → Str → Bool) (tm : Int → Int) (ops : List PdOp) (network : Nat) :
    ((pdListReceipts (tables ok tm ops) network).map (fun r => (r.target, r.client, r.msgID))).Perm
      (((records ok tm ops).receipts.filter (fun p => decide (p.1 = network))).map
        (fun p => (p.2.target, p.2.client, p.2.msgID))) := by
  have h := pd_rel ok tm ops
  unfold pdListReceipts
  rw [← h.receipts, List.filter_map, List.map_map, List.map_map]
  exact List.Perm.of_eq rfl

/-- C82: the read receipt of a conversation is the one stored last for it, if there is one. -/
theorem C82_read (ok : Nat → Str → Bool) (tm : Int → Int) (ops : List PdOp) (network : Nat) (name : Str) (r : PdRead) :
    pdGetRead (tables ok tm ops) network name = some r ↔
      ∃ p ∈ (records ok tm ops).reads, p.1 = network ∧ p.2.target = name ∧ r = { p.2 with timestamp := tm p.2.timestamp } := by
  have h := pd_rel ok tm ops
  unfold pdGetRead
  rw [Option.map_eq_some_iff, h.reads]
  constructor
  · rintro ⟨o, ho, rfl⟩
    have hm := List.mem_filter.1 (List.mem_of_mem_head? ho)
    rw [List.mem_map] at hm
    obtain ⟨⟨p, hp, rfl⟩, he⟩ := hm
    have he := of_decide_eq_true he
    refine ⟨p, hp, he.1, he.2, ?_⟩
    have : p.2.target = name := he.2
    simp only [pdReadRow, ← this]
  · rintro ⟨p, hp, h1, h2, rfl⟩
    have hmem : pdReadRow tm p ∈ ((records ok tm ops).reads.map (pdReadRow tm)).filter
        (fun o => decide (o.network = network ∧ o.target = name)) :=
      List.mem_filter.2 ⟨List.mem_map_of_mem hp, decide_eq_true ⟨h1, h2⟩⟩
    cases hh : ((records ok tm ops).reads.map (pdReadRow tm)).filter
        (fun o => decide (o.network = network ∧ o.target = name)) with
    | nil => rw [hh] at hmem; cases hmem
    | cons a l =>
      refine ⟨a, by simp, ?_⟩
      have ha : a ∈ ((records ok tm ops).reads.map (pdReadRow tm)).filter
        (fun o => decide (o.network = network ∧ o.target = name)) := by rw [hh]; simp
      have ha' := List.mem_filter.1 ha
      have hae := of_decide_eq_true ha'.2
      rw [List.mem_map] at ha'
      obtain ⟨⟨q, hq, rfl⟩, _⟩ := ha'
      have e : q = p := eq_of_nodup_map h.rUniq hq hp (by
        simp only [Prod.mk.injEq]
        exact ⟨hae.1.trans h1.symm, hae.2.trans h2.symm⟩)
      rw [e]
      simp only [pdReadRow, ← h2]

/-- C82: the push subscriptions listed for a user and a network (0: none) are those stored for them and not deleted,
with the keys stored last. -/
theorem C82_subs (ok : Nat → Str → Bool) (tm : Int → Int) (ops : List PdOp) (user network : Nat) :
    (pdListSubs (tables ok tm ops) user network).Perm
      (((records ok tm ops).subs.filter (fun p => decide (p.1 = user ∧ p.2.1 = network))).map (·.2.2)) := by
  have h := pd_rel ok tm ops
  unfold pdListSubs
  rw [h.subs]
  simp only [List.filter_map, List.map_map]
  apply List.Perm.of_eq
  have : ((fun s : PdSubRow => decide (s.user = user) && decide (s.network = if network ≠ 0 then some network else none)) ∘ pdSubRow)
      = fun p => decide (p.1 = user ∧ p.2.1 = network) := by
    funext p
    rw [Function.comp_apply, Bool.eq_iff_iff, Bool.and_eq_true, decide_eq_true_eq, decide_eq_true_eq,
      decide_eq_true_eq]
    apply and_congr_right
    intro _
    simp only [pdSubRow]
    by_cases h1 : p.2.1 = 0 <;> by_cases h2 : network = 0
    · simp [h1, h2]
    · simp [h1, h2]; omega
    · simp [h1, h2]
    · simp [h1, h2]
  rw [this]
  rfl

/-- C82: the keys for push messages listed are those that were stored. -/
theorem C82_configs (ok : Nat → Str → Bool) (tm : Int → Int) (ops : List PdOp) :
    (pdListConfigs (tables ok tm ops)).Perm (records ok tm ops).configs :=
  List.Perm.of_eq (pd_rel ok tm ops).configs

/-- C82: a call succeeds exactly if the texts are accepted, what it refers to exists and nothing collides. -/
theorem C82_success (ok : Nat → Str → Bool) (tm : Int → Int) (ops : List PdOp) (op : PdOp) :
    (pdStep ok tm (tables ok tm ops) op).2 ≠ none ↔ PdAllowed ok (records ok tm ops) op := by
  have := (pd_step ok tm _ _ (pd_rel ok tm ops) op).2
  rw [← this]
  cases (pdStep ok tm (tables ok tm ops) op).2 <;> simp

/-- C82: channels, receipts and push subscriptions are there only for networks that some user has. -/
theorem C82_no_orphans (ok : Nat → Str → Bool) (tm : Int → Int) (ops : List PdOp) (network : Nat) (hn : network ≠ 0)
    (h : pdListChannels (tables ok tm ops) network ≠ [] ∨ pdListReceipts (tables ok tm ops) network ≠ [] ∨
      (∃ name, pdGetRead (tables ok tm ops) network name ≠ none) ∨
      ∃ user, pdListSubs (tables ok tm ops) user network ≠ []) :
    ∃ u ∈ pdListUsers (tables ok tm ops), ∃ n ∈ pdListNetworks (tables ok tm ops) u.id, n.id = network := by
  have hr := pd_rel ok tm ops
  have key : PdNet (records ok tm ops) network → ∃ u ∈ pdListUsers (tables ok tm ops),
      ∃ n ∈ pdListNetworks (tables ok tm ops) u.id, n.id = network := by
    rintro ⟨p, hp, e⟩
    obtain ⟨q, hq, e2⟩ := hr.fkN p hp
    refine ⟨pdUserOf (pdUserColumns tm q.2 q.1), ?_, pdNetOf (pdNetRow p.1 p.2), ?_, e⟩
    · unfold pdListUsers
      rw [hr.users, List.map_map]
      exact List.mem_map.2 ⟨q, hq, rfl⟩
    · unfold pdListNetworks
      rw [hr.networks]
      refine List.mem_map_of_mem (List.mem_filter.2 ⟨List.mem_map.2 ⟨p, hp, rfl⟩, ?_⟩)
      exact decide_eq_true e2.symm
  apply key
  rcases h with h | h | ⟨name, h⟩ | ⟨user, h⟩
  · obtain ⟨c, hc⟩ := List.exists_mem_of_ne_nil _ h
    have hc := (C82_channels ok tm ops network).mem_iff.1 hc
    rw [List.mem_map] at hc
    obtain ⟨p, hp, _⟩ := hc
    have hp' := List.mem_filter.1 hp
    have e : p.1 = network := of_decide_eq_true hp'.2
    exact e ▸ hr.fkC p hp'.1
  · obtain ⟨c, hc⟩ := List.exists_mem_of_ne_nil _ h
    unfold pdListReceipts at hc
    rw [List.mem_map] at hc
    obtain ⟨r, hrr, _⟩ := hc
    have hp' := List.mem_filter.1 hrr
    have e : r.network = network := of_decide_eq_true hp'.2
    have := hr.fkD (pdReceiptOf r) (by rw [← hr.receipts]; exact List.mem_map_of_mem hp'.1)
    exact e ▸ this
  · obtain ⟨r, hrr⟩ := Option.ne_none_iff_exists'.1 h
    obtain ⟨p, hp, e, _⟩ := (C82_read ok tm ops network name r).1 hrr
    exact e ▸ hr.fkR p hp
  · obtain ⟨c, hc⟩ := List.exists_mem_of_ne_nil _ h
    have hc := (C82_subs ok tm ops user network).mem_iff.1 hc
    rw [List.mem_map] at hc
    obtain ⟨p, hp, _⟩ := hc
    have hp' := List.mem_filter.1 hp
    have e := of_decide_eq_true hp'.2
    rcases (hr.fkS p hp'.1).2 with hz | hz
    · exact absurd (e.2.symm.trans hz) hn
    · exact e.2 ▸ hz

/-- The next value of the sequence of a table. -/
private def seqOf (db : PdDb) : Nat → Nat
  | 0 => db.seqU
  | 1 => db.seqN
  | 2 => db.seqC
  | 3 => db.seqR
  | 4 => db.seqS
  | _ => db.seqW

private theorem seq_step (ok : Nat → Str → Bool) (tm : Int → Int) (db : PdDb) (op : PdOp) (t : Nat) (ht : t < 6) :
    (∀ g, pdGiven (op, (pdStep ok tm db op).2) = some g → g.1 < 6 ∧ g.2 = seqOf db g.1 ∧ seqOf (pdStep ok tm db op).1 g.1 = g.2 + 1) ∧
    seqOf db t ≤ seqOf (pdStep ok tm db op).1 t := by
  have hlt : t = 0 ∨ t = 1 ∨ t = 2 ∨ t = 3 ∨ t = 4 ∨ t = 5 := by omega
  cases op with
  | storeUser now r =>
    simp only [pdStep, pdStoreUser]
    repeat' split
    all_goals (constructor; · intro g hg; simp_all [pdGiven] <;> (try subst hg) <;> simp [seqOf]
               · rcases hlt with rfl | rfl | rfl | rfl | rfl | rfl <;> simp [seqOf])
  | storeNetwork user r =>
    simp only [pdStep, pdStoreNetwork]
    repeat' split
    all_goals (constructor; · intro g hg; simp_all [pdGiven] <;> (try subst hg) <;> simp [seqOf]
               · rcases hlt with rfl | rfl | rfl | rfl | rfl | rfl <;> simp [seqOf])
  | storeChannel n c =>
    simp only [pdStep, pdStoreChannel]
    repeat' split
    all_goals (constructor; · intro g hg; simp_all [pdGiven] <;> (try subst hg) <;> simp [seqOf]
               · rcases hlt with rfl | rfl | rfl | rfl | rfl | rfl <;> simp [seqOf])
  | storeRead n r =>
    simp only [pdStep, pdStoreRead]
    repeat' split
    all_goals (constructor; · intro g hg; simp_all [pdGiven] <;> (try subst hg) <;> simp [seqOf]
               · rcases hlt with rfl | rfl | rfl | rfl | rfl | rfl <;> simp [seqOf])
  | storeSub now u n s =>
    simp only [pdStep, pdStoreSub]
    repeat' split
    all_goals (constructor; · intro g hg; simp_all [pdGiven] <;> (try subst hg) <;> simp [seqOf]
               · rcases hlt with rfl | rfl | rfl | rfl | rfl | rfl <;> simp [seqOf])
  | storeConfig c =>
    simp only [pdStep, pdStoreConfig]
    repeat' split
    all_goals (constructor; · intro g hg; simp_all [pdGiven] <;> (try subst hg) <;> simp [seqOf]
               · rcases hlt with rfl | rfl | rfl | rfl | rfl | rfl <;> simp [seqOf])
  | storeReceipts n c rs =>
    simp only [pdStep, pdStoreReceipts]
    repeat' split
    all_goals (constructor; · intro g hg; simp_all [pdGiven]
               · rcases hlt with rfl | rfl | rfl | rfl | rfl | rfl <;> simp [seqOf])
  | deleteUser i =>
    refine ⟨fun g hg => by simp [pdGiven] at hg, ?_⟩
    rcases hlt with rfl | rfl | rfl | rfl | rfl | rfl <;> exact Nat.le_refl _
  | deleteNetwork i =>
    refine ⟨fun g hg => by simp [pdGiven] at hg, ?_⟩
    rcases hlt with rfl | rfl | rfl | rfl | rfl | rfl <;> exact Nat.le_refl _
  | deleteChannel i =>
    refine ⟨fun g hg => by simp [pdGiven] at hg, ?_⟩
    rcases hlt with rfl | rfl | rfl | rfl | rfl | rfl <;> exact Nat.le_refl _
  | deleteSub i =>
    refine ⟨fun g hg => by simp [pdGiven] at hg, ?_⟩
    rcases hlt with rfl | rfl | rfl | rfl | rfl | rfl <;> exact Nat.le_refl _

private theorem seq_all (ok : Nat → Str → Bool) (tm : Int → Int) (ops : List PdOp) :
    (∀ t, t < 6 → 0 < seqOf (pdRun ok tm ops).1 t) ∧
    (∀ g ∈ (pdRun ok tm ops).2.filterMap pdGiven, g.1 < 6 ∧ 0 < g.2 ∧ g.2 < seqOf (pdRun ok tm ops).1 g.1) ∧
    ((pdRun ok tm ops).2.filterMap pdGiven).Nodup := by
  induction ops using snocInd with
  | nil =>
    refine ⟨?_, (fun g hg => nomatch hg), List.nodup_nil⟩
    intro t ht
    have hlt : t = 0 ∨ t = 1 ∨ t = 2 ∨ t = 3 ∨ t = 4 ∨ t = 5 := by omega
    rcases hlt with rfl | rfl | rfl | rfl | rfl | rfl <;> exact Nat.one_pos
  | snoc ops op ih =>
    obtain ⟨i1, i2, i3⟩ := ih
    rw [pd_run_snoc]
    simp only
    refine ⟨fun t ht => Nat.lt_of_lt_of_le (i1 t ht) (seq_step ok tm _ op t ht).2, ?_, ?_⟩
    · intro g hg
      rw [List.filterMap_append, List.mem_append] at hg
      rcases hg with hg | hg
      · obtain ⟨a, b, c⟩ := i2 g hg
        exact ⟨a, b, Nat.lt_of_lt_of_le c (seq_step ok tm _ op g.1 a).2⟩
      · rw [List.mem_filterMap] at hg
        obtain ⟨x, hx, e⟩ := hg
        rw [List.mem_singleton] at hx
        subst hx
        obtain ⟨a, b, c⟩ := (seq_step ok tm (pdRun ok tm ops).1 op 0 (by omega)).1 g e
        refine ⟨a, ?_, by rw [c]; omega⟩
        rw [b]; exact i1 _ a
    · rw [List.filterMap_append]
      rw [List.nodup_append]
      refine ⟨i3, ?_, ?_⟩
      · cases hg : pdGiven (op, (pdStep ok tm (pdRun ok tm ops).1 op).2) <;> simp [hg]
      · intro g hg g' hg' e
        subst e
        rw [List.mem_filterMap] at hg'
        obtain ⟨x, hx, e⟩ := hg'
        rw [List.mem_singleton] at hx
        subst hx
        obtain ⟨a, b, c⟩ := (seq_step ok tm (pdRun ok tm ops).1 op 0 (by omega)).1 g e
        have := (i2 g hg).2.2
        omega

/-- C82: no identifier is given twice to records of the same kind, even if the first is deleted, and 0 is never
given. -/
theorem C82_ids (ok : Nat → Str → Bool) (tm : Int → Int) (ops : List PdOp) :
    ((pdRun ok tm ops).2.filterMap pdGiven).Nodup ∧ ∀ g ∈ (pdRun ok tm ops).2.filterMap pdGiven, g.2 ≠ 0 := by
  obtain ⟨_, b, c⟩ := seq_all ok tm ops
  exact ⟨c, fun g hg => by have := (b g hg).2.1; omega⟩

/-- C82: deleting a user leaves nothing of this user or of the user's networks, and the lists of everyone else as
they were. -/
theorem C82_delete_user (ok : Nat → Str → Bool) (tm : Int → Int) (ops : List PdOp) (id : Nat) :
    let after := tables ok tm (ops ++ [.deleteUser id])
    (∀ u ∈ pdListUsers after, u.id ≠ id) ∧ pdListNetworks after id = [] ∧ (∀ n, pdListSubs after id n = []) ∧
    (∀ n ∈ pdListNetworks (tables ok tm ops) id, pdListChannels after n.id = [] ∧ pdListReceipts after n.id = [] ∧
      (∀ name, pdGetRead after n.id name = none) ∧ ∀ user, pdListSubs after user n.id = []) ∧
    (∀ u ∈ pdListUsers (tables ok tm ops), u.id ≠ id → u ∈ pdListUsers after) ∧
    ∀ user, user ≠ id → pdListNetworks after user = pdListNetworks (tables ok tm ops) user := by
  have hr := pd_rel ok tm ops
  have e : tables ok tm (ops ++ [.deleteUser id]) = pdDeleteUser (tables ok tm ops) id := by
    unfold tables
    rw [pd_run_snoc]
    rfl
  simp only
  rw [e]
  refine ⟨?_, ?_, ?_, ?_, ?_, ?_⟩
  · intro u hu
    unfold pdListUsers pdDeleteUser at hu
    rw [List.mem_map] at hu
    obtain ⟨r, hr, rfl⟩ := hu
    exact of_decide_eq_true (List.mem_filter.1 hr).2
  · unfold pdListNetworks pdDeleteUser pdDropNetworks
    simp only [List.filter_filter, List.map_eq_nil_iff, List.filter_eq_nil_iff]
    intro n _
    simp
  · intro n
    unfold pdListSubs pdDeleteUser pdDropNetworks
    simp only [List.map_eq_nil_iff, List.filter_eq_nil_iff, List.mem_filter]
    rintro s ⟨_, hs⟩
    simp at hs
    simp [hs]
  · intro n hn
    unfold pdListNetworks at hn
    rw [List.mem_map] at hn
    obtain ⟨row, hrow, rfl⟩ := hn
    have hid : (((tables ok tm ops).networks.filter (fun n => decide (n.user = id))).map (·.id)).contains (pdNetOf row).id = true := by
      rw [List.contains_iff_mem]
      exact List.mem_map.2 ⟨row, hrow, rfl⟩
    have hpos : (pdNetOf row).id ≠ 0 := by
      have hm := pd_mem_filter hrow
      rw [hr.networks, List.mem_map] at hm
      obtain ⟨p, hp, rfl⟩ := hm
      exact Nat.ne_of_gt (hr.nPos p hp).1
    generalize (pdNetOf row).id = m at hid hpos
    unfold pdListChannels pdListReceipts pdGetRead pdListSubs pdDeleteUser pdDropNetworks
    simp only [List.map_eq_nil_iff, List.filter_eq_nil_iff, List.mem_filter, Option.map_eq_none_iff,
      List.head?_eq_none_iff]
    refine ⟨?_, ?_, ?_, ?_⟩
    · rintro c ⟨_, h2⟩ h3
      rw [of_decide_eq_true h3, hid] at h2
      cases h2
    · rintro c ⟨_, h2⟩ h3
      rw [of_decide_eq_true h3, hid] at h2
      cases h2
    · rintro name c ⟨_, h2⟩ h3
      rw [(of_decide_eq_true h3).1, hid] at h2
      cases h2
    · rintro user s ⟨⟨_, h2⟩, _⟩ h3
      simp only [Bool.and_eq_true, decide_eq_true_eq, ne_eq, hpos, not_false_eq_true, if_true] at h3
      rw [h3.2] at h2
      simp only [hid] at h2
      cases h2
  · intro u hu hne
    unfold pdListUsers pdDeleteUser at *
    rw [List.mem_map] at hu ⊢
    obtain ⟨r, hr, rfl⟩ := hu
    exact ⟨r, List.mem_filter.2 ⟨hr, decide_eq_true hne⟩, rfl⟩
  · intro user hu
    unfold pdListNetworks pdDeleteUser pdDropNetworks
    simp only [List.filter_filter]
    congr 1
    apply List.filter_congr
    intro n _
    by_cases h1 : n.user = user
    · simp [h1, hu]
    · simp [h1]

/-- C82: a network that was stored is listed.  Missing: when the network with this identifier is gone, see
`C82_stored_violated`. -/
theorem C82_stored_partial (ok : Nat → Str → Bool) (tm : Int → Int) (ops : List PdOp) (user id : Nat) (r : NetRec)
    (hc : PdCommandsOK (ops ++ [.storeNetwork user r]))
    (hh : r.id = 0 ∨ r.id ∈ (pdListNetworks (tables ok tm ops) user).map (·.id))
    (h : (pdStep ok tm (tables ok tm ops) (.storeNetwork user r)).2 = some id) :
    keptNetwork { r with id := id } ∈ pdListNetworks (tables ok tm (ops ++ [.storeNetwork user r])) user := by
  rw [(C82_networks ok tm _ hc user).mem_iff]
  have e : records ok tm (ops ++ [.storeNetwork user r]) =
      pdKeep (records ok tm ops) (.storeNetwork user r, some id) := by
    unfold records pdKept
    rw [pd_run_snoc, List.foldl_append]
    simp only [List.foldl_cons, List.foldl_nil]
    rw [← h]
  rw [e, List.mem_map]
  by_cases h0 : r.id = 0
  · refine ⟨(user, { r with id := id }), List.mem_filter.2 ⟨?_, by simp⟩, rfl⟩
    simp [pdKeep, h0]
  · have hid : id = r.id := by
      simp only [pdStep, pdStoreNetwork] at h
      cases hcol : pdNetColumns user r with
      | none => rw [hcol] at h; cases h
      | some row =>
        rw [hcol] at h
        simp only [h0, if_false] at h
        split at h
        · exact (Option.some.inj h).symm
        · cases h
    rcases hh with hh | hh
    · exact absurd hh h0
    · rw [List.mem_map] at hh
      obtain ⟨n, hn, e⟩ := hh
      rw [(C82_networks ok tm ops (fun u x hx => hc u x (by simp [hx])) user).mem_iff, List.mem_map] at hn
      obtain ⟨p, hp, rfl⟩ := hn
      have hp' := List.mem_filter.1 hp
      refine ⟨(p.1, r), List.mem_filter.2 ⟨?_, hp'.2⟩, by rw [hid]⟩
      simp only [pdKeep, h0, if_false]
      rw [List.mem_map]
      exact ⟨p, hp'.1, if_pos e⟩

/-- A user and a network with a channel. -/
private def anna : PdUserRec := { username := b!"anna", password := b!"hash", nick := b!"anna" }
private def libera : NetRec :=
  { name := b!"libera", addr := b!"irc.libera.chat", nick := b!"anna", connectCommands := [b!"MODE anna +i", b!"WHO *"] }
private def chan : ChanRec := ⟨0, b!"#soju", b!"key", true, [], 0, 0, 1500000000, 0⟩

private def calls : List PdOp :=
  [.storeUser 5 anna, .storeUser 6 { anna with username := b!"bob" }, .storeUser 7 anna, .storeNetwork 1 libera,
   .storeNetwork 2 libera, .storeNetwork 2 { libera with addr := b!"irc.oftc.net" }, .storeChannel 1 chan,
   .storeChannel 2 chan, .storeReceipts 1 b!"phone" [⟨0, b!"#soju", [], b!"7"⟩], .storeRead 1 ⟨0, b!"#soju", 1234⟩,
   .storeSub 9 1 1 ⟨0, b!"https://push", 0, 0, b!"a", b!"p", b!"v"⟩, .storeSub 9 2 0 ⟨0, b!"https://push", 0, 0, b!"a", b!"p", b!"v"⟩]

/-- C82 is violated for records that are gone: storing a network that was deleted meanwhile succeeds, and nothing is
stored. -/
theorem C82_stored_violated : ∃ (ops : List PdOp) (user id : Nat) (r : NetRec),
    PdCommandsOK (ops ++ [.storeNetwork user r]) ∧
    (∃ ops', ops = ops' ++ [.deleteNetwork id] ∧ id ∈ (pdListNetworks (tables (fun _ _ => true) (fun t => t) ops') user).map (·.id)) ∧
    (pdStep (fun _ _ => true) (fun t => t) (tables (fun _ _ => true) (fun t => t) ops) (.storeNetwork user r)).2 = some id ∧
    pdListNetworks (tables (fun _ _ => true) (fun t => t) (ops ++ [.storeNetwork user r])) user = [] := by
  refine ⟨[.storeUser 5 anna, .storeNetwork 1 libera, .deleteNetwork 1], 1, 1, { libera with id := 1, pass := b!"new" }, ?_,
    ⟨[.storeUser 5 anna, .storeNetwork 1 libera], rfl, by decide +kernel⟩, by decide +kernel, by decide +kernel⟩
  intro u r hr
  have hr : r.connectCommands = libera.connectCommands := by
    simp at hr
    rcases hr with ⟨_, rfl⟩ | ⟨_, rfl⟩ <;> rfl
  rw [hr]
  refine ⟨by decide, ?_⟩
  intro s hs a b e
  have : (13 : Nat) ∈ s := by rw [e]; simp
  simp only [libera, List.mem_cons, List.not_mem_nil, or_false] at hs
  rcases hs with rfl | rfl <;> revert this <;> decide

example : (pdRun (fun _ _ => true) (fun t => t) calls).2.map (·.2) =
    [some 1, some 2, none, some 1, some 2, none, some 1, some 2, some 0, some 1, some 1, some 2] := by decide +kernel
example : (pdRun (fun _ _ => true) (fun t => t) calls).2.filterMap pdGiven =
    [(0, 1), (0, 2), (1, 1), (1, 2), (2, 1), (2, 2), (3, 1), (4, 1), (4, 2)] := by decide +kernel
example : pdListNetworks (tables (fun _ _ => true) (fun t => t) calls) 1 = [{ libera with id := 1 }] := by decide +kernel
example : pdGetUser (tables (fun _ _ => true) (fun t => t) calls) b!"bob" = some { anna with id := 2, username := b!"bob" } := by
  decide +kernel
example : pdListInactive (fun t => t) (tables (fun _ _ => true) (fun t => t) calls) 6 = [b!"anna"] := by decide +kernel
example : pdGetRead (tables (fun _ _ => true) (fun t => t) calls) 1 b!"#soju" = some ⟨1, b!"#soju", 1234⟩ := by decide +kernel
example : pdListChannels (tables (fun _ _ => true) (fun t => t) (calls ++ [.deleteUser 1])) 1 = [] ∧
    pdListChannels (tables (fun _ _ => true) (fun t => t) (calls ++ [.deleteUser 1])) 2 =
      [{ chan with id := 2, detachAfter := 2000000000 }] := by decide +kernel
example : pdListSubs (tables (fun _ _ => true) (fun t => t) calls) 1 1 ≠ [] ∧ (1 : Nat) ≠ 0 := by decide +kernel
example : PdCommandsOK [PdOp.storeNetwork 1 libera] := by
  intro u r hr
  rw [List.mem_singleton] at hr
  cases hr
  refine ⟨by decide, ?_⟩
  intro s hs a b e
  have : (13 : Nat) ∈ s := by rw [e]; simp
  simp only [libera, List.mem_cons, List.not_mem_nil, or_false] at hs
  rcases hs with rfl | rfl <;> revert this <;> decide

end Verif.Props
