import Verif.Props.PgDb
import Verif.Props.SqlTime
import Verif.Proof.SqDb

/-! # C84: the account data in an SQLite database -/

namespace Verif.Props
open Verif.Model Verif.Spec Verif.Proof

/-- The tables after the calls `ops`. -/
private abbrev tables (ops : List PdOp) : SqDb := (sqRun ops).1

/-- The records that should be there after the calls `ops`. -/
private abbrev records (ops : List PdOp) : PdKept := sqKept (sqRun ops).2

/-- The times in the calls can be written with four digits for the year. -/
def SqTimesOK (ops : List PdOp) : Prop :=
  (∀ now r, PdOp.storeUser now r ∈ ops → InYears now ∧ InYears r.interactedAt) ∧
  (∀ net r, PdOp.storeRead net r ∈ ops → InYears r.timestamp) ∧
  ∀ now user net s, PdOp.storeSub now user net s ∈ ops → InYears now

private theorem sq_years (t : Int) (h : InYears t) : InYears (toMillis t) := by
  unfold InYears toMillis dayNanos at *
  omega

private theorem sq_ms (t : Int) : toMillis (toMillis t) = toMillis t := by
  unfold toMillis
  omega

/-- The times of the records can be read back. -/
private def TimesOf (k : PdKept) : Prop :=
  (∀ p ∈ k.users, InYears p.2 ∧ toMillis p.2 = p.2 ∧ InYears p.1.interactedAt) ∧ (∀ p ∈ k.reads, InYears p.2.timestamp) ∧
  ∀ p ∈ k.subs, (InYears p.2.2.createdAt ∧ toMillis p.2.2.createdAt = p.2.2.createdAt) ∧
    (InYears p.2.2.updatedAt ∧ toMillis p.2.2.updatedAt = p.2.2.updatedAt)

private theorem times_good (ops : List PdOp) (ht : SqTimesOK ops) : TimesOf (records ops) := by
  induction ops using snocInd with
  | nil => exact ⟨fun p hp => (nomatch hp), fun p hp => (nomatch hp), fun p hp => (nomatch hp)⟩
  | snoc ops op ih =>
    have ih := ih ⟨fun u r hr => ht.1 u r (by simp [hr]), fun u r hr => ht.2.1 u r (by simp [hr]),
      fun a b c d hr => ht.2.2 a b c d (by simp [hr])⟩
    unfold records sqKept at ih ⊢
    rw [sq_run_snoc, List.foldl_append]
    simp only [List.foldl_cons, List.foldl_nil]
    generalize List.foldl sqKeep {} (sqRun ops).2 = k at ih ⊢
    generalize (sqStep (sqRun ops).1 op).2 = res
    cases res with
    | none => cases op <;> exact ih
    | some id =>
      cases op with
      | storeUser now r =>
        have h1 := ht.1 now r (by simp)
        refine ⟨?_, ?_⟩
        · intro p hp
          simp only [sqKeep] at hp
          split at hp
          · rw [List.mem_append, List.mem_singleton] at hp
            rcases hp with hp | rfl
            · exact ih.1 p hp
            · exact ⟨sq_years _ h1.1, sq_ms _, h1.2⟩
          · rw [List.mem_map] at hp
            obtain ⟨q, hq, rfl⟩ := hp
            have := ih.1 q hq
            split
            · exact ⟨this.1, this.2.1, h1.2⟩
            · exact this
        · simp only [sqKeep]
          split <;> exact ih.2
      | storeRead n r =>
        have h1 := ht.2.1 n r (by simp)
        refine ⟨?_, ?_, ?_⟩
        · simp only [sqKeep, pdKeep]
          split <;> exact ih.1
        · intro p hp
          simp only [sqKeep, pdKeep] at hp
          split at hp
          · rw [List.mem_append, List.mem_singleton] at hp
            rcases hp with hp | rfl
            · exact ih.2.1 p hp
            · exact h1
          · rw [List.mem_map] at hp
            obtain ⟨q, hq, rfl⟩ := hp
            have := ih.2.1 q hq
            split
            · exact h1
            · exact this
        · simp only [sqKeep, pdKeep]
          split <;> exact ih.2.2
      | storeSub now u n s =>
        have h1 := ht.2.2 now u n s (by simp)
        refine ⟨?_, ?_, ?_⟩
        · simp only [sqKeep, pdKeep]
          split <;> exact ih.1
        · simp only [sqKeep, pdKeep]
          split <;> exact ih.2.1
        · intro p hp
          simp only [sqKeep, pdKeep] at hp
          split at hp
          · rw [List.mem_append, List.mem_singleton] at hp
            rcases hp with hp | rfl
            · exact ih.2.2 p hp
            · exact ⟨⟨sq_years _ h1, sq_ms _⟩, sq_years _ h1, sq_ms _⟩
          · rw [List.mem_map] at hp
            obtain ⟨q, hq, rfl⟩ := hp
            have := ih.2.2 q hq
            split
            · exact ⟨this.1, sq_years _ h1, sq_ms _⟩
            · exact this
      | deleteUser i =>
        exact ⟨fun p hp => ih.1 p (pd_mem_filter hp), fun p hp => ih.2.1 p (pd_mem_filter hp),
          fun p hp => ih.2.2 p (pd_mem_filter (pd_mem_filter hp))⟩
      | deleteNetwork i =>
        exact ⟨ih.1, fun p hp => ih.2.1 p (pd_mem_filter hp), fun p hp => ih.2.2 p (pd_mem_filter hp)⟩
      | deleteSub i => exact ⟨ih.1, ih.2.1, fun p hp => ih.2.2 p (pd_mem_filter hp)⟩
      | storeNetwork u r =>
        simp only [sqKeep, pdKeep]
        split <;> exact ih
      | storeChannel n c =>
        simp only [sqKeep]
        split <;> exact ih
      | deleteChannel i => exact ih
      | storeReceipts n c rs => exact ih
      | storeConfig c => exact ih

private theorem commands_good (ops : List PdOp) (hc : PdCommandsOK ops) :
    ∀ p ∈ (records ops).networks, CommandsOK p.2.connectCommands := by
  induction ops using snocInd with
  | nil => intro p hp; cases hp
  | snoc ops op ih =>
    have ih := ih (fun u r hr => hc u r (by simp [hr]))
    unfold records sqKept at ih ⊢
    rw [sq_run_snoc, List.foldl_append]
    simp only [List.foldl_cons, List.foldl_nil]
    generalize List.foldl sqKeep {} (sqRun ops).2 = k at ih ⊢
    generalize (sqStep (sqRun ops).1 op).2 = res
    cases res with
    | none => cases op <;> exact ih
    | some id =>
      cases op with
      | storeNetwork user r =>
        have hcr := hc user r (by simp)
        intro p hp
        simp only [sqKeep, pdKeep] at hp
        split at hp
        · rw [List.mem_append, List.mem_singleton] at hp
          rcases hp with hp | rfl
          · exact ih p hp
          · exact hcr
        · rw [List.mem_map] at hp
          obtain ⟨q, hq, rfl⟩ := hp
          split
          · exact hcr
          · exact ih q hq
      | storeUser now r =>
        simp only [sqKeep]
        split <;> exact ih
      | storeChannel n c =>
        simp only [sqKeep]
        split <;> exact ih
      | storeRead n r =>
        simp only [sqKeep, pdKeep]
        split <;> exact ih
      | storeSub now u n s =>
        simp only [sqKeep, pdKeep]
        split <;> exact ih
      | deleteUser i => exact fun p hp => ih p (pd_mem_filter hp)
      | deleteNetwork i => exact fun p hp => ih p (pd_mem_filter hp)
      | deleteChannel i => exact ih
      | storeReceipts n c rs => exact ih
      | deleteSub i => exact ih
      | storeConfig c => exact ih

private theorem read_all {α β : Type} (f : α → Option β) (g : α → β) (l : List α) (h : ∀ x ∈ l, f x = some (g x)) :
    sqRead f l = some (l.map g) := by
  induction l with
  | nil => rfl
  | cons x l ih =>
    unfold sqRead
    rw [h x (by simp)]
    simp only
    rw [ih (fun y hy => h y (by simp [hy]))]
    rfl

/-- The times of the users after the calls. -/
theorem sq_user_times (ops : List PdOp) (ht : SqTimesOK ops) :
    ∀ p ∈ (sqKept (sqRun ops).2).users, InYears p.1.interactedAt := fun p hp => ((times_good ops ht).1 p hp).2.2

/-- The commands of the networks after the calls. -/
theorem sq_net_commands (ops : List PdOp) (hc : PdCommandsOK ops) :
    ∀ p ∈ (sqKept (sqRun ops).2).networks, CommandsOK p.2.connectCommands := commands_good ops hc

private theorem user_back (p : PdUserRec × Int) (h : InYears p.1.interactedAt) :
    sqUserOf (sqUserColumns p.2 p.1) = some { p.1 with interactedAt := toMillis p.1.interactedAt } := by
  unfold sqUserOf
  have e : (sqUserColumns p.2 p.1).interactedAt = sqliteValue p.1.interactedAt := rfl
  rw [e, C34_stored _ h]
  simp only [Option.map_some, sqUserColumns, null_get]

/-- C84: the users listed are those that were stored and not deleted, with the settings stored last; times are kept to
the millisecond. -/
theorem C84_users (ops : List PdOp) (ht : SqTimesOK ops) :
    ∃ l, sqListUsers (tables ops) = some l ∧
      l.Perm ((records ops).users.map (fun p => { p.1 with interactedAt := toMillis p.1.interactedAt })) := by
  have h := sq_rel ops
  refine ⟨_, ?_, List.Perm.refl _⟩
  unfold sqListUsers
  rw [h.users]
  have hg := (times_good ops ht).1
  generalize (records ops).users = l at hg ⊢
  induction l with
  | nil => rfl
  | cons p l ih =>
    simp only [List.map_cons, sqRead]
    rw [user_back p (hg p (by simp)).2.2]
    simp only
    rw [ih (fun q hq => hg q (by simp [hq]))]
    rfl

/-- C84: no two users listed have the same name, and asking for a user by name gives the one listed with this name,
if there is one. -/
theorem C84_get_user (ops : List PdOp) (ht : SqTimesOK ops) (l : List PdUserRec)
    (hl : sqListUsers (tables ops) = some l) (username : Str) (u : PdUserRec) :
    (l.map (·.username)).Nodup ∧ (sqGetUser (tables ops) username = some u ↔ u ∈ l ∧ u.username = username) := by
  have h := sq_rel ops
  have hg := (times_good ops ht).1
  have el : l = (records ops).users.map (fun p => { p.1 with interactedAt := toMillis p.1.interactedAt }) := by
    unfold sqListUsers at hl
    rw [h.users] at hl
    have := read_all sqUserOf (fun r => (sqUserOf r).getD { username := [] }) ((records ops).users.map (fun p => sqUserColumns p.2 p.1)) (by
      intro x hx
      rw [List.mem_map] at hx
      obtain ⟨p, hp, rfl⟩ := hx
      rw [user_back p (hg p hp).2.2]
      rfl)
    rw [this] at hl
    rw [← Option.some.inj hl, List.map_map]
    apply List.map_congr_left
    intro p hp
    simp only [Function.comp_apply]
    rw [user_back p (hg p hp).2.2]
    rfl
  have hn : (l.map (·.username)).Nodup := by
    rw [el, List.map_map]
    exact h.base.uName
  refine ⟨hn, ?_⟩
  unfold sqGetUser
  rw [h.users]
  constructor
  · intro hr
    split at hr
    · cases hr
    · rename_i r hh
      have hm := List.mem_filter.1 (List.mem_of_mem_head? hh)
      rw [List.mem_map] at hm
      obtain ⟨⟨p, hp, rfl⟩, he⟩ := hm
      have he : p.1.username = username := of_decide_eq_true he
      rw [user_back p (hg p hp).2.2] at hr
      have hr := Option.some.inj hr
      subst hr
      refine ⟨?_, rfl⟩
      rw [el, List.mem_map]
      exact ⟨p, hp, by rw [← he]⟩
  · rintro ⟨hu, he⟩
    rw [el, List.mem_map] at hu
    obtain ⟨p, hp, rfl⟩ := hu
    have hmem : sqUserColumns p.2 p.1 ∈ ((records ops).users.map (fun p => sqUserColumns p.2 p.1)).filter
        (fun o => decide (o.username = username)) :=
      List.mem_filter.2 ⟨List.mem_map.2 ⟨p, hp, rfl⟩, decide_eq_true he⟩
    cases hh : ((records ops).users.map (fun p => sqUserColumns p.2 p.1)).filter (fun o => decide (o.username = username)) with
    | nil => rw [hh] at hmem; cases hmem
    | cons a t =>
      have ha : a ∈ ((records ops).users.map (fun p => sqUserColumns p.2 p.1)).filter
        (fun o => decide (o.username = username)) := by rw [hh]; simp
      have ha' := List.mem_filter.1 ha
      have hae : a.username = username := of_decide_eq_true ha'.2
      rw [List.mem_map] at ha'
      obtain ⟨⟨q, hq, rfl⟩, _⟩ := ha'
      have e : q = p := eq_of_nodup_map h.base.uName hq hp (hae.trans he.symm)
      subst e
      simp only [List.head?_cons]
      rw [user_back q (hg q hq).2.2]
      simp only [Option.map_some]
      have he : q.1.username = username := he
      rw [← he]

/-- C84: the users listed as inactive are those whose last interaction — their creation if there was none — is before
the limit, to the millisecond. -/
theorem C84_inactive (ops : List PdOp) (ht : SqTimesOK ops) (limit : Int) (hl : InYears limit) (h0 : limit ≠ 0) :
    (sqListInactive (tables ops) limit).Perm
      (((records ops).users.filter (fun p => decide
        (toMillis (if p.1.interactedAt = 0 then p.2 else p.1.interactedAt) < toMillis limit))).map (·.1.username)) := by
  have h := sq_rel ops
  have hg := (times_good ops ht).1
  unfold sqListInactive
  rw [sq_value, if_neg h0]
  simp only
  rw [h.users, List.filter_map, List.map_map]
  apply List.Perm.of_eq
  have : (records ops).users.filter ((fun o : SqUserRow => decide (o.interactedAt.getD o.createdAt < sqliteFormat limit)) ∘
      fun p : PdUserRec × Int => sqUserColumns p.2 p.1) =
      (records ops).users.filter (fun p => decide
        (toMillis (if p.1.interactedAt = 0 then p.2 else p.1.interactedAt) < toMillis limit)) := by
    apply List.filter_congr
    intro p hp
    have hy := hg p hp
    have e : (sqUserColumns p.2 p.1).interactedAt.getD (sqUserColumns p.2 p.1).createdAt =
        sqliteFormat (if p.1.interactedAt = 0 then p.2 else p.1.interactedAt) := by
      show (sqliteValue p.1.interactedAt).getD (sqliteFormat p.2) = _
      rw [sq_value]
      split <;> rfl
    show decide ((sqUserColumns p.2 p.1).interactedAt.getD (sqUserColumns p.2 p.1).createdAt < sqliteFormat limit) = _
    rw [e]
    apply decide_eq_decide.2
    apply (C34_order _ _ ?_ hl).1
    split
    · exact hy.1
    · exact hy.2.2
  rw [this]
  rfl

/-- C84: the networks listed for a user are those stored for this user and not deleted, with the settings stored
last. -/
theorem C84_networks (ops : List PdOp) (hc : PdCommandsOK ops) (user : Nat) :
    (sqListNetworks (tables ops) user).Perm
      (((records ops).networks.filter (fun p => decide (p.1 = user))).map (fun p => keptNetwork p.2)) := by
  have h := sq_rel ops
  unfold sqListNetworks dbListNetworks
  rw [h.networks, List.filter_map, List.map_map]
  apply List.Perm.of_eq
  apply List.map_congr_left
  intro p hp
  have hm := h.base.mech p (pd_mem_filter hp)
  have hk := commands_good ops hc p (pd_mem_filter hp)
  have e : networkColumns p.1 p.2 = some (pdNetRow p.1 p.2) := by rw [sq_columns, if_pos hm]
  exact (columns_back p.1 p.2 _ e hk p.2.id p.1).1

/-- C84: the channels listed for a network are those stored for it last and not deleted, with the settings stored
last. -/
theorem C84_channels (ops : List PdOp) (network : Nat) :
    (sqListChannels (tables ops) network).Perm
      (((records ops).channels.filter (fun p => decide (p.1 = network))).map (fun p => keptChannel p.2)) := by
  have h := sq_rel ops
  unfold sqListChannels dbListChannels
  rw [h.channels, List.filter_map, List.map_map]
  apply List.Perm.of_eq
  apply List.map_congr_left
  intro p _
  simp only [Function.comp_apply, channelOfRow, pdChanColumns, null_get, keptChannel]

/-- C84: the delivery receipts listed for a network are those stored last for each client. -/
theorem C84_receipts (ops : List PdOp) (network : Nat) :
    ((sqListReceipts (tables ops) network).map (fun r => (r.target, r.client, r.msgID))).Perm
      (((records ops).receipts.filter (fun p => decide (p.1 = network))).map
        (fun p => (p.2.target, p.2.client, p.2.msgID))) := by
  have h := sq_rel ops
  unfold sqListReceipts
  rw [← h.receipts, List.filter_map, List.map_map, List.map_map]
  exact List.Perm.of_eq rfl

/-- C84: the read receipt of a conversation is the one stored last for it, if there is one, to the millisecond. -/
theorem C84_read (ops : List PdOp) (ht : SqTimesOK ops) (network : Nat) (name : Str) :
    ∃ found, sqGetRead (tables ops) network name = some found ∧ ∀ r, found = some r ↔
      ∃ p ∈ (records ops).reads, p.1 = network ∧ p.2.target = name ∧ r = { p.2 with timestamp := toMillis p.2.timestamp } := by
  have h := sq_rel ops
  have hg := (times_good ops ht).2.1
  unfold sqGetRead
  rw [h.reads]
  cases hh : ((records ops).reads.map sqReadRow).filter (fun o => decide (o.network = network ∧ o.target = name)) with
  | nil =>
    refine ⟨none, rfl, ?_⟩
    intro r
    constructor
    · intro e; cases e
    · rintro ⟨p, hp, h1, h2, _⟩
      have hmem : sqReadRow p ∈ ((records ops).reads.map sqReadRow).filter
          (fun o => decide (o.network = network ∧ o.target = name)) :=
        List.mem_filter.2 ⟨List.mem_map_of_mem hp, decide_eq_true ⟨h1, h2⟩⟩
      rw [hh] at hmem
      cases hmem
  | cons a t =>
    have ha : a ∈ ((records ops).reads.map sqReadRow).filter
        (fun o => decide (o.network = network ∧ o.target = name)) := by rw [hh]; simp
    have ha' := List.mem_filter.1 ha
    have hae := of_decide_eq_true ha'.2
    rw [List.mem_map] at ha'
    obtain ⟨⟨q, hq, rfl⟩, _⟩ := ha'
    have hs : sqliteScan (some (sqReadRow q).timestamp) = some (toMillis q.2.timestamp) := C34_roundtrip _ (hg q hq)
    simp only [List.head?_cons]
    rw [hs]
    refine ⟨_, rfl, ?_⟩
    intro r
    have hq2 : q.2.target = name := hae.2
    constructor
    · intro e
      refine ⟨q, hq, hae.1, hae.2, ?_⟩
      rw [← Option.some.inj e, ← hq2]
      rfl
    · rintro ⟨p, hp, h1, h2, rfl⟩
      have e : q = p := eq_of_nodup_map h.base.rUniq hq hp (by
        simp only [Prod.mk.injEq]
        exact ⟨hae.1.trans h1.symm, hae.2.trans h2.symm⟩)
      subst e
      rw [← hq2]
      rfl

/-- C84: the push subscriptions listed for a user and a network (0: none) are those stored for them and not deleted,
with the keys stored last. -/
theorem C84_subs (ops : List PdOp) (ht : SqTimesOK ops) (user network : Nat) :
    ∃ l, sqListSubs (tables ops) user network = some l ∧
      l.Perm (((records ops).subs.filter (fun p => decide (p.1 = user ∧ p.2.1 = network))).map (·.2.2)) := by
  have h := sq_rel ops
  have hg := (times_good ops ht).2.2
  refine ⟨_, ?_, List.Perm.refl _⟩
  unfold sqListSubs
  rw [h.subs]
  have e : ((records ops).subs.map sqSubRow).filter (fun s => decide (s.user = user) && decide (s.network = if network ≠ 0 then some network else none)) =
      ((records ops).subs.filter (fun p => decide (p.1 = user ∧ p.2.1 = network))).map sqSubRow := by
    rw [List.filter_map]
    congr 1
    apply List.filter_congr
    intro p _
    rw [Function.comp_apply, Bool.eq_iff_iff, Bool.and_eq_true, decide_eq_true_eq, decide_eq_true_eq,
      decide_eq_true_eq]
    apply and_congr_right
    intro _
    simp only [sqSubRow]
    by_cases h1 : p.2.1 = 0 <;> by_cases h2 : network = 0
    · simp [h1, h2]
    · simp [h1, h2]; omega
    · simp [h1, h2]
    · simp [h1, h2]
  simp only
  rw [e]
  have hback : ∀ p ∈ (records ops).subs, sqSubOf (sqSubRow p) = some p.2.2 := by
    intro p hp
    obtain ⟨⟨a1, a2⟩, b1, b2⟩ := hg p hp
    have hs1 : sqliteScan (some (sqSubRow p).createdAt) = some p.2.2.createdAt := (C34_roundtrip _ a1).trans (by rw [a2])
    have hs2 : sqliteScan (some (sqSubRow p).updatedAt) = some p.2.2.updatedAt := (C34_roundtrip _ b1).trans (by rw [b2])
    unfold sqSubOf
    rw [hs1, hs2]
    rfl
  have hf : ∀ p ∈ (records ops).subs.filter (fun p => decide (p.1 = user ∧ p.2.1 = network)),
      sqSubOf (sqSubRow p) = some p.2.2 := fun p hp => hback p (pd_mem_filter hp)
  generalize (records ops).subs.filter (fun p => decide (p.1 = user ∧ p.2.1 = network)) = l at hf ⊢
  induction l with
  | nil => rfl
  | cons p l ih =>
    simp only [List.map_cons, sqRead]
    rw [hf p (by simp)]
    simp only
    rw [ih (fun q hq => hf q (by simp [hq]))]
    rfl

/-- C84: the keys for push messages listed are those that were stored. -/
theorem C84_configs (ops : List PdOp) : (sqListConfigs (tables ops)).Perm (records ops).configs :=
  List.Perm.of_eq (sq_rel ops).configs

/-- C84: the numbers of users, networks and channels. -/
theorem C84_stats (ops : List PdOp) : sqStats (tables ops) =
    ((records ops).users.length, (records ops).networks.length, (records ops).channels.length) := by
  have h := sq_rel ops
  unfold sqStats
  rw [h.users, h.networks, h.channels]
  simp

/-- C84: a call succeeds exactly if what it refers to exists, nothing collides and nothing would be left that refers to
something deleted. -/
theorem C84_success (ops : List PdOp) (op : PdOp) :
    (sqStep (tables ops) op).2 ≠ none ↔ SqAllowed (records ops) op := by
  have := (sq_step _ _ (sq_rel ops) op).2
  rw [← this]
  cases (sqStep (tables ops) op).2 <;> simp

/-- C84: channels, receipts and push subscriptions are there only for networks that some user has. -/
theorem C84_no_orphans (ops : List PdOp) (ht : SqTimesOK ops) (l : List PdUserRec) (hl : sqListUsers (tables ops) = some l)
    (network : Nat) (hn : network ≠ 0)
    (h : sqListChannels (tables ops) network ≠ [] ∨ sqListReceipts (tables ops) network ≠ [] ∨
      (∃ name, sqGetRead (tables ops) network name ≠ some none) ∨
      ∃ user, sqListSubs (tables ops) user network ≠ some []) :
    ∃ u ∈ l, ∃ n ∈ sqListNetworks (tables ops) u.id, n.id = network := by
  have hr := sq_rel ops
  have key : PdNet (records ops) network → ∃ u ∈ l, ∃ n ∈ sqListNetworks (tables ops) u.id, n.id = network := by
    rintro ⟨p, hp, e⟩
    obtain ⟨q, hq, e2⟩ := hr.base.fkN p hp
    obtain ⟨l', hl', hperm⟩ := C84_users ops ht
    rw [hl] at hl'
    cases hl'
    refine ⟨{ q.1 with interactedAt := toMillis q.1.interactedAt }, ?_, networkOfRow (pdNetRow p.1 p.2), ?_, e⟩
    · rw [hperm.mem_iff, List.mem_map]
      exact ⟨q, hq, rfl⟩
    · unfold sqListNetworks dbListNetworks
      rw [hr.networks]
      refine List.mem_map_of_mem (List.mem_filter.2 ⟨List.mem_map.2 ⟨p, hp, rfl⟩, ?_⟩)
      exact decide_eq_true e2.symm
  apply key
  rcases h with h | h | ⟨name, h⟩ | ⟨user, h⟩
  · obtain ⟨c, hc⟩ := List.exists_mem_of_ne_nil _ h
    have hc := (C84_channels ops network).mem_iff.1 hc
    rw [List.mem_map] at hc
    obtain ⟨p, hp, _⟩ := hc
    have hp' := List.mem_filter.1 hp
    have e : p.1 = network := of_decide_eq_true hp'.2
    exact e ▸ hr.base.fkC p hp'.1
  · obtain ⟨c, hc⟩ := List.exists_mem_of_ne_nil _ h
    unfold sqListReceipts at hc
    rw [List.mem_map] at hc
    obtain ⟨r, hrr, _⟩ := hc
    have hp' := List.mem_filter.1 hrr
    have e : r.network = network := of_decide_eq_true hp'.2
    have := hr.base.fkD (sqReceiptOf r) (by rw [← hr.receipts]; exact List.mem_map_of_mem hp'.1)
    exact e ▸ this
  · obtain ⟨found, e, hf⟩ := C84_read ops ht network name
    cases found with
    | none => exact absurd e h
    | some r =>
      obtain ⟨p, hp, e, _⟩ := (hf r).1 rfl
      exact e ▸ hr.base.fkR p hp
  · obtain ⟨subs, e, hperm⟩ := C84_subs ops ht user network
    have hne : subs ≠ [] := fun x => h (by rw [e, x])
    obtain ⟨c, hc⟩ := List.exists_mem_of_ne_nil _ hne
    have hc := hperm.mem_iff.1 hc
    rw [List.mem_map] at hc
    obtain ⟨p, hp, _⟩ := hc
    have hp' := List.mem_filter.1 hp
    have e := of_decide_eq_true hp'.2
    rcases (hr.base.fkS p hp'.1).2 with hz | hz
    · exact absurd (e.2.symm.trans hz) hn
    · exact e.2 ▸ hz

/-- C84: at any time, the records of a kind have different identifiers, none of which is 0.  Missing: an identifier
can be given again once its record is deleted, see `C84_ids_violated`. -/
theorem C84_ids_partial (ops : List PdOp) :
    ((records ops).users.map (·.1.id)).Nodup ∧ ((records ops).networks.map (·.2.id)).Nodup ∧
    ((records ops).channels.map (·.2.id)).Nodup ∧ ((records ops).reads.map (·.2.id)).Nodup ∧
    ((records ops).subs.map (·.2.2.id)).Nodup ∧ ((records ops).configs.map (·.id)).Nodup ∧
    (∀ network, ((sqListReceipts (tables ops) network).map (·.id)).Nodup) ∧
    (∀ p ∈ (records ops).users, p.1.id ≠ 0) ∧ (∀ p ∈ (records ops).networks, p.2.id ≠ 0) ∧
    (∀ p ∈ (records ops).channels, p.2.id ≠ 0) ∧ (∀ p ∈ (records ops).reads, p.2.id ≠ 0) ∧
    (∀ p ∈ (records ops).subs, p.2.2.id ≠ 0) ∧ ∀ c ∈ (records ops).configs, c.id ≠ 0 := by
  have h := sq_rel ops
  refine ⟨h.idU, h.idN, h.idC, h.idR, h.idS, h.idW, ?_, fun p hp => Nat.ne_of_gt (h.base.uPos p hp).1,
    fun p hp => Nat.ne_of_gt (h.base.nPos p hp).1, fun p hp => Nat.ne_of_gt (h.base.cPos p hp).1,
    fun p hp => Nat.ne_of_gt (h.base.rPos p hp).1, fun p hp => Nat.ne_of_gt (h.base.sPos p hp).1,
    fun c hc => Nat.ne_of_gt (h.posW c hc)⟩
  intro network
  unfold sqListReceipts
  rw [List.map_map]
  exact pd_nodup_filter _ _ _ h.idD

/-- C84: a user is deleted unless someone else has a push subscription for one of this user's networks; then nothing
of the user or of the user's networks is left, and the lists of everyone else are as they were. -/
theorem C84_delete_user (ops : List PdOp) (ht : SqTimesOK ops) (id : Nat)
    (hs : (sqStep (tables ops) (.deleteUser id)).2 ≠ none) :
    let after := tables (ops ++ [.deleteUser id])
    (∀ l, sqListUsers after = some l → ∀ u ∈ l, u.id ≠ id) ∧ sqListNetworks after id = [] ∧
    (∀ n, sqListSubs after id n = some []) ∧
    (∀ n ∈ sqListNetworks (tables ops) id, sqListChannels after n.id = [] ∧ sqListReceipts after n.id = [] ∧
      (∀ name, sqGetRead after n.id name = some none) ∧ ∀ user, sqListSubs after user n.id = some []) ∧
    (∀ l l', sqListUsers (tables ops) = some l → sqListUsers after = some l' → ∀ u ∈ l, u.id ≠ id → u ∈ l') ∧
    ∀ user, user ≠ id → sqListNetworks after user = sqListNetworks (tables ops) user := by
  have hr := sq_rel ops
  have ht' : SqTimesOK (ops ++ [.deleteUser id]) := by
    refine ⟨fun n r h => ht.1 n r ?_, fun n r h => ht.2.1 n r ?_, fun a b c d h => ht.2.2 a b c d ?_⟩ <;>
      simpa using h
  have hr' := sq_rel (ops ++ [.deleteUser id])
  have er : records (ops ++ [.deleteUser id]) = pdKeep (records ops) (.deleteUser id, some 0) := by
    unfold records sqKept
    rw [sq_run_snoc, List.foldl_append]
    simp only [List.foldl_cons, List.foldl_nil]
    cases hres : (sqStep (sqRun ops).1 (.deleteUser id)).2 with
    | none => exact absurd hres hs
    | some x => rfl
  have hgone : ∀ n, PdNet (records (ops ++ [.deleteUser id])) n → n ∉ (sqListNetworks (tables ops) id).map (·.id) := by
    rw [er]
    rintro n ⟨p, hp, e⟩ hm
    have hp' : p ∈ (records ops).networks ∧ (!decide (p.1 = id)) = true := List.mem_filter.1 hp
    rw [List.mem_map] at hm
    obtain ⟨x, hx, ex⟩ := hm
    unfold sqListNetworks dbListNetworks at hx
    rw [hr.networks, List.mem_map] at hx
    obtain ⟨row, hrow, rfl⟩ := hx
    have hrow' := List.mem_filter.1 hrow
    rw [List.mem_map] at hrow'
    obtain ⟨⟨q, hq, rfl⟩, hqid⟩ := hrow'
    have hqid : q.1 = id := of_decide_eq_true hqid
    have : q = p := eq_of_nodup_map hr.idN hq hp'.1 (by
      show q.2.id = p.2.id
      rw [e]; exact ex)
    subst this
    rw [decide_eq_true hqid] at hp'
    cases hp'.2
  have hnet0 : ∀ n ∈ sqListNetworks (tables ops) id, n.id ≠ 0 := by
    intro n hn
    unfold sqListNetworks dbListNetworks at hn
    rw [hr.networks, List.mem_map] at hn
    obtain ⟨row, hrow, rfl⟩ := hn
    have hrow' := pd_mem_filter hrow
    rw [List.mem_map] at hrow'
    obtain ⟨q, hq, rfl⟩ := hrow'
    exact Nat.ne_of_gt (hr.base.nPos q hq).1
  simp only
  refine ⟨?_, ?_, ?_, ?_, ?_, ?_⟩
  · intro l hl u hu
    obtain ⟨l', hl', hperm⟩ := C84_users _ ht'
    rw [hl] at hl'
    cases hl'
    rw [hperm.mem_iff, er, List.mem_map] at hu
    obtain ⟨p, hp, rfl⟩ := hu
    have hp' : p ∈ (records ops).users ∧ decide (p.1.id ≠ id) = true := List.mem_filter.1 hp
    exact of_decide_eq_true hp'.2
  · unfold sqListNetworks dbListNetworks
    rw [hr'.networks]
    show List.map _ (List.filter _ (List.map _ (records (ops ++ [.deleteUser id])).networks)) = []
    rw [er, List.map_eq_nil_iff, List.filter_eq_nil_iff]
    intro row hrow e
    rw [List.mem_map] at hrow
    obtain ⟨p, hp, rfl⟩ := hrow
    have hp' : p ∈ (records ops).networks ∧ (!decide (p.1 = id)) = true := List.mem_filter.1 hp
    rw [decide_eq_true (of_decide_eq_true e : p.1 = id)] at hp'
    cases hp'.2
  · intro n
    obtain ⟨l, hl, hperm⟩ := C84_subs _ ht' id n
    rw [hl]
    congr 1
    rw [er] at hperm
    have : ((pdKeep (records ops) (.deleteUser id, some 0)).subs.filter (fun p => decide (p.1 = id ∧ p.2.1 = n))) = [] := by
      rw [List.filter_eq_nil_iff]
      intro p hp e
      have hp' : p ∈ ((pdForget (records ops) (fun p => decide (p.1 = id))).subs) ∧ decide (p.1 ≠ id) = true := List.mem_filter.1 hp
      exact of_decide_eq_true hp'.2 (of_decide_eq_true e).1
    rw [this] at hperm
    exact hperm.eq_nil
  · intro n hn
    have hno : ¬ PdNet (records (ops ++ [.deleteUser id])) n.id := fun hp => hgone _ hp (List.mem_map_of_mem hn)
    have hz := hnet0 n hn
    refine ⟨?_, ?_, ?_, ?_⟩
    · apply Classical.byContradiction
      intro hne
      obtain ⟨c, hc⟩ := List.exists_mem_of_ne_nil _ hne
      have hc := (C84_channels _ n.id).mem_iff.1 hc
      rw [List.mem_map] at hc
      obtain ⟨p, hp, _⟩ := hc
      have hp' := List.mem_filter.1 hp
      have e : p.1 = n.id := of_decide_eq_true hp'.2
      exact hno (e ▸ hr'.base.fkC p hp'.1)
    · apply Classical.byContradiction
      intro hne
      obtain ⟨c, hc⟩ := List.exists_mem_of_ne_nil _ hne
      unfold sqListReceipts at hc
      rw [List.mem_map] at hc
      obtain ⟨r, hrr, _⟩ := hc
      have hp' := List.mem_filter.1 hrr
      have e : r.network = n.id := of_decide_eq_true hp'.2
      have := hr'.base.fkD (sqReceiptOf r) (by rw [← hr'.receipts]; exact List.mem_map_of_mem hp'.1)
      exact hno (e ▸ this)
    · intro name
      obtain ⟨found, e, hf⟩ := C84_read _ ht' n.id name
      cases found with
      | none => exact e
      | some r =>
        obtain ⟨p, hp, e, _⟩ := (hf r).1 rfl
        exact absurd (e ▸ hr'.base.fkR p hp) hno
    · intro user
      obtain ⟨l, hl, hperm⟩ := C84_subs _ ht' user n.id
      rw [hl]
      congr 1
      cases l with
      | nil => rfl
      | cons c l =>
        have hc := hperm.mem_iff.1 (List.mem_cons_self ..)
        rw [List.mem_map] at hc
        obtain ⟨p, hp, _⟩ := hc
        have hp' := List.mem_filter.1 hp
        have e := of_decide_eq_true hp'.2
        rcases (hr'.base.fkS p hp'.1).2 with hx | hx
        · exact absurd (e.2.symm.trans hx) hz
        · exact absurd (e.2 ▸ hx) hno
  · intro l l' hl hl' u hu hne
    obtain ⟨a, ha, hperm⟩ := C84_users _ ht
    rw [hl] at ha
    cases ha
    obtain ⟨b, hb, hperm'⟩ := C84_users _ ht'
    rw [hl'] at hb
    cases hb
    rw [hperm.mem_iff, List.mem_map] at hu
    obtain ⟨p, hp, rfl⟩ := hu
    rw [hperm'.mem_iff, er, List.mem_map]
    exact ⟨p, List.mem_filter.2 ⟨hp, decide_eq_true hne⟩, rfl⟩
  · intro user hu
    unfold sqListNetworks dbListNetworks
    rw [hr'.networks, hr.networks]
    show List.map _ (List.filter _ (List.map _ (records (ops ++ [.deleteUser id])).networks)) = _
    rw [er, List.filter_map, List.filter_map]
    congr 1
    congr 1
    show List.filter _ (List.filter _ _) = _
    rw [List.filter_filter]
    apply List.filter_congr
    intro p _
    show (decide (p.1 = user) && !decide (p.1 = id)) = decide (p.1 = user)
    by_cases h1 : p.1 = user
    · simp [h1, hu]
    · simp [h1]

/-- C84: a network that was stored is listed.  Missing: when the network with this identifier is gone, see
`C84_stored_violated`. -/
theorem C84_stored_partial (ops : List PdOp) (user id : Nat) (r : NetRec)
    (hc : PdCommandsOK (ops ++ [.storeNetwork user r]))
    (hh : r.id = 0 ∨ r.id ∈ (sqListNetworks (tables ops) user).map (·.id))
    (h : (sqStep (tables ops) (.storeNetwork user r)).2 = some id) :
    keptNetwork { r with id := id } ∈ sqListNetworks (tables (ops ++ [.storeNetwork user r])) user := by
  rw [(C84_networks _ hc user).mem_iff]
  have e : records (ops ++ [.storeNetwork user r]) = pdKeep (records ops) (.storeNetwork user r, some id) := by
    unfold records sqKept
    rw [sq_run_snoc, List.foldl_append]
    simp only [List.foldl_cons, List.foldl_nil]
    rw [← h]
    rfl
  rw [e, List.mem_map]
  by_cases h0 : r.id = 0
  · refine ⟨(user, { r with id := id }), List.mem_filter.2 ⟨?_, by simp⟩, rfl⟩
    simp [pdKeep, h0]
  · have hid : id = r.id := by
      simp only [sqStep, sqStoreNetwork, dbStoreNetwork] at h
      cases hcol : networkColumns user r with
      | none => rw [hcol] at h; cases h
      | some row =>
        rw [hcol] at h
        simp only [h0, ne_eq, not_false_eq_true, if_true] at h
        split at h
        · cases h
        · rename_i rows i he
          split at he
          · cases he
            unfold sqCommit at h
            split at h
            · exact (Option.some.inj h).symm
            · cases h
          · cases he
    rcases hh with hh | hh
    · exact absurd hh h0
    · rw [List.mem_map] at hh
      obtain ⟨n, hn, e⟩ := hh
      rw [(C84_networks ops (fun u x hx => hc u x (by simp [hx])) user).mem_iff, List.mem_map] at hn
      obtain ⟨p, hp, rfl⟩ := hn
      have hp' := List.mem_filter.1 hp
      refine ⟨(p.1, r), List.mem_filter.2 ⟨?_, hp'.2⟩, by rw [hid]⟩
      simp only [pdKeep, h0, if_false]
      rw [List.mem_map]
      exact ⟨p, hp'.1, if_pos e⟩

private def anna : PdUserRec := { username := b!"anna", password := b!"hash", nick := b!"anna" }
private def libera : NetRec :=
  { name := b!"libera", addr := b!"irc.libera.chat", nick := b!"anna", connectCommands := [b!"MODE anna +i", b!"WHO *"] }
private def chan : ChanRec := ⟨0, b!"#soju", b!"key", true, [], 0, 0, 1500000000, 0⟩

private theorem libera_commands (ops : List PdOp)
    (h : ∀ u r, PdOp.storeNetwork u r ∈ ops → r.connectCommands = libera.connectCommands) : PdCommandsOK ops := by
  intro u r hr
  rw [h u r hr]
  refine ⟨by decide, ?_⟩
  intro s hs a b e
  have : (13 : Nat) ∈ s := by rw [e]; simp
  simp only [libera, List.mem_cons, List.not_mem_nil, or_false] at hs
  rcases hs with rfl | rfl <;> revert this <;> decide

/-- C84 is violated for records that are gone: storing a network that was deleted meanwhile succeeds, and nothing is
stored. -/
theorem C84_stored_violated : ∃ (ops : List PdOp) (user id : Nat) (r : NetRec),
    PdCommandsOK (ops ++ [.storeNetwork user r]) ∧
    (∃ ops', ops = ops' ++ [.deleteNetwork id] ∧ id ∈ (sqListNetworks (tables ops') user).map (·.id)) ∧
    (sqStep (tables ops) (.storeNetwork user r)).2 = some id ∧
    sqListNetworks (tables (ops ++ [.storeNetwork user r])) user = [] := by
  refine ⟨[.storeUser 5 anna, .storeNetwork 1 libera, .deleteNetwork 1], 1, 1, { libera with id := 1, pass := b!"new" }, ?_,
    ⟨[.storeUser 5 anna, .storeNetwork 1 libera], rfl, by decide +kernel⟩, by decide +kernel, by decide +kernel⟩
  apply libera_commands
  intro u r hr
  simp at hr
  rcases hr with ⟨_, rfl⟩ | ⟨_, rfl⟩ <;> rfl

/-- C84 is violated for users: storing the settings of a user that was deleted meanwhile overwrites those of another
user, whose identifier differs and who got the name. -/
theorem C84_other_user_violated : ∃ (ops : List PdOp) (now : Int) (r other : PdUserRec), SqTimesOK (ops ++ [.storeUser now r]) ∧
    sqListUsers (tables ops) = some [other] ∧ other.id ≠ r.id ∧ r.id ≠ 0 ∧
    (sqStep (tables ops) (.storeUser now r)).2 = some r.id ∧
    sqListUsers (tables (ops ++ [.storeUser now r])) = some [{ r with id := other.id }] ∧ r.password ≠ other.password := by
  refine ⟨[.storeUser 5 { anna with username := b!"bob" }, .storeUser 5 anna, .deleteUser 1, .deleteUser 2,
    .storeUser 5 { anna with password := b!"other" }], 5, { anna with id := 2 },
    { anna with id := 1, password := b!"other" }, ⟨?_, ?_, ?_⟩, by decide +kernel, by decide, by decide, by decide +kernel,
    by decide +kernel, by decide⟩
  · intro now r hr
    simp at hr
    rcases hr with ⟨rfl, rfl⟩ | ⟨rfl, rfl⟩ | ⟨rfl, rfl⟩ | ⟨rfl, rfl⟩ <;> (unfold InYears; decide)
  · intro n r hr
    simp at hr
  · intro a b c d hr
    simp at hr

/-- C84 is violated for identifiers: one is given again after the record that had it was deleted. -/
theorem C84_ids_violated : ∃ ops : List PdOp, ¬ ((sqRun ops).2.filterMap pdGiven).Nodup :=
  ⟨[.storeUser 5 anna, .storeNetwork 1 libera, .deleteNetwork 1, .storeNetwork 1 { libera with addr := b!"irc.oftc.net" }],
    by decide +kernel⟩

private def calls : List PdOp :=
  [.storeUser 5000000 anna, .storeUser 6000000 { anna with username := b!"bob" }, .storeUser 7 anna, .storeNetwork 1 libera,
   .storeNetwork 2 libera, .storeNetwork 2 { libera with addr := b!"irc.oftc.net" }, .storeChannel 1 chan,
   .storeChannel 2 chan, .storeReceipts 1 b!"phone" [⟨0, b!"#soju", [], b!"7"⟩], .storeRead 1 ⟨0, b!"#soju", 1234⟩,
   .storeRead 1 ⟨0, b!"#go", 0⟩, .storeReceipts 1 [] [⟨0, b!"#soju", [], b!"7"⟩, ⟨0, b!"#soju", [], b!"8"⟩],
   .storeSub 9 1 1 ⟨0, b!"https://push", 0, 0, b!"a", b!"p", b!"v"⟩, .storeSub 9 2 0 ⟨0, b!"https://push", 0, 0, b!"a", b!"p", b!"v"⟩,
   .storeChannel 2 { chan with id := 1, name := b!"#go" }]

example : (sqRun calls).2.map (·.2) =
    [some 1, some 2, none, some 1, some 2, none, some 1, some 2, some 0, some 1, none, some 0, some 1, some 2, some 1] := by
  decide +kernel
example : sqStats (tables calls) = (2, 2, 2) := by decide +kernel
example : sqListNetworks (tables calls) 1 = [{ libera with id := 1 }] := by decide +kernel
example : (sqListChannels (tables calls) 2).map (·.name) = [b!"#go", b!"#soju"] := by decide +kernel
example : sqGetUser (tables calls) b!"bob" = some { anna with id := 2, username := b!"bob" } := by decide +kernel
example : sqListInactive (tables calls) 6000000 = [b!"anna"] := by decide +kernel
example : sqGetRead (tables calls) 1 b!"#soju" = some (some ⟨1, b!"#soju", 0⟩) := by decide +kernel
example : sqListChannels (tables (calls ++ [.deleteUser 2])) 2 = [] ∧
    sqListReceipts (tables (calls ++ [.deleteUser 2])) 1 =
      [⟨1, b!"#soju", b!"phone", b!"7"⟩, ⟨2, b!"#soju", [], b!"7"⟩, ⟨3, b!"#soju", [], b!"8"⟩] := by decide +kernel
example : (sqStep (tables (calls ++ [.storeSub 9 2 1 ⟨0, b!"https://other", 0, 0, b!"a", b!"p", b!"v"⟩])) (.deleteUser 1)).2 = none ∧
    (sqStep (tables calls) (.deleteUser 1)).2 = some 0 := by decide +kernel
example : sqListSubs (tables calls) 1 1 ≠ some [] ∧ (1 : Nat) ≠ 0 := by decide +kernel
example : PdCommandsOK [PdOp.storeNetwork 1 libera] := by
  apply libera_commands
  intro u r hr
  rw [List.mem_singleton] at hr
  cases hr
  rfl
example : SqTimesOK calls ∧ InYears 6000000 := by
  refine ⟨⟨?_, ?_, ?_⟩, by unfold InYears; decide⟩
  · intro now r hr
    simp [calls] at hr
    rcases hr with ⟨rfl, rfl⟩ | ⟨rfl, rfl⟩ | ⟨rfl, rfl⟩ <;> (unfold InYears; decide)
  · intro n r hr
    simp [calls] at hr
    rcases hr with ⟨rfl, rfl⟩ | ⟨rfl, rfl⟩ <;> (unfold InYears; decide)
  · intro a b c d hr
    simp [calls] at hr
    rcases hr with ⟨rfl, rfl, rfl, rfl⟩ | ⟨rfl, rfl, rfl, rfl⟩ <;> (unfold InYears; decide)

end Verif.Props
