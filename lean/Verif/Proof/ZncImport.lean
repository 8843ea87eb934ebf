import Verif.Spec.ZncImport
import Verif.Props.SqDb

/-! # Lemmas about the import of ZNC configurations -/

namespace Verif.Proof
open Verif.Model Verif.Spec Verif.Props

/-! ## Lists of records with a key and an identifier -/

theorem find_none_append {α : Type} (l : List α) (a : α) (p : α → Bool) :
    (l ++ [a]).find? p = (l.find? p).or (if p a then some a else none) := by
  rw [List.find?_append]
  congr 1
  by_cases h : p a <;> simp [h]

/-- The record with the identifier of `x` is replaced by one with the same key. -/
theorem find_replace {α κ : Type} [DecidableEq κ] (key : α → κ) (id : α → Nat) (l : List α) (hid : (l.map id).Nodup)
    (x new : α) (hx : x ∈ l) (hk : (l.map key).Nodup) (hn : key new = key x) (q : κ) :
    (l.map (fun p => if id p = id x then new else p)).find? (fun p => decide (key p = q)) =
      if q = key x then some new else l.find? (fun p => decide (key p = q)) := by
  induction l with
  | nil => cases hx
  | cons a l ih =>
    rw [List.map_cons, List.nodup_cons] at hid hk
    rw [List.map_cons]
    rcases List.mem_cons.1 hx with rfl | hx'
    · have hsame : l.map (fun p => if id p = id x then new else p) = l := by
        have : ∀ p ∈ l, (if id p = id x then new else p) = p := by
          intro p hp
          rw [if_neg (fun e => hid.1 (by rw [← e]; exact List.mem_map_of_mem hp))]
        exact (List.map_congr_left this).trans (List.map_id' l)
      rw [if_pos rfl, hsame]
      by_cases hq : q = key x
      · rw [if_pos hq, List.find?_cons_of_pos (by simp [hn, hq])]
      · rw [if_neg hq, List.find?_cons_of_neg (by simpa [hn] using Ne.symm hq),
          List.find?_cons_of_neg (by simpa using Ne.symm hq)]
    · have h1 : id a ≠ id x := fun e => hid.1 (by rw [e]; exact List.mem_map_of_mem hx')
      have h2 : key a ≠ key x := fun e => hk.1 (by rw [e]; exact List.mem_map_of_mem hx')
      rw [if_neg h1]
      by_cases hq : key a = q
      · rw [List.find?_cons_of_pos (by simp [hq]), if_neg (by rw [← hq]; exact h2), List.find?_cons_of_pos (by simp [hq])]
      · rw [List.find?_cons_of_neg (by simpa using hq), List.find?_cons_of_neg (by simpa using hq)]
        exact ih hid.2 hx' hk.2

theorem lookup_find {α : Type} (name : α → Str) (l : List α) (h : (l.map name).Nodup) (n : Str) :
    zncLookup name l n = l.find? (fun x => decide (name x = n)) := by
  unfold zncLookup
  induction l with
  | nil => rfl
  | cons a l ih =>
    rw [List.map_cons, List.nodup_cons] at h
    rw [List.reverse_cons, find_none_append, ih h.2]
    by_cases ha : name a = n
    · rw [List.find?_cons_of_pos (by simp [ha]), if_pos (by simp [ha])]
      have : l.find? (fun x => decide (name x = n)) = none := by
        rw [List.find?_eq_none]
        intro x hx hxn
        exact h.1 (by rw [ha, ← of_decide_eq_true hxn]; exact List.mem_map_of_mem hx)
      rw [this]; rfl
    · rw [List.find?_cons_of_neg (by simpa using ha), if_neg (by simpa using ha)]
      cases l.find? _ <;> rfl

/-! ## What the database answers, by identifiers -/

/-- The channel with this name on this network. -/
def vC (db : SqDb) (n : Nat) (z : Str) : Option ChanRec := (sqListChannels db n).find? (fun c => decide (c.name = z))

/-- The network with this name of this user. -/
def vN (db : SqDb) (u : Nat) (y : Str) : Option NetRec := (sqListNetworks db u).find? (fun n => decide (n.getName = y))

/-- The channel with this name on the network with this name of this user. -/
def vCn (db : SqDb) (u : Nat) (y z : Str) : Option ChanRec := (vN db u y).bind (fun n => vC db n.id z)

/-- The records are in order, and those read are those written. -/
structure ZGood (k : PdKept) (db : SqDb) : Prop where
  rel : SqRel k db
  times : ∀ p ∈ k.users, InYears p.1.interactedAt
  cmds : ∀ p ∈ k.networks, CommandsOK p.2.connectCommands
  keys : (k.networks.map (fun p => (p.1, p.2.getName))).Nodup

theorem list_channels {k : PdKept} {db : SqDb} (h : SqRel k db) (n : Nat) :
    sqListChannels db n = (k.channels.filter (fun p => decide (p.1 = n))).map (fun p => keptChannel p.2) := by
  unfold sqListChannels dbListChannels
  rw [h.channels, List.filter_map, List.map_map]
  apply List.map_congr_left
  intro p _
  simp only [Function.comp_apply, channelOfRow, pdChanColumns, null_get, keptChannel]

theorem list_networks {k : PdKept} {db : SqDb} (g : ZGood k db) (u : Nat) :
    sqListNetworks db u = (k.networks.filter (fun p => decide (p.1 = u))).map (fun p => keptNetwork p.2) := by
  unfold sqListNetworks dbListNetworks
  rw [g.rel.networks, List.filter_map, List.map_map]
  apply List.map_congr_left
  intro p hp
  have hm := g.rel.base.mech p (pd_mem_filter hp)
  have hk := g.cmds p (pd_mem_filter hp)
  have e : networkColumns p.1 p.2 = some (pdNetRow p.1 p.2) := by rw [sq_columns, if_pos hm]
  exact (columns_back p.1 p.2 _ e hk p.2.id p.1).1

/-- The instant of the last interaction, to the millisecond. -/
def keptUser (u : PdUserRec) : PdUserRec := { u with interactedAt := toMillis u.interactedAt }

theorem list_users {k : PdKept} {db : SqDb} (g : ZGood k db) : sqListUsers db = some (k.users.map (fun p => keptUser p.1)) := by
  unfold sqListUsers
  rw [g.rel.users]
  have hg := g.times
  generalize k.users = l at hg ⊢
  induction l with
  | nil => rfl
  | cons p l ih =>
    simp only [List.map_cons, sqRead]
    have e : sqUserOf (sqUserColumns p.2 p.1) = some (keptUser p.1) := by
      unfold sqUserOf
      have e : (sqUserColumns p.2 p.1).interactedAt = sqliteValue p.1.interactedAt := rfl
      rw [e, C34_stored _ (hg p (by simp))]
      simp only [Option.map_some, sqUserColumns, null_get, keptUser]
    rw [e]
    simp only
    rw [ih (fun q hq => hg q (by simp [hq]))]
    rfl

theorem find_pairs {α β γ : Type} [DecidableEq γ] (l : List (Nat × α)) (f : α → β) (name : β → γ) (name' : α → γ)
    (hf : ∀ a, name (f a) = name' a) (n : Nat) (z : γ) :
    ((l.filter (fun p => decide (p.1 = n))).map (fun p => f p.2)).find? (fun c => decide (name c = z)) =
      (l.find? (fun p => decide ((p.1, name' p.2) = (n, z)))).map (fun p => f p.2) := by
  rw [List.find?_map, List.find?_filter]
  congr 2
  funext p
  simp only [Function.comp_apply, Prod.mk.injEq, hf]
  by_cases h1 : p.1 = n <;> by_cases h2 : name' p.2 = z <;> simp [h1, h2]

theorem keptChannel_name (c : ChanRec) : (keptChannel c).name = c.name := by unfold keptChannel; rfl

theorem keptChannel_id (c : ChanRec) : (keptChannel c).id = c.id := by unfold keptChannel; rfl

theorem keptNetwork_id (n : NetRec) : (keptNetwork n).id = n.id := by unfold keptNetwork; rfl

theorem keptUser_id (u : PdUserRec) : (keptUser u).id = u.id := by unfold keptUser; rfl

theorem keptNetwork_name (n : NetRec) : (keptNetwork n).getName = n.getName := by unfold keptNetwork NetRec.getName; rfl

theorem keptUser_name (u : PdUserRec) : (keptUser u).username = u.username := by unfold keptUser; rfl

theorem vC_find {k : PdKept} {db : SqDb} (h : SqRel k db) (n : Nat) (z : Str) :
    vC db n z = (k.channels.find? (fun p => decide ((p.1, p.2.name) = (n, z)))).map (fun p => keptChannel p.2) := by
  unfold vC
  rw [list_channels h]
  exact find_pairs k.channels keptChannel (·.name) (·.name) keptChannel_name n z

theorem vN_find {k : PdKept} {db : SqDb} (g : ZGood k db) (u : Nat) (y : Str) :
    vN db u y = (k.networks.find? (fun p => decide ((p.1, p.2.getName) = (u, y)))).map (fun p => keptNetwork p.2) := by
  unfold vN
  rw [list_networks g]
  exact find_pairs k.networks keptNetwork NetRec.getName NetRec.getName keptNetwork_name u y

theorem bookUser_find {k : PdKept} {db : SqDb} (g : ZGood k db) (x : Str) :
    bookUser db x = (k.users.find? (fun p => decide (p.1.username = x))).map (fun p => keptUser p.1) := by
  unfold bookUser
  rw [list_users g, Option.getD_some, List.find?_map]
  congr 2

theorem keys_of_chans {k : PdKept} {db : SqDb} (h : SqRel k db) : (k.channels.map (fun p => (p.1, p.2.name))).Nodup := by
  have h1 := h.idC
  have h2 := h.base.cUniq
  generalize k.channels = l at h1 h2
  induction l with
  | nil => exact List.nodup_nil
  | cons a l ih =>
    rw [List.map_cons, List.nodup_cons] at h1 ⊢
    refine ⟨?_, ih h1.2 (fun a ha b hb => h2 a (by simp [ha]) b (by simp [hb]))⟩
    intro hm
    obtain ⟨b, hb, e⟩ := List.mem_map.1 hm
    simp only [Prod.mk.injEq] at e
    exact h2 a (by simp) b (by simp [hb]) (fun e2 => h1.1 (by rw [e2]; exact List.mem_map_of_mem hb)) e.1.symm e.2.symm

theorem keptChannel_fixed (c : ChanRec) (h : c.detachAfter % 1000000000 = 0) : keptChannel c = c := by
  cases c
  simp only at h
  unfold keptChannel
  simp only [ChanRec.mk.injEq, true_and, and_true]
  omega

theorem keptChannel_whole (c : ChanRec) : (keptChannel c).detachAfter % 1000000000 = 0 := by
  unfold keptChannel
  simp only
  exact Nat.mul_mod_left _ _

/-! ## Channels -/

/-- Storing a channel that was found by its name, or was not found. -/
theorem chan_store {k : PdKept} {db : SqDb} (g : ZGood k db) (n : Nat) (hn : PdNet k n) (c : ChanRec)
    (hsome : ∀ o, vC db n c.name = some o → c.id = o.id) (hnone : vC db n c.name = none → c.id = 0) :
    ∃ k', ZGood k' (sqStoreChannel db n c).1 ∧ k'.users = k.users ∧ k'.networks = k.networks ∧
      (∃ i, vC (sqStoreChannel db n c).1 n c.name = some (keptChannel { c with id := i }) ∧
        ∀ o, vC db n c.name = some o → i = o.id) ∧
      ∀ n' z', (n', z') ≠ (n, c.name) → vC (sqStoreChannel db n c).1 n' z' = vC db n' z' := by
  have hs := sq_step k db g.rel (.storeChannel n c)
  unfold SqGood at hs
  obtain ⟨hrel, hiff⟩ := hs
  change SqRel (sqKeep k (.storeChannel n c, (sqStoreChannel db n c).2)) (sqStoreChannel db n c).1 at hrel
  change (sqStoreChannel db n c).2.isSome = true ↔ _ at hiff
  have hkeys := keys_of_chans g.rel
  have hsplit := vC_find g.rel n c.name
  cases hf : k.channels.find? (fun p => decide ((p.1, p.2.name) = (n, c.name))) with
  | none =>
    rw [hf] at hsplit
    have h0 : c.id = 0 := hnone hsplit
    have hno : ∀ p ∈ k.channels, p.1 = n → p.2.name ≠ c.name := by
      intro p hp h1 h2
      have := List.find?_eq_none.1 hf p hp
      simp [h1, h2] at this
    have hok : SqAllowed k (.storeChannel n c) := ⟨fun _ => ⟨hn, hno⟩, fun h => absurd h0 h⟩
    obtain ⟨i, hi⟩ := sq_isSome _ (hiff.2 hok)
    rw [hi] at hrel
    simp only [sqKeep, if_pos h0] at hrel
    have g' : ZGood _ (sqStoreChannel db n c).1 := ⟨hrel, g.times, g.cmds, g.keys⟩
    refine ⟨_, g', rfl, rfl, ⟨i, ?_, ?_⟩, ?_⟩
    · rw [vC_find hrel]
      simp only
      rw [find_none_append, hf]
      simp
    · rw [hsplit]; exact nofun
    · intro n' z' hne
      rw [vC_find hrel, vC_find g.rel]
      simp only
      rw [find_none_append, if_neg (by simpa using fun h1 h2 => hne (by rw [h1, h2]))]
      cases k.channels.find? _ <;> rfl
  | some p =>
    rw [hf] at hsplit
    simp only [Option.map_some] at hsplit
    have hid : c.id = p.2.id := (hsome _ hsplit).trans (keptChannel_id p.2)
    have hp : p ∈ k.channels := List.mem_of_find?_eq_some hf
    have hpk : (p.1, p.2.name) = (n, c.name) := of_decide_eq_true (List.find?_some (p := fun p : Nat × ChanRec => decide ((p.1, p.2.name) = (n, c.name))) hf)
    simp only [Prod.mk.injEq] at hpk
    have hpos : c.id ≠ 0 := by rw [hid]; exact Nat.ne_of_gt (g.rel.base.cPos p hp).1
    have hok : SqAllowed k (.storeChannel n c) := by
      refine ⟨fun h => absurd h hpos, fun _ q hq hqi => ⟨hn, ?_⟩⟩
      intro r hr h1 h2 h3
      exact g.rel.base.cUniq r hr p hp (by rw [← hid]; exact h2) (by rw [h1, hpk.1]) (by rw [h3, hpk.2])
    obtain ⟨i, hi⟩ := sq_isSome _ (hiff.2 hok)
    rw [hi] at hrel
    simp only [sqKeep, if_neg hpos] at hrel
    have g' : ZGood _ (sqStoreChannel db n c).1 := ⟨hrel, g.times, g.cmds, g.keys⟩
    have hr := find_replace (fun p : Nat × ChanRec => (p.1, p.2.name)) (fun p => p.2.id) k.channels g.rel.idC p (n, c) hp hkeys
      (by simp [hpk.1, hpk.2])
    refine ⟨_, g', rfl, rfl, ⟨c.id, ?_, ?_⟩, ?_⟩
    · rw [vC_find hrel]
      simp only
      rw [hid, hr, if_pos (by simp [hpk.1, hpk.2]), Option.map_some, ← hid]
    · intro o ho; exact hsome o ho
    · intro n' z' hne
      rw [vC_find hrel, vC_find g.rel]
      simp only
      rw [hid, hr, if_neg (by rw [hpk.1, hpk.2]; exact hne)]

end Verif.Proof
