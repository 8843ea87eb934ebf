import Verif.Model.Db
import Verif.Proof.MsgDb
import Verif.Proof.GoStr

/-! # C37 and C63: saved networks and channels -/

namespace Verif.Props
open Verif.Model Verif.Proof

/-- What is kept of a network record: the credentials of the mechanism in use. -/
def keptNetwork (r : NetRec) : NetRec :=
  { r with sasl :=
      if r.sasl.mechanism = b!"PLAIN" then { r.sasl with certBlob := [], privKeyBlob := [] }
      else { r.sasl with plainUsername := [], plainPassword := [] } }

/-- No line contains a line break, and there is not just one empty line. -/
def CommandsOK (l : List Str) : Prop := l ≠ [[]] ∧ ∀ s ∈ l, ∀ a b, s ≠ a ++ 13 :: 10 :: b

private theorem split_append (x s : Str) (hx : ∀ a b, x ≠ a ++ 13 :: 10 :: b) :
    splitCRLF (x ++ 13 :: 10 :: s) = x :: splitCRLF s := by
  induction x with
  | nil => simp [splitCRLF]
  | cons c x ih =>
    have ih := ih (fun a b h => hx (c :: a) b (by rw [h]; rfl))
    cases x with
    | nil =>
      simp only [List.cons_append, List.nil_append] at ih ⊢
      rw [splitCRLF, if_neg (by omega), ih]
    | cons d x =>
      simp only [List.cons_append] at ih ⊢
      rw [splitCRLF, if_neg (fun h => hx [] x (by rw [h.1, h.2]; rfl)), ih]

private theorem split_plain (x : Str) (hx : ∀ a b, x ≠ a ++ 13 :: 10 :: b) : splitCRLF x = [x] := by
  induction x with
  | nil => simp [splitCRLF]
  | cons c x ih =>
    have ih := ih (fun a b h => hx (c :: a) b (by rw [h]; rfl))
    cases x with
    | nil => simp [splitCRLF]
    | cons d x => rw [splitCRLF, if_neg (fun h => hx [] x (by rw [h.1, h.2]; rfl)), ih]

private theorem split_join (l : List Str) (hl : l ≠ []) (h : ∀ s ∈ l, ∀ a b, s ≠ a ++ 13 :: 10 :: b) :
    splitCRLF (joinStr [13, 10] l) = l := by
  induction l with
  | nil => exact absurd rfl hl
  | cons x l ih =>
    cases l with
    | nil => exact split_plain x (h x (by simp))
    | cons y l =>
      have e : joinStr [13, 10] (x :: y :: l) = x ++ 13 :: 10 :: joinStr [13, 10] (y :: l) := by
        simp [joinStr]
      rw [e, split_append x _ (h x (by simp)), ih (by simp) (fun s hs => h s (by simp [hs]))]

theorem null_get (s : Str) : (toNull s).getD [] = s := by
  unfold toNull
  split
  · rename_i h; rw [h]; rfl
  · rfl

private theorem commands_back (l : List Str) (h : CommandsOK l) :
    (match toNull (joinStr [13, 10] l) with | none => [] | some s => splitCRLF s) = l := by
  unfold toNull
  by_cases hj : joinStr [13, 10] l = []
  · rw [if_pos hj]
    match l, h, hj with
    | [], _, _ => rfl
    | [x], h, hj => exact absurd (by rw [show x = [] from hj]) h.1
    | x :: y :: l, _, hj => simp [joinStr] at hj
  · rw [if_neg hj]
    exact split_join l (by rintro rfl; exact hj rfl) h.2

theorem columns_back (user : Nat) (r : NetRec) (row : NetworkRow) (h : networkColumns user r = some row)
    (hc : CommandsOK r.connectCommands) (id u : Nat) :
    networkOfRow { row with id := id, user := u } = keptNetwork { r with id := id } ∧ row.id = r.id ∧ row.user = user := by
  unfold networkColumns at h
  simp only at h
  have key : ∀ (pu pp : Option Str) (cert key : Str),
      networkOfRow {
        id := id, user := u, name := toNull r.name, addr := r.addr, nick := toNull r.nick,
        username := toNull r.username, realname := toNull r.realname, certfp := toNull r.certFP, pass := toNull r.pass,
        connectCommands := toNull (joinStr [13, 10] r.connectCommands), saslMechanism := toNull r.sasl.mechanism,
        saslPlainUsername := pu, saslPlainPassword := pp, saslCert := cert, saslKey := key,
        autoAway := r.autoAway, enabled := r.enabled } =
      { r with id := id, sasl := ⟨r.sasl.mechanism, pu.getD [], pp.getD [], cert, key⟩ } := by
    intro pu pp cert key
    have hcb := commands_back _ hc
    simp only [networkOfRow, null_get]
    congr 1
  by_cases h1 : r.sasl.mechanism = []
  · rw [if_pos h1] at h
    cases h
    refine ⟨?_, rfl, rfl⟩
    rw [key]
    unfold keptNetwork
    simp only [h1]
    rfl
  · rw [if_neg h1] at h
    by_cases h2 : r.sasl.mechanism = b!"PLAIN"
    · rw [if_pos h2] at h
      cases h
      refine ⟨?_, rfl, rfl⟩
      rw [key]
      unfold keptNetwork
      simp only [h2, null_get, if_true]
    · rw [if_neg h2] at h
      by_cases h3 : r.sasl.mechanism = b!"EXTERNAL"
      · rw [if_pos h3] at h
        cases h
        refine ⟨?_, rfl, rfl⟩
        rw [key]
        unfold keptNetwork
        simp only [h2, if_false, Option.getD_none]
      · rw [if_neg h3] at h
        cases h

/-- C37: a network that is saved for the first time is listed with its settings under a new identifier, and
nothing else changes, for this user and for the others. -/
theorem C37_insert (rows rows' : List NetworkRow) (user id : Nat) (r : NetRec) (h0 : r.id = 0)
    (hc : CommandsOK r.connectCommands) (h : dbStoreNetwork rows user r = some (rows', id)) :
    id ≠ 0 ∧ (∀ row ∈ rows, row.id ≠ id) ∧
    dbListNetworks rows' user = dbListNetworks rows user ++ [keptNetwork { r with id := id }] ∧
    ∀ u, u ≠ user → dbListNetworks rows' u = dbListNetworks rows u := by
  unfold dbStoreNetwork at h
  cases hrow : networkColumns user r with
  | none => rw [hrow] at h; cases h
  | some row =>
    rw [hrow] at h
    simp only [h0, ne_eq, not_true_eq_false, if_false] at h
    split at h
    · cases h
      obtain ⟨c1, c2, c3⟩ := columns_back user r row hrow hc (nextRowId (rows.map (·.id))) row.user
      refine ⟨by unfold nextRowId; omega, ?_, ?_, ?_⟩
      · intro o ho
        exact Nat.ne_of_lt (lt_nextRowId _ o.id (List.mem_map_of_mem ho))
      · unfold dbListNetworks
        rw [List.filter_append, List.map_append]
        congr 1
        rw [List.filter_cons, if_pos (by simpa using c3)]
        simp only [List.filter_nil, List.map_cons, List.map_nil]
        rw [c1]
      · intro u hu
        unfold dbListNetworks
        rw [List.filter_append, List.filter_cons, if_neg (by simp only [decide_eq_true_eq, c3]; exact fun e => hu e.symm)]
        simp
    · cases h

/-- C37: a network that is saved again is listed with its new settings, and nothing else changes, for any
user. -/
theorem C37_update (rows rows' : List NetworkRow) (user id : Nat) (r : NetRec) (h0 : r.id ≠ 0)
    (hc : CommandsOK r.connectCommands) (h : dbStoreNetwork rows user r = some (rows', id)) :
    id = r.id ∧ ∀ u, dbListNetworks rows' u =
      (dbListNetworks rows u).map (fun n => if n.id = r.id then keptNetwork r else n) := by
  unfold dbStoreNetwork at h
  cases hrow : networkColumns user r with
  | none => rw [hrow] at h; cases h
  | some row =>
    rw [hrow] at h
    simp only [h0, ne_eq, not_false_eq_true, if_true] at h
    split at h
    · cases h
      refine ⟨rfl, fun u => ?_⟩
      unfold dbListNetworks
      rw [List.filter_map, List.map_map, List.map_map]
      have e : (fun x : NetworkRow => decide (x.user = u)) ∘
          (fun o => if o.id = r.id then { row with user := o.user } else o) = fun x => decide (x.user = u) := by
        funext o
        simp only [Function.comp]
        split <;> rfl
      rw [e]
      apply List.map_congr_left
      intro o _
      simp only [Function.comp]
      have hid : (networkOfRow o).id = o.id := rfl
      rw [hid]
      by_cases ho : o.id = r.id
      · rw [if_pos ho, if_pos ho]
        obtain ⟨c1, c2, _⟩ := columns_back user r row hrow hc r.id o.user
        rw [← c2] at c1
        have e2 : ({ r with id := row.id } : NetRec) = r := by rw [c2]
        rw [e2] at c1
        exact c1
      · rw [if_neg ho, if_neg ho]
    · cases h

/-- C37: a network with a mechanism that is not supported is not saved. -/
theorem C37_unsupported (rows : List NetworkRow) (user : Nat) (r : NetRec)
    (h : r.sasl.mechanism ≠ [] ∧ r.sasl.mechanism ≠ b!"PLAIN" ∧ r.sasl.mechanism ≠ b!"EXTERNAL") :
    dbStoreNetwork rows user r = none := by
  unfold dbStoreNetwork networkColumns
  simp only [if_neg h.1, if_neg h.2.1, if_neg h.2.2]

/-- C37: a new network with a supported mechanism is saved if no other network of the user has its name or its
address. -/
theorem C37_saved (rows : List NetworkRow) (user : Nat) (r : NetRec) (h0 : r.id = 0)
    (hm : r.sasl.mechanism = [] ∨ r.sasl.mechanism = b!"PLAIN" ∨ r.sasl.mechanism = b!"EXTERNAL")
    (hu : networkUnique rows = true)
    (hn : ∀ n ∈ dbListNetworks rows user, n.addr ≠ r.addr ∧ (r.name = [] ∨ n.name ≠ r.name)) :
    (dbStoreNetwork rows user r).isSome = true := by
  have hrow : ∃ row, networkColumns user r = some row ∧ row.addr = r.addr ∧ row.name = toNull r.name ∧ row.user = user := by
    unfold networkColumns
    simp only
    by_cases h1 : r.sasl.mechanism = []
    · exact ⟨_, by rw [if_pos h1], rfl, rfl, rfl⟩
    · rw [if_neg h1]
      by_cases h2 : r.sasl.mechanism = b!"PLAIN"
      · exact ⟨_, by rw [if_pos h2], rfl, rfl, rfl⟩
      · rw [if_neg h2]
        have h3 : r.sasl.mechanism = b!"EXTERNAL" := (hm.resolve_left h1).resolve_left h2
        exact ⟨_, by rw [if_pos h3], rfl, rfl, rfl⟩
  obtain ⟨row, r1, r2, r3, r4⟩ := hrow
  unfold dbStoreNetwork
  rw [r1]
  simp only [h0, ne_eq, not_true_eq_false, if_false]
  rw [if_pos]
  · rfl
  have other : ∀ a ∈ rows, a.user = user → a.addr ≠ r.addr ∧ (a.name = none ∨ toNull r.name = none ∨ a.name ≠ toNull r.name) := by
    intro a ha hau
    obtain ⟨g1, g2⟩ := hn (networkOfRow a) (List.mem_map.2 ⟨a, List.mem_filter.2 ⟨ha, by simpa using hau⟩, rfl⟩)
    refine ⟨g1, ?_⟩
    rcases g2 with g2 | g2
    · right; left; rw [g2]; rfl
    · cases han : a.name with
      | none => left; rfl
      | some x =>
        right; right
        intro e
        apply g2
        simp only [networkOfRow, han, Option.getD_some]
        have := null_get r.name
        rw [← e] at this
        exact this
  unfold networkUnique at hu ⊢
  rw [List.all_eq_true] at hu ⊢
  intro a ha
  rw [List.all_eq_true]
  intro b hb
  rcases List.mem_append.1 ha with ha | ha <;> rcases List.mem_append.1 hb with hb | hb
  · exact (List.all_eq_true.1 (hu a ha)) b hb
  · simp only [List.mem_singleton] at hb
    subst hb
    simp only [r2, r3, r4]
    by_cases hau : a.user = user
    · obtain ⟨g1, g2⟩ := other a ha hau
      rcases g2 with g2 | g2 | g2
      · simp [g1, g2]
      · cases han : a.name <;> simp [g1, g2]
      · simp [g1, g2]
    · simp [hau]
  · simp only [List.mem_singleton] at ha
    subst ha
    simp only [r2, r3, r4]
    by_cases hau : b.user = user
    · obtain ⟨g1, g2⟩ := other b hb hau
      have g1' := g1.symm
      rcases g2 with g2 | g2 | g2
      · cases hrn : toNull r.name <;> simp [g1', g2]
      · simp [g1', g2]
      · have g2' : toNull r.name ≠ b.name := fun e => g2 (Eq.symm e)
        simp [g1', g2']
    · have : user ≠ b.user := fun e => hau (Eq.symm e)
      simp [this]
  · simp only [List.mem_singleton] at ha hb
    subst ha hb
    simp

/-- A network with connect commands and PLAIN credentials is saved and changed. -/
example :
    let r : NetRec := { addr := b!"irc.example.org", name := b!"ex", nick := b!"me",
                        connectCommands := [b!"PRIVMSG a :b", b!"MODE me +x"],
                        sasl := ⟨b!"PLAIN", b!"u", b!"p", b!"old", b!"old"⟩ }
    CommandsOK r.connectCommands ∧
    (dbStoreNetwork [] 1 r).map (fun p => (dbListNetworks p.1 1, p.2)) =
      some ([{ r with id := 1, sasl := ⟨b!"PLAIN", b!"u", b!"p", [], []⟩ }], 1) := by
  constructor
  · refine ⟨by decide, fun s hs a b e => ?_⟩
    have : 13 ∈ s := by rw [e]; simp
    simp only [List.mem_cons, List.not_mem_nil, or_false] at hs
    rcases hs with rfl | rfl <;> exact absurd this (by decide)
  · decide +kernel

/-- What is kept of a channel record: the delay is rounded up to seconds. -/
def keptChannel (c : ChanRec) : ChanRec := { c with detachAfter := (c.detachAfter + 999999999) / 1000000000 * 1000000000 }

/-- C63: the delay that is kept is a number of seconds, not shorter than the one that was saved and less than a
second longer. -/
theorem C63_delay (c : ChanRec) : (keptChannel c).detachAfter % 1000000000 = 0 ∧
    c.detachAfter ≤ (keptChannel c).detachAfter ∧ (keptChannel c).detachAfter < c.detachAfter + 1000000000 := by
  unfold keptChannel
  simp only
  omega

private theorem channel_back (network : Nat) (c : ChanRec) (id : Nat) :
    channelOfRow { channelColumns network c with id := id } = keptChannel { c with id := id } := by
  simp only [channelOfRow, channelColumns, null_get, keptChannel]

/-- C63: a channel that is saved for the first time is listed with its settings, and nothing else changes, for
any network. -/
theorem C63_insert (rows rows' : List ChannelRow) (network id : Nat) (c : ChanRec) (h0 : c.id = 0)
    (h : dbStoreChannel rows network c = some (rows', id)) :
    id ≠ 0 ∧ (∀ row ∈ rows, row.id ≠ id) ∧
    dbListChannels rows' network = dbListChannels rows network ++ [keptChannel { c with id := id }] ∧
    ∀ n, n ≠ network → dbListChannels rows' n = dbListChannels rows n := by
  unfold dbStoreChannel at h
  simp only [h0, ne_eq, not_true_eq_false, if_false] at h
  split at h
  · cases h
    refine ⟨by unfold nextRowId; omega, ?_, ?_, ?_⟩
    · intro o ho
      exact Nat.ne_of_lt (lt_nextRowId _ o.id (List.mem_map_of_mem ho))
    · unfold dbListChannels
      rw [List.filter_append, List.map_append]
      congr 1
      rw [List.filter_cons, if_pos (by simp [channelColumns])]
      simp only [List.filter_nil, List.map_cons, List.map_nil]
      rw [channel_back]
    · intro u hu
      unfold dbListChannels
      rw [List.filter_append, List.filter_cons, if_neg (fun e => hu (of_decide_eq_true e).symm)]
      simp
  · cases h

/-- C63: a channel that is saved again (for the network it belongs to) is listed with its new settings, and
nothing else changes, for any network. -/
theorem C63_update (rows rows' : List ChannelRow) (network id : Nat) (c : ChanRec) (h0 : c.id ≠ 0)
    (hn : ∀ row ∈ rows, row.id = c.id → row.network = network)
    (h : dbStoreChannel rows network c = some (rows', id)) :
    id = c.id ∧ ∀ n, dbListChannels rows' n =
      (dbListChannels rows n).map (fun x => if x.id = c.id then keptChannel c else x) := by
  unfold dbStoreChannel at h
  simp only [h0, ne_eq, not_false_eq_true, if_true] at h
  split at h
  · cases h
    refine ⟨rfl, fun n => ?_⟩
    unfold dbListChannels
    rw [List.filter_map, List.map_map, List.map_map]
    have e : rows.filter ((fun x : ChannelRow => decide (x.network = n)) ∘
        (fun o => if o.id = c.id then channelColumns network c else o)) =
        rows.filter (fun x => decide (x.network = n)) := by
      apply List.filter_congr
      intro o ho
      simp only [Function.comp]
      split
      · rename_i hid
        rw [hn o ho hid]
        rfl
      · rfl
    rw [e]
    apply List.map_congr_left
    intro o _
    simp only [Function.comp]
    have hid : (channelOfRow o).id = o.id := rfl
    rw [hid]
    by_cases ho : o.id = c.id
    · rw [if_pos ho, if_pos ho]
      exact channel_back network c c.id
    · rw [if_neg ho, if_neg ho]
  · cases h

/-- C63: a channel that is deleted is not listed any more; the others are. -/
theorem C63_delete (rows : List ChannelRow) (id n : Nat) :
    dbListChannels (dbDeleteChannel rows id) n = (dbListChannels rows n).filter (fun c => decide (c.id ≠ id)) := by
  unfold dbListChannels dbDeleteChannel
  rw [List.filter_map, List.filter_filter, List.filter_filter]
  congr 1
  apply List.filter_congr
  intro r _
  simp only [Function.comp]
  exact Bool.and_comm _ _

/-- A delay of 90.5 seconds. -/
example :
    (dbStoreChannel [⟨4, 1, b!"#a", none, false, none, 0, 0, 0, 0⟩] 1 ⟨0, b!"#c", b!"k", true, b!"id", 1, 2, 90500000000, 3⟩).map
      (fun p => (dbListChannels p.1 1, p.2)) =
    some ([⟨4, b!"#a", [], false, [], 0, 0, 0, 0⟩, ⟨5, b!"#c", b!"k", true, b!"id", 1, 2, 91000000000, 3⟩], 5) := by
  decide +kernel

end Verif.Props
