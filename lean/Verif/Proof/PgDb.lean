import Verif.Spec.PgDb
import Verif.Proof.Util

/-! # Proofs about the account tables of a PostgreSQL database -/

namespace Verif.Proof
open Verif.Model Verif.Spec

theorem pd_mem_filter {α : Type} {a : α} {q : α → Bool} {l : List α} (h : a ∈ l.filter q) : a ∈ l :=
  (List.mem_filter.1 h).1

theorem pd_null_inj (a b : Str) : toNull a = toNull b ↔ a = b := by
  unfold toNull
  constructor
  · intro h
    split at h <;> split at h
    · simp_all
    · cases h
    · cases h
    · exact Option.some.inj h
  · rintro rfl; rfl

theorem pd_null_none (a : Str) : (toNull a).isNone = true ↔ a = [] := by
  unfold toNull
  split <;> simp_all

theorem pd_fits (ok : Nat → Str → Bool) (n : Nat) (s : Str) : pdOk ok n (toNull s) = true ↔ PdFits ok n s := by
  unfold toNull PdFits
  split
  · simp_all [pdOk]
  · simp_all [pdOk]

/-- The row of a network with a supported mechanism. -/
def pdNetRow (user : Nat) (r : NetRec) : NetworkRow :=
  { id := r.id, user := user, name := toNull r.name, addr := r.addr, nick := toNull r.nick,
    username := toNull r.username, realname := toNull r.realname, certfp := toNull r.certFP, pass := toNull r.pass,
    connectCommands := toNull (joinStr [13, 10] r.connectCommands), saslMechanism := toNull r.sasl.mechanism,
    saslPlainUsername := if r.sasl.mechanism = b!"PLAIN" then toNull r.sasl.plainUsername else none,
    saslPlainPassword := if r.sasl.mechanism = b!"PLAIN" then toNull r.sasl.plainPassword else none,
    saslCert := if r.sasl.mechanism = b!"PLAIN" then [] else r.sasl.certBlob,
    saslKey := if r.sasl.mechanism = b!"PLAIN" then [] else r.sasl.privKeyBlob,
    autoAway := r.autoAway, enabled := r.enabled }

/-- The mechanism is supported. -/
def PdMech (r : NetRec) : Prop :=
  r.sasl.mechanism = [] ∨ r.sasl.mechanism = b!"EXTERNAL" ∨ r.sasl.mechanism = b!"PLAIN"

instance (r : NetRec) : Decidable (PdMech r) := by unfold PdMech; infer_instance

theorem pd_columns (user : Nat) (r : NetRec) :
    pdNetColumns user r = if PdMech r then some (pdNetRow user r) else none := by
  unfold pdNetColumns PdMech pdNetRow
  by_cases h1 : r.sasl.mechanism = []
  · simp [h1, toNull]
  · by_cases h2 : r.sasl.mechanism = b!"PLAIN"
    · simp [h2]
    · by_cases h3 : r.sasl.mechanism = b!"EXTERNAL"
      · simp [h3]
      · simp [h1, h2, h3]

theorem pd_columns_fit (ok : Nat → Str → Bool) (user : Nat) (r : NetRec) :
    (PdMech r ∧ pdNetOk ok (pdNetRow user r) = true) ↔ PdNetFits ok r := by
  unfold PdMech PdNetFits pdNetOk pdNetRow
  simp only [Bool.and_eq_true, pd_fits]
  by_cases h2 : r.sasl.mechanism = b!"PLAIN"
  · simp only [h2, if_true, pd_fits]
    simp
    constructor
    · rintro ⟨⟨⟨⟨⟨⟨⟨⟨⟨a, b⟩, c⟩, d⟩, e⟩, f⟩, g⟩, i⟩, j⟩, l⟩
      exact ⟨a, b, c, d, e, f, g, i, j, l⟩
    · rintro ⟨a, b, c, d, e, f, g, i, j, l⟩
      exact ⟨⟨⟨⟨⟨⟨⟨⟨⟨a, b⟩, c⟩, d⟩, e⟩, f⟩, g⟩, i⟩, j⟩, l⟩
  · simp only [h2, if_false, pdOk]
    constructor
    · rintro ⟨m, ⟨⟨⟨⟨⟨⟨⟨⟨⟨a, b⟩, c⟩, d⟩, e⟩, f⟩, g⟩, i⟩, j⟩, l⟩⟩
      refine ⟨a, b, c, d, e, f, g, i, ?_⟩
      rcases m with m | m | m
      · exact .inl m
      · exact .inr (.inl m)
      · exact m.elim
    · rintro ⟨a, b, c, d, e, f, g, i, m⟩
      refine ⟨?_, ⟨⟨⟨⟨⟨⟨⟨⟨⟨a, b⟩, c⟩, d⟩, e⟩, f⟩, g⟩, i⟩, trivial⟩, trivial⟩⟩
      rcases m with m | m | m
      · exact .inl m
      · exact .inr (.inl m)
      · exact m.1.elim

/-- No two networks of a user collide. -/
def PdNetsOK (l : List (Nat × NetRec)) : Prop :=
  ∀ a ∈ l, ∀ b ∈ l, a.2.id ≠ b.2.id → a.1 = b.1 →
    (a.2.name = b.2.name → b.2.name = []) ∧ (a.2.addr = b.2.addr → a.2.nick = b.2.nick → b.2.nick = [])

theorem pd_net_unique (l : List (Nat × NetRec)) :
    networkUnique (l.map (fun p => pdNetRow p.1 p.2)) = true ↔ PdNetsOK l := by
  unfold networkUnique PdNetsOK
  simp only [List.all_map, List.all_eq_true, Function.comp_apply, Bool.or_eq_true, decide_eq_true_eq,
    Bool.and_eq_true]
  have e : ∀ a b : Nat × NetRec, (((pdNetRow a.1 a.2).id = (pdNetRow b.1 b.2).id ∨ (pdNetRow a.1 a.2).user ≠ (pdNetRow b.1 b.2).user) ∨
      (((pdNetRow a.1 a.2).addr ≠ (pdNetRow b.1 b.2).addr ∨ (pdNetRow a.1 a.2).nick ≠ (pdNetRow b.1 b.2).nick) ∨
        (pdNetRow a.1 a.2).nick.isNone = true) ∧
      ((pdNetRow a.1 a.2).name ≠ (pdNetRow b.1 b.2).name ∨ (pdNetRow a.1 a.2).name.isNone = true)) ↔
      (a.2.id ≠ b.2.id → a.1 = b.1 → (a.2.name = b.2.name → b.2.name = []) ∧ (a.2.addr = b.2.addr → a.2.nick = b.2.nick → b.2.nick = [])) := by
    intro a b
    simp only [pdNetRow, pd_null_none, ne_eq, pd_null_inj]
    constructor
    · intro h h1 h2
      rcases h with (h | h) | ⟨h3, h4⟩
      · exact absurd h h1
      · exact absurd h2 h
      · refine ⟨fun e => ?_, fun e1 e2 => ?_⟩
        · rcases h4 with h4 | h4
          · exact absurd e h4
          · rw [← e, h4]
        · rcases h3 with (h3 | h3) | h3
          · exact absurd e1 h3
          · exact absurd e2 h3
          · rw [← e2, h3]
    · intro h
      by_cases h1 : a.2.id = b.2.id
      · exact .inl (.inl h1)
      · by_cases h2 : a.1 = b.1
        · obtain ⟨h3, h4⟩ := h h1 h2
          refine .inr ⟨?_, ?_⟩
          · by_cases h5 : a.2.addr = b.2.addr
            · by_cases h6 : a.2.nick = b.2.nick
              · exact .inr (by rw [h6, h4 h5 h6])
              · exact .inl (.inr h6)
            · exact .inl (.inl h5)
          · by_cases h5 : a.2.name = b.2.name
            · exact .inr (by rw [h5, h3 h5])
            · exact .inl h5
        · exact .inl (.inr h2)
  constructor
  · intro h a ha b hb
    exact (e a b).1 (h a ha b hb)
  · intro h a ha b hb
    exact (e a b).2 (h a ha b hb)

theorem pd_nets_add (k : PdKept) (h : PdNetsOK k.networks) (user : Nat) (r : NetRec) (n : Nat)
    (hn : ∀ p ∈ k.networks, 0 < p.2.id ∧ p.2.id < n) (h0 : r.id = 0) :
    PdNetsOK (k.networks ++ [(user, { r with id := n })]) ↔ PdNetFree k user r := by
  constructor
  · intro hh p hp hu _
    exact hh p (by simp [hp]) (user, { r with id := n }) (by simp) (by have := (hn p hp).2; simp only; omega) hu
  · intro hf a ha b hb hid hu
    rw [List.mem_append, List.mem_singleton] at ha hb
    rcases ha with ha | rfl <;> rcases hb with hb | rfl
    · exact h a ha b hb hid hu
    · exact hf a ha hu (by have := (hn a ha).1; omega)
    · obtain ⟨h1, h2⟩ := hf b hb hu.symm (by have := (hn b hb).1; omega)
      exact ⟨fun e => by rw [← e]; exact h1 e.symm, fun e1 e2 => by rw [← e2]; exact h2 e1.symm e2.symm⟩
    · exact absurd rfl hid

theorem pd_nets_set (k : PdKept) (h : PdNetsOK k.networks) (r : NetRec) :
    PdNetsOK (k.networks.map (fun p => if p.2.id = r.id then (p.1, r) else p)) ↔
      ∀ p ∈ k.networks, p.2.id = r.id → PdNetFree k p.1 r := by
  constructor
  · intro hh p hp he q hq hu hid
    have := hh q (by
      rw [List.mem_map]; exact ⟨q, hq, by rw [if_neg hid]⟩) (p.1, r) (by
      rw [List.mem_map]; exact ⟨p, hp, by rw [if_pos he]⟩) hid hu
    exact this
  · intro hf a ha b hb hid hu
    rw [List.mem_map] at ha hb
    obtain ⟨a', ha, rfl⟩ := ha
    obtain ⟨b', hb, rfl⟩ := hb
    by_cases h1 : a'.2.id = r.id <;> by_cases h2 : b'.2.id = r.id
    · rw [if_pos h1, if_pos h2] at hid
      exact absurd rfl hid
    · rw [if_pos h1, if_neg h2] at hu ⊢
      obtain ⟨h3, h4⟩ := hf a' ha h1 b' hb hu.symm h2
      exact ⟨fun e => by rw [← e]; exact h3 e.symm, fun e1 e2 => by rw [← e2]; exact h4 e1.symm e2.symm⟩
    · rw [if_neg h1, if_pos h2] at hu ⊢
      exact hf b' hb h2 a' ha hu h1
    · rw [if_neg h1, if_neg h2] at hid hu ⊢
      exact h a' ha b' hb hid hu

/-- No two channels of a network have the same name. -/
def PdChansOK (l : List (Nat × ChanRec)) : Prop :=
  ∀ a ∈ l, ∀ b ∈ l, a.2.id ≠ b.2.id → a.1 = b.1 → a.2.name ≠ b.2.name

theorem pd_chan_unique (l : List (Nat × ChanRec)) :
    channelUnique (l.map (fun p => pdChanColumns p.1 p.2)) = true ↔ PdChansOK l := by
  unfold channelUnique PdChansOK
  simp only [List.all_map, List.all_eq_true, Function.comp_apply, Bool.or_eq_true, decide_eq_true_eq, pdChanColumns]
  constructor
  · intro h a ha b hb h1 h2
    rcases h a ha b hb with (h3 | h3) | h3
    · exact absurd h3 h1
    · exact absurd h2 h3
    · exact h3
  · intro h a ha b hb
    by_cases h1 : a.2.id = b.2.id
    · exact .inl (.inl h1)
    · by_cases h2 : a.1 = b.1
      · exact .inr (h a ha b hb h1 h2)
      · exact .inl (.inr h2)

theorem pd_chans_add (l : List (Nat × ChanRec)) (h : PdChansOK l) (network : Nat) (c : ChanRec) (n : Nat)
    (hn : ∀ p ∈ l, p.2.id < n) :
    PdChansOK (l ++ [(network, { c with id := n })]) ↔ ∀ p ∈ l, p.1 = network → p.2.name ≠ c.name := by
  constructor
  · intro hh p hp hu
    exact hh p (by simp [hp]) (network, { c with id := n }) (by simp) (by have := hn p hp; simp only; omega) hu
  · intro hf a ha b hb hid hu
    rw [List.mem_append, List.mem_singleton] at ha hb
    rcases ha with ha | rfl <;> rcases hb with hb | rfl
    · exact h a ha b hb hid hu
    · exact hf a ha hu
    · exact fun e => hf b hb hu.symm e.symm
    · exact absurd rfl hid

theorem pd_chans_set (l : List (Nat × ChanRec)) (h : PdChansOK l) (c : ChanRec) :
    PdChansOK (l.map (fun p => if p.2.id = c.id then (p.1, c) else p)) ↔
      ∀ p ∈ l, p.2.id = c.id → ∀ q ∈ l, q.1 = p.1 → q.2.id ≠ c.id → q.2.name ≠ c.name := by
  constructor
  · intro hh p hp he q hq hu hid
    have := hh q (by
      rw [List.mem_map]; exact ⟨q, hq, by rw [if_neg hid]⟩) (p.1, c) (by
      rw [List.mem_map]; exact ⟨p, hp, by rw [if_pos he]⟩) hid hu
    exact this
  · intro hf a ha b hb hid hu
    rw [List.mem_map] at ha hb
    obtain ⟨a', ha, rfl⟩ := ha
    obtain ⟨b', hb, rfl⟩ := hb
    by_cases h1 : a'.2.id = c.id <;> by_cases h2 : b'.2.id = c.id
    · rw [if_pos h1, if_pos h2] at hid
      exact absurd rfl hid
    · rw [if_pos h1, if_neg h2] at hu ⊢
      exact fun e => hf a' ha h1 b' hb hu.symm h2 e.symm
    · rw [if_neg h1, if_pos h2] at hu ⊢
      exact hf b' hb h2 a' ha hu h1
    · rw [if_neg h1, if_neg h2] at hid hu ⊢
      exact h a' ha b' hb hid hu

/-- The row of a read receipt. -/
def pdReadRow (tm : Int → Int) (p : Nat × PdRead) : PdReadRow := ⟨p.2.id, p.1, p.2.target, tm p.2.timestamp⟩

/-- The row of a push subscription. -/
def pdSubRow (p : Nat × Nat × PdSub) : PdSubRow :=
  ⟨p.2.2.id, p.2.2.createdAt, p.2.2.updatedAt, p.1, if p.2.1 ≠ 0 then some p.2.1 else none, p.2.2.endpoint, p.2.2.vapid,
    p.2.2.auth, p.2.2.p256dh⟩

/-- What a row of DeliveryReceipt says. -/
def pdReceiptOf (r : PdReceiptRow) : Nat × PdReceipt := (r.network, ⟨0, r.target, r.client, r.msgID⟩)

/-- The tables hold the records. -/
structure PdRel (tm : Int → Int) (k : PdKept) (db : PdDb) : Prop where
  users : db.users = k.users.map (fun p => pdUserColumns tm p.2 p.1)
  networks : db.networks = k.networks.map (fun p => pdNetRow p.1 p.2)
  channels : db.channels = k.channels.map (fun p => pdChanColumns p.1 p.2)
  receipts : db.receipts.map pdReceiptOf = k.receipts
  reads : db.reads = k.reads.map (pdReadRow tm)
  subs : db.subs = k.subs.map pdSubRow
  configs : db.configs = k.configs
  seqs : 0 < db.seqU ∧ 0 < db.seqN ∧ 0 < db.seqC ∧ 0 < db.seqR ∧ 0 < db.seqS
  uPos : ∀ p ∈ k.users, 0 < p.1.id ∧ p.1.id < db.seqU
  nPos : ∀ p ∈ k.networks, 0 < p.2.id ∧ p.2.id < db.seqN
  cPos : ∀ p ∈ k.channels, 0 < p.2.id ∧ p.2.id < db.seqC
  rPos : ∀ p ∈ k.reads, 0 < p.2.id ∧ p.2.id < db.seqR
  sPos : ∀ p ∈ k.subs, 0 < p.2.2.id ∧ p.2.2.id < db.seqS
  uName : (k.users.map (·.1.username)).Nodup
  mech : ∀ p ∈ k.networks, PdMech p.2
  nUniq : PdNetsOK k.networks
  cUniq : PdChansOK k.channels
  rUniq : (k.reads.map (fun p => (p.1, p.2.target))).Nodup
  fkN : ∀ p ∈ k.networks, PdUser k p.1
  fkC : ∀ p ∈ k.channels, PdNet k p.1
  fkD : ∀ p ∈ k.receipts, PdNet k p.1
  fkR : ∀ p ∈ k.reads, PdNet k p.1
  fkS : ∀ p ∈ k.subs, PdUser k p.1 ∧ (p.2.1 = 0 ∨ PdNet k p.2.1)

theorem pd_init (tm : Int → Int) : PdRel tm {} {} := by
  constructor <;> simp [PdNetsOK, PdChansOK]

/-- What one call must do. -/
def PdGood (ok : Nat → Str → Bool) (tm : Int → Int) (k : PdKept) (db : PdDb) (op : PdOp) : Prop :=
  PdRel tm (pdKeep k (op, (pdStep ok tm db op).2)) (pdStep ok tm db op).1 ∧
  ((pdStep ok tm db op).2.isSome = true ↔ PdAllowed ok k op)

theorem pd_user_fits (ok : Nat → Str → Bool) (tm : Int → Int) (now : Int) (r : PdUserRec) :
    pdUserOk ok (pdUserColumns tm now r) = true ↔ PdUserFits ok r := by
  unfold pdUserOk pdUserColumns PdUserFits
  simp only [Bool.and_eq_true, pd_fits, and_assoc]

theorem pd_any_user (tm : Int → Int) (k : PdKept) (db : PdDb) (h : PdRel tm k db) (user : Nat) :
    db.users.any (fun u => decide (u.id = user)) = true ↔ PdUser k user := by
  rw [h.users, PdUser]
  simp [pdUserColumns]

theorem pd_any_net (tm : Int → Int) (k : PdKept) (db : PdDb) (h : PdRel tm k db) (net : Nat) :
    db.networks.any (fun u => decide (u.id = net)) = true ↔ PdNet k net := by
  rw [h.networks, PdNet]
  simp [pdNetRow]

theorem pd_step_user (ok : Nat → Str → Bool) (tm : Int → Int) (k : PdKept) (db : PdDb) (h : PdRel tm k db) (now : Int)
    (r : PdUserRec) : PdGood ok tm k db (.storeUser now r) := by
  unfold PdGood
  simp only [pdStep, PdAllowed]
  unfold pdStoreUser
  by_cases h0 : r.id = 0
  · simp only [h0, if_true]
    have hn : db.users.any (fun o => decide (o.username = r.username)) = false ↔
        ∀ p ∈ k.users, p.1.username ≠ r.username := by
      rw [h.users]
      simp [pdUserColumns]
    by_cases hc : (ok 255 (pdUserColumns tm now r).username && pdUserOk ok (pdUserColumns tm now r) &&
        !(db.users.any (fun o => decide (o.username = r.username)))) = true
    · rw [if_pos hc]
      simp only [Bool.and_eq_true, Bool.not_eq_true', pd_user_fits, hn] at hc
      refine ⟨?_, by simp; exact ⟨hc.1.2, hc.1.1, fun a b c => hc.2 (a, b) c⟩⟩
      simp only [pdKeep, h0, if_true]
      refine { h with users := ?_, seqs := ?_, uPos := ?_, uName := ?_, fkN := ?_, fkS := ?_ }
      · simp only [List.map_append, List.map_cons, List.map_nil, h.users]
        rfl
      · exact ⟨Nat.succ_pos _, h.seqs.2⟩
      · intro p hp
        rw [List.mem_append, List.mem_singleton] at hp
        rcases hp with hp | rfl
        · have := h.uPos p hp
          simp only; omega
        · have := h.seqs
          simp only; omega
      · simp only [List.map_append, List.map_cons, List.map_nil]
        rw [List.nodup_append]
        refine ⟨h.uName, by simp, ?_⟩
        intro a ha b hb
        rw [List.mem_singleton] at hb
        rw [List.mem_map] at ha
        obtain ⟨p, hp, rfl⟩ := ha
        rw [hb]
        exact hc.2 p hp
      · intro p hp
        obtain ⟨u, hu, e⟩ := h.fkN p hp
        exact ⟨u, by simp [hu], e⟩
      · intro p hp
        obtain ⟨⟨u, hu, e⟩, e2⟩ := h.fkS p hp
        exact ⟨⟨u, by simp [hu], e⟩, e2⟩
    · rw [if_neg hc]
      simp only [Bool.and_eq_true, Bool.not_eq_true', pd_user_fits, hn] at hc
      refine ⟨?_, by
        constructor
        · intro e; cases e
        · rintro ⟨a, b⟩
          exact absurd ⟨⟨(b trivial).1, a⟩, (b trivial).2⟩ hc⟩
      simp only [pdKeep]
      exact { h with
        seqs := ⟨Nat.succ_pos _, h.seqs.2⟩
        uPos := fun p hp => by have := h.uPos p hp; simp only; omega }
  · simp only [h0, if_false]
    by_cases hc : pdUserOk ok (pdUserColumns tm now r) = true
    · rw [if_pos hc]
      rw [pd_user_fits] at hc
      refine ⟨?_, by simp [hc]⟩
      simp only [pdKeep, h0, if_false]
      have hid : ∀ u, PdUser k u → PdUser { k with users := k.users.map (fun p =>
          if p.1.id = r.id then ({ r with username := p.1.username }, p.2) else p) } u := by
        rintro u ⟨p, hp, e⟩
        refine ⟨_, List.mem_map_of_mem hp, ?_⟩
        split
        · rename_i hh; rw [← e, hh]
        · exact e
      refine { h with users := ?_, uPos := ?_, uName := ?_, fkN := ?_, fkS := ?_ }
      · simp only [h.users, List.map_map]
        apply List.map_congr_left
        intro p hp
        simp only [Function.comp_apply]
        by_cases hh : p.1.id = r.id
        · simp [pdUserColumns, hh]
        · simp [pdUserColumns, hh]
      · intro p hp
        rw [List.mem_map] at hp
        obtain ⟨q, hq, rfl⟩ := hp
        have := h.uPos q hq
        split
        · rename_i hh; rw [← hh]; exact this
        · exact this
      · have e : (k.users.map (fun p => if p.1.id = r.id then ({ r with username := p.1.username }, p.2) else p)).map
            (·.1.username) = k.users.map (·.1.username) := by
          rw [List.map_map]
          apply List.map_congr_left
          intro p _
          simp only [Function.comp_apply]
          split <;> rfl
        exact (congrArg List.Nodup e).mpr h.uName
      · intro p hp
        exact hid _ (h.fkN p hp)
      · intro p hp
        exact ⟨hid _ (h.fkS p hp).1, (h.fkS p hp).2⟩
    · rw [if_neg hc]
      rw [pd_user_fits] at hc
      refine ⟨h, by simp [hc]⟩

theorem pd_step_network (ok : Nat → Str → Bool) (tm : Int → Int) (k : PdKept) (db : PdDb) (h : PdRel tm k db)
    (user : Nat) (r : NetRec) : PdGood ok tm k db (.storeNetwork user r) := by
  unfold PdGood
  simp only [pdStep, PdAllowed]
  unfold pdStoreNetwork
  rw [pd_columns]
  by_cases hm : PdMech r
  · rw [if_pos hm]
    simp only
    have hfit : pdNetOk ok (pdNetRow user r) = true ↔ PdNetFits ok r := by
      rw [← pd_columns_fit ok user r]
      exact ⟨fun x => ⟨hm, x⟩, fun x => x.2⟩
    by_cases h0 : r.id = 0
    · simp only [h0, if_true]
      have erows : db.networks ++ [{ pdNetRow user r with id := db.seqN }] =
          (k.networks ++ [(user, { r with id := db.seqN })]).map (fun p : Nat × NetRec => pdNetRow p.1 p.2) := by
        simp only [List.map_append, List.map_cons, List.map_nil, h.networks]
        rfl
      have hu : networkUnique (db.networks ++ [{ pdNetRow user r with id := db.seqN }]) = true ↔ PdNetFree k user r := by
        rw [erows, pd_net_unique]
        exact pd_nets_add k h.nUniq user r db.seqN h.nPos h0
      by_cases hc : (pdNetOk ok (pdNetRow user r) && db.users.any (fun u => decide (u.id = user)) &&
          networkUnique (db.networks ++ [{ pdNetRow user r with id := db.seqN }])) = true
      · rw [if_pos hc]
        simp only [Bool.and_eq_true] at hc
        rw [hfit, pd_any_user tm k db h, hu] at hc
        refine ⟨?_, by simp [hc.1.1, hc.1.2, hc.2]⟩
        simp only [pdKeep, h0, if_true]
        have hid : ∀ u, PdNet k u → PdNet { k with networks := k.networks ++ [(user, { r with id := db.seqN })] } u := by
          rintro u ⟨p, hp, e⟩
          exact ⟨p, by simp [hp], e⟩
        refine { h with networks := by exact erows, seqs := ?_, nPos := ?_, mech := ?_, nUniq := ?_, fkN := ?_, fkC := ?_, fkD := ?_, fkR := ?_, fkS := ?_ }
        · have := h.seqs
          simp only; omega
        · intro p hp
          rw [List.mem_append, List.mem_singleton] at hp
          rcases hp with hp | rfl
          · have := h.nPos p hp
            simp only; omega
          · have := h.seqs
            simp only; omega
        · intro p hp
          rw [List.mem_append, List.mem_singleton] at hp
          rcases hp with hp | rfl
          · exact h.mech p hp
          · exact hm
        · exact (pd_nets_add k h.nUniq user r db.seqN h.nPos h0).2 hc.2
        · intro p hp
          rw [List.mem_append, List.mem_singleton] at hp
          rcases hp with hp | rfl
          · exact h.fkN p hp
          · exact hc.1.2
        · exact fun p hp => hid _ (h.fkC p hp)
        · exact fun p hp => hid _ (h.fkD p hp)
        · exact fun p hp => hid _ (h.fkR p hp)
        · exact fun p hp => ⟨(h.fkS p hp).1, (h.fkS p hp).2.imp id (hid _)⟩
      · rw [if_neg hc]
        simp only [Bool.and_eq_true] at hc
        rw [hfit, pd_any_user tm k db h, hu] at hc
        refine ⟨?_, by
          constructor
          · intro e; cases e
          · rintro ⟨a, b, _⟩
            exact absurd ⟨⟨a, (b trivial).1⟩, (b trivial).2⟩ hc⟩
        simp only [pdKeep]
        exact { h with
          seqs := by have := h.seqs; simp only; omega
          nPos := fun p hp => by have := h.nPos p hp; simp only; omega }
    · simp only [h0, if_false]
      have erows : db.networks.map (fun o => if o.id = r.id then { pdNetRow user r with id := o.id, user := o.user } else o) =
          (k.networks.map (fun p => if p.2.id = r.id then (p.1, r) else p)).map (fun p => pdNetRow p.1 p.2) := by
        simp only [h.networks, List.map_map]
        apply List.map_congr_left
        intro p _
        simp only [Function.comp_apply]
        by_cases hh : p.2.id = r.id
        · simp [pdNetRow, hh]
        · simp [pdNetRow, hh]
      have hu : networkUnique (db.networks.map (fun o => if o.id = r.id then { pdNetRow user r with id := o.id, user := o.user } else o)) = true ↔
          ∀ p ∈ k.networks, p.2.id = r.id → PdNetFree k p.1 r := by
        rw [erows, pd_net_unique]
        exact pd_nets_set k h.nUniq r
      by_cases hc : (pdNetOk ok (pdNetRow user r) && networkUnique (db.networks.map (fun o => if o.id = r.id then
          { pdNetRow user r with id := o.id, user := o.user } else o))) = true
      · rw [if_pos hc]
        simp only [Bool.and_eq_true] at hc
        rw [hfit, hu] at hc
        refine ⟨?_, by
          constructor
          · intro _; exact ⟨hc.1, fun x => absurd x (by simp [h0]), fun _ => hc.2⟩
          · intro _; rfl⟩
        simp only [pdKeep, h0, if_false]
        have hid : ∀ u, PdNet k u → PdNet { k with networks := k.networks.map (fun p => if p.2.id = r.id then (p.1, r) else p) } u := by
          rintro u ⟨p, hp, e⟩
          refine ⟨_, List.mem_map_of_mem hp, ?_⟩
          split
          · rename_i hh; rw [← e, hh]
          · exact e
        refine { h with networks := erows, nPos := ?_, mech := ?_, nUniq := ?_, fkN := ?_, fkC := ?_, fkD := ?_, fkR := ?_, fkS := ?_ }
        · intro p hp
          rw [List.mem_map] at hp
          obtain ⟨q, hq, rfl⟩ := hp
          have := h.nPos q hq
          split
          · rename_i hh; rw [← hh]; exact this
          · exact this
        · intro p hp
          rw [List.mem_map] at hp
          obtain ⟨q, hq, rfl⟩ := hp
          split
          · exact hm
          · exact h.mech q hq
        · exact (pd_nets_set k h.nUniq r).2 hc.2
        · intro p hp
          rw [List.mem_map] at hp
          obtain ⟨q, hq, rfl⟩ := hp
          have := h.fkN q hq
          split
          · exact this
          · exact this
        · exact fun p hp => hid _ (h.fkC p hp)
        · exact fun p hp => hid _ (h.fkD p hp)
        · exact fun p hp => hid _ (h.fkR p hp)
        · exact fun p hp => ⟨(h.fkS p hp).1, (h.fkS p hp).2.imp id (hid _)⟩
      · rw [if_neg hc]
        simp only [Bool.and_eq_true] at hc
        rw [hfit, hu] at hc
        refine ⟨h, ?_⟩
        constructor
        · intro e; cases e
        · rintro ⟨a, _, b⟩
          exact absurd ⟨a, b (by simp [h0])⟩ hc
  · rw [if_neg hm]
    refine ⟨h, ?_⟩
    constructor
    · intro e; cases e
    · rintro ⟨a, _, _⟩
      exact absurd ((pd_columns_fit ok user r).2 a).1 hm

theorem pd_step_channel (ok : Nat → Str → Bool) (tm : Int → Int) (k : PdKept) (db : PdDb) (h : PdRel tm k db)
    (network : Nat) (c : ChanRec) : PdGood ok tm k db (.storeChannel network c) := by
  unfold PdGood
  simp only [pdStep, PdAllowed]
  unfold pdStoreChannel
  have hfit : pdChanOk ok (pdChanColumns network c) = true ↔ PdChanFits ok c := by
    unfold pdChanOk pdChanColumns PdChanFits
    simp only [Bool.and_eq_true, pd_fits, and_assoc]
  by_cases h0 : c.id = 0
  · simp only [h0, if_true]
    have erows : db.channels ++ [{ pdChanColumns network c with id := db.seqC }] =
        (k.channels ++ [(network, { c with id := db.seqC })]).map (fun p : Nat × ChanRec => pdChanColumns p.1 p.2) := by
      simp only [List.map_append, List.map_cons, List.map_nil, h.channels]
      rfl
    have hadd := pd_chans_add k.channels h.cUniq network c db.seqC (fun p hp => (h.cPos p hp).2)
    have hu : channelUnique (db.channels ++ [{ pdChanColumns network c with id := db.seqC }]) = true ↔
        ∀ p ∈ k.channels, p.1 = network → p.2.name ≠ c.name := by
      rw [erows, pd_chan_unique]
      exact hadd
    by_cases hc : (pdChanOk ok (pdChanColumns network c) && db.networks.any (fun u => decide (u.id = network)) &&
        channelUnique (db.channels ++ [{ pdChanColumns network c with id := db.seqC }])) = true
    · rw [if_pos hc]
      simp only [Bool.and_eq_true] at hc
      rw [hfit, pd_any_net tm k db h, hu] at hc
      refine ⟨?_, by
        constructor
        · intro _; exact ⟨hc.1.1, fun _ => ⟨hc.1.2, hc.2⟩, fun x => absurd rfl x⟩
        · intro _; rfl⟩
      simp only [pdKeep, h0, if_true]
      refine { h with channels := by exact erows, seqs := ?_, cPos := ?_, cUniq := hadd.2 hc.2, fkC := ?_ }
      · have := h.seqs
        simp only; omega
      · intro p hp
        rw [List.mem_append, List.mem_singleton] at hp
        rcases hp with hp | rfl
        · have := h.cPos p hp
          simp only; omega
        · have := h.seqs
          simp only; omega
      · intro p hp
        rw [List.mem_append, List.mem_singleton] at hp
        rcases hp with hp | rfl
        · exact h.fkC p hp
        · exact hc.1.2
    · rw [if_neg hc]
      simp only [Bool.and_eq_true] at hc
      rw [hfit, pd_any_net tm k db h, hu] at hc
      refine ⟨?_, by
        constructor
        · intro e; cases e
        · rintro ⟨a, b, _⟩
          exact absurd ⟨⟨a, (b trivial).1⟩, (b trivial).2⟩ hc⟩
      simp only [pdKeep]
      exact { h with
        seqs := by have := h.seqs; simp only; omega
        cPos := fun p hp => by have := h.cPos p hp; simp only; omega }
  · simp only [h0, if_false]
    have erows : db.channels.map (fun o => if o.id = c.id then { pdChanColumns network c with id := o.id, network := o.network } else o) =
        (k.channels.map (fun p => if p.2.id = c.id then (p.1, c) else p)).map (fun p => pdChanColumns p.1 p.2) := by
      simp only [h.channels, List.map_map]
      apply List.map_congr_left
      intro p _
      simp only [Function.comp_apply]
      by_cases hh : p.2.id = c.id
      · simp [pdChanColumns, hh]
      · simp [pdChanColumns, hh]
    have hset := pd_chans_set k.channels h.cUniq c
    have hu : channelUnique (db.channels.map (fun o => if o.id = c.id then { pdChanColumns network c with id := o.id, network := o.network } else o)) = true ↔
        ∀ p ∈ k.channels, p.2.id = c.id → ∀ q ∈ k.channels, q.1 = p.1 → q.2.id ≠ c.id → q.2.name ≠ c.name := by
      rw [erows, pd_chan_unique]
      exact hset
    by_cases hc : (pdChanOk ok (pdChanColumns network c) && channelUnique (db.channels.map (fun o => if o.id = c.id then
        { pdChanColumns network c with id := o.id, network := o.network } else o))) = true
    · rw [if_pos hc]
      simp only [Bool.and_eq_true] at hc
      rw [hfit, hu] at hc
      refine ⟨?_, by
        constructor
        · intro _; exact ⟨hc.1, fun x => absurd x (by simp [h0]), fun _ => hc.2⟩
        · intro _; rfl⟩
      simp only [pdKeep, h0, if_false]
      refine { h with channels := erows, cPos := ?_, cUniq := hset.2 hc.2, fkC := ?_ }
      · intro p hp
        rw [List.mem_map] at hp
        obtain ⟨q, hq, rfl⟩ := hp
        have := h.cPos q hq
        split
        · rename_i hh; rw [← hh]; exact this
        · exact this
      · intro p hp
        rw [List.mem_map] at hp
        obtain ⟨q, hq, rfl⟩ := hp
        have := h.fkC q hq
        split
        · exact this
        · exact this
    · rw [if_neg hc]
      simp only [Bool.and_eq_true] at hc
      rw [hfit, hu] at hc
      refine ⟨h, ?_⟩
      constructor
      · intro e; cases e
      · rintro ⟨a, _, b⟩
        exact absurd ⟨a, b (by simp [h0])⟩ hc

theorem pd_insert (ok : Nat → Str → Bool) (network : Nat) (client : Str) (rs : List PdReceipt) :
    ∀ (rows : List PdReceiptRow) (seq : Nat),
    ((pdInsertReceipts ok network client rows seq rs).2.isSome = true ↔
      (rs ≠ [] → ok 255 client = true) ∧ (∀ r ∈ rs, ok 255 r.target = true ∧ ok 255 r.msgID = true) ∧
      (rs.map (·.target)).Nodup ∧
      ∀ r ∈ rs, ∀ o ∈ rows, ¬ (o.network = network ∧ o.target = r.target ∧ o.client = client)) ∧
    ∀ out, (pdInsertReceipts ok network client rows seq rs).2 = some out →
      out.map pdReceiptOf = rows.map pdReceiptOf ++ rs.map (fun r => (network, ⟨0, r.target, client, r.msgID⟩)) := by
  induction rs with
  | nil => intro rows seq; simp [pdInsertReceipts]
  | cons r rs ih =>
    intro rows seq
    rw [pdInsertReceipts]
    by_cases hc : (ok 255 r.target && ok 255 client && ok 255 r.msgID &&
        !(rows.any (fun o => decide (o.network = network ∧ o.target = r.target ∧ o.client = client)))) = true
    · rw [if_pos hc]
      simp only [Bool.and_eq_true, Bool.not_eq_true', List.any_eq_false, decide_eq_true_eq] at hc
      obtain ⟨ih1, ih2⟩ := ih (rows ++ [⟨seq, network, r.target, client, r.msgID⟩]) (seq + 1)
      constructor
      · rw [ih1]
        constructor
        · rintro ⟨a1, a2, a3, a4⟩
          refine ⟨fun _ => hc.1.1.2, ?_, ?_, ?_⟩
          · intro x hx
            rw [List.mem_cons] at hx
            rcases hx with rfl | hx
            · exact ⟨hc.1.1.1, hc.1.2⟩
            · exact a2 x hx
          · rw [List.map_cons, List.nodup_cons]
            refine ⟨?_, a3⟩
            intro hmem
            rw [List.mem_map] at hmem
            obtain ⟨x, hx, e⟩ := hmem
            exact a4 x hx ⟨seq, network, r.target, client, r.msgID⟩ (by simp) ⟨rfl, e.symm, rfl⟩
          · intro x hx o ho
            rw [List.mem_cons] at hx
            rcases hx with rfl | hx
            · exact hc.2 o ho
            · exact a4 x hx o (by simp [ho])
        · rintro ⟨a1, a2, a3, a4⟩
          rw [List.map_cons, List.nodup_cons] at a3
          refine ⟨fun _ => hc.1.1.2, fun x hx => a2 x (by simp [hx]), a3.2, ?_⟩
          intro x hx o ho
          rw [List.mem_append, List.mem_singleton] at ho
          rcases ho with ho | rfl
          · exact a4 x (by simp [hx]) o ho
          · rintro ⟨_, e, _⟩
            exact a3.1 (by rw [List.mem_map]; exact ⟨x, hx, e.symm⟩)
      · intro out hout
        rw [ih2 out hout]
        simp [pdReceiptOf]
    · rw [if_neg hc]
      simp only [Bool.and_eq_true, Bool.not_eq_true', List.any_eq_false, decide_eq_true_eq] at hc
      refine ⟨?_, fun out hout => by cases hout⟩
      constructor
      · intro e; cases e
      · rintro ⟨a1, a2, a3, a4⟩
        exact absurd ⟨⟨⟨(a2 r (by simp)).1, a1 (by simp)⟩, (a2 r (by simp)).2⟩, fun o ho => a4 r (by simp) o ho⟩ hc

theorem pd_step_receipts (ok : Nat → Str → Bool) (tm : Int → Int) (k : PdKept) (db : PdDb) (h : PdRel tm k db)
    (network : Nat) (client : Str) (rs : List PdReceipt) : PdGood ok tm k db (.storeReceipts network client rs) := by
  unfold PdGood
  simp only [pdStep, PdAllowed]
  unfold pdStoreReceipts
  simp only
  by_cases h1 : ok 0 client = true
  · rw [if_neg (by simp [h1])]
    have key := pd_insert ok network client rs
      (db.receipts.filter (fun o => !(decide (o.network = network) && decide (o.client = client)))) db.seqD
    have hno : ∀ r ∈ rs, ∀ o ∈ db.receipts.filter (fun o => !(decide (o.network = network) && decide (o.client = client))),
        ¬ (o.network = network ∧ o.target = r.target ∧ o.client = client) := by
      intro r _ o ho ⟨e1, _, e3⟩
      rw [List.mem_filter] at ho
      simp [e1, e3] at ho
    by_cases h2 : (decide (rs ≠ []) && !(db.networks.any (fun n => decide (n.id = network)))) = true
    · rw [if_pos h2]
      simp only [Bool.and_eq_true, decide_eq_true_eq, Bool.not_eq_true', ← Bool.not_eq_true] at h2
      rw [pd_any_net tm k db h] at h2
      refine ⟨{ h with }, ?_⟩
      constructor
      · intro e; cases e
      · rintro ⟨_, b⟩
        exact absurd (b h2.1).1 h2.2
    · rw [if_neg h2]
      have h3 : rs ≠ [] → PdNet k network := by
        intro hr
        rw [← pd_any_net tm k db h]
        cases hh : db.networks.any (fun n => decide (n.id = network)) with
        | true => rfl
        | false => exact absurd (by simp [hr]; simpa using hh) h2
      obtain ⟨k1, k2⟩ := key
      generalize hres : pdInsertReceipts ok network client
        (db.receipts.filter (fun o => !(decide (o.network = network) && decide (o.client = client)))) db.seqD rs = res at k1 k2 ⊢
      obtain ⟨seq, out⟩ := res
      cases out with
      | some rows =>
        simp only
        have hk := k1.1 rfl
        refine ⟨?_, by
          constructor
          · intro _; exact ⟨h1, fun hr => ⟨h3 hr, hk.1 hr, hk.2.1, hk.2.2.1⟩⟩
          · intro _; rfl⟩
        simp only [pdKeep]
        refine { h with receipts := ?_, fkD := ?_ }
        · simp only
          rw [k2 rows rfl]
          congr 1
          rw [← h.receipts, List.filter_map]
          rfl
        · intro p hp
          rw [List.mem_append] at hp
          rcases hp with hp | hp
          · exact h.fkD p (pd_mem_filter hp)
          · rw [List.mem_map] at hp
            obtain ⟨r, hr, rfl⟩ := hp
            exact h3 (by rintro rfl; cases hr)
      | none =>
        simp only
        refine ⟨{ h with }, ?_⟩
        constructor
        · intro e; cases e
        · rintro ⟨_, b⟩
          refine absurd (k1.2 ⟨fun hr => (b hr).2.1, ?_, ?_, hno⟩) (by simp)
          · intro r hr
            exact (b (by rintro rfl; cases hr)).2.2.1 r hr
          · by_cases hr : rs = []
            · subst hr; simp
            · exact (b hr).2.2.2
  · rw [if_pos (by simpa using h1)]
    refine ⟨h, ?_⟩
    constructor
    · intro e; cases e
    · rintro ⟨a, _⟩; exact absurd a h1

theorem pd_step_read (ok : Nat → Str → Bool) (tm : Int → Int) (k : PdKept) (db : PdDb) (h : PdRel tm k db)
    (network : Nat) (r : PdRead) : PdGood ok tm k db (.storeRead network r) := by
  unfold PdGood
  simp only [pdStep, PdAllowed]
  unfold pdStoreRead
  by_cases h0 : r.id = 0
  · simp only [h0, ne_eq, not_true_eq_false, if_false]
    have hn : db.reads.any (fun o => decide (o.network = network ∧ o.target = r.target)) = false ↔
        ∀ p ∈ k.reads, p.1 = network → p.2.target ≠ r.target := by
      rw [h.reads]
      simp only [List.any_map, List.any_eq_false, Function.comp_apply, pdReadRow]
      exact ⟨fun a p hp e1 e2 => a p hp (decide_eq_true ⟨e1, e2⟩), fun a p hp e => a p hp (of_decide_eq_true e).1 (of_decide_eq_true e).2⟩
    by_cases hc : (ok 255 r.target && db.networks.any (fun n => decide (n.id = network)) &&
        !(db.reads.any (fun o => decide (o.network = network ∧ o.target = r.target)))) = true
    · rw [if_pos hc]
      simp only [Bool.and_eq_true, Bool.not_eq_true'] at hc
      rw [pd_any_net tm k db h, hn] at hc
      refine ⟨?_, by
        constructor
        · intro _ _; exact ⟨hc.1.1, hc.1.2, hc.2⟩
        · intro _; rfl⟩
      simp only [pdKeep, h0, if_true]
      refine { h with reads := ?_, seqs := ?_, rPos := ?_, rUniq := ?_, fkR := ?_ }
      · simp only [List.map_append, List.map_cons, List.map_nil, h.reads]
        rfl
      · have := h.seqs
        simp only; omega
      · intro p hp
        rw [List.mem_append, List.mem_singleton] at hp
        rcases hp with hp | rfl
        · have := h.rPos p hp
          simp only; omega
        · have := h.seqs
          simp only; omega
      · simp only [List.map_append, List.map_cons, List.map_nil]
        rw [List.nodup_append]
        refine ⟨h.rUniq, by simp, ?_⟩
        intro a ha b hb
        rw [List.mem_singleton] at hb
        rw [List.mem_map] at ha
        obtain ⟨p, hp, rfl⟩ := ha
        rw [hb]
        intro e
        exact hc.2 p hp (congrArg Prod.fst e) (congrArg Prod.snd e)
      · intro p hp
        rw [List.mem_append, List.mem_singleton] at hp
        rcases hp with hp | rfl
        · exact h.fkR p hp
        · exact hc.1.2
    · rw [if_neg hc]
      simp only [Bool.and_eq_true, Bool.not_eq_true'] at hc
      rw [pd_any_net tm k db h, hn] at hc
      refine ⟨?_, by
        constructor
        · intro e; cases e
        · intro b
          exact absurd ⟨⟨(b trivial).1, (b trivial).2.1⟩, (b trivial).2.2⟩ hc⟩
      simp only [pdKeep]
      exact { h with
        seqs := by have := h.seqs; simp only; omega
        rPos := fun p hp => by have := h.rPos p hp; simp only; omega }
  · simp only [h0, ne_eq, not_false_eq_true, if_true]
    refine ⟨?_, by simp [h0]⟩
    simp only [pdKeep, h0, if_false]
    refine { h with reads := ?_, rPos := ?_, rUniq := ?_, fkR := ?_ }
    · simp only [h.reads, List.map_map]
      apply List.map_congr_left
      intro p _
      simp only [Function.comp_apply]
      by_cases hh : p.2.id = r.id
      · simp [pdReadRow, hh]
      · simp [pdReadRow, hh]
    · intro p hp
      rw [List.mem_map] at hp
      obtain ⟨q, hq, rfl⟩ := hp
      have := h.rPos q hq
      split <;> exact this
    · have e : (k.reads.map (fun p => if p.2.id = r.id then (p.1, { p.2 with timestamp := r.timestamp }) else p)).map
          (fun p => (p.1, p.2.target)) = k.reads.map (fun p => (p.1, p.2.target)) := by
        rw [List.map_map]
        apply List.map_congr_left
        intro p _
        simp only [Function.comp_apply]
        split <;> rfl
      exact (congrArg List.Nodup e).mpr h.rUniq
    · intro p hp
      rw [List.mem_map] at hp
      obtain ⟨q, hq, rfl⟩ := hp
      have := h.fkR q hq
      split <;> exact this

theorem pd_step_sub (ok : Nat → Str → Bool) (tm : Int → Int) (k : PdKept) (db : PdDb) (h : PdRel tm k db) (now : Int)
    (user network : Nat) (s : PdSub) : PdGood ok tm k db (.storeSub now user network s) := by
  unfold PdGood
  simp only [pdStep, PdAllowed]
  unfold pdStoreSub
  by_cases h0 : s.id = 0
  · simp only [h0, ne_eq, not_true_eq_false, if_false]
    have hn : pdNetThere db (if ¬ network = 0 then some network else none) = true ∧
        pdSubTaken db (if ¬ network = 0 then some network else none) s.endpoint = false ↔
        (network ≠ 0 → PdNet k network ∧ ∀ p ∈ k.subs, p.2.1 = network → p.2.2.endpoint ≠ s.endpoint) := by
      unfold pdNetThere pdSubTaken
      by_cases hz : network = 0
      · subst hz
        simp only [not_true_eq_false, if_false, List.any_eq_false, Bool.and_eq_true, true_and, ne_eq, false_implies,
          iff_true, decide_eq_true_eq]
        rintro o ho ⟨⟨e1, e2⟩, _⟩
        rw [e1] at e2
        cases e2
      · simp only [hz, not_false_eq_true, if_true]
        rw [pd_any_net tm k db h, h.subs]
        simp only [List.any_map, List.any_eq_false, Function.comp_apply, Bool.and_eq_true, pdSubRow]
        constructor
        · rintro ⟨a, b⟩ _
          refine ⟨a, ?_⟩
          intro p hp e1 e2
          exact b p hp ⟨⟨by simp [e1, hz], by simp [e1, hz]⟩, decide_eq_true e2⟩
        · intro hh
          obtain ⟨a, b⟩ := hh hz
          refine ⟨a, ?_⟩
          rintro p hp ⟨⟨e1, e2⟩, e3⟩
          refine b p hp ?_ (of_decide_eq_true e3)
          by_cases hp0 : p.2.1 = 0
          · simp [hp0] at e1
          · simpa [hp0] using e1
    generalize hm : pdNetThere db (if ¬ network = 0 then some network else none) = m at hn ⊢
    generalize hm2 : pdSubTaken db (if ¬ network = 0 then some network else none) s.endpoint = m2 at hn ⊢
    by_cases hc : (ok 0 s.endpoint && ok 0 s.auth && ok 0 s.p256dh && ok 0 s.vapid &&
        db.users.any (fun u => decide (u.id = user)) && m && !m2) = true
    · rw [if_pos hc]
      simp only [Bool.and_eq_true, Bool.not_eq_true'] at hc
      obtain ⟨⟨⟨⟨⟨⟨c1, c2⟩, c3⟩, c4⟩, c5⟩, c6⟩, c7⟩ := hc
      rw [pd_any_user tm k db h] at c5
      have c8 := hn.1 ⟨c6, c7⟩
      refine ⟨?_, by
        constructor
        · intro _; exact ⟨⟨c2, c3, c4⟩, fun _ => ⟨c1, c5, c8⟩⟩
        · intro _; rfl⟩
      simp only [pdKeep, h0, if_true]
      refine { h with subs := ?_, seqs := ?_, sPos := ?_, fkS := ?_ }
      · simp only [List.map_append, List.map_cons, List.map_nil, h.subs]
        rfl
      · have := h.seqs
        simp only; omega
      · intro p hp
        rw [List.mem_append, List.mem_singleton] at hp
        rcases hp with hp | rfl
        · have := h.sPos p hp
          simp only; omega
        · have := h.seqs
          simp only; omega
      · intro p hp
        rw [List.mem_append, List.mem_singleton] at hp
        rcases hp with hp | rfl
        · exact h.fkS p hp
        · refine ⟨c5, ?_⟩
          by_cases hz : network = 0
          · exact .inl hz
          · exact .inr (c8 hz).1
    · rw [if_neg hc]
      simp only [Bool.and_eq_true, Bool.not_eq_true'] at hc
      refine ⟨?_, by
        constructor
        · intro e; cases e
        · rintro ⟨⟨a1, a2, a3⟩, b⟩
          obtain ⟨b1, b2, b3⟩ := b trivial
          have := hn.2 b3
          exact absurd ⟨⟨⟨⟨⟨⟨b1, a1⟩, a2⟩, a3⟩, (pd_any_user tm k db h user).2 b2⟩, this.1⟩, this.2⟩ hc⟩
      simp only [pdKeep]
      exact { h with
        seqs := by have := h.seqs; simp only; omega
        sPos := fun p hp => by have := h.sPos p hp; simp only; omega }
  · simp only [h0, ne_eq, not_false_eq_true, if_true]
    by_cases hc : (ok 0 s.auth && ok 0 s.p256dh && ok 0 s.vapid) = true
    · rw [if_pos hc]
      simp only [Bool.and_eq_true] at hc
      refine ⟨?_, by simp [hc]⟩
      simp only [pdKeep, h0, if_false]
      refine { h with subs := ?_, sPos := ?_, fkS := ?_ }
      · simp only [h.subs, List.map_map]
        apply List.map_congr_left
        intro p _
        simp only [Function.comp_apply]
        by_cases hh : p.2.2.id = s.id
        · simp [pdSubRow, hh]
        · simp [pdSubRow, hh]
      · intro p hp
        rw [List.mem_map] at hp
        obtain ⟨q, hq, rfl⟩ := hp
        have := h.sPos q hq
        split
        · rename_i hh; rw [← hh]; exact this
        · exact this
      · intro p hp
        rw [List.mem_map] at hp
        obtain ⟨q, hq, rfl⟩ := hp
        have := h.fkS q hq
        split <;> exact this
    · rw [if_neg hc]
      simp only [Bool.and_eq_true] at hc
      refine ⟨h, ?_⟩
      constructor
      · intro e; cases e
      · rintro ⟨⟨a1, a2, a3⟩, _⟩
        exact absurd ⟨⟨a1, a2⟩, a3⟩ hc

theorem pd_nodup_filter {α β : Type} (l : List α) (f : α → β) (q : α → Bool) (h : (l.map f).Nodup) :
    ((l.filter q).map f).Nodup :=
  List.Nodup.sublist (List.Sublist.map f List.filter_sublist) h

theorem pd_drop (tm : Int → Int) (k : PdKept) (db : PdDb) (h : PdRel tm k db) (g : NetworkRow → Bool)
    (gone : Nat × NetRec → Bool) (hg : ∀ p, gone p = g (pdNetRow p.1 p.2)) :
    PdRel tm (pdForget k gone) (pdDropNetworks db g) := by
  have hids : ∀ n, (((db.networks.filter g).map (·.id)).contains n) =
      ((k.networks.filter gone).any (fun p => decide (p.2.id = n))) := by
    intro n
    rw [Bool.eq_iff_iff]
    rw [List.contains_iff_mem, h.networks, List.filter_map, List.map_map, List.mem_map, List.any_eq_true]
    have e : (g ∘ fun p : Nat × NetRec => pdNetRow p.1 p.2) = gone := by funext p; exact (hg p).symm
    rw [e]
    constructor
    · rintro ⟨p, hp, hn⟩
      exact ⟨p, hp, decide_eq_true hn⟩
    · rintro ⟨p, hp, hn⟩
      exact ⟨p, hp, of_decide_eq_true hn⟩
  have hstay : ∀ n, PdNet k n → (!((k.networks.filter gone).any (fun p => decide (p.2.id = n)))) = true →
      PdNet (pdForget k gone) n := by
    rintro n ⟨p, hp, e⟩ hno
    refine ⟨p, ?_, e⟩
    simp only [pdForget, List.mem_filter]
    refine ⟨hp, ?_⟩
    cases hgp : gone p with
    | false => rfl
    | true =>
      simp only [Bool.not_eq_true', List.any_eq_false, List.mem_filter, decide_eq_true_eq] at hno
      exact absurd e (hno p ⟨hp, hgp⟩)
  have hzero : (k.networks.filter gone).any (fun p => decide (p.2.id = 0)) = false := by
    rw [List.any_eq_false]
    intro p hp
    have := (h.nPos p (pd_mem_filter hp)).1
    simp only [decide_eq_true_eq]
    omega
  constructor
  · exact h.users
  · simp only [pdForget, pdDropNetworks, h.networks, List.filter_map]
    congr 1
    apply List.filter_congr
    intro p _
    simp only [Function.comp_apply, hg]
  · simp only [pdForget, pdDropNetworks, hids]
    rw [h.channels, List.filter_map]
    rfl
  · simp only [pdForget, pdDropNetworks, hids]
    rw [← h.receipts, List.filter_map]
    rfl
  · simp only [pdForget, pdDropNetworks, hids]
    rw [h.reads, List.filter_map]
    rfl
  · simp only [pdForget, pdDropNetworks, hids]
    rw [h.subs, List.filter_map]
    congr 1
    apply List.filter_congr
    intro p _
    simp only [Function.comp_apply, pdSubRow]
    by_cases hz : p.2.1 = 0
    · rw [hz, hzero]
      simp
    · simp [hz]
  · exact h.configs
  · exact h.seqs
  · exact h.uPos
  · exact fun p hp => h.nPos p (pd_mem_filter hp)
  · exact fun p hp => h.cPos p (pd_mem_filter hp)
  · exact fun p hp => h.rPos p (pd_mem_filter hp)
  · exact fun p hp => h.sPos p (pd_mem_filter hp)
  · exact h.uName
  · exact fun p hp => h.mech p (pd_mem_filter hp)
  · exact fun a ha b hb => h.nUniq a (pd_mem_filter ha) b (pd_mem_filter hb)
  · exact fun a ha b hb => h.cUniq a (pd_mem_filter ha) b (pd_mem_filter hb)
  · exact pd_nodup_filter _ _ _ h.rUniq
  · exact fun p hp => h.fkN p (pd_mem_filter hp)
  · intro p hp
    simp only [pdForget, List.mem_filter] at hp
    exact hstay _ (h.fkC p hp.1) hp.2
  · intro p hp
    simp only [pdForget, List.mem_filter] at hp
    exact hstay _ (h.fkD p hp.1) hp.2
  · intro p hp
    simp only [pdForget, List.mem_filter] at hp
    exact hstay _ (h.fkR p hp.1) hp.2
  · intro p hp
    simp only [pdForget, List.mem_filter] at hp
    refine ⟨(h.fkS p hp.1).1, ?_⟩
    rcases (h.fkS p hp.1).2 with hz | hz
    · exact .inl hz
    · exact .inr (hstay _ hz hp.2)

theorem pd_step_del_user (ok : Nat → Str → Bool) (tm : Int → Int) (k : PdKept) (db : PdDb) (h : PdRel tm k db) (id : Nat) :
    PdGood ok tm k db (.deleteUser id) := by
  refine ⟨?_, by simp [pdStep, PdAllowed]⟩
  have hd := pd_drop tm k db h (fun n => decide (n.user = id)) (fun p => decide (p.1 = id)) (fun _ => rfl)
  simp only [pdStep, pdKeep, pdDeleteUser]
  have hstay : ∀ u, u ≠ id → PdUser k u → PdUser { pdForget k (fun p => decide (p.1 = id)) with
      users := k.users.filter (fun p => decide (p.1.id ≠ id))
      subs := (pdForget k (fun p => decide (p.1 = id))).subs.filter (fun p => decide (p.1 ≠ id)) } u := by
    rintro u hu ⟨p, hp, e⟩
    exact ⟨p, List.mem_filter.2 ⟨hp, decide_eq_true (by rw [e]; exact hu)⟩, e⟩
  refine { hd with users := ?_, subs := ?_, uPos := ?_, sPos := ?_, uName := ?_, fkN := ?_, fkS := ?_ }
  · show db.users.filter _ = _
    rw [h.users, List.filter_map]
    rfl
  · have := hd.subs
    show (pdDropNetworks db _).subs.filter _ = _
    rw [this, List.filter_map]
    rfl
  · exact fun p hp => h.uPos p (pd_mem_filter hp)
  · exact fun p hp => hd.sPos p (pd_mem_filter hp)
  · exact pd_nodup_filter _ _ _ h.uName
  · intro p hp
    have hp' : p ∈ k.networks ∧ (!decide (p.1 = id)) = true := List.mem_filter.1 hp
    exact hstay _ (by simpa using hp'.2) (h.fkN p hp'.1)
  · intro p hp
    have hp' := List.mem_filter.1 hp
    have hq := hd.fkS p hp'.1
    exact ⟨hstay _ (of_decide_eq_true hp'.2) hq.1, hq.2⟩

theorem pd_step_del_net (ok : Nat → Str → Bool) (tm : Int → Int) (k : PdKept) (db : PdDb) (h : PdRel tm k db) (id : Nat) :
    PdGood ok tm k db (.deleteNetwork id) :=
  ⟨pd_drop tm k db h (fun n => decide (n.id = id)) (fun p => decide (p.2.id = id)) (fun _ => rfl),
    by simp [pdStep, PdAllowed]⟩

theorem pd_step_del_chan (ok : Nat → Str → Bool) (tm : Int → Int) (k : PdKept) (db : PdDb) (h : PdRel tm k db) (id : Nat) :
    PdGood ok tm k db (.deleteChannel id) := by
  refine ⟨?_, by simp [pdStep, PdAllowed]⟩
  simp only [pdStep, pdKeep, pdDeleteChannel]
  refine { h with channels := ?_, cPos := ?_, cUniq := ?_, fkC := ?_ }
  · show db.channels.filter _ = _
    rw [h.channels, List.filter_map]
    rfl
  · exact fun p hp => h.cPos p (pd_mem_filter hp)
  · exact fun a ha b hb => h.cUniq a (pd_mem_filter ha) b (pd_mem_filter hb)
  · exact fun p hp => h.fkC p (pd_mem_filter hp)

theorem pd_step_del_sub (ok : Nat → Str → Bool) (tm : Int → Int) (k : PdKept) (db : PdDb) (h : PdRel tm k db) (id : Nat) :
    PdGood ok tm k db (.deleteSub id) := by
  refine ⟨?_, by simp [pdStep, PdAllowed]⟩
  simp only [pdStep, pdKeep, pdDeleteSub]
  refine { h with subs := ?_, sPos := ?_, fkS := ?_ }
  · show db.subs.filter _ = _
    rw [h.subs, List.filter_map]
    rfl
  · exact fun p hp => h.sPos p (pd_mem_filter hp)
  · exact fun p hp => h.fkS p (pd_mem_filter hp)

theorem pd_step_config (ok : Nat → Str → Bool) (tm : Int → Int) (k : PdKept) (db : PdDb) (h : PdRel tm k db) (c : PdConfig) :
    PdGood ok tm k db (.storeConfig c) := by
  unfold PdGood
  simp only [pdStep, PdAllowed]
  unfold pdStoreConfig
  have hn : db.configs.any (fun o => decide (o.pub = c.pub)) = false ↔ ∀ o ∈ k.configs, o.pub ≠ c.pub := by
    rw [h.configs]
    simp only [List.any_eq_false, decide_eq_true_eq, ne_eq]
  by_cases h0 : c.id = 0
  · rw [if_neg (by simp [h0])]
    by_cases hc : (ok 0 c.pub && ok 0 c.priv && !(db.configs.any (fun o => decide (o.pub = c.pub)))) = true
    · rw [if_pos hc]
      simp only [Bool.and_eq_true, Bool.not_eq_true', hn] at hc
      refine ⟨?_, by
        constructor
        · intro _; exact ⟨h0, hc.1.1, hc.1.2, hc.2⟩
        · intro _; rfl⟩
      simp only [pdKeep]
      exact { h with configs := by simp only [h.configs] }
    · rw [if_neg hc]
      simp only [Bool.and_eq_true, Bool.not_eq_true', hn] at hc
      refine ⟨{ h with }, ?_⟩
      constructor
      · intro e; cases e
      · rintro ⟨_, a, b, d⟩
        exact absurd ⟨⟨a, b⟩, d⟩ hc
  · rw [if_pos h0]
    refine ⟨h, ?_⟩
    constructor
    · intro e; cases e
    · rintro ⟨a, _⟩
      exact absurd a h0

theorem pd_step (ok : Nat → Str → Bool) (tm : Int → Int) (k : PdKept) (db : PdDb) (h : PdRel tm k db) (op : PdOp) :
    PdGood ok tm k db op := by
  cases op with
  | storeUser now r => exact pd_step_user ok tm k db h now r
  | deleteUser id => exact pd_step_del_user ok tm k db h id
  | storeNetwork user r => exact pd_step_network ok tm k db h user r
  | deleteNetwork id => exact pd_step_del_net ok tm k db h id
  | storeChannel network c => exact pd_step_channel ok tm k db h network c
  | deleteChannel id => exact pd_step_del_chan ok tm k db h id
  | storeReceipts network client rs => exact pd_step_receipts ok tm k db h network client rs
  | storeRead network r => exact pd_step_read ok tm k db h network r
  | storeSub now user network s => exact pd_step_sub ok tm k db h now user network s
  | deleteSub id => exact pd_step_del_sub ok tm k db h id
  | storeConfig c => exact pd_step_config ok tm k db h c

theorem pd_run_snoc (ok : Nat → Str → Bool) (tm : Int → Int) (ops : List PdOp) (op : PdOp) :
    pdRun ok tm (ops ++ [op]) = ((pdStep ok tm (pdRun ok tm ops).1 op).1,
      (pdRun ok tm ops).2 ++ [(op, (pdStep ok tm (pdRun ok tm ops).1 op).2)]) := by
  unfold pdRun
  rw [List.foldl_append]
  rfl

theorem pd_rel (ok : Nat → Str → Bool) (tm : Int → Int) (ops : List PdOp) :
    PdRel tm (pdKept (pdRun ok tm ops).2) (pdRun ok tm ops).1 := by
  induction ops using snocInd with
  | nil => exact pd_init tm
  | snoc ops op ih =>
    rw [pd_run_snoc]
    have := (pd_step ok tm _ _ ih op).1
    unfold pdKept at this ⊢
    rw [List.foldl_append]
    exact this

end Verif.Proof
