import Verif.Model.Db
import Verif.Proof.MsgDb

/-! # C36: deleting users and networks -/

namespace Verif.Props
open Verif.Model Verif.Proof

/-- Every row refers to rows that exist. -/
structure NoDangling (db : Db) : Prop where
  networks : ∀ n ∈ db.networks, ∃ u ∈ db.users, u.id = n.user
  channels : ∀ c ∈ db.channels, ∃ n ∈ db.networks, n.id = c.network
  deliveries : ∀ c ∈ db.deliveries, ∃ n ∈ db.networks, n.id = c.network
  reads : ∀ c ∈ db.reads, ∃ n ∈ db.networks, n.id = c.network
  targets : ∀ t ∈ db.targets, ∃ n ∈ db.networks, n.id = t.network
  messages : ∀ m ∈ db.messages, ∃ t ∈ db.targets, t.id = m.target
  subs : ∀ s ∈ db.subs, (∃ u ∈ db.users, u.id = s.user) ∧ ∀ i, s.network = some i → ∃ n ∈ db.networks, n.id = i

/-- The schema: row identifiers are unique and references are valid. -/
structure SchemaOK (db : Db) : Prop extends NoDangling db where
  idsUsers : (db.users.map (·.id)).Nodup
  idsNetworks : (db.networks.map (·.id)).Nodup
  idsChannels : (db.channels.map (·.id)).Nodup
  idsDeliveries : (db.deliveries.map (·.id)).Nodup
  idsReads : (db.reads.map (·.id)).Nodup
  idsSubs : (db.subs.map (·.id)).Nodup
  idsTargets : (db.targets.map (·.id)).Nodup
  idsMessages : (db.messages.map (·.id)).Nodup

/-- Does the network belong to the user? -/
def netOf (db : Db) (user net : Nat) : Bool := db.networks.any (fun n => decide (n.id = net) && decide (n.user = user))

/-- Does the conversation belong to one of the user's networks? -/
def convOf (db : Db) (user target : Nat) : Bool :=
  db.targets.any (fun t => decide (t.id = target) && netOf db user t.network)

/-- A subscription for a network is one of the network's user (downstream.go:3239-3287). -/
def SubsConsistent (db : Db) : Prop :=
  ∀ s ∈ db.subs, ∀ i, s.network = some i → ∀ n ∈ db.networks, n.id = i → n.user = s.user

theorem fkOK_iff (db : Db) : fkOK db = true ↔ NoDangling db := by
  unfold fkOK
  simp only [Bool.and_eq_true, List.all_eq_true, List.any_eq_true, decide_eq_true_eq]
  constructor
  · rintro ⟨⟨⟨⟨⟨⟨h1, h2⟩, h3⟩, h4⟩, h5⟩, h6⟩, h7⟩
    refine ⟨h1, h2, h3, h4, h5, h6, fun s hs => ⟨(h7 s hs).1, fun i hi => ?_⟩⟩
    have := (h7 s hs).2
    rw [hi] at this
    simpa using this
  · rintro ⟨h1, h2, h3, h4, h5, h6, h7⟩
    refine ⟨⟨⟨⟨⟨⟨h1, h2⟩, h3⟩, h4⟩, h5⟩, h6⟩, fun s hs => ⟨(h7 s hs).1, ?_⟩⟩
    cases hn : s.network with
    | none => rfl
    | some i => simpa using (h7 s hs).2 i hn

private theorem stmt_ok {db : Db} (h : NoDangling db) : statement db = some db := by
  unfold statement
  rw [if_pos ((fkOK_iff db).2 h)]

private theorem bind_stmt {db : Db} {k : Db → Option Db} {res : Option Db} (h : NoDangling db) (hk : k db = res) :
    (statement db >>= k) = res := by
  rw [stmt_ok h]
  exact hk

private theorem filter_not_mem {α : Type} {l : List α} {id : α → Nat} (nd : (l.map id).Nodup) {ids : List Nat}
    {owned : α → Bool} (hids : ∀ k, k ∈ ids ↔ ∃ a ∈ l, id a = k ∧ owned a = true) :
    l.filter (fun a => decide (id a ∉ ids)) = l.filter (fun a => !owned a) := by
  apply List.filter_congr
  intro a ha
  rw [Bool.eq_iff_iff, decide_eq_true_iff, hids, Bool.not_eq_true', ← Bool.not_eq_true]
  constructor
  · intro h ho; exact h ⟨a, ha, rfl, ho⟩
  · rintro h ⟨b, hb, e, ho⟩
    rw [eq_of_nodup_map nd hb ha e] at ho
    exact h ho

private theorem children_eq {db : Db} {l : List DbChild} (nd : (l.map (·.id)).Nodup) (user : Nat) :
    dropChildren l (childIdsOfUser l db.networks user) = l.filter (fun c => !netOf db user c.network) := by
  refine filter_not_mem nd (fun k => ?_)
  unfold childIdsOfUser netOf
  simp only [List.mem_flatMap, List.mem_map, List.mem_filter, Bool.and_eq_true, decide_eq_true_eq, List.any_eq_true]
  constructor
  · rintro ⟨c, hc, n, ⟨hn, h1, h2⟩, h3⟩; exact ⟨c, hc, h3, n, hn, h1.symm, h2⟩
  · rintro ⟨c, hc, h3, n, hn, h1, h2⟩; exact ⟨c, hc, n, ⟨hn, h1.symm, h2⟩, h3⟩

private theorem targets_eq {db : Db} (nd : (db.targets.map (·.id)).Nodup) (user : Nat) :
    db.targets.filter (fun t => decide (t.id ∉ targetIdsOfUser db.targets db.networks user)) =
      db.targets.filter (fun t => !netOf db user t.network) := by
  refine filter_not_mem nd (fun k => ?_)
  unfold targetIdsOfUser netOf
  simp only [List.mem_flatMap, List.mem_map, List.mem_filter, Bool.and_eq_true, decide_eq_true_eq, List.any_eq_true]
  constructor
  · rintro ⟨c, hc, n, ⟨hn, h1, h2⟩, h3⟩; exact ⟨c, hc, h3, n, hn, h1.symm, h2⟩
  · rintro ⟨c, hc, h3, n, hn, h1, h2⟩; exact ⟨c, hc, n, ⟨hn, h1.symm, h2⟩, h3⟩

private theorem messages_eq {db : Db} (nd : (db.messages.map (·.id)).Nodup) (user : Nat) :
    db.messages.filter (fun m => decide (m.id ∉ messageIdsOfUser db.messages db.targets db.networks user)) =
      db.messages.filter (fun m => !convOf db user m.target) := by
  refine filter_not_mem nd (fun k => ?_)
  unfold messageIdsOfUser convOf netOf
  simp only [List.mem_flatMap, List.mem_map, List.mem_filter, Bool.and_eq_true, decide_eq_true_eq, List.any_eq_true]
  constructor
  · rintro ⟨m, hm, t, ht, n, ⟨hn, ⟨h1, h2⟩, h3⟩, h4⟩; exact ⟨m, hm, h4, t, ht, h1.symm, n, hn, h2.symm, h3⟩
  · rintro ⟨m, hm, h4, t, ht, h1, n, hn, h2, h3⟩; exact ⟨m, hm, t, ht, n, ⟨hn, ⟨h1.symm, h2.symm⟩, h3⟩, h4⟩

private theorem mem_of_filter {α : Type} {p : α → Bool} {l : List α} {a : α} (h : a ∈ l.filter p) : a ∈ l :=
  (List.mem_filter.1 h).1

private theorem nodup_filter_map {α : Type} {f : α → Nat} {l : List α} (p : α → Bool) (h : (l.map f).Nodup) :
    ((l.filter p).map f).Nodup := (List.filter_sublist.map f).nodup h

/-- What is left of the database without a user. -/
def withoutUser (db : Db) (user : Nat) : Db :=
  { users := db.users.filter (fun u => decide (u.id ≠ user)),
    networks := db.networks.filter (fun n => decide (n.user ≠ user)),
    channels := db.channels.filter (fun c => !netOf db user c.network),
    deliveries := db.deliveries.filter (fun c => !netOf db user c.network),
    reads := db.reads.filter (fun c => !netOf db user c.network),
    subs := db.subs.filter (fun s => decide (s.user ≠ user)),
    targets := db.targets.filter (fun t => !netOf db user t.network),
    messages := db.messages.filter (fun m => !convOf db user m.target) }

/-- What is left of the database without a network. -/
def withoutNetwork (db : Db) (net : Nat) : Db :=
  { users := db.users,
    networks := db.networks.filter (fun n => decide (n.id ≠ net)),
    channels := db.channels.filter (fun c => decide (c.network ≠ net)),
    deliveries := db.deliveries.filter (fun c => decide (c.network ≠ net)),
    reads := db.reads.filter (fun c => decide (c.network ≠ net)),
    subs := db.subs.filter (fun s => decide (s.network ≠ some net)),
    targets := db.targets.filter (fun t => decide (t.network ≠ net)),
    messages := db.messages.filter (fun m =>
      decide (∀ t ∈ db.targets, t.id = m.target → t.network ≠ net)) }

private theorem not_net {db : Db} {user net : Nat} (h : (!netOf db user net) = true) {n : DbNetwork}
    (hn : n ∈ db.networks) (hid : n.id = net) : n.user ≠ user := by
  intro hu
  simp only [netOf, Bool.not_eq_true', List.any_eq_false, Bool.and_eq_true, decide_eq_true_eq, not_and] at h
  exact h n hn hid hu

private theorem conv_target {db : Db} {user : Nat} {m : MsgRow} (h : (!convOf db user m.target) = true)
    {t : MsgTargetRow} (ht : t ∈ db.targets) (hid : t.id = m.target) : (!netOf db user t.network) = true := by
  simp only [convOf, Bool.not_eq_true', List.any_eq_false, Bool.and_eq_true, decide_eq_true_eq, not_and] at h
  simpa using h t ht hid

/-- C36: deleting a user succeeds and leaves exactly the rows that do not belong to them. -/
theorem C36_delete_user (db : Db) (hs : SchemaOK db) (hsub : SubsConsistent db) (user : Nat) :
    deleteUser db user = some (withoutUser db user) := by
  unfold deleteUser
  rw [children_eq hs.idsDeliveries]
  refine bind_stmt ⟨hs.networks, hs.channels, fun c hc => hs.deliveries c (mem_of_filter hc), hs.reads, hs.targets,
    hs.messages, hs.subs⟩ ?_
  dsimp only
  rw [children_eq hs.idsReads]
  refine bind_stmt ⟨hs.networks, hs.channels, fun c hc => hs.deliveries c (mem_of_filter hc),
    fun c hc => hs.reads c (mem_of_filter hc), hs.targets, hs.messages, hs.subs⟩ ?_
  dsimp only
  rw [messages_eq (db := db) hs.idsMessages]
  refine bind_stmt ⟨hs.networks, hs.channels, fun c hc => hs.deliveries c (mem_of_filter hc),
    fun c hc => hs.reads c (mem_of_filter hc), hs.targets, fun m hm => hs.messages m (mem_of_filter hm), hs.subs⟩ ?_
  dsimp only
  rw [targets_eq (db := db) hs.idsTargets]
  have hmsg : ∀ m ∈ db.messages.filter (fun m => !convOf db user m.target),
      ∃ t ∈ db.targets.filter (fun t => !netOf db user t.network), t.id = m.target := by
    intro m hm
    obtain ⟨h1, h2⟩ := List.mem_filter.1 hm
    obtain ⟨t, t1, t2⟩ := hs.messages m h1
    exact ⟨t, List.mem_filter.2 ⟨t1, conv_target h2 t1 t2⟩, t2⟩
  refine bind_stmt ⟨hs.networks, hs.channels, fun c hc => hs.deliveries c (mem_of_filter hc),
    fun c hc => hs.reads c (mem_of_filter hc), fun t ht => hs.targets t (mem_of_filter ht), hmsg, hs.subs⟩ ?_
  dsimp only
  refine bind_stmt ⟨hs.networks, hs.channels, fun c hc => hs.deliveries c (mem_of_filter hc),
    fun c hc => hs.reads c (mem_of_filter hc), fun t ht => hs.targets t (mem_of_filter ht), hmsg,
    fun s h => hs.subs s (mem_of_filter h)⟩ ?_
  dsimp only
  rw [children_eq hs.idsChannels]
  refine bind_stmt ⟨hs.networks, fun c hc => hs.channels c (mem_of_filter hc),
    fun c hc => hs.deliveries c (mem_of_filter hc),
    fun c hc => hs.reads c (mem_of_filter hc), fun t ht => hs.targets t (mem_of_filter ht), hmsg,
    fun s h => hs.subs s (mem_of_filter h)⟩ ?_
  dsimp only
  have hnet : ∀ net, (!netOf db user net) = true → (∃ n ∈ db.networks, n.id = net) →
      ∃ n ∈ db.networks.filter (fun n => decide (n.user ≠ user)), n.id = net := by
    rintro net h ⟨n, n1, n2⟩
    exact ⟨n, List.mem_filter.2 ⟨n1, by simpa using not_net h n1 n2⟩, n2⟩
  have hch : ∀ l : List DbChild, (∀ c ∈ l, ∃ n ∈ db.networks, n.id = c.network) →
      ∀ c ∈ l.filter (fun c => !netOf db user c.network),
        ∃ n ∈ db.networks.filter (fun n => decide (n.user ≠ user)), n.id = c.network := by
    intro l hl c hc
    obtain ⟨h1, h2⟩ := List.mem_filter.1 hc
    exact hnet _ h2 (hl c h1)
  have hsubs : ∀ s ∈ db.subs.filter (fun s => decide (s.user ≠ user)), ∀ i, s.network = some i →
      ∃ n ∈ db.networks.filter (fun n => decide (n.user ≠ user)), n.id = i := by
    intro s h i hi
    obtain ⟨h1, h2⟩ := List.mem_filter.1 h
    obtain ⟨n, n1, n2⟩ := (hs.subs s h1).2 i hi
    refine ⟨n, List.mem_filter.2 ⟨n1, ?_⟩, n2⟩
    rw [hsub s h1 i hi n n1 n2]
    exact h2
  have htg : ∀ t ∈ db.targets.filter (fun t => !netOf db user t.network),
      ∃ n ∈ db.networks.filter (fun n => decide (n.user ≠ user)), n.id = t.network := by
    intro t ht
    obtain ⟨h1, h2⟩ := List.mem_filter.1 ht
    exact hnet _ h2 (hs.targets t h1)
  refine bind_stmt ⟨fun n hn => hs.networks n (mem_of_filter hn), hch _ hs.channels, hch _ hs.deliveries, hch _ hs.reads,
    htg, hmsg, fun s h => ⟨(hs.subs s (mem_of_filter h)).1, hsubs s h⟩⟩ ?_
  dsimp only
  have huser : ∀ x, x ≠ user → (∃ u ∈ db.users, u.id = x) →
      ∃ u ∈ db.users.filter (fun u => decide (u.id ≠ user)), u.id = x := by
    rintro x hx ⟨u, u1, u2⟩
    exact ⟨u, List.mem_filter.2 ⟨u1, by simpa [u2] using hx⟩, u2⟩
  exact stmt_ok ⟨fun n hn => huser _ (by simpa using (List.mem_filter.1 hn).2) (hs.networks n (mem_of_filter hn)),
    hch _ hs.channels, hch _ hs.deliveries, hch _ hs.reads, htg, hmsg,
    fun s h => ⟨huser _ (by simpa using (List.mem_filter.1 h).2) (hs.subs s (mem_of_filter h)).1, hsubs s h⟩⟩

/-- C36: deleting a network succeeds and leaves exactly the rows that do not belong to it. -/
theorem C36_delete_network (db : Db) (hs : SchemaOK db) (net : Nat) :
    dbDeleteNetwork db net = some (withoutNetwork db net) := by
  unfold dbDeleteNetwork
  have em : db.messages.filter (fun m =>
      decide (m.target ∉ (db.targets.filter (fun t => decide (t.network = net))).map (·.id))) =
      db.messages.filter (fun m => decide (∀ t ∈ db.targets, t.id = m.target → t.network ≠ net)) := by
    apply List.filter_congr
    intro m _
    rw [decide_eq_decide]
    simp only [List.mem_map, List.mem_filter, decide_eq_true_eq, not_exists, not_and, and_imp]
    constructor
    · intro h t ht hid hn; exact h t ht hn hid
    · intro h t ht hn hid; exact h t ht hid hn
  rw [em]
  refine bind_stmt ⟨hs.networks, hs.channels, hs.deliveries, hs.reads, hs.targets,
    fun m hm => hs.messages m (mem_of_filter hm), hs.subs⟩ ?_
  dsimp only
  have hmsg : ∀ m ∈ db.messages.filter (fun m => decide (∀ t ∈ db.targets, t.id = m.target → t.network ≠ net)),
      ∃ t ∈ db.targets.filter (fun t => decide (t.network ≠ net)), t.id = m.target := by
    intro m hm
    obtain ⟨h1, h2⟩ := List.mem_filter.1 hm
    obtain ⟨t, t1, t2⟩ := hs.messages m h1
    exact ⟨t, List.mem_filter.2 ⟨t1, by simpa using (of_decide_eq_true h2) t t1 t2⟩, t2⟩
  refine bind_stmt ⟨hs.networks, hs.channels, hs.deliveries, hs.reads, fun t ht => hs.targets t (mem_of_filter ht),
    hmsg, hs.subs⟩ ?_
  dsimp only
  refine bind_stmt ⟨hs.networks, hs.channels, hs.deliveries, hs.reads, fun t ht => hs.targets t (mem_of_filter ht),
    hmsg, fun s h => hs.subs s (mem_of_filter h)⟩ ?_
  dsimp only
  refine bind_stmt ⟨hs.networks, hs.channels, fun c h => hs.deliveries c (mem_of_filter h), hs.reads,
    fun t ht => hs.targets t (mem_of_filter ht), hmsg, fun s h => hs.subs s (mem_of_filter h)⟩ ?_
  dsimp only
  refine bind_stmt ⟨hs.networks, hs.channels, fun c h => hs.deliveries c (mem_of_filter h),
    fun c h => hs.reads c (mem_of_filter h),
    fun t ht => hs.targets t (mem_of_filter ht), hmsg, fun s h => hs.subs s (mem_of_filter h)⟩ ?_
  dsimp only
  refine bind_stmt ⟨hs.networks, fun c h => hs.channels c (mem_of_filter h),
    fun c h => hs.deliveries c (mem_of_filter h), fun c h => hs.reads c (mem_of_filter h),
    fun t ht => hs.targets t (mem_of_filter ht), hmsg, fun s h => hs.subs s (mem_of_filter h)⟩ ?_
  dsimp only
  have hnet : ∀ i, i ≠ net → (∃ n ∈ db.networks, n.id = i) →
      ∃ n ∈ db.networks.filter (fun n => decide (n.id ≠ net)), n.id = i := by
    rintro i hi ⟨n, n1, n2⟩
    exact ⟨n, List.mem_filter.2 ⟨n1, by simpa [n2] using hi⟩, n2⟩
  have hch : ∀ l : List DbChild, (∀ c ∈ l, ∃ n ∈ db.networks, n.id = c.network) →
      ∀ c ∈ l.filter (fun c => decide (c.network ≠ net)),
        ∃ n ∈ db.networks.filter (fun n => decide (n.id ≠ net)), n.id = c.network := by
    intro l hl c hc
    obtain ⟨h1, h2⟩ := List.mem_filter.1 hc
    exact hnet _ (by simpa using h2) (hl c h1)
  exact stmt_ok ⟨fun n hn => hs.networks n (mem_of_filter hn), hch _ hs.channels, hch _ hs.deliveries, hch _ hs.reads,
    fun t ht => hnet _ (by simpa using (List.mem_filter.1 ht).2) (hs.targets t (mem_of_filter ht)), hmsg,
    fun s h => ⟨(hs.subs s (mem_of_filter h)).1, fun i hi => hnet i (by
      have h2 := (List.mem_filter.1 h).2
      rw [hi] at h2
      simpa using h2) ((hs.subs s (mem_of_filter h)).2 i hi)⟩⟩

/-- C36: after the deletion of a user no row of any table refers to the user or to one of their networks or
conversations, and every reference is valid. -/
theorem C36_user_gone (db db' : Db) (hs : SchemaOK db) (hsub : SubsConsistent db) (user : Nat)
    (h : deleteUser db user = some db') :
    SchemaOK db' ∧ SubsConsistent db' ∧
    (∀ u ∈ db'.users, u.id ≠ user) ∧ (∀ n ∈ db'.networks, n.user ≠ user) ∧ (∀ s ∈ db'.subs, s.user ≠ user) ∧
    (∀ n ∈ db.networks, n.user = user →
      (∀ c ∈ db'.channels ++ db'.deliveries ++ db'.reads, c.network ≠ n.id) ∧
      (∀ t ∈ db'.targets, t.network ≠ n.id) ∧ (∀ s ∈ db'.subs, s.network ≠ some n.id) ∧
      ∀ t ∈ db.targets, t.network = n.id → ∀ m ∈ db'.messages, m.target ≠ t.id) := by
  have hd := C36_delete_user db hs hsub user
  have hfk : NoDangling db' := by
    have h' := h
    unfold deleteUser at h'
    simp only [Option.bind_eq_bind, Option.bind_eq_some_iff] at h'
    obtain ⟨_, _, _, _, _, _, _, _, _, _, _, _, _, _, h'⟩ := h'
    unfold statement at h'
    split at h'
    · rename_i hk
      cases h'
      exact (fkOK_iff _).1 hk
    · cases h'
  rw [hd] at h
  cases h
  refine ⟨⟨hfk, nodup_filter_map _ hs.idsUsers, nodup_filter_map _ hs.idsNetworks, nodup_filter_map _ hs.idsChannels,
    nodup_filter_map _ hs.idsDeliveries, nodup_filter_map _ hs.idsReads, nodup_filter_map _ hs.idsSubs,
    nodup_filter_map _ hs.idsTargets, nodup_filter_map _ hs.idsMessages⟩, ?_, ?_, ?_, ?_, ?_⟩
  · intro s hs' i hi n hn
    exact hsub s (mem_of_filter hs') i hi n (mem_of_filter hn)
  · intro u hu; simpa using (List.mem_filter.1 hu).2
  · intro u hu; simpa using (List.mem_filter.1 hu).2
  · intro u hu; simpa using (List.mem_filter.1 hu).2
  · intro n hn hu
    have hown : ∀ x, (!netOf db user x) = true → x ≠ n.id := fun x hx e => not_net hx hn e.symm hu
    refine ⟨?_, ?_, ?_, ?_⟩
    · intro c hc
      simp only [List.mem_append] at hc
      rcases hc with (hc | hc) | hc <;> exact hown _ (List.mem_filter.1 hc).2
    · intro t ht; exact hown _ (List.mem_filter.1 ht).2
    · intro s h he
      obtain ⟨h1, h2⟩ := List.mem_filter.1 h
      have := hsub s h1 n.id he n hn rfl
      rw [hu] at this
      simp [← this] at h2
    · intro t ht htn m hm e
      exact not_net (conv_target (List.mem_filter.1 hm).2 ht e.symm) hn htn.symm hu

/-- C36: after the deletion of a network no row of any table refers to it or to one of its conversations, and
every reference is valid. -/
theorem C36_network_gone (db db' : Db) (hs : SchemaOK db) (net : Nat) (h : dbDeleteNetwork db net = some db') :
    SchemaOK db' ∧ (∀ n ∈ db'.networks, n.id ≠ net) ∧
    (∀ c ∈ db'.channels ++ db'.deliveries ++ db'.reads, c.network ≠ net) ∧
    (∀ t ∈ db'.targets, t.network ≠ net) ∧ (∀ s ∈ db'.subs, s.network ≠ some net) ∧
    ∀ t ∈ db.targets, t.network = net → ∀ m ∈ db'.messages, m.target ≠ t.id := by
  have hd := C36_delete_network db hs net
  have hfk : NoDangling db' := by
    have h' := h
    unfold dbDeleteNetwork at h'
    simp only [Option.bind_eq_bind, Option.bind_eq_some_iff] at h'
    obtain ⟨_, _, _, _, _, _, _, _, _, _, _, _, h'⟩ := h'
    unfold statement at h'
    split at h'
    · rename_i hk
      cases h'
      exact (fkOK_iff _).1 hk
    · cases h'
  rw [hd] at h
  cases h
  refine ⟨⟨hfk, hs.idsUsers, nodup_filter_map _ hs.idsNetworks, nodup_filter_map _ hs.idsChannels,
    nodup_filter_map _ hs.idsDeliveries, nodup_filter_map _ hs.idsReads, nodup_filter_map _ hs.idsSubs,
    nodup_filter_map _ hs.idsTargets, nodup_filter_map _ hs.idsMessages⟩, ?_, ?_, ?_, ?_, ?_⟩
  · intro u hu; simpa using (List.mem_filter.1 hu).2
  · intro c hc
    simp only [List.mem_append] at hc
    rcases hc with (hc | hc) | hc <;> simpa using (List.mem_filter.1 hc).2
  · intro u hu; simpa using (List.mem_filter.1 hu).2
  · intro u hu; simpa using (List.mem_filter.1 hu).2
  · intro t ht htn m hm e
    exact (of_decide_eq_true (List.mem_filter.1 hm).2) t ht e.symm htn

/-- Two users with a network each; everything of the first one goes. -/
example :
    let db : Db :=
      { users := [⟨1, []⟩, ⟨2, []⟩], networks := [⟨1, 1, []⟩, ⟨2, 2, []⟩], channels := [⟨1, 1, []⟩, ⟨2, 2, []⟩],
        deliveries := [⟨1, 2, []⟩, ⟨5, 1, []⟩], reads := [⟨3, 1, []⟩], subs := [⟨1, 1, some 1, []⟩, ⟨2, 2, none, []⟩],
        targets := [⟨7, 1, b!"#c"⟩, ⟨8, 2, b!"#c"⟩],
        messages := [⟨1, 7, [], [], [], none⟩, ⟨2, 8, [], [], [], none⟩] }
    deleteUser db 1 = some
      { users := [⟨2, []⟩], networks := [⟨2, 2, []⟩], channels := [⟨2, 2, []⟩], deliveries := [⟨1, 2, []⟩],
        subs := [⟨2, 2, none, []⟩], targets := [⟨8, 2, b!"#c"⟩], messages := [⟨2, 8, [], [], [], none⟩] } ∧
    SchemaOK db ∧ SubsConsistent db := by
  refine ⟨by decide, ⟨(fkOK_iff _).1 (by decide), ?_, ?_, ?_, ?_, ?_, ?_, ?_, ?_⟩, ?_⟩
  all_goals first | decide | (intro s hs i hi n hn; simp at hs hn; rcases hs with rfl | rfl <;> rcases hn with rfl | rfl <;> simp_all)

end Verif.Props
