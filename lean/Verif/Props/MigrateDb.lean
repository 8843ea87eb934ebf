import Verif.Props.PgDb
import Verif.Proof.MigrateDb

/-! # C83: moving the data to another database -/

namespace Verif.Props
open Verif.Model Verif.Spec Verif.Proof

/-- The network `b` of the destination is a copy of the network `a` of the source, for the user with the identifiers
`u` and `v`: the settings, the channels, the delivery receipts and the push subscriptions. -/
structure MgSameNet (src dst : MgSource) (u v : Nat) (a b : NetRec) : Prop where
  settings : { b with id := 0 } = keptNetwork { a with id := 0 }
  channels : ((dst.channels b.id).map (fun c => { c with id := 0 })).Perm
    ((src.channels a.id).map (fun c => { keptChannel c with id := 0 }))
  receipts : ((dst.receipts b.id).map (fun r => (r.target, r.client, r.msgID))).Perm
    ((src.receipts a.id).map (fun r => (r.target, r.client, r.msgID)))
  subs : ((dst.subs v b.id).map (fun s => (s.endpoint, s.auth, s.p256dh, s.vapid))).Perm
    ((src.subs u a.id).map (fun s => (s.endpoint, s.auth, s.p256dh, s.vapid)))

/-- The user `v` of the destination is a copy of the user `u` of the source. -/
def MgSameUser (tm : Int → Int) (src dst : MgSource) (u v : PdUserRec) : Prop :=
  { v with id := 0 } = { u with id := 0, interactedAt := pdInstant tm u.interactedAt } ∧
  ∃ pairs : List (NetRec × NetRec), pairs.map (·.1) = src.networks u.id ∧
    (pairs.map (·.2)).Perm (dst.networks v.id) ∧ ∀ p ∈ pairs, MgSameNet src dst u.id v.id p.1 p.2

/-- The read receipts of a network are copied. -/
def MgSameReads (tm : Int → Int) (src dst : MgSource) (a b : Nat) : Prop :=
  ∀ name r, src.reads a name = some r → ∃ r', dst.reads b name = some r' ∧ r'.timestamp = tm r.timestamp

/-- The push subscriptions of a user that are for no network are copied. -/
def MgSameUserSubs (src dst : MgSource) (u v : Nat) : Prop :=
  ((dst.subs v 0).map (fun s => (s.endpoint, s.auth, s.p256dh, s.vapid))).Perm
    ((src.subs u 0).map (fun s => (s.endpoint, s.auth, s.p256dh, s.vapid)))

/-- What the migration must do: everything is copied (the messages and the time of creation of the users excepted). -/
def MgMigrated (tm : Int → Int) (src dst : MgSource) : Prop :=
  ∃ users : List (PdUserRec × PdUserRec), users.map (·.1) = src.users ∧ (users.map (·.2)).Perm (dst.users) ∧
    ((dst.configs).map (fun c => (c.pub, c.priv))).Perm (src.configs.map (fun c => (c.pub, c.priv))) ∧
    ∀ p ∈ users, MgSameUser tm src dst p.1 p.2 ∧ MgSameUserSubs src dst p.1.id p.2.id ∧
      ∀ a ∈ src.networks p.1.id, ∃ b ∈ dst.networks p.2.id, MgSameNet src dst p.1.id p.2.id a b ∧
        MgSameReads tm src dst a.id b.id

theorem mg_zip_users (now : Int) (tm : Int → Int) (n : Nat) (l : List PdUserRec) (f : Nat → PdUserRec → PdUserRec × Int)
    (hf : ∀ i u, f i u = ({ u with id := i + n }, now)) : ∀ (rng : List Nat), rng.length = l.length →
    (rng.zipWith f l).map (fun p => { p.1 with interactedAt := pdInstant tm p.1.interactedAt }) =
      (rng.zip l).map (fun p => { p.2 with id := p.1 + n, interactedAt := pdInstant tm p.2.interactedAt }) := by
  induction l with
  | nil => intro rng h; cases rng with | nil => rfl | cons _ _ => simp at h
  | cons u l ih =>
    intro rng h
    cases rng with
    | nil => simp at h
    | cons i rng =>
      simp only [List.zipWith_cons_cons, List.map_cons, List.zip_cons_cons, hf]
      congr 1
      exact ih rng (by simpa using h)

/-- What the program does, whatever the identifiers are: the users in the destination are those of the source,
numbered from 1, and the user with number `i` has the networks that the user with identifier `i` had in the source. -/
theorem C83_effect (ok : Nat → Str → Bool) (tm : Int → Int) (now : Int)
    (ord : GoMap Str (List PdReceipt) → GoMap Str (List PdReceipt)) (hord : ∀ m, (ord m).Perm m) (src : MgSource)
    (hcmd : ∀ u, ∀ a ∈ src.networks u, CommandsOK a.connectCommands) (st : MgSt PdDb)
    (hr : mgRun (pdStep ok tm) now ord src {} = (st, true)) :
    (pdListUsers st.1).Perm (((List.range src.users.length).zip src.users).map (fun p =>
      { p.2 with id := p.1 + 1, interactedAt := pdInstant tm p.2.interactedAt })) ∧
    ((pdListConfigs st.1).map (fun c => (c.pub, c.priv))).Perm (src.configs.map (fun c => (c.pub, c.priv))) ∧
    ∀ i, i < src.users.length → ∃ pairs : List (NetRec × NetRec), pairs.map (·.1) = src.networks (i + 1) ∧
      (pairs.map (·.2)).Perm (pdListNetworks st.1 (i + 1)) ∧ ∀ p ∈ pairs, MgSameNet src (mgSourceOf st.1) (i + 1) (i + 1) p.1 p.2 := by
  obtain ⟨⟨ops, rfl⟩, h2, h3⟩ := mg_run now ord hord src st hr
  have hrel := pd_rel ok tm ops
  refine ⟨?_, ?_, ?_⟩
  · refine (C82_users ok tm ops).trans (List.Perm.of_eq ?_)
    rw [h2.users]
    exact mg_zip_users now tm 1 src.users _ (fun _ _ => rfl) _ (by simp)
  · refine ((C82_configs ok tm ops).map _).trans (List.Perm.of_eq ?_)
    have := congrArg (List.map (fun c : PdConfig => (c.pub, c.priv))) h3
    rw [List.map_map, List.map_map] at this
    exact this
  · intro i hi
    obtain ⟨ids, l1, l2, l3⟩ := h2.nets i hi
    refine ⟨((src.networks (i + 1)).zip ids).map (fun p => (p.1, keptNetwork { p.1 with id := p.2 })), ?_, ?_, ?_⟩
    · rw [List.map_map]
      show ((src.networks (i + 1)).zip ids).map Prod.fst = _
      rw [List.map_fst_zip (by omega)]
    · rw [List.map_map]
      unfold pdListNetworks
      rw [hrel.networks, List.filter_map, List.map_map]
      have : ((fun r : NetworkRow => decide (r.user = i + 1)) ∘ fun p : Nat × NetRec => pdNetRow p.1 p.2) =
          fun p => decide (p.1 = i + 1) := rfl
      rw [this]
      have l2' : (pdKept (pdRun ok tm ops).2).networks.filter (fun p => decide (p.1 = i + 1)) = _ := l2
      rw [l2', List.map_map]
      apply List.Perm.of_eq
      apply List.map_congr_left
      intro p hp
      simp only [Function.comp_apply]
      rw [pd_net_back]
      · exact hrel.mech (i + 1, { p.1 with id := p.2 }) (l3 p hp).net
      · exact hcmd _ p.1 (List.of_mem_zip hp).1
    · intro p hp
      rw [List.mem_map] at hp
      obtain ⟨q, hq, rfl⟩ := hp
      have hcop := l3 q hq
      have hnet : (i + 1, { q.1 with id := q.2 }) ∈ (pdKept (pdRun ok tm ops).2).networks := hcop.net
      have hpos : q.2 ≠ 0 := Nat.ne_of_gt (hrel.nPos _ hnet).1
      have hid : (keptNetwork { q.1 with id := q.2 }).id = q.2 := rfl
      refine ⟨rfl, ?_, ?_, ?_⟩
      · simp only [hid]
        refine ((C82_channels ok tm ops q.2).map _).trans (List.Perm.of_eq ?_)
        have := congrArg (List.map keptChannel) hcop.channels
        rw [List.map_map, List.map_map] at this
        rw [List.map_map]
        exact this
      · simp only [hid]
        refine (C82_receipts ok tm ops q.2).trans ?_
        have := hcop.receipts.map (fun r : PdReceipt => (r.target, r.client, r.msgID))
        rw [List.map_map, List.map_map] at this
        exact this
      · simp only [hid]
        refine ((C82_subs ok tm ops (i + 1) q.2).map _).trans (List.Perm.of_eq ?_)
        have hs := hcop.subs
        have hall : ∀ p ∈ (pdKept (pdRun ok tm ops).2).subs.filter (fun p => decide (p.2.1 = q.2)), p.1 = i + 1 := by
          intro p hp
          have : (p.1, p.2.2.endpoint, p.2.2.auth, p.2.2.p256dh, p.2.2.vapid) ∈
              (src.subs (i + 1) q.1.id).map (fun s => (i + 1, s.endpoint, s.auth, s.p256dh, s.vapid)) := by
            rw [← hs]
            exact List.mem_map.2 ⟨p, hp, rfl⟩
          rw [List.mem_map] at this
          obtain ⟨s, _, e⟩ := this
          exact (Prod.mk.inj e).1.symm
        have hfil : (pdKept (pdRun ok tm ops).2).subs.filter (fun p => decide (p.1 = i + 1 ∧ p.2.1 = q.2)) =
            (pdKept (pdRun ok tm ops).2).subs.filter (fun p => decide (p.2.1 = q.2)) := by
          apply List.filter_congr
          intro p hp
          by_cases h1 : p.2.1 = q.2
          · have := hall p (List.mem_filter.2 ⟨hp, decide_eq_true h1⟩)
            simp [h1, this]
          · simp [h1]
        rw [hfil, List.map_map]
        have := congrArg (List.map (fun t : Nat × Str × Str × Str × Str => t.2)) hs
        rw [List.map_map, List.map_map] at this
        exact this

/-- C83: if the users of the source have the identifiers 1, 2, … in the order in which they are listed, every user is
copied with the networks, channels, delivery receipts and push subscriptions of these networks, and so are the keys for
push messages.  Missing: other identifiers, read receipts and subscriptions for no network, see the theorems below. -/
theorem C83_migrated_partial (ok : Nat → Str → Bool) (tm : Int → Int) (now : Int)
    (ord : GoMap Str (List PdReceipt) → GoMap Str (List PdReceipt)) (hord : ∀ m, (ord m).Perm m) (src : MgSource)
    (hcmd : ∀ u, ∀ a ∈ src.networks u, CommandsOK a.connectCommands)
    (hids : src.users.map (·.id) = (List.range src.users.length).map (· + 1)) (st : MgSt PdDb)
    (hr : mgRun (pdStep ok tm) now ord src {} = (st, true)) :
    ∃ users : List (PdUserRec × PdUserRec), users.map (·.1) = src.users ∧ (users.map (·.2)).Perm (pdListUsers st.1) ∧
      ((pdListConfigs st.1).map (fun c => (c.pub, c.priv))).Perm (src.configs.map (fun c => (c.pub, c.priv))) ∧
      ∀ p ∈ users, MgSameUser tm src (mgSourceOf st.1) p.1 p.2 := by
  obtain ⟨h1, h2, h3⟩ := C83_effect ok tm now ord hord src hcmd st hr
  have hid : ∀ i (h : i < src.users.length), (src.users[i]).id = i + 1 := by
    intro i h
    have := congrArg (fun l => l[i]?) hids
    simp only [List.getElem?_map, List.getElem?_eq_getElem h, Option.map_some] at this
    rw [List.getElem?_range h] at this
    exact Option.some.inj this
  refine ⟨src.users.map (fun u => (u, { u with interactedAt := pdInstant tm u.interactedAt })), ?_, ?_, h2, ?_⟩
  · rw [List.map_map]
    exact List.map_id _
  · refine List.Perm.trans (List.Perm.of_eq ?_) h1.symm
    rw [List.map_map]
    apply List.ext_getElem
    · simp
    · intro i hi1 hi2
      simp only [List.getElem_map, List.getElem_zip, List.getElem_range, Function.comp_apply]
      rw [← hid i (by simpa using hi1)]
  · intro p hp
    rw [List.mem_map] at hp
    obtain ⟨u, hu, rfl⟩ := hp
    obtain ⟨i, hi, rfl⟩ := List.getElem_of_mem hu
    refine ⟨rfl, ?_⟩
    have := h3 i hi
    rw [← hid i hi] at this
    exact this

private def ana : PdUserRec := { username := b!"ana", password := b!"hash", nick := b!"ana" }
private def freenode : NetRec := { name := b!"libera", addr := b!"irc.libera.chat", pass := b!"secret of ana", nick := b!"ana" }
private def okAll : Nat → Str → Bool := fun _ _ => true
private def noTrunc : Int → Int := fun t => t

/-- The first user is deleted, so that ana has the identifier 2 and bob 3. -/
private def gap : List PdOp :=
  [.storeUser 1 { ana with username := b!"root" }, .storeUser 2 ana, .storeUser 3 { ana with username := b!"bob" },
   .deleteUser 1, .storeNetwork 2 freenode, .storeChannel 1 ⟨0, b!"#soju", [], false, [], 0, 0, 0, 0⟩]

/-- C83 is violated when identifiers have gaps: after a migration without any error, bob, who had no network, has the
network of ana, with its password, and ana has none. -/
theorem C83_migrated_violated : ∃ ops : List PdOp,
    let src := mgSourceOf (pdRun okAll noTrunc ops).1
    let out := mgRun (pdStep okAll noTrunc) 9 (fun m => m) src {}
    out.2 = true ∧
    (∃ u ∈ src.users, u.username = b!"bob" ∧ src.networks u.id = [] ∧
      ∃ v ∈ pdListUsers out.1.1, v.username = b!"bob" ∧
        ∃ n ∈ pdListNetworks out.1.1 v.id, n.pass = b!"secret of ana") ∧
    ∃ u ∈ src.users, u.username = b!"ana" ∧ (∃ n ∈ src.networks u.id, n.pass = b!"secret of ana") ∧
      ∀ v ∈ pdListUsers out.1.1, v.username = b!"ana" → pdListNetworks out.1.1 v.id = [] := by
  refine ⟨gap, ?_⟩
  decide +kernel

/-- One user, with a read receipt and a push subscription for no network. -/
private def whole : List PdOp :=
  [.storeUser 1 ana, .storeNetwork 1 freenode, .storeChannel 1 ⟨0, b!"#soju", [], false, [], 0, 0, 0, 0⟩,
   .storeReceipts 1 b!"phone" [⟨0, b!"#soju", [], b!"7"⟩], .storeReceipts 1 b!"pc" [⟨0, b!"#soju", [], b!"8"⟩],
   .storeRead 1 ⟨0, b!"#soju", 5⟩, .storeSub 2 1 0 ⟨0, b!"https://push", 0, 0, b!"a", b!"p", b!"v"⟩,
   .storeSub 2 1 1 ⟨0, b!"https://other", 0, 0, b!"a", b!"p", b!"v"⟩, .storeConfig ⟨0, b!"pub", b!"priv"⟩]

/-- C83 is violated for read receipts, even if identifiers have no gaps: they are not copied. -/
theorem C83_reads_violated : ∃ ops : List PdOp,
    let src := mgSourceOf (pdRun okAll noTrunc ops).1
    let out := mgRun (pdStep okAll noTrunc) 9 (fun m => m) src {}
    out.2 = true ∧ src.users.map (·.id) = (List.range src.users.length).map (· + 1) ∧
    (∃ u ∈ src.users, ∃ n ∈ src.networks u.id, src.reads n.id b!"#soju" ≠ none) ∧
    ∀ v ∈ pdListUsers out.1.1, ∀ n ∈ pdListNetworks out.1.1 v.id, pdGetRead out.1.1 n.id b!"#soju" = none := by
  refine ⟨whole, ?_⟩
  decide +kernel

/-- C83 is violated: an error-free migration, even from a database whose identifiers have no gaps, does not copy
everything. -/
theorem C83_violated : ∃ ops : List PdOp,
    let src := mgSourceOf (pdRun okAll noTrunc ops).1
    let out := mgRun (pdStep okAll noTrunc) 9 (fun m => m) src {}
    out.2 = true ∧ src.users.map (·.id) = (List.range src.users.length).map (· + 1) ∧ ¬ MgMigrated noTrunc src (mgSourceOf out.1.1) := by
  obtain ⟨ops, h1, h2, ⟨u, hu, n, hn, hread⟩, h4⟩ := C83_reads_violated
  refine ⟨ops, h1, h2, ?_⟩
  rintro ⟨users, e1, e2, _, e4⟩
  rw [← e1, List.mem_map] at hu
  obtain ⟨p, hp, rfl⟩ := hu
  obtain ⟨_, _, e5⟩ := e4 p hp
  obtain ⟨b, hb, _, hsame⟩ := e5 n hn
  obtain ⟨r, hr⟩ := Option.ne_none_iff_exists'.1 hread
  obtain ⟨r', hr', _⟩ := hsame _ r hr
  cases (h4 p.2 (e2.mem_iff.1 (List.mem_map_of_mem hp)) b hb).symm.trans hr'

/-- C83 is violated for push subscriptions that are for no network: they are not copied. -/
theorem C83_subs_violated : ∃ ops : List PdOp,
    let src := mgSourceOf (pdRun okAll noTrunc ops).1
    let out := mgRun (pdStep okAll noTrunc) 9 (fun m => m) src {}
    out.2 = true ∧ src.users.map (·.id) = (List.range src.users.length).map (· + 1) ∧
    (∃ u ∈ src.users, src.subs u.id 0 ≠ []) ∧ ∀ v ∈ pdListUsers out.1.1, pdListSubs out.1.1 v.id 0 = [] := by
  refine ⟨whole, ?_⟩
  decide +kernel

/-- C83: when the program ends early, a call on the destination has failed; when it does not, none has. -/
theorem C83_failure {S : Type} (step : S → PdOp → S × Option Nat) (init : S) (now : Int)
    (ord : GoMap Str (List PdReceipt) → GoMap Str (List PdReceipt)) (src : MgSource) :
    (mgRun step now ord src init).2 = true ↔ ∀ c ∈ (mgRun step now ord src init).1.2, c.2 ≠ none := by
  have call : ∀ (st : MgSt S) op, (∀ c ∈ st.2, c.2 ≠ none) →
      ((mgCall step st op).2 ≠ none ↔ ∀ c ∈ (mgCall step st op).1.2, c.2 ≠ none) := by
    intro st op h
    unfold mgCall
    simp only [List.mem_append, List.mem_singleton]
    constructor
    · rintro hh c (hc | rfl)
      · exact h c hc
      · exact hh
    · intro hh
      exact hh _ (.inr rfl)
  have each : ∀ {α : Type} (f : MgSt S → α → MgSt S × Bool), (∀ st a, (∀ c ∈ st.2, c.2 ≠ none) →
      ((f st a).2 = true ↔ ∀ c ∈ (f st a).1.2, c.2 ≠ none)) → ∀ (l : List α) st, (∀ c ∈ st.2, c.2 ≠ none) →
      ((mgEach f st l).2 = true ↔ ∀ c ∈ (mgEach f st l).1.2, c.2 ≠ none) := by
    intro α f hf l
    induction l with
    | nil =>
      intro st h
      exact ⟨fun _ => h, fun _ => rfl⟩
    | cons a l ih =>
      intro st h
      have h1 := hf st a h
      rw [mgEach]
      generalize f st a = r at h1
      obtain ⟨st1, b⟩ := r
      cases b with
      | true => exact ih st1 (h1.1 rfl)
      | false => exact h1
  have try_ : ∀ (st : MgSt S) op, (∀ c ∈ st.2, c.2 ≠ none) →
      ((mgTry step st op).2 = true ↔ ∀ c ∈ (mgTry step st op).1.2, c.2 ≠ none) := by
    intro st op h
    rw [← show (mgCall step st op).1 = (mgTry step st op).1 from rfl, ← call st op h]
    unfold mgTry
    cases (mgCall step st op).2 <;> simp
  have net : ∀ user (st : MgSt S) a, (∀ c ∈ st.2, c.2 ≠ none) → ((mgNetwork step now ord src user st a).2 = true ↔
      ∀ c ∈ (mgNetwork step now ord src user st a).1.2, c.2 ≠ none) := by
    intro user st a h
    unfold mgNetwork
    have h1 := call st (.storeNetwork user { a with id := 0 }) h
    generalize mgCall step st (.storeNetwork user { a with id := 0 }) = r at h1
    obtain ⟨st1, res⟩ := r
    cases res with
    | none =>
      simp only at h1 ⊢
      exact ⟨fun e => (by cases e), fun e => absurd rfl (h1.2 e)⟩
    | some b =>
      simp only at h1 ⊢
      have h1 := h1.1 (by simp)
      have h2 := each (fun st c => mgTry step st (.storeChannel b { c with id := 0 })) (fun st c => try_ st _) (src.channels a.id) st1 h1
      generalize mgEach (fun st c => mgTry step st (.storeChannel b { c with id := 0 })) st1 (src.channels a.id) = r2 at h2 ⊢
      obtain ⟨st2, b2⟩ := r2
      cases b2 with
      | false => exact h2
      | true =>
        simp only at h2 ⊢
        have h2 := h2.1 trivial
        have h3 := each (fun st (p : Str × List PdReceipt) => mgTry step st (.storeReceipts b p.1 p.2)) (fun st c => try_ st _)
          (ord (mgGroup (src.receipts a.id))) st2 h2
        generalize mgEach (fun st (p : Str × List PdReceipt) => mgTry step st (.storeReceipts b p.1 p.2)) st2
          (ord (mgGroup (src.receipts a.id))) = r3 at h3 ⊢
        obtain ⟨st3, b3⟩ := r3
        cases b3 with
        | false => exact h3
        | true =>
          simp only at h3 ⊢
          exact each (fun st (s : PdSub) => mgTry step st (.storeSub now user b { s with id := 0 })) (fun st c => try_ st _) _ st3 (h3.1 trivial)
  have user : ∀ (st : MgSt S) u, (∀ c ∈ st.2, c.2 ≠ none) → ((mgUser step now ord src st u).2 = true ↔
      ∀ c ∈ (mgUser step now ord src st u).1.2, c.2 ≠ none) := by
    intro st u h
    unfold mgUser
    have h1 := call st (.storeUser now { u with id := 0 }) h
    generalize mgCall step st (.storeUser now { u with id := 0 }) = r at h1
    obtain ⟨st1, res⟩ := r
    cases res with
    | none =>
      simp only at h1 ⊢
      exact ⟨fun e => (by cases e), fun e => absurd rfl (h1.2 e)⟩
    | some b =>
      simp only at h1 ⊢
      exact each _ (net b) _ st1 (h1.1 (by simp))
  unfold mgRun
  have h1 := each _ user src.users (init, []) (by intro c hc; cases hc)
  generalize mgEach (mgUser step now ord src) (init, []) src.users = r at h1
  obtain ⟨st, b⟩ := r
  cases b with
  | false => exact h1
  | true =>
    simp only at h1 ⊢
    exact each (fun st (c : PdConfig) => mgTry step st (.storeConfig { c with id := 0 })) (fun st c => try_ st _) _ st (h1.1 trivial)

example : (mgRun (pdStep okAll noTrunc) 9 (fun m => m) (mgSourceOf (pdRun okAll noTrunc whole).1) {}).2 = true ∧
    (mgSourceOf (pdRun okAll noTrunc whole).1).users.map (·.id) = [1] ∧
    pdListReceipts (mgRun (pdStep okAll noTrunc) 9 (fun m => m) (mgSourceOf (pdRun okAll noTrunc whole).1) {}).1.1 1 ≠ [] := by
  decide +kernel
example : CommandsOK freenode.connectCommands := ⟨by decide, by intro s hs; cases hs⟩

end Verif.Props
