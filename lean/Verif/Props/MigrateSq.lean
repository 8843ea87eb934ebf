import Verif.Props.MigrateDb
import Verif.Props.SqDb
import Verif.Proof.MigrateSq
import Verif.Proof.GoStr

/-! # C83: moving the data to an SQLite database -/

namespace Verif.Props
open Verif.Model Verif.Spec Verif.Proof

private theorem instant (t : Int) : pdInstant toMillis t = toMillis t := by
  unfold pdInstant toMillis
  split
  · rename_i h; rw [h]; decide
  · rfl

/-- What the program does with an SQLite database as the destination, whatever the identifiers are: everything that was
written can be read again; the users are those of the source, numbered from 1, with their times to the millisecond, and
the user with number `i` has the networks that the user with identifier `i` had in the source. -/
theorem C83_sqlite_effect (now : Int) (hnow : InYears now)
    (ord : GoMap Str (List PdReceipt) → GoMap Str (List PdReceipt)) (hord : ∀ m, (ord m).Perm m) (src : MgSource)
    (hcmd : ∀ u, ∀ a ∈ src.networks u, CommandsOK a.connectCommands) (htime : ∀ u ∈ src.users, InYears u.interactedAt)
    (st : MgSt SqDb) (hr : mgRun sqStep now ord src {} = (st, true)) :
    (sqListUsers st.1).isSome ∧ (∀ u n, (sqListSubs st.1 u n).isSome) ∧
    (mgSourceOfSq st.1).users.Perm (((List.range src.users.length).zip src.users).map (fun p =>
      { p.2 with id := p.1 + 1, interactedAt := toMillis p.2.interactedAt })) ∧
    ((sqListConfigs st.1).map (fun c => (c.pub, c.priv))).Perm (src.configs.map (fun c => (c.pub, c.priv))) ∧
    ∀ i, i < src.users.length → ∃ pairs : List (NetRec × NetRec), pairs.map (·.1) = src.networks (i + 1) ∧
      (pairs.map (·.2)).Perm (sqListNetworks st.1 (i + 1)) ∧
      ∀ p ∈ pairs, MgSameNet src (mgSourceOfSq st.1) (i + 1) (i + 1) p.1 p.2 := by
  have hops := fun Q => mg_ops sqStep now ord src ({} : SqDb) Q
  rw [hr] at hops
  obtain ⟨⟨ops, rfl⟩, h2, h3⟩ := mq_run now ord hord src st hr
  have hmade : ∀ Q : PdOp → Prop, (∀ u ∈ src.users, Q (.storeUser now { u with id := 0 })) →
      (∀ user u, ∀ a ∈ src.networks u, Q (.storeNetwork user { a with id := 0 })) →
      (∀ n c, Q (.storeChannel n c)) → (∀ n c rs, Q (.storeReceipts n c rs)) →
      (∀ u n (s : PdSub), Q (.storeSub now u n { s with id := 0 })) → (∀ c, Q (.storeConfig c)) → ∀ op ∈ ops, Q op := by
    intro Q q1 q2 q3 q4 q5 q6 op hop
    rw [← sq_run_ops ops, List.mem_map] at hop
    obtain ⟨c, hc, rfl⟩ := hop
    exact hops Q q1 q2 q3 q4 q5 q6 c hc
  have ht : SqTimesOK ops := by
    refine ⟨?_, ?_, ?_⟩
    · intro t r hm
      exact hmade (fun op => ∀ t r, op = .storeUser t r → InYears t ∧ InYears r.interactedAt)
        (fun u hu t r e => by cases e; exact ⟨hnow, htime u hu⟩) (fun _ _ _ _ _ _ e => by cases e)
        (fun _ _ _ _ e => by cases e) (fun _ _ _ _ _ e => by cases e) (fun _ _ _ _ _ e => by cases e)
        (fun _ _ _ e => by cases e) _ hm t r rfl
    · intro n r hm
      exact hmade (fun op => ∀ n r, op = .storeRead n r → InYears r.timestamp)
        (fun _ _ _ _ e => by cases e) (fun _ _ _ _ _ _ e => by cases e)
        (fun _ _ _ _ e => by cases e) (fun _ _ _ _ _ e => by cases e) (fun _ _ _ _ _ e => by cases e)
        (fun _ _ _ e => by cases e) _ hm n r rfl
    · intro t u n s hm
      exact hmade (fun op => ∀ t u n s, op = .storeSub t u n s → InYears t)
        (fun _ _ _ _ _ _ e => by cases e) (fun _ _ _ _ _ _ _ _ e => by cases e)
        (fun _ _ _ _ _ _ e => by cases e) (fun _ _ _ _ _ _ _ e => by cases e) (fun _ _ _ _ _ _ _ e => by cases e; exact hnow)
        (fun _ _ _ _ _ e => by cases e) _ hm t u n s rfl
  have hc : PdCommandsOK ops := by
    intro user r hm
    exact hmade (fun op => ∀ user r, op = .storeNetwork user r → CommandsOK r.connectCommands)
      (fun _ _ _ _ e => by cases e) (fun _ u a ha _ _ e => by cases e; exact hcmd u a ha)
      (fun _ _ _ _ e => by cases e) (fun _ _ _ _ _ e => by cases e) (fun _ _ _ _ _ e => by cases e)
      (fun _ _ _ e => by cases e) _ hm user r rfl
  have hrel := sq_rel ops
  obtain ⟨lu, eu, pu⟩ := C84_users ops ht
  refine ⟨by rw [eu]; rfl, fun u n => ?_, ?_, ?_, ?_⟩
  · obtain ⟨ls, es, _⟩ := C84_subs ops ht u n
    rw [es]; rfl
  · show ((sqListUsers (sqRun ops).1).getD []).Perm _
    rw [eu]
    refine pu.trans (List.Perm.of_eq ?_)
    have h2u : (sqKept (sqRun ops).2).users = _ := h2.users
    rw [h2u]
    have := mg_zip_users (toMillis now) toMillis 1 src.users _ (fun _ _ => rfl) (List.range src.users.length) (by simp)
    simp only [instant] at this
    exact this
  · refine ((C84_configs ops).map _).trans (List.Perm.of_eq ?_)
    have := congrArg (List.map (fun c : PdConfig => (c.pub, c.priv))) h3
    rw [List.map_map, List.map_map] at this
    exact this
  · intro i hi
    obtain ⟨ids, l1, l2, l3⟩ := h2.nets i hi
    refine ⟨((src.networks (i + 1)).zip ids).map (fun p => (p.1, keptNetwork { p.1 with id := p.2 })), ?_, ?_, ?_⟩
    · rw [List.map_map]
      show ((src.networks (i + 1)).zip ids).map Prod.fst = _
      rw [List.map_fst_zip (by omega)]
    · refine List.Perm.trans ?_ (C84_networks ops hc (i + 1)).symm
      have l2' : (sqKept (sqRun ops).2).networks.filter (fun p => decide (p.1 = i + 1)) = _ := l2
      rw [l2', List.map_map, List.map_map]
      exact List.Perm.of_eq rfl
    · intro p hp
      rw [List.mem_map] at hp
      obtain ⟨q, hq, rfl⟩ := hp
      have hcop := l3 q hq
      have hid : (keptNetwork { q.1 with id := q.2 }).id = q.2 := rfl
      refine ⟨rfl, ?_, ?_, ?_⟩
      · simp only [hid]
        refine ((C84_channels ops q.2).map _).trans (List.Perm.of_eq ?_)
        have := congrArg (List.map keptChannel) hcop.channels
        rw [List.map_map, List.map_map] at this
        rw [List.map_map]
        exact this
      · simp only [hid]
        refine (C84_receipts ops q.2).trans ?_
        have := hcop.receipts.map (fun r : PdReceipt => (r.target, r.client, r.msgID))
        rw [List.map_map, List.map_map] at this
        exact this
      · simp only [hid]
        obtain ⟨ls, es, ps⟩ := C84_subs ops ht (i + 1) q.2
        show (((sqListSubs (sqRun ops).1 (i + 1) q.2).getD []).map _).Perm _
        rw [es]
        refine (ps.map _).trans (List.Perm.of_eq ?_)
        have hs := hcop.subs
        have hall : ∀ p ∈ (sqKept (sqRun ops).2).subs.filter (fun p => decide (p.2.1 = q.2)), p.1 = i + 1 := by
          intro p hp
          have : (p.1, p.2.2.endpoint, p.2.2.auth, p.2.2.p256dh, p.2.2.vapid) ∈
              (src.subs (i + 1) q.1.id).map (fun s => (i + 1, s.endpoint, s.auth, s.p256dh, s.vapid)) := by
            rw [← hs]
            exact List.mem_map.2 ⟨p, hp, rfl⟩
          rw [List.mem_map] at this
          obtain ⟨s, _, e⟩ := this
          exact (Prod.mk.inj e).1.symm
        have hfil : (sqKept (sqRun ops).2).subs.filter (fun p => decide (p.1 = i + 1 ∧ p.2.1 = q.2)) =
            (sqKept (sqRun ops).2).subs.filter (fun p => decide (p.2.1 = q.2)) := by
          apply List.filter_congr
          intro p hp
          by_cases h1 : p.2.1 = q.2
          · have := hall p (List.mem_filter.2 ⟨hp, decide_eq_true h1⟩)
            simp [h1, this]
          · simp [h1]
        rw [hfil, List.map_map]
        have := congrArg (List.map (fun t : Nat × Str × Str × Str × Str => t.2)) hs
        rw [List.map_map, List.map_map] at this
        exact this

/-- C83: the same with an SQLite database as the destination: if the users of the source have the identifiers 1, 2, … in
the order in which they are listed, every user is copied with the networks, channels, delivery receipts and push
subscriptions of these networks, and so are the keys for push messages.  Missing: as above. -/
theorem C83_sqlite_partial (now : Int) (hnow : InYears now)
    (ord : GoMap Str (List PdReceipt) → GoMap Str (List PdReceipt)) (hord : ∀ m, (ord m).Perm m) (src : MgSource)
    (hcmd : ∀ u, ∀ a ∈ src.networks u, CommandsOK a.connectCommands) (htime : ∀ u ∈ src.users, InYears u.interactedAt)
    (hids : src.users.map (·.id) = (List.range src.users.length).map (· + 1)) (st : MgSt SqDb)
    (hr : mgRun sqStep now ord src {} = (st, true)) :
    ∃ users : List (PdUserRec × PdUserRec), users.map (·.1) = src.users ∧
      (∃ l, sqListUsers st.1 = some l ∧ (users.map (·.2)).Perm l) ∧ (∀ u n, (sqListSubs st.1 u n).isSome) ∧
      ((sqListConfigs st.1).map (fun c => (c.pub, c.priv))).Perm (src.configs.map (fun c => (c.pub, c.priv))) ∧
      ∀ p ∈ users, MgSameUser toMillis src (mgSourceOfSq st.1) p.1 p.2 := by
  obtain ⟨h0, h0', h1, h2, h3⟩ := C83_sqlite_effect now hnow ord hord src hcmd htime st hr
  have hid : ∀ i (h : i < src.users.length), (src.users[i]).id = i + 1 := by
    intro i h
    have := congrArg (fun l => l[i]?) hids
    simp only [List.getElem?_map, List.getElem?_eq_getElem h, Option.map_some] at this
    rw [List.getElem?_range h] at this
    exact Option.some.inj this
  obtain ⟨l, hl⟩ := Option.isSome_iff_exists.1 h0
  have hl' : (mgSourceOfSq st.1).users = l := by
    show (sqListUsers st.1).getD [] = l
    rw [hl]; rfl
  rw [hl'] at h1
  refine ⟨src.users.map (fun u => (u, { u with interactedAt := toMillis u.interactedAt })), ?_, ⟨l, hl, ?_⟩, h0', h2, ?_⟩
  · rw [List.map_map]
    exact List.map_id _
  · refine List.Perm.trans (List.Perm.of_eq ?_) h1.symm
    rw [List.map_map]
    apply List.ext_getElem
    · simp
    · intro i hi1 hi2
      simp only [List.getElem_map, List.getElem_zip, List.getElem_range, Function.comp_apply]
      rw [← hid i (by simpa using hi1)]
  · intro p hp
    rw [List.mem_map] at hp
    obtain ⟨u, hu, rfl⟩ := hp
    obtain ⟨i, hi, rfl⟩ := List.getElem_of_mem hu
    refine ⟨by rw [instant], ?_⟩
    have := h3 i hi
    rw [← hid i hi] at this
    exact this

private def eve : PdUserRec := { username := b!"eve", password := b!"hash", nick := b!"eve" }
private def oftc : NetRec := { name := b!"oftc", addr := b!"irc.oftc.net", pass := b!"secret of eve", nick := b!"eve" }

/-- The first user is deleted, so that eve has the identifier 2 and bob 3. -/
private def hole : List PdOp :=
  [.storeUser 1 { eve with username := b!"root" }, .storeUser 2 eve, .storeUser 3 { eve with username := b!"bob" },
   .deleteUser 1, .storeNetwork 2 oftc, .storeChannel 1 ⟨0, b!"#soju", [], false, [], 0, 0, 0, 0⟩]

/-- C83 is violated when identifiers have gaps, with SQLite as well: after a migration without any error from an SQLite
database to another, bob, who had no network, has the network of eve, with its password. -/
theorem C83_sqlite_violated : ∃ ops : List PdOp,
    let src := mgSourceOfSq (sqRun ops).1
    let out := mgRun sqStep 9 (fun m => m) src {}
    let dst := mgSourceOfSq out.1.1
    out.2 = true ∧ ∃ u ∈ src.users, u.username = b!"bob" ∧ src.networks u.id = [] ∧
      ∃ v ∈ dst.users, v.username = b!"bob" ∧ ∃ n ∈ dst.networks v.id, n.pass = b!"secret of eve" := by
  refine ⟨hole, ?_⟩
  decide +kernel

/-- One user, with delivery receipts of two clients. -/
private def filled : List PdOp :=
  [.storeUser 1 eve, .storeNetwork 1 oftc, .storeChannel 1 ⟨0, b!"#soju", [], false, [], 0, 0, 0, 0⟩,
   .storeReceipts 1 b!"phone" [⟨0, b!"#soju", [], b!"7"⟩], .storeReceipts 1 [] [⟨0, b!"#soju", [], b!"8"⟩],
   .storeSub 2 1 1 ⟨0, b!"https://other", 0, 0, b!"a", b!"p", b!"v"⟩, .storeConfig ⟨0, b!"pub", b!"priv"⟩]

example : (mgRun sqStep 9 (fun m => m) (mgSourceOfSq (sqRun filled).1) {}).2 = true ∧
    (mgSourceOfSq (sqRun filled).1).users.map (·.id) = [1] ∧
    sqListReceipts (mgRun sqStep 9 (fun m => m) (mgSourceOfSq (sqRun filled).1) {}).1.1 1 ≠ [] := by
  decide +kernel
example : ∀ u ∈ (mgSourceOfSq (sqRun filled).1).users, InYears u.interactedAt := by
  unfold InYears; decide +kernel
example : InYears 9 := by unfold InYears; decide

/-! ## Naming the databases -/

/-- The name of a kind of database in the configuration file and on the command line. -/
def mgDriverName : MgDriver → Str
  | .sqlite => b!"sqlite3"
  | .postgres => b!"postgres"

private theorem driver_iff (x : Str) (d : MgDriver) : mgDriver x = some d ↔ x = mgDriverName d := by
  unfold mgDriver
  constructor
  · intro h
    split at h
    · rename_i e; cases h; exact e
    · split at h
      · rename_i e; cases h; exact e
      · cases h
  · rintro rfl
    cases d <;> decide

/-- C83: an argument is taken for a database exactly if it is a kind of database, a colon and a source without a colon; the
source is then passed on as it is.  Missing: sources with a colon, see below. -/
theorem C83_named_partial (arg source : Str) (d : MgDriver) :
    mgNamed arg = some (d, source) ↔ arg = mgDriverName d ++ b!":" ++ source ∧ 58 ∉ source := by
  unfold mgNamed
  constructor
  · intro h
    split at h
    · rename_i x y e
      have hf := splitByte_mem_free 58 arg
      have hj := joinStr_splitByte 58 arg
      rw [e] at hf hj
      cases hd : mgDriver x with
      | none => rw [hd] at h; cases h
      | some d' =>
        rw [hd] at h
        cases h
        rw [driver_iff] at hd
        rw [← hj, hd]
        exact ⟨rfl, hf source (by simp)⟩
    · cases h
  · rintro ⟨rfl, hs⟩
    have e : splitByte 58 (mgDriverName d ++ b!":" ++ source) = [mgDriverName d, source] := by
      rw [List.append_assoc]
      show splitByte 58 (mgDriverName d ++ 58 :: source) = _
      rw [splitByte_append, splitByte_free 58 source hs, splitByte_free 58 _ (by cases d <;> decide)]
      rfl
    rw [e]
    simp only
    rw [(driver_iff _ d).2 rfl]
    rfl

/-- C83 is violated for databases whose source has a colon, such as `postgres://soju@db/soju` or `C:/soju.db`, which the
configuration file takes: the program refuses them. -/
theorem C83_named_violated (d : MgDriver) (source : Str) (h : 58 ∈ source) :
    mgNamed (mgDriverName d ++ b!":" ++ source) = none := by
  have e : splitByte 58 (mgDriverName d ++ b!":" ++ source) = mgDriverName d :: splitByte 58 source := by
    rw [List.append_assoc]
    show splitByte 58 (mgDriverName d ++ 58 :: source) = _
    rw [splitByte_append, splitByte_free 58 _ (by cases d <;> decide)]
    rfl
  obtain ⟨a, b, rfl⟩ := List.append_of_mem h
  rw [splitByte_append] at e
  unfold mgNamed
  rw [e]
  obtain ⟨x, xs, ex⟩ := List.exists_cons_of_ne_nil (splitByte_ne_nil 58 a)
  obtain ⟨y, ys, ey⟩ := List.exists_cons_of_ne_nil (splitByte_ne_nil 58 b)
  rw [ex, ey]
  cases xs <;> rfl

example : mgNamed b!"sqlite3:/var/lib/soju/main.db" = some (.sqlite, b!"/var/lib/soju/main.db") := by decide +kernel
example : (58 : Nat) ∈ b!"postgres://soju@db/soju" := by decide

end Verif.Props
