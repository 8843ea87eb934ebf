import Verif.Model.Stats
import Verif.Proof.Util
import Verif.Proof.GoMap

/-! # C115: what an administrator is told about the whole server, and tells everybody

Only part of the property holds: the number of servers is that of the attempts, and `server notice` counts users where it says
connections. -/

namespace Verif.Props
open Verif.Model Verif.Proof

/-- A client of `u` that was welcomed, and whose connection has not ended. -/
def NtClient (st : NtState) (u id : Nat) : Prop := GoMap.get st.conns id = some (.user u true)

instance (st : NtState) (u id : Nat) : Decidable (NtClient st u id) := inferInstanceAs (Decidable (_ = _))

/-! ## Lemmas -/

private theorem nt_snoc (ops : List NtOp) (op : NtOp) : ntRun (ops ++ [op]) = ntStep (ntRun ops) op := by
  simp [ntRun]

private theorem set_length {V : Type} (m : GoMap Nat V) (k : Nat) (v : V) :
    (GoMap.set m k v).length = if (GoMap.get m k).isSome then m.length else m.length + 1 := by
  induction m with
  | nil => simp [GoMap.set, GoMap.get]
  | cons p m ih =>
    obtain ⟨k', e⟩ := p
    by_cases h : k' = k
    · simp [GoMap.set, GoMap.get, h]
    · simp only [GoMap.set, GoMap.get, if_neg h, List.length_cons, ih]
      split <;> rfl

private theorem del_length {V : Type} (m : GoMap Nat V) (nd : (m.map (·.1)).Nodup) (k : Nat) :
    (GoMap.del m k).length = if (GoMap.get m k).isSome then m.length - 1 else m.length := by
  induction m with
  | nil => rfl
  | cons p m ih =>
    obtain ⟨k', e⟩ := p
    simp only [List.map_cons, List.nodup_cons] at nd
    have ih := ih nd.2
    by_cases h : k' = k
    · have hn : GoMap.get m k = none := mget_none_iff.2 (by rw [← h]; exact nd.1)
      rw [hn] at ih
      have hl : GoMap.del ((k', e) :: m) k = GoMap.del m k := by simp [GoMap.del, h]
      rw [hl]
      simp [GoMap.get, h] at ih ⊢
      exact ih
    · have hl : GoMap.del ((k', e) :: m) k = (k', e) :: GoMap.del m k := by simp [GoMap.del, h]
      rw [hl, List.length_cons, ih]
      simp only [GoMap.get, if_neg h, List.length_cons]
      split
      · rename_i hs
        have : 0 < m.length := by
          cases m with
          | nil => simp [GoMap.get] at hs
          | cons _ _ => simp
        omega
      · rfl

private theorem get_map {V : Type} (m : GoMap Nat V) (f : Nat → V → V) (k : Nat) :
    GoMap.get (m.map (fun p => (p.1, f p.1 p.2))) k = (GoMap.get m k).map (f k) := by
  induction m with
  | nil => rfl
  | cons p m ih =>
    obtain ⟨k', e⟩ := p
    by_cases h : k' = k
    · subst h; simp [GoMap.get]
    · simp only [List.map_cons, GoMap.get, if_neg h]
      exact ih

private theorem get_send (users : GoMap Nat NtUser) (u w : Nat) (e : NtEvent) :
    GoMap.get (ntSend users u e) w =
      if w = u then (GoMap.get users u).map (fun v => { v with queue := v.queue ++ [e] }) else GoMap.get users w := by
  unfold ntSend
  cases h : GoMap.get users u with
  | none =>
    dsimp only
    split
    · rename_i h'; rw [h', h]; rfl
    · rfl
  | some v =>
    dsimp only
    rw [mget_mset]
    by_cases h' : u = w
    · rw [if_pos h', if_pos h'.symm]; rfl
    · rw [if_neg h', if_neg (fun e => h' e.symm)]

/-- The clients once the events are handled. -/
private def after (q : List NtEvent) (clients : List Nat) : List Nat := q.foldl (fun c e => (ntHandle c e).1) clients

/-- The clients that will be added. -/
private def adds (q : List NtEvent) : List Nat := q.filterMap (fun e => match e with
  | .connected id true => some id
  | _ => none)

private theorem after_nodup : ∀ (q : List NtEvent) (c : List Nat), (c ++ adds q).Nodup →
    (after q c).Nodup ∧ ∀ id ∈ after q c, id ∈ c ++ adds q := by
  intro q
  induction q with
  | nil => intro c h; exact ⟨by simpa [adds, after] using h, fun id h => by simpa [adds, after] using h⟩
  | cons e q ih =>
    intro c h
    cases e with
    | connected id ok =>
      cases ok with
      | true =>
        have h' : ((c ++ [id]) ++ adds q).Nodup := by simpa [adds] using h
        obtain ⟨a, b⟩ := ih (c ++ [id]) h'
        exact ⟨a, fun x hx => by have := b x hx; simpa [adds] using this⟩
      | false =>
        obtain ⟨a, b⟩ := ih c (by simpa [adds] using h)
        exact ⟨a, fun x hx => by have := b x hx; simpa [adds] using this⟩
    | disconnected id =>
      have h0 : (c ++ adds q).Nodup := by simpa [adds] using h
      have h' : (c.erase id ++ adds q).Nodup := h0.sublist ((List.erase_sublist).append (List.Sublist.refl _))
      obtain ⟨a, b⟩ := ih (c.erase id) h'
      refine ⟨a, fun x hx => ?_⟩
      have := b x hx
      rcases List.mem_append.1 this with h1 | h1
      · exact List.mem_append_left _ (List.mem_of_mem_erase h1)
      · exact List.mem_append_right _ (by simpa [adds] using h1)
    | notice n =>
      obtain ⟨a, b⟩ := ih c (by simpa [adds] using h)
      exact ⟨a, fun x hx => by have := b x hx; simpa [adds] using this⟩

private structure NtInv (st : NtState) : Prop where
  usersNd : (st.users.map (·.1)).Nodup
  connsNd : (st.conns.map (·.1)).Nodup
  triesNd : (st.tries.map (·.1)).Nodup
  down : st.downstreams = st.conns.length
  up : st.upstreams = st.tries.length
  fresh : ∀ id s, GoMap.get st.conns id = some s → id ≤ st.lastConn
  freshUser : ∀ id u ok, GoMap.get st.conns id = some (.user u ok) → u ≤ st.lastUser
  mem : ∀ u v, GoMap.get st.users u = some v → ∀ id, id ∈ after v.queue v.clients ↔ NtClient st u id
  nodup : ∀ u v, GoMap.get st.users u = some v → (v.clients ++ adds v.queue).Nodup
  known : ∀ u v, GoMap.get st.users u = some v → ∀ id ∈ v.clients ++ adds v.queue,
    id ≤ st.lastConn ∧ GoMap.get st.conns id ≠ some .greeting
  userLe : ∀ u v, GoMap.get st.users u = some v → u ≤ st.lastUser

private theorem inv_start {st : NtState} (i : NtInv st) : NtInv (ntStep st .start) := by
  have hg : ∀ u, GoMap.get (GoMap.set st.users (st.lastUser + 1) (⟨[], []⟩ : NtUser)) u =
      if st.lastUser + 1 = u then some ⟨[], []⟩ else GoMap.get st.users u := fun u => mget_mset _ _ _ _
  unfold ntStep
  refine ⟨mset_nodup i.usersNd _ _, i.connsNd, i.triesNd, i.down, i.up, i.fresh, ?_, ?_, ?_, ?_, ?_⟩
  · intro id u ok h
    have := i.freshUser id u ok h
    show u ≤ st.lastUser + 1
    omega
  · intro u v h id
    rw [hg] at h
    split at h
    · rename_i e
      cases h
      constructor
      · intro h; cases h
      · intro hc
        have := i.freshUser id u true hc
        omega
    · exact i.mem u v h id
  · intro u v h
    rw [hg] at h
    split at h
    · cases h; simp [adds]
    · exact i.nodup u v h
  · intro u v h
    rw [hg] at h
    split at h
    · cases h; intro id h; simp [adds] at h
    · exact i.known u v h
  · intro u v h
    rw [hg] at h
    split at h
    · rename_i e; show u ≤ st.lastUser + 1; omega
    · have := i.userLe u v h
      show u ≤ st.lastUser + 1
      omega

private theorem inv_ended {st : NtState} (i : NtInv st) (x : Nat) : NtInv (ntStep st (.ended x)) := by
  have hg : ∀ u v, GoMap.get (GoMap.del st.users x) u = some v → GoMap.get st.users u = some v := by
    intro u v h
    rw [mget_mdel] at h
    split at h
    · cases h
    · exact h
  unfold ntStep
  exact ⟨mdel_nodup i.usersNd _, i.connsNd, i.triesNd, i.down, i.up, i.fresh, i.freshUser, fun u v h => i.mem u v (hg u v h),
    fun u v h => i.nodup u v (hg u v h), fun u v h => i.known u v (hg u v h), fun u v h => i.userLe u v (hg u v h)⟩

private theorem inv_accept {st : NtState} (i : NtInv st) : NtInv (ntStep st .accept) := by
  have hn : GoMap.get st.conns (st.lastConn + 1) = none := by
    cases h : GoMap.get st.conns (st.lastConn + 1) with
    | none => rfl
    | some s => have := i.fresh _ _ h; omega
  have hg : ∀ id, GoMap.get (GoMap.set st.conns (st.lastConn + 1) NtStage.greeting) id =
      if st.lastConn + 1 = id then some .greeting else GoMap.get st.conns id := fun id => mget_mset _ _ _ _
  unfold ntStep
  refine ⟨i.usersNd, mset_nodup i.connsNd _ _, i.triesNd, ?_, i.up, ?_, ?_, ?_, i.nodup, ?_, i.userLe⟩
  · show st.downstreams + 1 = _
    rw [set_length, hn, i.down]
    simp
  · intro id s h
    show id ≤ st.lastConn + 1
    rw [hg] at h
    split at h
    · omega
    · have := i.fresh id s h; omega
  · intro id u ok h
    rw [hg] at h
    split at h
    · cases h
    · exact i.freshUser id u ok h
  · intro u v h id
    rw [i.mem u v h id]
    unfold NtClient
    dsimp only
    rw [hg]
    split
    · rename_i e; rw [← e, hn]; simp
    · rfl
  · intro u v h id hid
    obtain ⟨h1, h2⟩ := i.known u v h id hid
    refine ⟨by show id ≤ st.lastConn + 1; omega, ?_⟩
    dsimp only
    rw [hg, if_neg (by omega)]
    exact h2

private theorem inv_login {st : NtState} (i : NtInv st) (id u : Nat) (ok : Bool) : NtInv (ntStep st (.login id u ok)) := by
  unfold ntStep
  dsimp only
  split
  · rename_i hc
    obtain ⟨hgr, hu⟩ := hc
    have hg : ∀ x, GoMap.get (GoMap.set st.conns id (NtStage.user u ok)) x =
        if id = x then some (.user u ok) else GoMap.get st.conns x := fun x => mget_mset _ _ _ _
    have hsplit : ∀ w v', GoMap.get (ntSend st.users u (.connected id ok)) w = some v' →
        ∃ v, GoMap.get st.users w = some v ∧ ((w = u ∧ v' = { v with queue := v.queue ++ [.connected id ok] }) ∨ (w ≠ u ∧ v' = v)) := by
      intro w v' h
      rw [get_send] at h
      split at h
      · rename_i e
        rw [Option.map_eq_some_iff] at h
        obtain ⟨v, hv, rfl⟩ := h
        exact ⟨v, by rw [e]; exact hv, .inl ⟨e, rfl⟩⟩
      · rename_i e
        exact ⟨v', h, .inr ⟨e, rfl⟩⟩
    have hnew : ∀ w v, GoMap.get st.users w = some v → id ∉ v.clients ++ adds v.queue := fun w v hv hm =>
      (i.known w v hv id hm).2 hgr
    refine ⟨?_, mset_nodup i.connsNd _ _, i.triesNd, ?_, i.up, ?_, ?_, ?_, ?_, ?_, ?_⟩
    · show ((ntSend st.users u (.connected id ok)).map (·.1)).Nodup
      unfold ntSend
      split
      · exact mset_nodup i.usersNd _ _
      · exact i.usersNd
    · show st.downstreams = _
      rw [set_length, hgr, i.down]
      simp
    · intro x s h
      rw [hg] at h
      split at h
      · rename_i e; rw [← e]; exact i.fresh id _ hgr
      · exact i.fresh x s h
    · intro x w o h
      rw [hg] at h
      split at h
      · cases h
        obtain ⟨v, hv⟩ := Option.isSome_iff_exists.1 hu
        exact i.userLe _ v hv
      · exact i.freshUser x w o h
    · intro w v' h x
      obtain ⟨v, hv, hcase⟩ := hsplit w v' h
      have hm := i.mem w v hv x
      unfold NtClient at hm ⊢
      dsimp only
      rw [hg]
      rcases hcase with ⟨rfl, rfl⟩ | ⟨hne, rfl⟩
      · have ha : after (v.queue ++ [NtEvent.connected id ok]) v.clients =
            if ok then after v.queue v.clients ++ [id] else after v.queue v.clients := by
          unfold after
          rw [List.foldl_append]
          rfl
        dsimp only
        rw [ha]
        by_cases hx : id = x
        · subst hx
          rw [if_pos rfl]
          have hno : id ∉ after v.queue v.clients := fun h =>
            hnew w v hv ((after_nodup _ _ (i.nodup w v hv)).2 id h)
          cases ok <;> simp [hno]
        · rw [if_neg hx]
          cases ok
          · simpa using hm
          · simp only [if_true, List.mem_append, List.mem_singleton, hm]
            constructor
            · rintro (h | h)
              · exact h
              · exact absurd h.symm hx
            · exact Or.inl
      · rw [hm]
        by_cases hx : id = x
        · subst hx
          rw [if_pos rfl, hgr]
          constructor
          · intro h; cases h
          · intro h
            have := Option.some.inj h
            simp only [NtStage.user.injEq] at this
            exact absurd this.1.symm hne
        · rw [if_neg hx]
    · intro w v' h
      obtain ⟨v, hv, hcase⟩ := hsplit w v' h
      have hm := i.nodup w v hv
      rcases hcase with ⟨rfl, rfl⟩ | ⟨hne, rfl⟩
      · cases ok
        · simpa [adds] using hm
        · have : adds (v.queue ++ [NtEvent.connected id true]) = adds v.queue ++ [id] := by simp [adds]
          dsimp only
          rw [this, ← List.append_assoc]
          have hn := hnew w v hv
          rw [List.nodup_append]
          refine ⟨hm, by simp, ?_⟩
          intro a ha b hb e
          rw [List.mem_singleton.1 hb] at e
          exact hn (e ▸ ha)
      · exact hm
    · intro w v' h x hx
      obtain ⟨v, hv, hcase⟩ := hsplit w v' h
      dsimp only
      rw [hg]
      rcases hcase with ⟨rfl, rfl⟩ | ⟨hne, rfl⟩
      · have : x ∈ v.clients ++ adds v.queue ∨ x = id := by
          dsimp only at hx
          rcases List.mem_append.1 hx with h | h
          · exact .inl (List.mem_append_left _ h)
          · unfold adds at h
            rw [List.filterMap_append] at h
            rcases List.mem_append.1 h with h | h
            · exact .inl (List.mem_append_right _ h)
            · cases ok <;> simp at h
              exact .inr h
        rcases this with h | rfl
        · obtain ⟨h1, h2⟩ := i.known w v hv x h
          refine ⟨h1, ?_⟩
          split
          · intro h; cases h
          · exact h2
        · exact ⟨i.fresh x _ hgr, by rw [if_pos rfl]; intro h; cases h⟩
      · obtain ⟨h1, h2⟩ := i.known w v' hv x hx
        refine ⟨h1, ?_⟩
        split
        · intro h; cases h
        · exact h2
    · intro w v' h
      obtain ⟨v, hv, -⟩ := hsplit w v' h
      exact i.userLe w v hv
  · exact i

private theorem inv_logout {st : NtState} (i : NtInv st) (id : Nat) : NtInv (ntStep st (.logout id)) := by
  unfold ntStep
  dsimp only
  split
  · rename_i u ok hst
    have hg : ∀ x, GoMap.get (GoMap.set st.conns id NtStage.leaving) x =
        if id = x then some .leaving else GoMap.get st.conns x := fun x => mget_mset _ _ _ _
    have hsplit : ∀ w v', GoMap.get (ntSend st.users u (.disconnected id)) w = some v' →
        ∃ v, GoMap.get st.users w = some v ∧ ((w = u ∧ v' = { v with queue := v.queue ++ [.disconnected id] }) ∨ (w ≠ u ∧ v' = v)) := by
      intro w v' h
      rw [get_send] at h
      split at h
      · rename_i e
        rw [Option.map_eq_some_iff] at h
        obtain ⟨v, hv, rfl⟩ := h
        exact ⟨v, by rw [e]; exact hv, .inl ⟨e, rfl⟩⟩
      · rename_i e
        exact ⟨v', h, .inr ⟨e, rfl⟩⟩
    have hadds : ∀ q : List NtEvent, adds (q ++ [NtEvent.disconnected id]) = adds q := by intro q; simp [adds]
    refine ⟨?_, mset_nodup i.connsNd _ _, i.triesNd, ?_, i.up, ?_, ?_, ?_, ?_, ?_, ?_⟩
    · show ((ntSend st.users u (.disconnected id)).map (·.1)).Nodup
      unfold ntSend
      split
      · exact mset_nodup i.usersNd _ _
      · exact i.usersNd
    · show st.downstreams = _
      rw [set_length, hst, i.down]
      simp
    · intro x s h
      rw [hg] at h
      split at h
      · rename_i e; rw [← e]; exact i.fresh id _ hst
      · exact i.fresh x s h
    · intro x w o h
      rw [hg] at h
      split at h
      · cases h
      · exact i.freshUser x w o h
    · intro w v' h x
      obtain ⟨v, hv, hcase⟩ := hsplit w v' h
      have hm := i.mem w v hv x
      unfold NtClient at hm ⊢
      dsimp only
      rw [hg]
      rcases hcase with ⟨rfl, rfl⟩ | ⟨hne, rfl⟩
      · have ha : after (v.queue ++ [NtEvent.disconnected id]) v.clients = (after v.queue v.clients).erase id := by
          unfold after
          rw [List.foldl_append]
          rfl
        have hnd := (after_nodup _ _ (i.nodup w v hv)).1
        dsimp only
        rw [ha, hnd.mem_erase_iff, hm]
        by_cases hx : id = x
        · subst hx
          rw [if_pos rfl]
          simp
        · rw [if_neg hx]
          constructor
          · exact fun h => h.2
          · exact fun h => ⟨fun e => hx e.symm, h⟩
      · rw [hm]
        by_cases hx : id = x
        · subst hx
          rw [if_pos rfl, hst]
          constructor
          · intro h
            have := Option.some.inj h
            simp only [NtStage.user.injEq] at this
            exact absurd this.1.symm hne
          · intro h; cases h
        · rw [if_neg hx]
    · intro w v' h
      obtain ⟨v, hv, hcase⟩ := hsplit w v' h
      have hm := i.nodup w v hv
      rcases hcase with ⟨rfl, rfl⟩ | ⟨hne, rfl⟩
      · dsimp only; rw [hadds]; exact hm
      · exact hm
    · intro w v' h x hx
      obtain ⟨v, hv, hcase⟩ := hsplit w v' h
      have hx' : x ∈ v.clients ++ adds v.queue := by
        rcases hcase with ⟨rfl, rfl⟩ | ⟨hne, rfl⟩
        · dsimp only at hx; rw [hadds] at hx; exact hx
        · exact hx
      obtain ⟨h1, h2⟩ := i.known w v hv x hx'
      refine ⟨h1, ?_⟩
      dsimp only
      rw [hg]
      split
      · intro h; cases h
      · exact h2
    · intro w v' h
      obtain ⟨v, hv, -⟩ := hsplit w v' h
      exact i.userLe w v hv
  · exact i

private theorem inv_closed {st : NtState} (i : NtInv st) (id : Nat) : NtInv (ntStep st (.closed id)) := by
  unfold ntStep
  dsimp only
  split
  · rename_i hc
    have hg : ∀ x, GoMap.get (GoMap.del st.conns id) x = if id = x then none else GoMap.get st.conns x := by
      intro x; rw [mget_mdel]
    have hsome : (GoMap.get st.conns id).isSome = true := by rcases hc with h | h <;> rw [h] <;> rfl
    refine ⟨i.usersNd, mdel_nodup i.connsNd _, i.triesNd, ?_, i.up, ?_, ?_, ?_, i.nodup, ?_, i.userLe⟩
    · show st.downstreams - 1 = _
      rw [del_length _ i.connsNd, if_pos hsome, i.down]
      have : 0 < st.conns.length := by
        cases h : st.conns with
        | nil => rw [h] at hsome; cases hsome
        | cons _ _ => simp
      omega
    · intro x s h
      rw [hg] at h
      split at h
      · cases h
      · exact i.fresh x s h
    · intro x w o h
      rw [hg] at h
      split at h
      · cases h
      · exact i.freshUser x w o h
    · intro w v h x
      rw [i.mem w v h x]
      unfold NtClient
      dsimp only
      rw [hg]
      split
      · rename_i e
        rw [← e]
        rcases hc with h | h <;> rw [h] <;> simp
      · rfl
    · intro w v h x hx
      obtain ⟨h1, h2⟩ := i.known w v h x hx
      refine ⟨h1, ?_⟩
      dsimp only
      rw [hg]
      split
      · intro h; cases h
      · exact h2
  · exact i

private theorem inv_handle {st : NtState} (i : NtInv st) (x : Nat) : NtInv (ntStep st (.handle x)) := by
  unfold ntStep
  dsimp only
  split
  · rename_i e q c hu
    have hg : ∀ u, GoMap.get (GoMap.set st.users x (⟨q, (ntHandle c e).1⟩ : NtUser)) u =
        if x = u then some ⟨q, (ntHandle c e).1⟩ else GoMap.get st.users u := fun u => mget_mset _ _ _ _
    have hnd := i.nodup x _ hu
    have hkn := i.known x _ hu
    have hsub : ∀ id ∈ (ntHandle c e).1 ++ adds q, id ∈ c ++ adds (e :: q) := by
      intro id h
      cases e with
      | connected y ok => cases ok <;> simpa [ntHandle, adds] using h
      | disconnected y =>
        rcases List.mem_append.1 h with h | h
        · exact List.mem_append_left _ (List.mem_of_mem_erase h)
        · exact List.mem_append_right _ h
      | notice n => exact h
    refine ⟨mset_nodup i.usersNd _ _, i.connsNd, i.triesNd, i.down, i.up, i.fresh, i.freshUser, ?_, ?_, ?_, ?_⟩
    · intro u v h id
      rw [hg] at h
      split at h
      · rename_i he
        subst he
        cases h
        exact i.mem x _ hu id
      · exact i.mem u v h id
    · intro u v h
      rw [hg] at h
      split at h
      · cases h
        dsimp only at hnd ⊢
        cases e with
        | connected y ok => cases ok <;> simpa [ntHandle, adds] using hnd
        | disconnected y => exact hnd.sublist ((List.erase_sublist).append (List.Sublist.refl _))
        | notice n => exact hnd
      · exact i.nodup u v h
    · intro u v h id hid
      rw [hg] at h
      split at h
      · cases h
        exact hkn id (hsub id hid)
      · exact i.known u v h id hid
    · intro u v h
      rw [hg] at h
      split at h
      · rename_i he; subst he; exact i.userLe x _ hu
      · exact i.userLe u v h
  · exact i

private theorem inv_notice {st : NtState} (i : NtInv st) (n : Nat) (reached : List Nat) : NtInv (ntStep st (.notice n reached)) := by
  have hg : ∀ u, GoMap.get (st.users.map (fun p =>
      (p.1, if p.1 ∈ reached then { p.2 with queue := p.2.queue ++ [NtEvent.notice n] } else p.2))) u =
      (GoMap.get st.users u).map (fun v => if u ∈ reached then { v with queue := v.queue ++ [NtEvent.notice n] } else v) := by
    intro u
    exact get_map st.users (fun k v => if k ∈ reached then { v with queue := v.queue ++ [NtEvent.notice n] } else v) u
  have hsplit : ∀ u v', (GoMap.get st.users u).map (fun v => if u ∈ reached then { v with queue := v.queue ++ [NtEvent.notice n] } else v) = some v' →
      ∃ v, GoMap.get st.users u = some v ∧ v'.clients = v.clients ∧ after v'.queue v'.clients = after v.queue v.clients ∧
        adds v'.queue = adds v.queue := by
    intro u v' h
    rw [Option.map_eq_some_iff] at h
    obtain ⟨v, hv, rfl⟩ := h
    refine ⟨v, hv, ?_⟩
    split
    · refine ⟨rfl, ?_, by simp [adds]⟩
      unfold after
      rw [List.foldl_append]
      rfl
    · exact ⟨rfl, rfl, rfl⟩
  unfold ntStep
  refine ⟨?_, i.connsNd, i.triesNd, i.down, i.up, i.fresh, i.freshUser, ?_, ?_, ?_, ?_⟩
  · dsimp only
    rw [List.map_map]
    exact i.usersNd
  · intro u v' h id
    dsimp only at h
    rw [hg] at h
    obtain ⟨v, hv, h1, h2, h3⟩ := hsplit u v' h
    rw [h2]
    exact i.mem u v hv id
  · intro u v' h
    dsimp only at h
    rw [hg] at h
    obtain ⟨v, hv, h1, h2, h3⟩ := hsplit u v' h
    rw [h1, h3]
    exact i.nodup u v hv
  · intro u v' h id hid
    dsimp only at h
    rw [hg] at h
    obtain ⟨v, hv, h1, h2, h3⟩ := hsplit u v' h
    rw [h1, h3] at hid
    exact i.known u v hv id hid
  · intro u v' h
    dsimp only at h
    rw [hg] at h
    obtain ⟨v, hv, -⟩ := hsplit u v' h
    exact i.userLe u v hv

private theorem inv_run (ops : List NtOp) : NtInv (ntRun ops) := by
  induction ops using snocInd with
  | nil =>
    exact ⟨List.nodup_nil, List.nodup_nil, List.nodup_nil, rfl, rfl, (fun _ _ h => by cases h), (fun _ _ _ h => by cases h),
      (fun _ _ h => by cases h), (fun _ _ h => by cases h), (fun _ _ h => by cases h), (fun _ _ h => by cases h)⟩
  | snoc ops op ih =>
    rw [nt_snoc]
    generalize ntRun ops = st at ih
    cases op with
    | start => exact inv_start ih
    | ended u => exact inv_ended ih u
    | accept => exact inv_accept ih
    | login id u ok => exact inv_login ih id u ok
    | logout id => exact inv_logout ih id
    | closed id => exact inv_closed ih id
    | handle u => exact inv_handle ih u
    | notice n r => exact inv_notice ih n r
    | try_ net =>
      unfold ntStep
      dsimp only
      split
      · rename_i h
        refine ⟨ih.usersNd, ih.connsNd, mset_nodup ih.triesNd _ _, ih.down, ?_, ih.fresh, ih.freshUser, ih.mem, ih.nodup, ih.known, ih.userLe⟩
        show st.upstreams + 1 = _
        have hn : GoMap.get st.tries net = none := by simpa using h
        rw [set_length, hn, ih.up]
        simp
      · exact ih
    | established net =>
      unfold ntStep
      dsimp only
      split
      · rename_i h
        refine ⟨ih.usersNd, ih.connsNd, mset_nodup ih.triesNd _ _, ih.down, ?_, ih.fresh, ih.freshUser, ih.mem, ih.nodup, ih.known, ih.userLe⟩
        show st.upstreams = _
        rw [set_length, if_pos h, ih.up]
      · exact ih
    | tried net =>
      unfold ntStep
      dsimp only
      split
      · rename_i h
        refine ⟨ih.usersNd, ih.connsNd, mdel_nodup ih.triesNd _, ih.down, ?_, ih.fresh, ih.freshUser, ih.mem, ih.nodup, ih.known, ih.userLe⟩
        show st.upstreams - 1 = _
        rw [del_length _ ih.triesNd, if_pos h, ih.up]
        have : 0 < st.tries.length := by
          cases hl : st.tries with
          | nil => rw [hl] at h; cases h
          | cons _ _ => simp
        omega
      · exact ih

/-! ## The figures -/

/-- The servers the bouncer is connected to. -/
def establishedCount (st : NtState) : Nat := (st.tries.filter (·.2)).length

/-- `server status` tells how many users there are, and how many connections of clients are open.  For servers only a bound holds: it
counts the attempts to connect as well. -/
theorem C115_figures_partial (ops : List NtOp) :
    ntStats (ntRun ops) = ((ntRun ops).users.length, ((ntRun ops).conns.length : Int), ((ntRun ops).tries.length : Int)) ∧
    ((ntRun ops).users.map (·.1)).Nodup ∧ ((ntRun ops).conns.map (·.1)).Nodup ∧ ((ntRun ops).tries.map (·.1)).Nodup ∧
    (establishedCount (ntRun ops) : Int) ≤ (ntStats (ntRun ops)).2.2 := by
  have i := inv_run ops
  refine ⟨?_, i.usersNd, i.connsNd, i.triesNd, ?_⟩
  · unfold ntStats
    rw [i.down, i.up]
  · show _ ≤ (ntRun ops).upstreams
    rw [i.up]
    exact Int.ofNat_le.2 (List.length_filter_le _ _)

/-- A network whose server cannot be reached counts as a connection to a server. -/
theorem C115_upstreams_violated :
    ∃ ops, establishedCount (ntRun ops) = 0 ∧ (ntStats (ntRun ops)).2.2 = 1 :=
  ⟨[.start, .try_ 1], by decide, by decide⟩

/-! ## Notices -/

private theorem unheard (n : Nat) (ops : List NtOp) (h : ∀ r, NtOp.notice n r ∉ ops) :
    (∀ u v, GoMap.get (ntRun ops).users u = some v → NtEvent.notice n ∉ v.queue) ∧ ∀ u id, (u, id, n) ∉ (ntRun ops).got := by
  induction ops using snocInd with
  | nil => exact ⟨(fun _ _ h => by cases h), (fun _ _ h => by cases h)⟩
  | snoc ops op ih =>
    obtain ⟨h1, h2⟩ := ih (fun r hm => h r (List.mem_append_left _ hm))
    have hop : ∀ r, op ≠ .notice n r := fun r e => h r (by rw [e]; simp)
    rw [nt_snoc]
    generalize ntRun ops = st at h1 h2
    have hsend : ∀ x e, e ≠ NtEvent.notice n → ∀ u v, GoMap.get (ntSend st.users x e) u = some v → NtEvent.notice n ∉ v.queue := by
      intro x e he u v hv
      rw [get_send] at hv
      split at hv
      · rw [Option.map_eq_some_iff] at hv
        obtain ⟨v0, hv0, rfl⟩ := hv
        intro hm
        rcases List.mem_append.1 hm with hm | hm
        · exact h1 _ v0 hv0 hm
        · exact he (List.mem_singleton.1 hm).symm
      · exact h1 u v hv
    cases op with
    | start =>
      refine ⟨fun u v hv => ?_, h2⟩
      change GoMap.get (GoMap.set _ _ _) u = some v at hv
      rw [mget_mset] at hv
      split at hv
      · cases hv; simp
      · exact h1 u v hv
    | ended x =>
      refine ⟨fun u v hv => ?_, h2⟩
      change GoMap.get (GoMap.del _ _) u = some v at hv
      rw [mget_mdel] at hv
      split at hv
      · cases hv
      · exact h1 u v hv
    | accept => exact ⟨h1, h2⟩
    | login id x ok =>
      unfold ntStep
      dsimp only
      split
      · exact ⟨hsend x _ (fun h => by cases h), h2⟩
      · exact ⟨h1, h2⟩
    | logout id =>
      unfold ntStep
      dsimp only
      split
      · exact ⟨hsend _ _ (fun h => by cases h), h2⟩
      · exact ⟨h1, h2⟩
    | closed id =>
      unfold ntStep
      dsimp only
      split <;> exact ⟨h1, h2⟩
    | try_ net =>
      unfold ntStep
      dsimp only
      split <;> exact ⟨h1, h2⟩
    | established net =>
      unfold ntStep
      dsimp only
      split <;> exact ⟨h1, h2⟩
    | tried net =>
      unfold ntStep
      dsimp only
      split <;> exact ⟨h1, h2⟩
    | handle x =>
      unfold ntStep
      dsimp only
      split
      · rename_i e q c hu
        have hq := h1 x _ hu
        refine ⟨fun u v hv => ?_, fun u id hm => ?_⟩
        · dsimp only at hv
          rw [mget_mset] at hv
          split at hv
          · cases hv
            exact fun hm => hq (List.mem_cons_of_mem _ hm)
          · exact h1 u v hv
        · dsimp only at hm
          rcases List.mem_append.1 hm with hm | hm
          · exact h2 u id hm
          · cases e with
            | connected y ok => simp [ntHandle] at hm
            | disconnected y => simp [ntHandle] at hm
            | notice m =>
              simp only [ntHandle, List.mem_map, Prod.mk.injEq] at hm
              obtain ⟨p, ⟨y, -, rfl⟩, -, he⟩ := hm
              simp only [Prod.mk.injEq] at he
              exact hq (by rw [he.2]; exact List.mem_cons_self)
      · exact ⟨h1, h2⟩
    | notice m r =>
      refine ⟨fun u v hv => ?_, h2⟩
      have hm : m ≠ n := fun e => hop r (by rw [e])
      change GoMap.get (st.users.map (fun p => (p.1, if p.1 ∈ r then { p.2 with queue := p.2.queue ++ [NtEvent.notice m] } else p.2))) u = some v at hv
      rw [get_map st.users (fun k v => if k ∈ r then { v with queue := v.queue ++ [NtEvent.notice m] } else v) u,
        Option.map_eq_some_iff] at hv
      obtain ⟨v0, hv0, rfl⟩ := hv
      split
      · intro hmem
        rcases List.mem_append.1 hmem with hmem | hmem
        · exact h1 _ v0 hv0 hmem
        · have := List.mem_singleton.1 hmem
          simp only [NtEvent.notice.injEq] at this
          exact hm this.symm
      · exact h1 u v0 hv0

/-- A notice that reaches a user, once the loop of the user has come to it, has been sent exactly once to each of the clients the user
had when the notice was given, and to no others. -/
theorem C115_notice (pre post : List NtOp) (n u : Nat) (reached : List Nat) (hr : u ∈ reached)
    (hu : (GoMap.get (ntRun pre).users u).isSome = true) (hend : NtOp.ended u ∉ post)
    (hn : ∀ r, NtOp.notice n r ∉ pre ++ post) :
    ∃ v, GoMap.get (ntRun (pre ++ NtOp.notice n reached :: post)).users u = some v ∧
      (NtEvent.notice n ∉ v.queue → ∀ id,
        (ntRun (pre ++ NtOp.notice n reached :: post)).got.count (u, id, n) = if NtClient (ntRun pre) u id then 1 else 0) := by
  have i0 := inv_run pre
  obtain ⟨q0, g0⟩ := unheard n pre (fun r hm => hn r (List.mem_append_left _ hm))
  generalize hp : ntRun pre = sp at i0 q0 g0 hu
  have key : ∀ post, NtOp.ended u ∉ post → (∀ r, NtOp.notice n r ∉ post) →
      ∃ v, GoMap.get (ntRun (pre ++ NtOp.notice n reached :: post)).users u = some v ∧
        ((∃ a b, v.queue = a ++ NtEvent.notice n :: b ∧ NtEvent.notice n ∉ a ∧ NtEvent.notice n ∉ b ∧
            (∀ id, id ∈ after a v.clients ↔ NtClient sp u id) ∧
            ∀ id, (u, id, n) ∉ (ntRun (pre ++ NtOp.notice n reached :: post)).got) ∨
          (NtEvent.notice n ∉ v.queue ∧ ∀ id,
            (ntRun (pre ++ NtOp.notice n reached :: post)).got.count (u, id, n) = if NtClient sp u id then 1 else 0)) := by
    intro post
    induction post using snocInd with
    | nil =>
      intro _ _
      obtain ⟨v, hv⟩ := Option.isSome_iff_exists.1 hu
      rw [nt_snoc, hp]
      refine ⟨{ v with queue := v.queue ++ [.notice n] }, ?_, .inl ⟨v.queue, [], rfl, q0 u v hv, by simp, i0.mem u v hv, fun id => g0 u id⟩⟩
      show GoMap.get (sp.users.map (fun p => (p.1, if p.1 ∈ reached then { p.2 with queue := p.2.queue ++ [NtEvent.notice n] } else p.2))) u = _
      rw [get_map sp.users (fun k v => if k ∈ reached then { v with queue := v.queue ++ [NtEvent.notice n] } else v) u, hv]
      simp [hr]
    | snoc post op ih =>
      intro h1 h2
      obtain ⟨v, hv, hcase⟩ := ih (fun h => h1 (List.mem_append_left _ h)) (fun r h => h2 r (List.mem_append_left _ h))
      have hop1 : op ≠ .ended u := fun e => h1 (by rw [e]; simp)
      have hop2 : ∀ r, op ≠ .notice n r := fun r e => h2 r (by rw [e]; simp)
      have hrun : ntRun (pre ++ NtOp.notice n reached :: (post ++ [op])) = ntStep (ntRun (pre ++ NtOp.notice n reached :: post)) op := by
        rw [← nt_snoc]; simp
      have i := inv_run (pre ++ NtOp.notice n reached :: post)
      rw [hrun]
      generalize ntRun (pre ++ NtOp.notice n reached :: post) = st at hv hcase i
      -- an event other than this notice is added at the end of the queue
      have hpush : ∀ e, e ≠ NtEvent.notice n →
          ((∃ a b, (v.queue ++ [e]) = a ++ NtEvent.notice n :: b ∧ NtEvent.notice n ∉ a ∧ NtEvent.notice n ∉ b ∧
              (∀ id, id ∈ after a v.clients ↔ NtClient sp u id) ∧ ∀ id, (u, id, n) ∉ st.got) ∨
            (NtEvent.notice n ∉ (v.queue ++ [e]) ∧ ∀ id, st.got.count (u, id, n) = if NtClient sp u id then 1 else 0)) := by
        intro e he
        rcases hcase with ⟨a, b, hq, ha, hb, hm, hg⟩ | ⟨hq, hc⟩
        · refine .inl ⟨a, b ++ [e], by rw [hq]; simp, ha, ?_, hm, hg⟩
          intro h
          rcases List.mem_append.1 h with h | h
          · exact hb h
          · exact he (List.mem_singleton.1 h).symm
        · refine .inr ⟨?_, hc⟩
          intro h
          rcases List.mem_append.1 h with h | h
          · exact hq h
          · exact he (List.mem_singleton.1 h).symm
      have hsend : ∀ (st' : NtState) x e, e ≠ NtEvent.notice n → st'.got = st.got → st'.users = ntSend st.users x e →
          ∃ v, GoMap.get st'.users u = some v ∧
            ((∃ a b, v.queue = a ++ NtEvent.notice n :: b ∧ NtEvent.notice n ∉ a ∧ NtEvent.notice n ∉ b ∧
              (∀ id, id ∈ after a v.clients ↔ NtClient sp u id) ∧ ∀ id, (u, id, n) ∉ st'.got) ∨
            (NtEvent.notice n ∉ v.queue ∧ ∀ id, st'.got.count (u, id, n) = if NtClient sp u id then 1 else 0)) := by
        intro st' x e he hg hus
        rw [hg, hus, get_send]
        by_cases hx : u = x
        · subst hx
          rw [if_pos rfl, hv]
          exact ⟨{ v with queue := v.queue ++ [e] }, rfl, hpush e he⟩
        · rw [if_neg hx]
          exact ⟨v, hv, hcase⟩
      cases op with
      | start =>
        refine ⟨v, ?_, hcase⟩
        show GoMap.get (GoMap.set _ _ _) u = some v
        rw [mget_mset, if_neg ?_]
        · exact hv
        · have := i.userLe u v hv; omega
      | ended x =>
        refine ⟨v, ?_, hcase⟩
        show GoMap.get (GoMap.del _ _) u = some v
        rw [mget_mdel, if_neg (fun e => hop1 (by rw [e]))]
        exact hv
      | accept => exact ⟨v, hv, hcase⟩
      | login id x ok =>
        unfold ntStep
        dsimp only
        split
        · exact hsend _ x (.connected id ok) (fun h => by cases h) rfl rfl
        · exact ⟨v, hv, hcase⟩
      | logout id =>
        unfold ntStep
        dsimp only
        split
        · exact hsend _ _ (.disconnected id) (fun h => by cases h) rfl rfl
        · exact ⟨v, hv, hcase⟩
      | closed id =>
        unfold ntStep
        dsimp only
        split <;> exact ⟨v, hv, hcase⟩
      | try_ net =>
        unfold ntStep
        dsimp only
        split <;> exact ⟨v, hv, hcase⟩
      | established net =>
        unfold ntStep
        dsimp only
        split <;> exact ⟨v, hv, hcase⟩
      | tried net =>
        unfold ntStep
        dsimp only
        split <;> exact ⟨v, hv, hcase⟩
      | notice m r =>
        have hm : NtEvent.notice m ≠ NtEvent.notice n := fun e => hop2 r (by simp only [NtEvent.notice.injEq] at e; rw [e])
        unfold ntStep
        dsimp only
        rw [get_map st.users (fun k v => if k ∈ r then { v with queue := v.queue ++ [NtEvent.notice m] } else v) u, hv]
        by_cases hur : u ∈ r
        · exact ⟨{ v with queue := v.queue ++ [.notice m] }, by simp [hur], hpush _ hm⟩
        · exact ⟨v, by simp [hur], hcase⟩
      | handle x =>
        unfold ntStep
        dsimp only
        split
        · rename_i e q c hx
          by_cases hux : x = u
          · subst hux
            rw [hv] at hx
            obtain rfl := Option.some.inj hx
            have hnd : c.Nodup := (List.nodup_append.1 (i.nodup x _ hv)).1
            refine ⟨⟨q, (ntHandle c e).1⟩, by rw [mget_mset, if_pos rfl], ?_⟩
            dsimp only at hcase ⊢
            rcases hcase with ⟨a, b, hq, ha, hb, hm, hg⟩ | ⟨hq, hc⟩
            · cases a with
              | nil =>
                simp only [List.nil_append, List.cons.injEq] at hq
                obtain ⟨rfl, rfl⟩ := hq
                refine .inr ⟨hb, fun id => ?_⟩
                have h0 : st.got.count (x, id, n) = 0 := List.count_eq_zero.2 (hg id)
                rw [List.count_append, h0, Nat.zero_add]
                simp only [ntHandle, List.map_map]
                have hmap : ∀ l : List Nat, (l.map ((fun p => (x, p)) ∘ fun id => (id, n))).count (x, id, n) = l.count id := by
                  intro l
                  induction l with
                  | nil => rfl
                  | cons y l ih =>
                    rw [List.map_cons, List.count_cons, List.count_cons, ih]
                    congr 1
                    simp
                rw [hmap]
                have hmid := hm id
                simp only [after, List.foldl_nil] at hmid
                by_cases hc : id ∈ c
                · rw [if_pos (hmid.1 hc)]
                  exact hnd.count.trans (if_pos hc)
                · rw [if_neg (fun h => hc (hmid.2 h))]
                  exact List.count_eq_zero.2 hc
              | cons e' a =>
                simp only [List.cons_append, List.cons.injEq] at hq
                obtain ⟨rfl, rfl⟩ := hq
                refine .inl ⟨a, b, rfl, fun h => ha (List.mem_cons_of_mem _ h), hb, hm, fun id hmem => ?_⟩
                rcases List.mem_append.1 hmem with h | h
                · exact hg id h
                · cases e with
                  | connected y ok => simp [ntHandle] at h
                  | disconnected y => simp [ntHandle] at h
                  | notice m =>
                    simp only [ntHandle, List.mem_map, Prod.mk.injEq] at h
                    obtain ⟨p, ⟨y, -, rfl⟩, -, he⟩ := h
                    simp only [Prod.mk.injEq] at he
                    exact ha (by rw [he.2]; exact List.mem_cons_self)
            · refine .inr ⟨fun h => hq (List.mem_cons_of_mem _ h), fun id => ?_⟩
              rw [List.count_append, hc id]
              have : ((ntHandle c e).2.map (fun p => (x, p))).count (x, id, n) = 0 := by
                rw [List.count_eq_zero]
                intro h
                cases e with
                | connected y ok => simp [ntHandle] at h
                | disconnected y => simp [ntHandle] at h
                | notice m =>
                  simp only [ntHandle, List.mem_map, Prod.mk.injEq] at h
                  obtain ⟨p, ⟨y, -, rfl⟩, -, he⟩ := h
                  simp only [Prod.mk.injEq] at he
                  exact hq (by rw [he.2]; exact List.mem_cons_self)
              rw [this]
              rfl
          · refine ⟨v, by rw [mget_mset, if_neg hux]; exact hv, ?_⟩
            have hno : ∀ id, (u, id, n) ∉ (ntHandle c e).2.map (fun p => (x, p)) := by
              intro id h
              obtain ⟨p, -, hpe⟩ := List.mem_map.1 h
              simp only [Prod.mk.injEq] at hpe
              exact hux hpe.1
            dsimp only
            rcases hcase with ⟨a, b, hq, ha, hb, hm, hg⟩ | ⟨hq, hc⟩
            · refine .inl ⟨a, b, hq, ha, hb, hm, fun id hmem => ?_⟩
              rcases List.mem_append.1 hmem with h | h
              · exact hg id h
              · exact hno id h
            · refine .inr ⟨hq, fun id => ?_⟩
              rw [List.count_append, hc id, List.count_eq_zero.2 (hno id)]
              rfl
        · exact ⟨v, hv, hcase⟩
  obtain ⟨v, hv, hcase⟩ := key post hend (fun r hm => hn r (List.mem_append_right _ hm))
  refine ⟨v, hv, fun hq => ?_⟩
  rcases hcase with ⟨a, b, hq', -⟩ | ⟨-, hc⟩
  · exact absurd (by rw [hq']; simp) hq
  · exact hc

/-- `server notice` reports success only if it has reached every user; it reports how many users there are and how many it has
reached. -/
theorem C115_reached (ops : List NtOp) (n : Nat) (reached : List Nat) :
    ∃ sent total ok, (ntRun (ops ++ [.notice n reached])).replies = (ntRun ops).replies ++ [(n, sent, total, ok)] ∧
      total = (ntRun ops).users.length ∧ sent ≤ total ∧
      (ok = true ↔ ∀ u, (GoMap.get (ntRun ops).users u).isSome = true → u ∈ reached) := by
  rw [nt_snoc]
  have i := inv_run ops
  generalize ntRun ops = st at i
  refine ⟨_, _, _, rfl, rfl, List.length_filter_le _ _, ?_⟩
  rw [decide_eq_true_iff, List.length_filter_eq_length_iff]
  constructor
  · intro h u hu
    obtain ⟨v, hv⟩ := Option.isSome_iff_exists.1 hu
    simpa using h (u, v) (mget_some_mem hv)
  · intro h p hp
    obtain ⟨u, v⟩ := p
    have := h u (by rw [mget_of_mem i.usersNd hp]; rfl)
    simpa using this

/-- It says that it counts connections of clients, but counts users: a notice no client can see was, it says, sent to one connection
of one; and one that three clients get as well. -/
theorem C115_connections_violated :
    (∃ ops, (ntRun (ops ++ [.notice 7 [1], .handle 1])).replies = [(7, 1, 1, true)] ∧
      (ntRun (ops ++ [.notice 7 [1], .handle 1])).got = [] ∧ (ntRun ops).conns = []) ∧
    ∃ ops, (ntRun (ops ++ [.notice 7 [1], .handle 1])).replies = [(7, 1, 1, true)] ∧
      (ntRun (ops ++ [.notice 7 [1], .handle 1])).got.length = 3 ∧ (ntRun ops).conns.length = 3 :=
  ⟨⟨[.start], by decide, by decide, by decide⟩,
   ⟨[.start, .accept, .login 1 1 true, .accept, .login 2 1 true, .accept, .login 3 1 true, .handle 1, .handle 1, .handle 1],
     by decide, by decide, by decide⟩⟩

/-- Two users with clients, of which one has not been welcomed and one is leaving. -/
example : let pre : List NtOp := [.start, .start, .accept, .login 1 1 true, .accept, .login 2 1 false, .accept, .login 3 2 true,
      .accept, .login 4 1 true, .logout 4, .handle 2]
    let post : List NtOp := [.handle 1, .handle 1, .accept, .login 5 1 true, .handle 1, .handle 1, .handle 1, .handle 1, .handle 2]
    (GoMap.get (ntRun pre).users 1).isSome = true ∧ NtOp.ended 1 ∉ post ∧ NtClient (ntRun pre) 1 1 ∧ ¬ NtClient (ntRun pre) 1 4 ∧
    (ntRun (pre ++ .notice 7 [1, 2] :: post)).got = [(1, 1, 7), (2, 3, 7)] := by
  decide

end Verif.Props
