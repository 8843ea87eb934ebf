import Verif.Proof.Backlog

/-! # C21: a reconnecting client misses nothing and sees nothing twice -/

namespace Verif.Props
open Verif.Model Verif.Proof

variable {M : Type}

/-- The client is connected. -/
def Connected (st : BlState M) (c : Str) : Prop := (GoMap.get st.conns c).isSome = true

/-- What the client learned of a target, in order. -/
def indices (c t : Str) (seen : List Seen) : List Nat :=
  seen.filterMap (fun s => if s.client = c ∧ s.target = t then some s.index else none)

private structure BInv (st : BlState M) (seen : List Seen) : Prop where
  nd1 : (st.delivered.map (·.1)).Nodup
  nd2 : (st.conns.map (·.1)).Nodup
  nd3 : (st.db.map (·.1)).Nodup
  le1 : ∀ t c q, st.delivered.loadID t c = some q → q ≤ (st.logOf t).length
  le2 : ∀ c pings t k, GoMap.get st.conns c = some pings → (t, k) ∈ pings → k ≤ (st.logOf t).length
  le3 : ∀ c rows t k, GoMap.get st.db c = some rows → (t, k) ∈ rows → k ≤ (st.logOf t).length
  seenA : ∀ c pings t k, GoMap.get st.conns c = some pings → (t, k) ∈ pings →
    ∀ i, k ≤ i → i < (st.logOf t).length → i ∈ indices c t seen
  seenB : ∀ c t q, Connected st c → st.delivered.loadID t c = some q →
    ∀ i, q ≤ i → i < (st.logOf t).length → i ∈ indices c t seen
  sorted : ∀ c pings t, GoMap.get st.conns c = some pings →
    ((pings.filter (fun e => decide (e.1 = t))).map (·.2)).Pairwise (· < ·)

private theorem indices_append (c t : Str) (a b : List Seen) : indices c t (a ++ b) = indices c t a ++ indices c t b := by
  unfold indices; rw [List.filterMap_append]

/-- The receipts after a message. -/
private theorem loadID_blAppend (st : BlState M) (t : Str) (m : M) (t' c : Str) :
    (blAppend st t m).1.delivered.loadID t' c
      = if st.delivered ≠ [] ∧ st.delivered.hasTarget t = false ∧ t = t' ∧ c ∈ st.delivered.clients
        then some (st.logOf t).length else st.delivered.loadID t' c := by
  unfold blAppend
  simp only
  by_cases h : st.delivered ≠ [] ∧ st.delivered.hasTarget t = false
  · rw [if_pos h, loadID_foldl_clients]
    simp [h]
  · rw [if_neg h, if_neg (fun x => h ⟨x.1, x.2.1⟩)]

private theorem nodup_blAppend {st : BlState M} (h : (st.delivered.map (·.1)).Nodup) (t : Str) (m : M) :
    ((blAppend st t m).1.delivered.map (·.1)).Nodup := by
  unfold blAppend
  simp only
  split
  · exact nodup_foldl_clients _ _ _ _ h
  · exact h

private theorem logOf_blMessage (st : BlState M) (t : Str) (m : M) (e : Option Str) (t' : Str) :
    (blMessage st t m e).1.logOf t' = if t = t' then st.logOf t ++ [m] else st.logOf t' := by
  unfold blMessage blAppend
  simp only
  rw [logOf_set]

private theorem conns_blMessage (st : BlState M) (t : Str) (m : M) (e : Option Str) (c : Str) :
    GoMap.get (blMessage st t m e).1.conns c
      = (GoMap.get st.conns c).map (fun p => p ++ [(t, (st.logOf t).length + 1)]) := by
  unfold blMessage blAppend
  simp only
  exact mget_map_snd st.conns (fun p => p ++ [(t, (st.logOf t).length + 1)]) c

/-- A message is seen once by each connected client. -/
private theorem indices_blMessage {st : BlState M} (nd : (st.conns.map (·.1)).Nodup) (t : Str) (m : M) (e : Option Str)
    (c t' : Str) :
    indices c t' (blMessage st t m e).2
      = if t = t' ∧ (GoMap.get st.conns c).isSome then [(st.logOf t).length] else [] := by
  unfold blMessage blAppend
  simp only [Nat.add_sub_cancel]
  generalize (st.logOf t).length = n
  have aux : ∀ (conns : GoMap Str (List (Str × Nat))), (conns.map (·.1)).Nodup →
      indices c t' (conns.map (fun x => (⟨x.1, t, n, if e = some x.1 then .own else .live⟩ : Seen)))
      = if t = t' ∧ (GoMap.get conns c).isSome then [n] else [] := by
    intro conns
    induction conns with
    | nil => intro _; simp [indices, GoMap.get]
    | cons x conns ih =>
      intro hnd
      simp only [List.map_cons, List.nodup_cons] at hnd
      have ih := ih hnd.2
      rw [show GoMap.get (x :: conns) c = if x.1 = c then some x.2 else GoMap.get conns c from rfl]
      rw [List.map_cons, ← List.singleton_append, indices_append, ih]
      by_cases hx : x.1 = c
      · have hnone : GoMap.get conns c = none := mget_none_iff.2 (hx ▸ hnd.1)
        by_cases ht : t = t' <;> simp [indices, hx, ht, hnone]
      · simp [indices, hx]
  exact aux st.conns nd

private theorem mem_latestAfter {len pos limit i : Nat} :
    i ∈ latestAfter len pos limit ↔ max pos (len - limit) ≤ i ∧ i < len := by
  unfold latestAfter
  simp only [List.mem_range'_1]
  omega

/-- The backlog a client is sent when it connects. -/
private theorem indices_blConnect {st : BlState M} (limit : Nat) (nd : (st.delivered.map (·.1)).Nodup) (c c' t : Str)
    (hno : ¬ Connected st c) :
    indices c' t (blConnect limit st c).2
      = if c = c' then (match st.delivered.loadID t c with
          | some q => latestAfter (st.logOf t).length q limit
          | none => []) else [] := by
  unfold blConnect
  rw [if_neg (show ¬ (GoMap.get st.conns c).isSome = true from hno)]
  simp only
  have aux : ∀ (ts : List Str), ts.Nodup →
      indices c' t (((ts.filterMap (fun t => (st.delivered.loadID t c).map (fun id => (t, id)))).flatMap
        (fun e => (latestAfter (st.logOf e.1).length e.2 limit).map (fun i => (⟨c, e.1, i, .backlog⟩ : Seen)))))
      = if c = c' ∧ t ∈ ts then (match st.delivered.loadID t c with
          | some q => latestAfter (st.logOf t).length q limit
          | none => []) else [] := by
    intro ts
    induction ts with
    | nil => intro _; simp [indices]
    | cons a ts ih =>
      intro hnd
      have hnd := List.nodup_cons.1 hnd
      have ih := ih hnd.2
      have hone : ∀ (l : List Nat) (x : Str), indices c' t (l.map (fun i => (⟨c, x, i, .backlog⟩ : Seen)))
          = if c = c' ∧ x = t then l else [] := by
        intro l x
        unfold indices
        induction l with
        | nil => simp
        | cons i l ihl =>
          rw [List.map_cons, List.filterMap_cons, ihl]
          by_cases h : c = c' ∧ x = t <;> simp [h]
      cases hl : st.delivered.loadID a c with
      | none =>
        rw [List.filterMap_cons, hl]
        simp only [Option.map_none]
        rw [ih]
        by_cases hc : c = c'
        · by_cases hat : t = a
          · subst hat; subst hc; simp [hl, hnd.1]
          · simp [hc, hat]
        · simp [hc]
      | some q =>
        rw [List.filterMap_cons, hl]
        simp only [Option.map_some]
        rw [List.flatMap_cons, indices_append, ih, hone]
        by_cases hc : c = c'
        · by_cases hat : t = a
          · subst hat; subst hc; simp [hl, hnd.1]
          · simp [hc, hat, Ne.symm hat]
        · simp [hc]
  have := aux st.delivered.targets nd
  rw [this]
  by_cases hc : c = c'
  · by_cases ht : t ∈ st.delivered.targets
    · simp [hc, ht]
    · simp only [hc, ht, and_false, if_false, if_true]
      cases hl : st.delivered.loadID t c' with
      | none => rfl
      | some q => exact absurd (loadID_target hl).1 ht
  · simp [hc]

private theorem loadID_blConnect (limit : Nat) (st : BlState M) (c t c' : Str) (hno : ¬ Connected st c) :
    (blConnect limit st c).1.delivered.loadID t c'
      = if c = c' ∧ (st.delivered.loadID t c).isSome then some (st.logOf t).length else st.delivered.loadID t c' := by
  unfold blConnect
  rw [if_neg (show ¬ (GoMap.get st.conns c).isSome = true from hno)]
  simp only
  rw [loadID_foldl_targets _ c (fun t => (st.logOf t).length)]
  have : t ∈ (st.delivered.targets.filterMap (fun t => (st.delivered.loadID t c).map (fun id => (t, id)))).map (·.1)
      ↔ (st.delivered.loadID t c).isSome := by
    constructor
    · intro h
      obtain ⟨⟨t', q⟩, h1, h2⟩ := List.mem_map.1 h
      simp only at h2
      subst h2
      rw [mem_known.1 h1]; rfl
    · intro h
      obtain ⟨q, hq⟩ := Option.isSome_iff_exists.1 h
      exact List.mem_map.2 ⟨(t, q), mem_known.2 hq, rfl⟩
  simp only [this]

private theorem blStep_inv (limit : Nat) {st : BlState M} {seen : List Seen} (inv : BInv st seen) (op : BlOp M) :
    BInv (blStep limit st op).1 (seen ++ (blStep limit st op).2) := by
  cases op with
  | message t m e =>
    simp only [blStep]
    have hlen : ∀ t', (st.logOf t').length ≤ ((blMessage st t m e).1.logOf t').length := by
      intro t'; rw [logOf_blMessage]; split
      · rename_i h; subst h; simp
      · omega
    have hlen2 : ∀ t', ((blMessage st t m e).1.logOf t').length
        = (st.logOf t').length + if t = t' then 1 else 0 := by
      intro t'; rw [logOf_blMessage]; split
      · rename_i h; subst h; simp
      · rfl
    have hds : (blMessage st t m e).1.delivered = (blAppend st t m).1.delivered := rfl
    have hdb : (blMessage st t m e).1.db = st.db := rfl
    have hnew : ∀ c t' i, (GoMap.get st.conns c).isSome = true →
        (i < (st.logOf t').length → i ∈ indices c t' seen) → i < ((blMessage st t m e).1.logOf t').length →
        i ∈ indices c t' (seen ++ (blMessage st t m e).2) := by
      intro c t' i hc h1 h2
      rw [indices_append, List.mem_append, indices_blMessage inv.nd2]
      rw [hlen2] at h2
      by_cases hi : i < (st.logOf t').length
      · exact Or.inl (h1 hi)
      · right
        by_cases ht : t = t'
        · subst ht; simp only [if_true] at h2
          rw [if_pos ⟨rfl, hc⟩]; simp; omega
        · simp only [ht, if_false] at h2; omega
    refine ⟨?_, ?_, ?_, ?_, ?_, ?_, ?_, ?_, ?_⟩
    · rw [hds]; exact nodup_blAppend inv.nd1 t m
    · have := inv.nd2
      unfold blMessage blAppend
      simp only [List.map_map]
      exact this
    · rw [hdb]; exact inv.nd3
    · intro t' c q h
      rw [hds, loadID_blAppend] at h
      split at h
      · rename_i hc
        simp only [Option.some.injEq] at h
        have := hlen t'
        rw [← hc.2.2.1] at this ⊢; omega
      · have := inv.le1 t' c q h; have := hlen t'; omega
    · intro c pings t' k h hm
      rw [conns_blMessage] at h
      cases hg : GoMap.get st.conns c with
      | none => rw [hg] at h; simp at h
      | some p =>
        rw [hg] at h
        simp only [Option.map_some, Option.some.injEq] at h
        subst h
        rcases List.mem_append.1 hm with hm | hm
        · have := inv.le2 c p t' k hg hm; have := hlen t'; omega
        · simp only [List.mem_singleton, Prod.mk.injEq] at hm
          obtain ⟨rfl, rfl⟩ := hm
          rw [hlen2]; simp
    · intro c rows t' k h hm
      rw [hdb] at h
      have := inv.le3 c rows t' k h hm; have := hlen t'; omega
    · intro c pings t' k h hm i hi1 hi2
      rw [conns_blMessage] at h
      cases hg : GoMap.get st.conns c with
      | none => rw [hg] at h; simp at h
      | some p =>
        rw [hg] at h
        simp only [Option.map_some, Option.some.injEq] at h
        subst h
        rcases List.mem_append.1 hm with hm | hm
        · exact hnew c t' i (by rw [hg]; rfl) (fun hl => inv.seenA c p t' k hg hm i hi1 hl) hi2
        · simp only [List.mem_singleton, Prod.mk.injEq] at hm
          obtain ⟨rfl, rfl⟩ := hm
          rw [hlen2] at hi2; simp at hi2; omega
    · intro c t' q hc h i hi1 hi2
      have hc' : (GoMap.get st.conns c).isSome = true := by
        unfold Connected at hc
        rw [conns_blMessage] at hc
        cases hg : GoMap.get st.conns c <;> simp_all
      refine hnew c t' i hc' ?_ hi2
      intro hl
      rw [hds, loadID_blAppend] at h
      split at h
      · rename_i hcl
        simp only [Option.some.injEq] at h
        rw [← hcl.2.2.1] at hl; omega
      · exact inv.seenB c t' q hc' h i hi1 hl
    · intro c pings t' h
      rw [conns_blMessage] at h
      cases hg : GoMap.get st.conns c with
      | none => rw [hg] at h; simp at h
      | some p =>
        rw [hg] at h
        simp only [Option.map_some, Option.some.injEq] at h
        subst h
        rw [List.filter_append, List.map_append, List.pairwise_append]
        refine ⟨inv.sorted c p t' hg, ?_, ?_⟩
        · by_cases ht : t = t' <;> simp [ht]
        · intro a ha b hb
          obtain ⟨⟨x, k⟩, hx, rfl⟩ := List.mem_map.1 ha
          obtain ⟨hx1, hx2⟩ := List.mem_filter.1 hx
          simp only [decide_eq_true_eq] at hx2
          subst hx2
          by_cases ht : t = x
          · subst ht
            simp at hb
            have := inv.le2 c p t k hg hx1
            simp only; omega
          · simp [ht] at hb
  | pong c =>
    simp only [blStep, List.append_nil]
    unfold blPong
    split
    · rename_i t id rest hg
      have hlog : ∀ t', BlState.logOf (⟨st.log, st.delivered.storeID t c id, GoMap.set st.conns c rest, st.db⟩ : BlState M) t' = st.logOf t' := fun _ => rfl
      have hsub : ∀ c' pings, GoMap.get (GoMap.set st.conns c rest) c' = some pings →
          ∃ p, GoMap.get st.conns c' = some p ∧ ∀ x ∈ pings, x ∈ p := by
        intro c' pings h
        rw [mget_mset] at h
        split at h
        · rename_i he; subst he
          simp only [Option.some.injEq] at h
          subst h
          exact ⟨_, hg, fun x hx => List.mem_cons_of_mem _ hx⟩
        · exact ⟨pings, h, fun x hx => hx⟩
      refine ⟨storeID_nodup inv.nd1 _ _ _, mset_nodup inv.nd2 _ _, inv.nd3, ?_, ?_, inv.le3, ?_, ?_, ?_⟩
      · intro t' c' q h
        rw [hlog]
        simp only [loadID_storeID] at h
        split at h
        · rename_i he
          simp only [Option.some.injEq] at h
          have := inv.le2 c _ t id hg (by simp)
          rw [← he.1]; omega
        · exact inv.le1 t' c' q h
      · intro c' pings t' k h hm
        obtain ⟨p, hp, hsub⟩ := hsub c' pings h
        exact inv.le2 c' p t' k hp (hsub _ hm)
      · intro c' pings t' k h hm i hi1 hi2
        obtain ⟨p, hp, hsub⟩ := hsub c' pings h
        exact inv.seenA c' p t' k hp (hsub _ hm) i hi1 hi2
      · intro c' t' q hc h i hi1 hi2
        have hc' : Connected st c' := by
          unfold Connected at hc ⊢
          cases h2 : GoMap.get (GoMap.set st.conns c rest) c' with
          | none => simp [h2] at hc
          | some pings => obtain ⟨p, hp, _⟩ := hsub c' pings h2; rw [hp]; rfl
        simp only [loadID_storeID] at h
        split at h
        · rename_i he
          simp only [Option.some.injEq] at h
          rw [← he.1, ← he.2]
          refine inv.seenA c _ t id hg (by simp) i (by omega) ?_
          rw [hlog, ← he.1] at hi2; exact hi2
        · exact inv.seenB c' t' q hc' h i hi1 hi2
      · intro c' pings t' h
        simp only [mget_mset] at h
        split at h
        · rename_i he; subst he
          simp only [Option.some.injEq] at h
          subst h
          have := inv.sorted c _ t' hg
          rw [List.filter_cons] at this
          split at this
          · rw [List.map_cons] at this; exact (List.pairwise_cons.1 this).2
          · exact this
        · exact inv.sorted c' pings t' h
    · exact inv
  | disconnect c =>
    simp only [blStep, List.append_nil]
    unfold blDisconnect blPersist
    simp only
    have hsub : ∀ c' pings, GoMap.get (GoMap.del st.conns c) c' = some pings → GoMap.get st.conns c' = some pings := by
      intro c' pings h
      rw [mget_mdel] at h
      split at h
      · simp at h
      · exact h
    refine ⟨inv.nd1, mdel_nodup inv.nd2 _, mset_nodup inv.nd3 _ _, inv.le1, ?_, ?_, ?_, ?_, ?_⟩
    · intro c' pings t' k h hm; exact inv.le2 c' pings t' k (hsub _ _ h) hm
    · intro c' rows t' k h hm
      simp only [mget_mset] at h
      split at h
      · simp only [Option.some.injEq] at h
        subst h
        exact inv.le1 t' c k (mem_known.1 hm)
      · exact inv.le3 c' rows t' k h hm
    · intro c' pings t' k h hm; exact inv.seenA c' pings t' k (hsub _ _ h) hm
    · intro c' t' q hc h
      have hc' : Connected st c' := by
        unfold Connected at hc ⊢
        cases h2 : GoMap.get (GoMap.del st.conns c) c' with
        | none => simp [h2] at hc
        | some pings => rw [hsub _ _ h2]; rfl
      exact inv.seenB c' t' q hc' h
    · intro c' pings t' h; exact inv.sorted c' pings t' (hsub _ _ h)
  | connect c =>
    simp only [blStep]
    by_cases hno : Connected st c
    · unfold blConnect
      rw [if_pos (show (GoMap.get st.conns c).isSome = true from hno)]
      simpa using inv
    · have hconns : ∀ c', GoMap.get (blConnect limit st c).1.conns c' = if c = c' then some [] else GoMap.get st.conns c' := by
        intro c'
        unfold blConnect
        rw [if_neg (show ¬ (GoMap.get st.conns c).isSome = true from hno)]
        simp only [mget_mset]
      have hlog : ∀ t', (blConnect limit st c).1.logOf t' = st.logOf t' := by
        intro t'; unfold blConnect; rw [if_neg (show ¬ (GoMap.get st.conns c).isSome = true from hno)]; rfl
      have hdb : (blConnect limit st c).1.db = st.db := by
        unfold blConnect; rw [if_neg (show ¬ (GoMap.get st.conns c).isSome = true from hno)]
      refine ⟨?_, ?_, ?_, ?_, ?_, ?_, ?_, ?_, ?_⟩
      · unfold blConnect; rw [if_neg (show ¬ (GoMap.get st.conns c).isSome = true from hno)]; exact nodup_foldl_targets _ c (fun t => (st.logOf t).length) _ inv.nd1
      · unfold blConnect; rw [if_neg (show ¬ (GoMap.get st.conns c).isSome = true from hno)]; exact mset_nodup inv.nd2 _ _
      · rw [hdb]; exact inv.nd3
      · intro t' c' q h
        rw [loadID_blConnect limit st c t' c' hno] at h
        rw [hlog]
        split at h
        · simp only [Option.some.injEq] at h; omega
        · exact inv.le1 t' c' q h
      · intro c' pings t' k h hm
        rw [hconns] at h
        rw [hlog]
        split at h
        · simp only [Option.some.injEq] at h; subst h; simp at hm
        · exact inv.le2 c' pings t' k h hm
      · intro c' rows t' k h hm
        rw [hdb] at h
        rw [hlog]; exact inv.le3 c' rows t' k h hm
      · intro c' pings t' k h hm i hi1 hi2
        rw [hconns] at h
        rw [hlog] at hi2
        rw [indices_append, List.mem_append]
        split at h
        · simp only [Option.some.injEq] at h; subst h; simp at hm
        · exact Or.inl (inv.seenA c' pings t' k h hm i hi1 hi2)
      · intro c' t' q hc h i hi1 hi2
        rw [loadID_blConnect limit st c t' c' hno] at h
        rw [hlog] at hi2
        rw [indices_append, List.mem_append]
        split at h
        · simp only [Option.some.injEq] at h; omega
        · rename_i hcond
          by_cases hcc : c = c'
          · subst hcc
            rw [h] at hcond; simp at hcond
          · have hc' : Connected st c' := by
              unfold Connected at hc ⊢
              rw [hconns, if_neg hcc] at hc; exact hc
            exact Or.inl (inv.seenB c' t' q hc' h i hi1 hi2)
      · intro c' pings t' h
        rw [hconns] at h
        split at h
        · simp only [Option.some.injEq] at h; subst h; simp
        · exact inv.sorted c' pings t' h
  | restart =>
    simp only [blStep, List.append_nil]
    obtain ⟨h1, h2, h3, h4⟩ := blPersist_foldl st.delivered.clients st
    have hlog : ∀ t', (blRestart st).logOf t' = st.logOf t' := by
      intro t'; unfold blRestart blStart BlState.logOf; simp only; rw [h2]
    have hle : ∀ c rows t' k, GoMap.get (st.delivered.clients.foldl blPersist st).db c = some rows → (t', k) ∈ rows →
        k ≤ (st.logOf t').length := by
      intro c rows t' k h hm
      rw [h4] at h
      split at h
      · simp only [Option.some.injEq] at h
        subst h
        exact inv.le1 t' c k (mem_known.1 hm)
      · exact inv.le3 c rows t' k h hm
    refine ⟨?_, by simp [blRestart, blStart], h3 inv.nd3, ?_, ?_, ?_, ?_, ?_, ?_⟩
    · exact nodup_foldl_load _ _ (by simp)
    · intro t' c q h
      rw [hlog]
      obtain ⟨rows, hr, hm⟩ := loadID_blLoad_some (h3 inv.nd3) h
      exact hle c rows t' q hr hm
    · intro c pings t' k h; simp [blRestart, blStart, GoMap.get] at h
    · intro c rows t' k h hm; rw [hlog]; exact hle c rows t' k h hm
    · intro c pings t' k h; simp [blRestart, blStart, GoMap.get] at h
    · intro c t' q hc; simp [Connected, blRestart, blStart, GoMap.get] at hc
    · intro c pings t' h; simp [blRestart, blStart, GoMap.get] at h
  | crash =>
    simp only [blStep, List.append_nil]
    refine ⟨?_, by simp [blStart], inv.nd3, ?_, ?_, inv.le3, ?_, ?_, ?_⟩
    · exact nodup_foldl_load _ _ (by simp)
    · intro t' c q h
      obtain ⟨rows, hr, hm⟩ := loadID_blLoad_some inv.nd3 h
      exact inv.le3 c rows t' q hr hm
    · intro c pings t' k h; simp [blStart, GoMap.get] at h
    · intro c pings t' k h; simp [blStart, GoMap.get] at h
    · intro c t' q hc; simp [Connected, blStart, GoMap.get] at hc
    · intro c pings t' h; simp [blStart, GoMap.get] at h
  | update =>
    simp only [blStep, List.append_nil]
    refine ⟨by simp [blUpdate], inv.nd2, inv.nd3, ?_, inv.le2, inv.le3, inv.seenA, ?_, inv.sorted⟩
    · intro t' c q h; simp [blUpdate, Delivered.loadID, GoMap.get] at h
    · intro c t' q _ h; simp [blUpdate, Delivered.loadID, GoMap.get] at h

private theorem blRun_append (limit : Nat) (st : BlState M) (a b : List (BlOp M)) :
    blRun limit st (a ++ b) = ((blRun limit (blRun limit st a).1 b).1,
      (blRun limit st a).2 ++ (blRun limit (blRun limit st a).1 b).2) := by
  induction a generalizing st with
  | nil => rfl
  | cons op a ih =>
    simp only [List.cons_append, blRun]
    rw [ih]
    simp [List.append_assoc]

private theorem binit : BInv (blInit : BlState M) [] := by
  refine ⟨by simp [blInit], by simp [blInit], by simp [blInit], ?_, ?_, ?_, ?_, ?_, ?_⟩ <;>
    simp [blInit, Delivered.loadID, GoMap.get]

private theorem blRun_inv (limit : Nat) (ops : List (BlOp M)) :
    BInv (blRun limit blInit ops).1 (blRun limit blInit ops).2 := by
  induction ops using snocInd with
  | nil => exact binit
  | snoc ops op ih =>
    rw [blRun_append]
    simp only [blRun, List.append_nil]
    exact blStep_inv limit ih op


/-! ## What a client sees during one connection -/

/-- Events that end a connection of the client. -/
def endsSession (c : Str) : BlOp M → Bool
  | .disconnect c' => decide (c' = c)
  | .restart => true
  | .crash => true
  | _ => false

private theorem len_blStep (limit : Nat) (st : BlState M) (op : BlOp M) (t : Str) :
    ((blStep limit st op).1.logOf t).length = (st.logOf t).length + (match op with
      | .message t' _ _ => if t' = t then 1 else 0
      | _ => 0) := by
  cases op with
  | message t' m e =>
    simp only [blStep, logOf_blMessage]
    split
    · rename_i h; subst h; simp
    · rfl
  | pong c => simp only [blStep, blPong]; split <;> rfl
  | disconnect c => rfl
  | connect c => simp only [blStep, blConnect]; split <;> rfl
  | restart =>
    simp only [blStep]
    have := (blPersist_foldl st.delivered.clients st).2.1
    show (BlState.logOf (blRestart st) t).length = _
    unfold blRestart blStart BlState.logOf
    simp only
    rw [this]; rfl
  | crash => rfl
  | update => rfl

private theorem len_blRun (limit : Nat) (st : BlState M) (ops : List (BlOp M)) (t : Str) :
    (st.logOf t).length ≤ ((blRun limit st ops).1.logOf t).length := by
  induction ops generalizing st with
  | nil => exact Nat.le_refl _
  | cons op ops ih =>
    simp only [blRun]
    refine Nat.le_trans ?_ (ih _)
    rw [len_blStep]; omega

private theorem session_aux (limit : Nat) (c t : Str) (ops : List (BlOp M)) : ∀ (st : BlState M),
    (st.conns.map (·.1)).Nodup → Connected st c → (∀ op ∈ ops, endsSession c op = false) →
    indices c t (blRun limit st ops).2
      = List.range' (st.logOf t).length (((blRun limit st ops).1.logOf t).length - (st.logOf t).length)
    ∧ Connected (blRun limit st ops).1 c := by
  induction ops with
  | nil => intro st _ hc _; exact ⟨by simp [blRun, indices], hc⟩
  | cons op ops ih =>
    intro st nd hc hops
    have hop := hops op List.mem_cons_self
    have key : ((blStep limit st op).1.conns.map (·.1)).Nodup ∧ Connected (blStep limit st op).1 c ∧
        indices c t (blStep limit st op).2 = List.range' (st.logOf t).length
          (((blStep limit st op).1.logOf t).length - (st.logOf t).length) := by
      rw [len_blStep]
      cases op with
      | message t' m e =>
        simp only [blStep]
        refine ⟨?_, ?_, ?_⟩
        · unfold blMessage blAppend; simp only [List.map_map]; exact nd
        · unfold Connected at hc ⊢
          rw [conns_blMessage]
          cases h : GoMap.get st.conns c <;> simp_all
        · rw [indices_blMessage nd]
          unfold Connected at hc
          by_cases h : t' = t
          · subst h; simp [hc]
          · simp [h]
      | pong c' =>
        simp only [blStep]
        refine ⟨?_, ?_, by simp [indices]⟩
        · unfold blPong; split
          · exact mset_nodup nd _ _
          · exact nd
        · unfold blPong; split
          · unfold Connected at hc ⊢
            simp only [mget_mset]
            split
            · rfl
            · exact hc
          · exact hc
      | disconnect c' =>
        simp only [endsSession, decide_eq_false_iff_not] at hop
        simp only [blStep]
        refine ⟨mdel_nodup nd _, ?_, by simp [indices]⟩
        unfold Connected at hc ⊢
        unfold blDisconnect blPersist
        simp only [mget_mdel, if_neg hop]
        exact hc
      | connect c' =>
        simp only [blStep]
        by_cases h : Connected st c'
        · unfold blConnect
          rw [if_pos (show (GoMap.get st.conns c').isSome = true from h)]
          exact ⟨nd, hc, by simp [indices]⟩
        · unfold blConnect
          rw [if_neg (show ¬ (GoMap.get st.conns c').isSome = true from h)]
          refine ⟨mset_nodup nd _ _, ?_, ?_⟩
          · unfold Connected at hc ⊢
            simp only [mget_mset]
            split
            · rfl
            · exact hc
          · have hne : c' ≠ c := fun he => h (he ▸ hc)
            simp only [Nat.add_zero, Nat.sub_self, List.range'_zero]
            unfold indices
            rw [List.filterMap_eq_nil_iff]
            intro s hs
            obtain ⟨e, _, he⟩ := List.mem_flatMap.1 hs
            obtain ⟨i, _, rfl⟩ := List.mem_map.1 he
            simp [hne]
      | restart => simp [endsSession] at hop
      | crash => simp [endsSession] at hop
      | update =>
        simp only [blStep]
        exact ⟨nd, hc, by simp [indices]⟩
    obtain ⟨k1, k2, k3⟩ := key
    have := ih (blStep limit st op).1 k1 k2 (fun o ho => hops o (List.mem_cons_of_mem _ ho))
    simp only [blRun]
    rw [indices_append, k3, this.1]
    refine ⟨?_, this.2⟩
    have h1 := len_blRun limit (blStep limit st op).1 ops t
    have h2 : (st.logOf t).length ≤ ((blStep limit st op).1.logOf t).length := by rw [len_blStep]; omega
    have hr := List.range'_append_1 (s := (st.logOf t).length) (m := ((blStep limit st op).1.logOf t).length - (st.logOf t).length)
      (n := ((blRun limit (blStep limit st op).1 ops).1.logOf t).length - ((blStep limit st op).1.logOf t).length)
    rw [show (st.logOf t).length + (((blStep limit st op).1.logOf t).length - (st.logOf t).length)
      = ((blStep limit st op).1.logOf t).length by omega] at hr
    rw [hr]
    congr 1
    omega

/-- **C21** (one connection): from the moment a client connects until it leaves, it sees of each target
exactly a contiguous part of the log, in order, each message once: everything from its receipt (but at most
`limit` old messages), or from now on if it has no receipt. -/
theorem C21_session (limit : Nat) (ops1 ops2 : List (BlOp M)) (c t : Str)
    (hoff : ¬ Connected (blRun limit blInit ops1).1 c) (hops : ∀ op ∈ ops2, endsSession c op = false) :
    let st := (blRun limit blInit ops1).1
    let r := blRun limit st (.connect c :: ops2)
    let start := match st.delivered.loadID t c with
      | some p => max p ((st.logOf t).length - limit)
      | none => (st.logOf t).length
    indices c t r.2 = List.range' start ((r.1.logOf t).length - start) := by
  intro st r start
  have inv := blRun_inv limit ops1 (M := M)
  have inv' := blStep_inv limit inv (.connect c)
  have hst : (blRun limit (blInit : BlState M) ops1).1 = st := rfl
  rw [hst] at hoff inv inv'
  have hconn : Connected (blStep limit st (.connect c)).1 c := by
    simp only [blStep, blConnect]
    rw [if_neg (show ¬ (GoMap.get st.conns c).isSome = true from hoff)]
    simp [Connected, mget_mset]
  obtain ⟨s1, _⟩ := session_aux limit c t ops2 _ inv'.nd2 hconn hops
  have hl : ((blStep limit st (.connect c)).1.logOf t).length = (st.logOf t).length := by rw [len_blStep]; rfl
  rw [hl] at s1
  show indices c t (_ ++ _) = _
  rw [indices_append, s1, show (blStep limit st (.connect c)).2 = (blConnect limit st c).2 from rfl,
    indices_blConnect limit inv.nd1 c c t hoff, if_pos rfl]
  have hlen := len_blRun limit (blStep limit st (.connect c)).1 ops2 t
  rw [hl] at hlen
  show _ = List.range' start (((blRun limit (blStep limit st (.connect c)).1 ops2).1.logOf t).length - start)
  generalize ((blRun limit (blStep limit st (.connect c)).1 ops2).1.logOf t).length = n at hlen ⊢
  simp only [start]
  cases hq : st.delivered.loadID t c with
  | none => simp
  | some p =>
    have hle := inv.le1 t c p hq
    simp only [latestAfter]
    generalize hs : max p ((st.logOf t).length - limit) = s
    have hs2 : s ≤ (st.logOf t).length := by omega
    have hr := List.range'_append_1 (s := s) (m := (st.logOf t).length - s) (n := n - (st.logOf t).length)
    rw [show s + ((st.logOf t).length - s) = (st.logOf t).length by omega] at hr
    rw [hr]
    congr 1
    omega

/-! ## No message is lost across reconnections, restarts and crashes -/

private structure Kinv (c t : Str) (p : Nat) (withDB : Bool) (st : BlState M) (seen : List Seen) : Prop where
  mem : ∃ q, st.delivered.loadID t c = some q ∧ ∀ i, p ≤ i → i < q → i ∈ indices c t seen
  row : withDB = true → ∃ rows, GoMap.get st.db c = some rows ∧ (∃ r, (t, r) ∈ rows ∧ ∀ r', (t, r') ∈ rows → r' = r) ∧
    ∀ r, (t, r) ∈ rows → ∀ i, p ≤ i → i < r → i ∈ indices c t seen

private theorem kinv_step (limit : Nat) {c t : Str} {p : Nat} {w : Bool} {st : BlState M} {seen : List Seen}
    (inv : BInv st seen) (k : Kinv c t p w st seen) (op : BlOp M) (hcr : w = false → ¬ ∃ _ : True, op = .crash)
    (hup : op ≠ .update)
    (hlim : op = .connect c → ∀ q, st.delivered.loadID t c = some q → (st.logOf t).length - q ≤ limit) :
    Kinv c t p w (blStep limit st op).1 (seen ++ (blStep limit st op).2) := by
  obtain ⟨q, hq, hk⟩ := k.mem
  have mono : ∀ (x : List Seen) i, i ∈ indices c t seen → i ∈ indices c t (seen ++ x) := by
    intro x i h; rw [indices_append]; exact List.mem_append_left _ h
  have rowmono : ∀ (st' : BlState M) (x : List Seen), st'.db = st.db →
      (w = true → ∃ rows, GoMap.get st'.db c = some rows ∧ (∃ r, (t, r) ∈ rows ∧ ∀ r', (t, r') ∈ rows → r' = r) ∧
        ∀ r, (t, r) ∈ rows → ∀ i, p ≤ i → i < r → i ∈ indices c t (seen ++ x)) := by
    intro st' x hdb hw
    obtain ⟨rows, h1, h2, h3⟩ := k.row hw
    exact ⟨rows, hdb ▸ h1, h2, fun r hr i hi1 hi2 => mono x i (h3 r hr i hi1 hi2)⟩
  have rownew : ∀ (st' : BlState M) (x : List Seen),
      GoMap.get st'.db c = some (st.delivered.targets.filterMap (fun t => (st.delivered.loadID t c).map (fun id => (t, id)))) →
      (w = true → ∃ rows, GoMap.get st'.db c = some rows ∧ (∃ r, (t, r) ∈ rows ∧ ∀ r', (t, r') ∈ rows → r' = r) ∧
        ∀ r, (t, r) ∈ rows → ∀ i, p ≤ i → i < r → i ∈ indices c t (seen ++ x)) := by
    intro st' x hdb _
    refine ⟨_, hdb, ⟨q, mem_known.2 hq, fun r' hr' => by have := mem_known.1 hr'; rw [hq] at this; simpa using this.symm⟩, ?_⟩
    intro r hr i hi1 hi2
    have hr := mem_known.1 hr
    rw [hq] at hr
    simp only [Option.some.injEq] at hr
    exact mono x i (hk i hi1 (by omega))
  have hcl : c ∈ st.delivered.clients := (loadID_target hq).2.1
  cases op with
  | message t' m e =>
    refine ⟨⟨q, ?_, fun i h1 h2 => mono _ i (hk i h1 h2)⟩, rowmono _ _ rfl⟩
    show (blAppend st t' m).1.delivered.loadID t c = some q
    rw [loadID_blAppend, if_neg]
    · exact hq
    · rintro ⟨_, h2, rfl, _⟩
      unfold Delivered.hasTarget at h2
      unfold Delivered.loadID at hq
      cases h : GoMap.get st.delivered t' <;> simp_all
  | pong c' =>
    simp only [blStep]
    unfold blPong
    split
    · rename_i t' id rest hg
      by_cases he : t' = t ∧ c' = c
      · obtain ⟨rfl, rfl⟩ := he
        refine ⟨⟨id, by simp [loadID_storeID], ?_⟩, rowmono _ _ rfl⟩
        intro i h1 h2
        refine mono _ i ?_
        by_cases hi : i < q
        · exact hk i h1 hi
        · have := inv.le2 c' _ t' id hg (by simp)
          exact inv.seenB c' t' q (by unfold Connected; rw [hg]; rfl) hq i (by omega) (by omega)
      · refine ⟨⟨q, ?_, fun i h1 h2 => mono _ i (hk i h1 h2)⟩, rowmono _ _ rfl⟩
        simp only [loadID_storeID, if_neg he]
        exact hq
    · exact ⟨⟨q, hq, fun i h1 h2 => mono _ i (hk i h1 h2)⟩, rowmono _ _ rfl⟩
  | disconnect c' =>
    simp only [blStep]
    refine ⟨⟨q, hq, fun i h1 h2 => mono _ i (hk i h1 h2)⟩, ?_⟩
    by_cases he : c' = c
    · subst he
      refine rownew _ _ ?_
      unfold blDisconnect blPersist
      simp only [mget_mset, if_true]
    · intro hw
      obtain ⟨rows, h1, h2, h3⟩ := k.row hw
      refine ⟨rows, ?_, h2, fun r hr i hi1 hi2 => mono _ i (h3 r hr i hi1 hi2)⟩
      unfold blDisconnect blPersist
      simp only [mget_mset, if_neg he]
      exact h1
  | connect c' =>
    simp only [blStep]
    by_cases hno : Connected st c'
    · unfold blConnect
      rw [if_pos (show (GoMap.get st.conns c').isSome = true from hno)]
      exact ⟨⟨q, hq, fun i h1 h2 => mono _ i (hk i h1 h2)⟩, rowmono _ _ rfl⟩
    · have hdb : (blConnect limit st c').1.db = st.db := by
        unfold blConnect
        rw [if_neg (show ¬ (GoMap.get st.conns c').isSome = true from hno)]
      refine ⟨?_, rowmono _ _ hdb⟩
      by_cases he : c' = c
      · subst he
        refine ⟨(st.logOf t).length, ?_, ?_⟩
        · rw [loadID_blConnect limit st c' t c' hno, hq]; simp
        · intro i h1 h2
          by_cases hi : i < q
          · exact mono _ i (hk i h1 hi)
          · rw [indices_append, List.mem_append]
            right
            rw [indices_blConnect limit inv.nd1 c' c' t hno, if_pos rfl, hq]
            simp only [mem_latestAfter]
            have := hlim rfl q hq
            omega
      · refine ⟨q, ?_, fun i h1 h2 => mono _ i (hk i h1 h2)⟩
        rw [loadID_blConnect limit st c' t c hno, if_neg (fun h => he h.1)]
        exact hq
  | restart =>
    simp only [blStep]
    obtain ⟨h1, h2, h3, h4⟩ := blPersist_foldl st.delivered.clients st
    refine ⟨⟨q, loadID_blRestart inv.nd3 hq, fun i h1 h2 => mono _ i (hk i h1 h2)⟩, ?_⟩
    refine rownew _ _ ?_
    show GoMap.get (st.delivered.clients.foldl blPersist st).db c = _
    rw [h4, if_pos hcl]
  | crash =>
    simp only [blStep]
    have hw : w = true := by
      cases w with
      | true => rfl
      | false => exact absurd ⟨trivial, rfl⟩ (hcr rfl)
    refine ⟨?_, rowmono _ _ rfl⟩
    obtain ⟨rows, h1, ⟨r, h2, hu⟩, h3⟩ := k.row hw
    exact ⟨r, loadID_blLoad_mem inv.nd3 h1 hu h2, fun i hi1 hi2 => mono _ i (h3 r h2 i hi1 hi2)⟩
  | update => exact absurd rfl hup

/-- Whenever the client connects again, its receipt for the target is at most `limit` messages behind. -/
def WithinLimit (limit : Nat) (c t : Str) (st : BlState M) (ops : List (BlOp M)) : Prop :=
  ∀ a b, ops = a ++ .connect c :: b → ∀ q, (blRun limit st a).1.delivered.loadID t c = some q →
    ((blRun limit st a).1.logOf t).length - q ≤ limit

private theorem kinv_run (limit : Nat) {c t : Str} {p : Nat} {w : Bool} (ops2 : List (BlOp M)) :
    ∀ {st : BlState M} {seen : List Seen}, BInv st seen → Kinv c t p w st seen →
    (w = false → BlOp.crash ∉ ops2) → BlOp.update ∉ ops2 → WithinLimit limit c t st ops2 →
    BInv (blRun limit st ops2).1 (seen ++ (blRun limit st ops2).2) ∧
    Kinv c t p w (blRun limit st ops2).1 (seen ++ (blRun limit st ops2).2) := by
  induction ops2 with
  | nil => intro st seen i k _ _ _; simpa [blRun] using ⟨i, k⟩
  | cons op ops ih =>
    intro st seen i k hcr hup hlim
    have k' := kinv_step limit i k op (fun hw => by rintro ⟨_, rfl⟩; exact hcr hw List.mem_cons_self)
      (fun he => hup (he ▸ List.mem_cons_self))
      (fun he q hq => hlim [] ops (by rw [he]; rfl) q hq)
    have := ih (blStep_inv limit i op) k' (fun hw hm => hcr hw (List.mem_cons_of_mem _ hm))
      (fun hm => hup (List.mem_cons_of_mem _ hm)) (fun a b hab q hq => hlim (op :: a) b (by rw [hab]; rfl) q hq)
    simpa [blRun, List.append_assoc] using this

/-- **C21** (nothing is lost): once a client has a receipt for a target, then after any history of messages,
acknowledgements, disconnections, reconnections and clean restarts, if it is connected it has seen every
message from that receipt on, as long as it never came back with more than `limit` messages to catch up on and
the settings of the network were not changed (`C21_update_violated`). -/
theorem C21_lossless_partial (limit : Nat) (ops1 ops2 : List (BlOp M)) (c t : Str) (p : Nat)
    (hp : (blRun limit blInit ops1).1.delivered.loadID t c = some p)
    (hcr : BlOp.crash ∉ ops2) (hup : BlOp.update ∉ ops2)
    (hlim : WithinLimit limit c t (blRun limit blInit ops1).1 ops2)
    (hc : Connected (blRun limit blInit (ops1 ++ ops2)).1 c) :
    ∀ i, p ≤ i → i < ((blRun limit blInit (ops1 ++ ops2)).1.logOf t).length →
      i ∈ indices c t (blRun limit blInit (ops1 ++ ops2)).2 := by
  have k : Kinv c t p false (blRun limit blInit ops1).1 (blRun limit blInit ops1).2 :=
    ⟨⟨p, hp, fun i h1 h2 => by omega⟩, by simp⟩
  obtain ⟨i2, k2⟩ := kinv_run limit ops2 (blRun_inv limit ops1) k (fun _ => hcr) hup hlim
  rw [blRun_append] at hc ⊢
  intro i h1 h2
  obtain ⟨q, hq, hk⟩ := k2.mem
  by_cases hi : i < q
  · exact hk i h1 hi
  · exact i2.seenB c t q hc hq i (by omega) h2

/-- **C21** (crashes): the same holds over any number of crashes, from the receipt the client had when it last
disconnected: what it acknowledged after that may be sent again, nothing is lost. -/
theorem C21_lossless_crash_partial (limit : Nat) (ops1 ops2 : List (BlOp M)) (c t : Str) (p : Nat)
    (hp : (blRun limit blInit ops1).1.delivered.loadID t c = some p)
    (hup : BlOp.update ∉ ops2)
    (hlim : WithinLimit limit c t (blRun limit blInit (ops1 ++ [.disconnect c])).1 ops2)
    (hc : Connected (blRun limit blInit (ops1 ++ [.disconnect c] ++ ops2)).1 c) :
    ∀ i, p ≤ i → i < ((blRun limit blInit (ops1 ++ [.disconnect c] ++ ops2)).1.logOf t).length →
      i ∈ indices c t (blRun limit blInit (ops1 ++ [.disconnect c] ++ ops2)).2 := by
  have hst : (blRun limit (blInit : BlState M) (ops1 ++ [.disconnect c])).1 = blDisconnect (blRun limit blInit ops1).1 c := by
    rw [blRun_append]; rfl
  have k : Kinv c t p true (blRun limit blInit (ops1 ++ [.disconnect c])).1 (blRun limit blInit (ops1 ++ [.disconnect c])).2 := by
    rw [hst]
    refine ⟨⟨p, hp, fun i h1 h2 => by omega⟩, fun _ => ?_⟩
    refine ⟨_, by unfold blDisconnect blPersist; simp only [mget_mset, if_true], ⟨p, mem_known.2 hp, ?_⟩, ?_⟩
    · intro r' hr'
      have h := mem_known.1 hr'
      rw [show (blRun limit (blInit : BlState M) ops1).1.delivered.loadID t c = some p from hp] at h
      simpa using h.symm
    · intro r hr i h1 h2
      have h := mem_known.1 hr
      rw [show (blRun limit (blInit : BlState M) ops1).1.delivered.loadID t c = some p from hp] at h
      simp only [Option.some.injEq] at h
      omega
  obtain ⟨i2, k2⟩ := kinv_run limit ops2 (blRun_inv limit (ops1 ++ [.disconnect c])) k (by simp) hup hlim
  rw [blRun_append limit (blInit : BlState M) (ops1 ++ [BlOp.disconnect c]) ops2] at hc ⊢
  intro i h1 h2
  obtain ⟨q, hq, hk⟩ := k2.mem
  by_cases hi : i < q
  · exact hk i h1 hi
  · exact i2.seenB c t q hc hq i (by omega) h2

/-- **C21** (new conversations): when a message is logged for a target nobody has a receipt for, every client
known from any other target gets a receipt just before that message, so that `C21_lossless_partial` applies to it. -/
theorem C21_new_target (limit : Nat) (ops : List (BlOp M)) (c t t' : Str) (m : M) (e : Option Str) (q : Nat)
    (hnone : (blRun limit blInit ops).1.delivered.hasTarget t = false)
    (hc : (blRun limit blInit ops).1.delivered.loadID t' c = some q) :
    (blRun limit blInit (ops ++ [.message t m e])).1.delivered.loadID t c
      = some ((blRun limit blInit ops).1.logOf t).length := by
  rw [blRun_append]
  show (blAppend _ t m).1.delivered.loadID t c = _
  rw [loadID_blAppend, if_pos]
  refine ⟨?_, hnone, rfl, (loadID_target hc).2.1⟩
  intro h
  rw [h] at hc
  simp [Delivered.loadID, GoMap.get] at hc

/-- **C21** (no replay): once a client has acknowledged a message of a target, and as long as the server does not
crash and the settings of the network are not changed (`C21_update_replay_violated`), it never sees that message or an older one again. -/
theorem C21_no_replay (limit : Nat) (ops1 ops2 : List (BlOp M)) (c t : Str) (k : Nat) (rest : List (Str × Nat))
    (hping : GoMap.get (blRun limit blInit ops1).1.conns c = some ((t, k) :: rest))
    (hcr : BlOp.crash ∉ ops2) (hup : BlOp.update ∉ ops2) :
    ∀ i ∈ indices c t (blRun limit (blRun limit blInit ops1).1 (.pong c :: ops2)).2, k ≤ i := by
  have inv := blRun_inv limit ops1 (M := M)
  have gen : ∀ (ops : List (BlOp M)) (st : BlState M) (seen : List Seen), BInv st seen → BlOp.crash ∉ ops → BlOp.update ∉ ops →
      (∃ q, st.delivered.loadID t c = some q ∧ k ≤ q) →
      (∀ pings, GoMap.get st.conns c = some pings → ∀ k', (t, k') ∈ pings → k ≤ k') →
      ∀ i ∈ indices c t (blRun limit st ops).2, k ≤ i := by
    intro ops
    induction ops with
    | nil => intro st seen _ _ _ _ _ i hi; simp [blRun, indices] at hi
    | cons op ops ih =>
      intro st seen inv hcr hup ⟨q, hq, hkq⟩ hpings
      have hlen := inv.le1 t c q hq
      have hcr' : BlOp.crash ∉ ops := fun h => hcr (List.mem_cons_of_mem _ h)
      have hup' : BlOp.update ∉ ops := fun h => hup (List.mem_cons_of_mem _ h)
      intro i hi
      simp only [blRun] at hi
      rw [indices_append, List.mem_append] at hi
      have key : (∃ q, (blStep limit st op).1.delivered.loadID t c = some q ∧ k ≤ q) ∧
          (∀ pings, GoMap.get (blStep limit st op).1.conns c = some pings → ∀ k', (t, k') ∈ pings → k ≤ k') ∧
          (∀ i ∈ indices c t (blStep limit st op).2, k ≤ i) := by
        cases op with
        | message t' m e =>
          refine ⟨⟨q, ?_, hkq⟩, ?_, ?_⟩
          · show (blAppend st t' m).1.delivered.loadID t c = some q
            rw [loadID_blAppend, if_neg]
            · exact hq
            · rintro ⟨_, h2, rfl, _⟩
              rw [(loadID_target hq).2.2] at h2
              cases h2
          · intro pings h k' hm
            simp only [blStep] at h
            rw [conns_blMessage] at h
            cases hg : GoMap.get st.conns c with
            | none => rw [hg] at h; simp at h
            | some p =>
              rw [hg] at h
              simp only [Option.map_some, Option.some.injEq] at h
              subst h
              rcases List.mem_append.1 hm with hm | hm
              · exact hpings p hg k' hm
              · simp only [List.mem_singleton, Prod.mk.injEq] at hm
                obtain ⟨rfl, rfl⟩ := hm
                omega
          · intro j hj
            simp only [blStep] at hj
            rw [indices_blMessage inv.nd2] at hj
            split at hj
            · rename_i h
              simp only [List.mem_singleton] at hj
              rw [h.1] at hj
              omega
            · simp at hj
        | pong c' =>
          refine ⟨?_, ?_, by simp [blStep, indices]⟩
          · simp only [blStep]; unfold blPong; split
            · rename_i t' id rest hg
              simp only [loadID_storeID]
              by_cases he : t' = t ∧ c' = c
              · rw [if_pos he]
                obtain ⟨rfl, rfl⟩ := he
                exact ⟨id, rfl, hpings _ hg id (by simp)⟩
              · rw [if_neg he]; exact ⟨q, hq, hkq⟩
            · exact ⟨q, hq, hkq⟩
          · simp only [blStep]; unfold blPong; split
            · rename_i t' id rest hg
              intro pings h k' hm
              simp only [mget_mset] at h
              split at h
              · rename_i he; subst he
                simp only [Option.some.injEq] at h
                subst h
                exact hpings _ hg k' (List.mem_cons_of_mem _ hm)
              · exact hpings _ h k' hm
            · exact hpings
        | disconnect c' =>
          refine ⟨⟨q, hq, hkq⟩, ?_, by simp [blStep, indices]⟩
          intro pings h k' hm
          simp only [blStep, blDisconnect, blPersist, mget_mdel] at h
          split at h
          · cases h
          · exact hpings _ h k' hm
        | connect c' =>
          simp only [blStep]
          by_cases hno : Connected st c'
          · unfold blConnect
            rw [if_pos (show (GoMap.get st.conns c').isSome = true from hno)]
            exact ⟨⟨q, hq, hkq⟩, hpings, by simp [indices]⟩
          · refine ⟨?_, ?_, ?_⟩
            · rw [loadID_blConnect limit st c' t c hno]
              split
              · exact ⟨_, rfl, by omega⟩
              · exact ⟨q, hq, hkq⟩
            · intro pings h k' hm
              unfold blConnect at h
              rw [if_neg (show ¬ (GoMap.get st.conns c').isSome = true from hno)] at h
              simp only [mget_mset] at h
              split at h
              · simp only [Option.some.injEq] at h; subst h; simp at hm
              · exact hpings _ h k' hm
            · intro j hj
              rw [indices_blConnect limit inv.nd1 c' c t hno] at hj
              split at hj
              · rename_i he; subst he
                rw [hq] at hj
                simp only [mem_latestAfter] at hj
                omega
              · simp at hj
        | restart =>
          refine ⟨⟨q, loadID_blRestart inv.nd3 hq, hkq⟩, ?_, by simp [blStep, indices]⟩
          intro pings h
          simp [blStep, blRestart, blStart, GoMap.get] at h
        | crash => exact absurd List.mem_cons_self hcr
        | update => exact absurd List.mem_cons_self hup
      rcases hi with hi | hi
      · exact key.2.2 i hi
      · exact ih _ _ (blStep_inv limit inv op) hcr' hup' key.1 key.2.1 i hi
  have hs := inv.sorted c _ t hping
  have inv' := blStep_inv limit inv (.pong c)
  intro i hi
  have hi : i ∈ indices c t (blRun limit (blPong (blRun limit blInit ops1).1 c) ops2).2 := by
    simpa [blRun, blStep] using hi
  have hp : blPong (blRun limit (blInit : BlState M) ops1).1 c =
      { (blRun limit blInit ops1).1 with conns := GoMap.set (blRun limit blInit ops1).1.conns c rest, delivered := (blRun limit blInit ops1).1.delivered.storeID t c k } := by
    unfold blPong; rw [hping]
  refine gen ops2 _ _ inv' hcr hup ⟨k, ?_, Nat.le_refl _⟩ ?_ i hi
  · show (blPong (blRun limit (blInit : BlState M) ops1).1 c).delivered.loadID t c = some k
    rw [hp]; simp [loadID_storeID]
  · intro pings h k' hm
    replace h : GoMap.get (blPong (blRun limit (blInit : BlState M) ops1).1 c).conns c = some pings := h
    rw [hp] at h
    simp only [mget_mset, if_true, Option.some.injEq] at h
    subst h
    simp only [List.filter_cons, decide_true, if_true, List.map_cons, List.pairwise_cons] at hs
    exact Nat.le_of_lt (hs.1 k' (List.mem_map.2 ⟨(t, k'), List.mem_filter.2 ⟨hm, by simp⟩, rfl⟩))

/-! ## What the code does not guarantee -/

private def demo1 : List (BlOp Nat) :=
  [.connect b!"a", .message b!"#c" 1 none, .pong b!"a", .connect b!"b", .disconnect b!"b",
   .message b!"#c" 2 none, .connect b!"b"]

/-- The full claim fails: a client that has been connected but has acknowledged nothing on an existing target,
because nothing was said there, misses what is said there after it has left. -/
theorem C21_new_client_violated :
    Connected (blRun 4000 blInit demo1).1 b!"b" ∧ ((blRun 4000 blInit demo1).1.logOf b!"#c").length = 2 ∧
    indices b!"b" b!"#c" (blRun 4000 blInit demo1).2 = [] := by
  unfold Connected; decide

private def demo2 : List (BlOp Nat) :=
  [.connect b!"a", .message b!"#c" 1 none, .pong b!"a", .disconnect b!"a", .message b!"#d" 2 none, .crash, .connect b!"a"]

/-- The full claim fails over a crash: the receipt made for an absent client at the first message of a new
target is only in memory, so that after a crash that message is never replayed to it. -/
theorem C21_crash_violated :
    Connected (blRun 4000 blInit demo2).1 b!"a" ∧ ((blRun 4000 blInit demo2).1.logOf b!"#d").length = 1 ∧
    indices b!"a" b!"#d" (blRun 4000 blInit demo2).2 = [] := by
  unfold Connected; decide

private def demo3 : List (BlOp Nat) :=
  [.connect b!"a", .message b!"#c" 1 none, .pong b!"a", .disconnect b!"a",
   .message b!"#c" 2 none, .message b!"#c" 3 none, .connect b!"a"]

/-- Messages beyond the limit are skipped for good. -/
theorem C21_limit_violated : indices b!"a" b!"#c" (blRun 1 blInit demo3).2 = [0, 2] := by decide

private def demo4 : List (BlOp Nat) :=
  [.connect b!"a", .message b!"#c" 1 none, .pong b!"a", .disconnect b!"a", .update, .message b!"#c" 2 none,
   .connect b!"a"]

/-- The full claim fails when the settings of the network are changed: the receipts are lost, and what is said while
the client is away is never replayed to it. -/
theorem C21_update_violated :
    Connected (blRun 4000 blInit demo4).1 b!"a" ∧ ((blRun 4000 blInit demo4).1.logOf b!"#c").length = 2 ∧
    indices b!"a" b!"#c" (blRun 4000 blInit demo4).2 = [0] := by
  unfold Connected; decide

private def demo5 : List (BlOp Nat) :=
  [.connect b!"a", .message b!"#c" 1 none, .pong b!"a", .disconnect b!"a", .connect b!"a", .message b!"#c" 2 none,
   .pong b!"a", .update, .restart, .connect b!"a"]

/-- After such a change, a restart that is not a crash makes a client see again what it has acknowledged. -/
theorem C21_update_replay_violated :
    indices b!"a" b!"#c" (blRun 4000 blInit demo5).2 = [0, 1, 1] := by decide

/-- The hypotheses of the theorems hold in a history with a reconnection: the client sees 0 live, 1 and 2 as
backlog. -/
example : indices b!"a" b!"#c" (blRun 4000 blInit demo3).2 = [0, 1, 2] ∧
    (blRun 4000 blInit (demo3.take 3)).1.delivered.loadID b!"#c" b!"a" = some 1 ∧
    Connected (blRun 4000 blInit demo3).1 b!"a" ∧ ¬ Connected (blRun 4000 blInit (demo3.take 6)).1 b!"a" := by
  unfold Connected; decide

/-- ... where the limit is never exceeded. -/
example : (BlOp.crash : BlOp Nat) ∉ demo3.drop 3 ∧ (BlOp.update : BlOp Nat) ∉ demo3.drop 3 ∧
    ((blRun 4000 blInit (demo3.take 6)).1.logOf b!"#c").length - 1 ≤ 4000 := by
  refine ⟨?_, ?_, by decide⟩ <;> (intro h; simp [demo3] at h)

/-- A client known from one target, and a target without receipts. -/
example : (blRun 4000 blInit (demo2.take 4)).1.delivered.hasTarget b!"#d" = false ∧
    (blRun 4000 blInit (demo2.take 4)).1.delivered.loadID b!"#c" b!"a" = some 1 := by decide

/-- A client with an unanswered PING. -/
example : GoMap.get (blRun 4000 blInit (demo3.take 2)).1.conns b!"a" = some [(b!"#c", 1)] := by decide

end Verif.Props
