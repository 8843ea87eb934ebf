import Verif.Model.Backlog
import Verif.Proof.GoMap
import Verif.Proof.Util

/-! # Lemmas on delivery receipts and the backlog -/

namespace Verif.Proof
open Verif.Model

variable {M : Type}

theorem loadID_storeID (ds : Delivered) (t c : Str) (id : Nat) (t' c' : Str) :
    (ds.storeID t c id).loadID t' c' = if t = t' ∧ c = c' then some id else ds.loadID t' c' := by
  unfold Delivered.loadID Delivered.storeID
  rw [mget_mset]
  by_cases ht : t = t'
  · subst ht
    simp only [if_true, Option.bind_some, mget_mset, true_and]
    by_cases hc : c = c'
    · simp [hc]
    · simp only [if_neg hc]
      cases GoMap.get ds t <;> simp [GoMap.get]
  · simp [ht]

theorem storeID_nodup {ds : Delivered} (h : (ds.map (·.1)).Nodup) (t c : Str) (id : Nat) :
    ((ds.storeID t c id).map (·.1)).Nodup := mset_nodup h _ _

theorem loadID_target {ds : Delivered} {t c : Str} {q : Nat} (h : ds.loadID t c = some q) :
    t ∈ ds.targets ∧ c ∈ ds.clients ∧ ds.hasTarget t = true := by
  unfold Delivered.loadID at h
  cases hg : GoMap.get ds t with
  | none => rw [hg] at h; simp at h
  | some cs =>
    rw [hg] at h
    simp only [Option.bind_some] at h
    have h1 := mget_some_mem hg
    refine ⟨List.mem_map.2 ⟨_, h1, rfl⟩, ?_, by simp [Delivered.hasTarget, hg]⟩
    exact List.mem_flatMap.2 ⟨_, h1, List.mem_map.2 ⟨_, mget_some_mem h, rfl⟩⟩

/-- Storing the same position for several clients. -/
theorem loadID_foldl_clients (cs : List Str) (t : Str) (n : Nat) (ds : Delivered) (t' c' : Str) :
    (cs.foldl (fun ds c => Delivered.storeID ds t c n) ds).loadID t' c'
      = if t = t' ∧ c' ∈ cs then some n else ds.loadID t' c' := by
  induction cs generalizing ds with
  | nil => simp
  | cons c cs ih =>
    rw [List.foldl_cons, ih, loadID_storeID]
    by_cases ht : t = t' <;> by_cases hc : c = c' <;> by_cases hm : c' ∈ cs <;>
      simp [ht, hc, hm, Ne.symm] <;> grind

theorem nodup_foldl_clients (cs : List Str) (t : Str) (n : Nat) (ds : Delivered) (h : (ds.map (·.1)).Nodup) :
    ((cs.foldl (fun ds c => Delivered.storeID ds t c n) ds).map (·.1)).Nodup := by
  induction cs generalizing ds with
  | nil => exact h
  | cons c cs ih => exact ih _ (storeID_nodup h _ _ _)

/-- Storing positions of several targets for one client. -/
theorem loadID_foldl_targets (l : List (Str × Nat)) (client : Str) (len : Str → Nat) (ds : Delivered) (t c : Str) :
    (l.foldl (fun ds e => Delivered.storeID ds e.1 client (len e.1)) ds).loadID t c
      = if client = c ∧ t ∈ l.map (·.1) then some (len t) else ds.loadID t c := by
  induction l generalizing ds with
  | nil => simp
  | cons e l ih =>
    rw [List.foldl_cons, ih, loadID_storeID]
    by_cases hc : client = c
    · by_cases hm : t ∈ l.map (·.1)
      · rw [if_pos ⟨hc, hm⟩, if_pos ⟨hc, List.mem_cons_of_mem _ hm⟩]
      · rw [if_neg (fun h => hm h.2)]
        by_cases he : e.1 = t
        · rw [if_pos ⟨he, hc⟩, if_pos ⟨hc, by rw [← he]; exact List.mem_cons_self⟩, he]
        · rw [if_neg (fun h => he h.1), if_neg]
          rintro ⟨_, h⟩
          rcases List.mem_cons.1 h with h | h
          · exact he h.symm
          · exact hm h
    · rw [if_neg (fun h => hc h.1), if_neg (fun h => hc h.2), if_neg (fun h => hc h.1)]

theorem nodup_foldl_targets (l : List (Str × Nat)) (client : Str) (len : Str → Nat) (ds : Delivered)
    (h : (ds.map (·.1)).Nodup) :
    ((l.foldl (fun ds e => Delivered.storeID ds e.1 client (len e.1)) ds).map (·.1)).Nodup := by
  induction l generalizing ds with
  | nil => exact h
  | cons e l ih => exact ih _ (storeID_nodup h _ _ _)

theorem nodup_foldl_load (l : List (Str × Str × Nat)) (ds : Delivered) (h : (ds.map (·.1)).Nodup) :
    ((l.foldl (fun ds x => Delivered.storeID ds x.2.1 x.1 x.2.2) ds).map (·.1)).Nodup := by
  induction l generalizing ds with
  | nil => exact h
  | cons e l ih => exact ih _ (storeID_nodup h _ _ _)

theorem loadID_foldl_load (l : List (Str × Str × Nat)) (ds : Delivered) (t c : Str) (q : Nat)
    (h : (l.foldl (fun ds x => Delivered.storeID ds x.2.1 x.1 x.2.2) ds).loadID t c = some q) :
    (c, t, q) ∈ l ∨ ds.loadID t c = some q := by
  induction l generalizing ds with
  | nil => exact Or.inr h
  | cons e l ih =>
    rcases ih _ h with h1 | h1
    · exact Or.inl (List.mem_cons_of_mem _ h1)
    · rw [loadID_storeID] at h1
      split at h1
      · rename_i he
        simp only [Option.some.injEq] at h1
        left
        have : e = (c, t, q) := by
          obtain ⟨a, b, d⟩ := e; simp only at he h1; simp [he, h1]
        rw [this]; exact List.mem_cons_self
      · exact Or.inr h1

theorem loadID_foldl_load_mem (l : List (Str × Str × Nat)) (ds : Delivered) (t c : Str) (q : Nat)
    (hu : ∀ q', (c, t, q') ∈ l → q' = q) (hm : (c, t, q) ∈ l ∨ ds.loadID t c = some q) :
    (l.foldl (fun ds x => Delivered.storeID ds x.2.1 x.1 x.2.2) ds).loadID t c = some q := by
  induction l generalizing ds with
  | nil => rcases hm with h | h; simp at h; exact h
  | cons e l ih =>
    refine ih _ (fun q' h => hu q' (List.mem_cons_of_mem _ h)) ?_
    rw [loadID_storeID]
    by_cases he : e.2.1 = t ∧ e.1 = c
    · rw [if_pos he]
      right
      have := hu e.2.2 (by
        have : e = (c, t, e.2.2) := by obtain ⟨a, b, d⟩ := e; simp only at he; simp [he]
        rw [← this]; exact List.mem_cons_self)
      rw [this]
    · rw [if_neg he]
      rcases hm with h | h
      · rcases List.mem_cons.1 h with h | h
        · rw [← h] at he; simp at he
        · exact Or.inl h
      · exact Or.inr h

/-- The receipts of a client read from a table. -/
theorem loadID_blLoad_some {db : GoMap Str (List (Str × Nat))} (nd : (db.map (·.1)).Nodup) {t c : Str} {q : Nat}
    (h : (blLoad db).loadID t c = some q) : ∃ rows, GoMap.get db c = some rows ∧ (t, q) ∈ rows := by
  unfold blLoad at h
  rcases loadID_foldl_load _ _ _ _ _ h with h | h
  · obtain ⟨e, he, h⟩ := List.mem_flatMap.1 h
    obtain ⟨r, hr, h⟩ := List.mem_map.1 h
    simp only [Prod.mk.injEq] at h
    obtain ⟨rfl, rfl⟩ := h
    exact ⟨e.2, mget_of_mem nd he, hr⟩
  · simp [Delivered.loadID, GoMap.get] at h

theorem loadID_blLoad_mem {db : GoMap Str (List (Str × Nat))} (nd : (db.map (·.1)).Nodup) {t c : Str} {q : Nat}
    {rows : List (Str × Nat)} (hg : GoMap.get db c = some rows) (hu : ∀ q', (t, q') ∈ rows → q' = q)
    (hm : (t, q) ∈ rows) : (blLoad db).loadID t c = some q := by
  unfold blLoad
  apply loadID_foldl_load_mem
  · intro q' h
    obtain ⟨e, he, h⟩ := List.mem_flatMap.1 h
    obtain ⟨r, hr, h⟩ := List.mem_map.1 h
    simp only [Prod.mk.injEq] at h
    obtain ⟨h1, h2⟩ := h
    have := mget_of_mem nd (k := e.1) (e := e.2) he
    rw [h1, hg] at this
    simp only [Option.some.injEq] at this
    exact hu q' (by rw [this, ← h2]; exact hr)
  · left
    exact List.mem_flatMap.2 ⟨(c, rows), mget_some_mem hg, List.mem_map.2 ⟨(t, q), hm, rfl⟩⟩

theorem logOf_set (st : BlState M) (t : Str) (l : List M) (t' : Str) (d : Delivered)
    (cs : GoMap Str (List (Str × Nat))) (db : GoMap Str (List (Str × Nat))) :
    BlState.logOf ⟨GoMap.set st.log t l, d, cs, db⟩ t' = if t = t' then l else st.logOf t' := by
  unfold BlState.logOf
  rw [mget_mset]
  split <;> simp

theorem mget_map_snd {K V W : Type} [DecidableEq K] (m : GoMap K V) (f : V → W) (k : K) :
    GoMap.get (m.map (fun e => (e.1, f e.2))) k = (GoMap.get m k).map f := by
  induction m with
  | nil => rfl
  | cons e m ih =>
    obtain ⟨k', v⟩ := e
    simp only [List.map_cons, GoMap.get]
    split <;> simp_all

/-- The receipts kept after the receipts of some clients are stored. -/
theorem blPersist_foldl (cs : List Str) (st : BlState M) :
    (cs.foldl blPersist st).delivered = st.delivered ∧ (cs.foldl blPersist st).log = st.log ∧
    ((st.db.map (·.1)).Nodup → ((cs.foldl blPersist st).db.map (·.1)).Nodup) ∧
    ∀ c, GoMap.get (cs.foldl blPersist st).db c = if c ∈ cs
      then some (st.delivered.targets.filterMap (fun t => (st.delivered.loadID t c).map (fun id => (t, id))))
      else GoMap.get st.db c := by
  induction cs generalizing st with
  | nil => simp
  | cons a cs ih =>
    rw [List.foldl_cons]
    obtain ⟨h1, h2, h3, h4⟩ := ih (blPersist st a)
    refine ⟨h1, h2, fun h => h3 (mset_nodup h _ _), ?_⟩
    intro c
    rw [h4]
    have hd : (blPersist st a).delivered = st.delivered := rfl
    rw [hd]
    by_cases hc : c ∈ cs
    · simp [hc]
    · by_cases ha : c = a
      · subst ha
        simp only [if_neg hc, List.mem_cons, true_or, if_true, blPersist, mget_mset]
      · simp only [List.mem_cons, ha, hc, or_self, if_false, blPersist, mget_mset, if_neg (Ne.symm ha)]

theorem mem_known {ds : Delivered} {c : Str} {t : Str} {q : Nat} :
    (t, q) ∈ ds.targets.filterMap (fun t => (ds.loadID t c).map (fun id => (t, id))) ↔ ds.loadID t c = some q := by
  rw [List.mem_filterMap]
  constructor
  · rintro ⟨t', _, h⟩
    cases hl : ds.loadID t' c with
    | none => rw [hl] at h; simp at h
    | some x =>
      rw [hl] at h
      simp only [Option.map_some, Option.some.injEq, Prod.mk.injEq] at h
      obtain ⟨rfl, rfl⟩ := h
      exact hl
  · intro h
    exact ⟨t, (loadID_target h).1, by rw [h]; rfl⟩

/-- A clean restart keeps the receipts. -/
theorem loadID_blRestart {st : BlState M} (nd : (st.db.map (·.1)).Nodup) {t c : Str} {q : Nat}
    (h : st.delivered.loadID t c = some q) : (blRestart st).delivered.loadID t c = some q := by
  obtain ⟨_, _, h3, h4⟩ := blPersist_foldl st.delivered.clients st
  unfold blRestart blStart
  simp only
  have hg := h4 c
  rw [if_pos (loadID_target h).2.1] at hg
  refine loadID_blLoad_mem (h3 nd) hg ?_ (mem_known.2 h)
  intro q' hq'
  have := mem_known.1 hq'
  rw [h] at this
  simpa using this.symm

end Verif.Proof
