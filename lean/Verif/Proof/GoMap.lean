import Verif.Model.GoMap

namespace Verif.Proof
open Verif.Model

variable {K V : Type} [DecidableEq K]

theorem mget_mset (m : GoMap K V) (k k' : K) (e : V) :
    GoMap.get (GoMap.set m k e) k' = if k = k' then some e else GoMap.get m k' := by
  induction m with
  | nil => simp [GoMap.set, GoMap.get]
  | cons p m ih =>
    obtain ⟨q, f⟩ := p
    simp only [GoMap.set]
    split <;> simp only [GoMap.get] <;> grind

theorem mget_mdel (m : GoMap K V) (k k' : K) :
    GoMap.get (GoMap.del m k) k' = if k = k' then none else GoMap.get m k' := by
  unfold GoMap.del
  induction m with
  | nil => simp [GoMap.get]
  | cons p m ih =>
    obtain ⟨q, f⟩ := p
    simp only [List.filter_cons]
    split <;> simp only [GoMap.get] <;> grind

theorem mget_some_mem {m : GoMap K V} {k : K} {e : V}
    (h : GoMap.get m k = some e) : (k, e) ∈ m := by
  induction m with
  | nil => simp [GoMap.get] at h
  | cons p m ih =>
    obtain ⟨q, f⟩ := p
    simp only [GoMap.get] at h
    split at h
    · simp_all
    · simp [ih h]

theorem mget_of_mem {m : GoMap K V} (nd : (m.map (·.1)).Nodup) {k : K}
    {e : V} (h : (k, e) ∈ m) : GoMap.get m k = some e := by
  induction m with
  | nil => simp at h
  | cons p m ih =>
    obtain ⟨q, f⟩ := p
    simp only [List.map_cons, List.nodup_cons] at nd
    simp only [GoMap.get]
    rcases List.mem_cons.1 h with h | h
    · cases h; simp
    · have : q ≠ k := by
        rintro rfl
        exact nd.1 (List.mem_map_of_mem (f := (·.1)) h)
      simp [this, ih nd.2 h]

theorem mget_none_iff {m : GoMap K V} {k : K} :
    GoMap.get m k = none ↔ k ∉ m.map (·.1) := by
  induction m with
  | nil => simp [GoMap.get]
  | cons p m ih =>
    obtain ⟨q, f⟩ := p
    simp only [GoMap.get]
    split <;> simp_all [eq_comm]

theorem mset_keys (m : GoMap K V) (k : K) (e : V) :
    (GoMap.set m k e).map (·.1) = if k ∈ m.map (·.1) then m.map (·.1) else m.map (·.1) ++ [k] := by
  induction m with
  | nil => simp [GoMap.set]
  | cons p m ih =>
    obtain ⟨q, f⟩ := p
    simp only [GoMap.set]
    split
    · simp_all
    · simp only [List.map_cons, ih]
      split <;> simp_all [eq_comm]

theorem mset_nodup {m : GoMap K V} (nd : (m.map (·.1)).Nodup) (k : K)
    (e : V) : ((GoMap.set m k e).map (·.1)).Nodup := by
  rw [mset_keys]
  split
  · exact nd
  · rename_i h
    rw [List.nodup_append]
    refine ⟨nd, by simp, ?_⟩
    intro a ha b hb
    simp at hb
    subst hb
    rintro rfl
    exact h ha

theorem mdel_nodup {m : GoMap K V} (nd : (m.map (·.1)).Nodup) (k : K) :
    ((GoMap.del m k).map (·.1)).Nodup := by
  exact List.Nodup.sublist (List.Sublist.map _ List.filter_sublist) nd

theorem mset_of_absent {m : GoMap K V} {k : K} {e : V}
    (h : k ∉ m.map (·.1)) : GoMap.set m k e = m ++ [(k, e)] := by
  induction m with
  | nil => simp [GoMap.set]
  | cons p m ih =>
    obtain ⟨q, f⟩ := p
    simp at h
    simp only [GoMap.set]
    split
    · simp_all
    · simp_all

theorem mem_mset {m : GoMap K V} {k : K} {e : V} {p : K × V}
    (h : p ∈ GoMap.set m k e) : p = (k, e) ∨ p ∈ m := by
  induction m with
  | nil => simp [GoMap.set] at h; exact .inl h
  | cons q m ih =>
    obtain ⟨q, f⟩ := q
    simp only [GoMap.set] at h
    split at h
    · rcases List.mem_cons.1 h with h | h
      · exact .inl h
      · exact .inr (List.mem_cons_of_mem _ h)
    · rcases List.mem_cons.1 h with h | h
      · exact .inr (by simp [h])
      · rcases ih h with h | h
        · exact .inl h
        · exact .inr (List.mem_cons_of_mem _ h)

end Verif.Proof
