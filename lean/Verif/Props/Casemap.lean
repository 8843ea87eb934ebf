import Verif.Proof.Casemap

/-! # C01, C02: case mapping -/

namespace Verif.Props
open Verif.Model Verif.Spec Verif.Proof

/-- C01: folding is idempotent. -/
theorem C01_fold_idempotent (cm : CaseMapping) (s : Str) :
    casemap cm (casemap cm s) = casemap cm s := by
  simp only [casemap_eq_map, List.map_map]
  apply List.map_congr_left
  intro x _
  exact foldByte_idem cm x

/-- C01: folding preserves length. -/
theorem C01_fold_length (cm : CaseMapping) (s : Str) : (casemap cm s).length = s.length := by
  simp [casemap_eq_map]

/-- C01: two names fold to the same string exactly when they are the same up to the letter pairs
of the mapping. -/
theorem C01_fold_eq_iff_same (a b : Str) :
    (casemap .ascii a = casemap .ascii b ↔ SameName .ascii a b) ∧
    (casemap .rfc1459 a = casemap .rfc1459 b ↔ SameName .rfc1459 a b) ∧
    (casemap .rfc1459Strict a = casemap .rfc1459Strict b ↔ SameName .rfc1459Strict a b) :=
  ⟨casemap_eq_iff .ascii a b, casemap_eq_iff .rfc1459 a b, casemap_eq_iff .rfc1459Strict a b⟩

/-- C01: the CASEMAPPING token selects the mapping it names, and nothing else is accepted. -/
theorem C01_parse_casemapping (s : Str) (cm : CaseMapping) :
    parseCaseMapping s = some cm ↔
      (s = b!"ascii" ∧ cm = .ascii) ∨ (s = b!"rfc1459" ∧ cm = .rfc1459) ∨
      (s = b!"rfc1459-strict" ∧ cm = .rfc1459Strict) := by
  unfold parseCaseMapping
  constructor
  · intro h
    split at h
    · simp_all
    · split at h
      · simp_all
      · split at h
        · simp_all
        · simp at h
  · rintro (⟨rfl, rfl⟩ | ⟨rfl, rfl⟩ | ⟨rfl, rfl⟩) <;> decide

example : SameName .rfc1459 b!"Foo[~]" b!"fOO{^}" ∧ ¬ SameName .rfc1459Strict b!"~" b!"^" ∧
    ¬ SameName .ascii b!"[" b!"{" := by decide

variable {V : Type}

/-- C02: after any history of stores and deletions, a lookup under any spelling returns the value
most recently stored under an equivalent spelling, or nothing. -/
theorem C02_lookup_last_write (cm : CaseMapping) (ops : List (CMMap.Op V)) (q : Str) :
    (CMMap.run cm ops).get q = lastValue (sysOf cm) q (ops.map eventOf).reverse := by
  have h := run_mget cm ops q
  unfold CMMap.get
  rw [h.1]
  exact h.2.1

/-- C02: presence test agrees with lookup. -/
theorem C02_has (cm : CaseMapping) (ops : List (CMMap.Op V)) (q : Str) :
    (CMMap.run cm ops).has q = (lastValue (sysOf cm) q (ops.map eventOf).reverse).isSome := by
  rw [← C02_lookup_last_write]
  unfold CMMap.has CMMap.get
  simp

/-- C02: iteration yields exactly the live names, each in the spelling that created it and with its
current value. -/
theorem C02_iteration (cm : CaseMapping) (ops : List (CMMap.Op V)) (k : Str) (v : V) :
    (k, v) ∈ (CMMap.run cm ops).forEach ↔
      spelling (sysOf cm) k (ops.map eventOf).reverse = some k ∧
      lastValue (sysOf cm) k (ops.map eventOf).reverse = some v := by
  have h := run_mget cm ops k
  have inv := cmInv_run cm ops
  unfold CMMap.forEach
  rw [← h.2.1, ← h.2.2]
  simp only [List.mem_map, Option.map_eq_some_iff]
  constructor
  · rintro ⟨⟨key, e⟩, hp, he⟩
    have hk := inv.2 _ hp
    simp only [Prod.mk.injEq] at he
    obtain ⟨rfl, rfl⟩ := he
    simp only at hk
    subst hk
    have hg := CMMap_mget_of_mem_aux inv.1 hp
    rw [h.1] at hg
    exact ⟨⟨e, hg, rfl⟩, ⟨e, hg, rfl⟩⟩
  · rintro ⟨⟨e, hg, rfl⟩, ⟨e', hg', rfl⟩⟩
    rw [hg] at hg'
    cases hg'
    exact ⟨_, mget_some_mem hg, rfl⟩
where
  CMMap_mget_of_mem_aux {m : List (Str × CMEntry V)} (nd : (m.map (·.1)).Nodup) {k : Str}
      {e : CMEntry V} (h : (k, e) ∈ m) : GoMap.get m k = some e := mget_of_mem nd h

/-- C02: iteration never yields two equivalent names. -/
theorem C02_iteration_distinct (cm : CaseMapping) (ops : List (CMMap.Op V)) :
    (CMMap.run cm ops).forEach.Pairwise (fun a b => ¬ SameName (sysOf cm) a.1 b.1) := by
  have inv := cmInv_run cm ops
  have hcm := (run_mget cm ops []).1
  unfold CMMap.forEach
  rw [List.pairwise_map]
  have nd := inv.1
  rw [List.Nodup, List.pairwise_map] at nd
  refine List.Pairwise.imp_of_mem ?_ nd
  intro a b ha hb hne hs
  apply hne
  rw [inv.2 a ha, inv.2 b hb, hcm]
  exact (casemap_eq_iff cm _ _).2 hs

/-- C02: in every reachable state (including after changes of the mapping) a store is visible under
exactly the equivalent spellings and a deletion hides exactly those. -/
theorem C02_store_delete_visible (c : CMMap V) (_h : CMMap.Reach c) (n q : Str) (v : V) :
    (c.set n v).get q = (if SameName (sysOf c.cm) n q then some v else c.get q) ∧
    (c.del n).get q = (if SameName (sysOf c.cm) n q then none else c.get q) := by
  constructor
  · unfold CMMap.get
    rw [set_cm, mget_set]
    simp only [casemap_eq_iff]
    split
    · cases GoMap.get c.m (casemap c.cm q) <;> simp
    · rfl
  · unfold CMMap.get CMMap.del
    simp only [mget_mdel, casemap_eq_iff]
    split <;> simp

/-- C02: changing the case mapping of any reachable map, whatever order the entries are visited in,
keeps every entry (same spelling, same value) provided no two live names coincide under the new
mapping; lookups then follow the new mapping. -/
theorem C02_recase_keeps_entries (c : CMMap V) (_h : CMMap.Reach c) (cm' : CaseMapping)
    (order : List (Str × CMEntry V)) (horder : order.Perm c.m)
    (hdist : c.forEach.Pairwise (fun a b => ¬ SameName (sysOf cm') a.1 b.1)) :
    let c' := c.setCaseMapping order cm'
    c'.forEach.Perm c.forEach ∧
    ∀ q v, c'.get q = some v ↔ ∃ k, (k, v) ∈ c.forEach ∧ SameName (sysOf cm') k q := by
  intro c'
  have hsymm : ∀ {a b : Str × V}, ¬ SameName (sysOf cm') a.1 b.1 → ¬ SameName (sysOf cm') b.1 a.1 := by
    intro a b h h'
    exact h ((casemap_eq_iff _ _ _).1 ((casemap_eq_iff _ _ _).2 h').symm)
  have hperm : (order.map (fun p => (p.2.originalKey, p.2.value))).Perm c.forEach :=
    horder.map _
  have hnd : (order.map (fun p => casemap cm' p.2.originalKey)).Nodup := by
    have : (order.map (fun p => (p.2.originalKey, p.2.value))).Pairwise
        (fun a b => ¬ SameName (sysOf cm') a.1 b.1) := hperm.symm.pairwise hdist hsymm
    rw [List.pairwise_map] at this
    rw [List.Nodup, List.pairwise_map]
    refine this.imp ?_
    intro a b h he
    exact h ((casemap_eq_iff _ _ _).1 he)
  have hm : c'.m = order.map (fun p => (casemap cm' p.2.originalKey, p.2)) := by
    have := rebuild_eq cm' order [] (by simpa using hnd)
    simpa [c', CMMap.setCaseMapping] using this
  have hfe : c'.forEach = order.map (fun p => (p.2.originalKey, p.2.value)) := by
    simp [CMMap.forEach, hm]
  have inv : CMInv c' := cmInv_setCaseMapping _ _ _
  have hcm' : c'.cm = cm' := rfl
  refine ⟨by rw [hfe]; exact hperm, ?_⟩
  intro q v
  have hmem : ∀ k, (k, v) ∈ c.forEach ↔ (k, v) ∈ c'.forEach := by
    intro k; rw [hfe]; exact (hperm.mem_iff).symm
  simp only [hmem]
  simp only [CMMap.get, CMMap.forEach, List.mem_map, Option.map_eq_some_iff, hcm']
  constructor
  · rintro ⟨e, hg, rfl⟩
    have hmemb := mget_some_mem hg
    refine ⟨e.originalKey, ⟨_, hmemb, rfl⟩, ?_⟩
    rw [← casemap_eq_iff]
    have := inv.2 _ hmemb
    rw [hcm'] at this
    exact this.symm
  · rintro ⟨k, ⟨⟨key, e⟩, hp, he⟩, hs⟩
    simp only [Prod.mk.injEq] at he
    obtain ⟨rfl, rfl⟩ := he
    have hk := inv.2 _ hp
    simp only [hcm'] at hk
    rw [← casemap_eq_iff] at hs
    rw [hs] at hk
    subst hk
    exact ⟨e, mget_of_mem inv.1 hp, rfl⟩

example : ∃ (ops : List (CMMap.Op Nat)), CMMap.Reach (CMMap.run .rfc1459 ops) ∧
    (CMMap.run .rfc1459 ops).forEach.length = 2 ∧
    (CMMap.run .rfc1459 ops).get b!"FOO[" = some 3 ∧
    (CMMap.run .rfc1459 ops).forEach.Pairwise (fun a b => ¬ SameName .ascii a.1 b.1) :=
  ⟨[.set b!"Foo{" 1, .set b!"bar" 2, .del b!"BAR", .set b!"foo[" 3, .set b!"Baz" 4],
    reach_run _ _, by decide⟩

/-- C02: the distinctness hypothesis is needed — two live names
that the new mapping identifies collapse into one entry, and which one survives depends on the Go
map iteration order. -/
theorem C02_recase_collision_loses_entry :
    ∃ (ops : List (CMMap.Op Nat)) (o₁ o₂ : List (Str × CMEntry Nat)),
      o₁.Perm (CMMap.run .ascii ops).m ∧ o₂.Perm (CMMap.run .ascii ops).m ∧
      ((CMMap.run .ascii ops).setCaseMapping o₁ .rfc1459).get b!"a["
        ≠ ((CMMap.run .ascii ops).setCaseMapping o₂ .rfc1459).get b!"a[" ∧
      ((CMMap.run .ascii ops).setCaseMapping o₁ .rfc1459).len < (CMMap.run .ascii ops).len := by
  refine ⟨[.set b!"a[" 1, .set b!"a{" 2],
    [(b!"a[", ⟨b!"a[", 1⟩), (b!"a{", ⟨b!"a{", 2⟩)],
    [(b!"a{", ⟨b!"a{", 2⟩), (b!"a[", ⟨b!"a[", 1⟩)], ?_, ?_, ?_, ?_⟩
  · decide
  · decide
  · decide
  · decide

end Verif.Props
