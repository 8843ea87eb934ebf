import Verif.Model.Labels
import Verif.Proof.GoNum
import Verif.Proof.GoMap

/-! # C18: labelled replies go to the client that asked -/

namespace Verif.Props
open Verif.Model Verif.Proof

private theorem scanUint_itoa (n : Nat) (h : n < 2 ^ 64) (rest : Str) (hr : ∀ c ∈ rest.head?, isDigit c = false) :
    scanUint (itoa n ++ rest) = some (n, rest) := by
  have hd : (itoa n ++ rest).dropWhile scanSpace = itoa n ++ rest := by
    cases he : itoa n with
    | nil => exact absurd he (itoa_ne_nil n)
    | cons c r =>
      have := itoa_digits n c (by rw [he]; simp)
      have hs : scanSpace c = false := by simp [scanSpace]; omega
      simp [hs]
  unfold scanUint
  simp only [hd]
  obtain ⟨h1, h2⟩ := span_digits (itoa n) rest (itoa_all_digit n) hr
  rw [h1, h2, parseUint64_itoa n h]; rfl

/-- C18: a label the bouncer attached to a message for a client decodes to that client. -/
theorem C18_label_roundtrip (d n : Nat) (hd : d < 2 ^ 64) (hn : n < 2 ^ 64) : scanLabel (labelOf d n) = some d := by
  unfold scanLabel labelOf
  rw [if_pos (by simp [List.append_assoc, hasPrefix])]
  have : (b!"sd-" ++ itoa d ++ b!"-" ++ itoa n).drop 3 = itoa d ++ (45 :: (itoa n ++ [])) := by simp
  rw [this, scanUint_itoa d hd _ (by intro c hc; simp at hc; subst hc; decide)]
  simp only
  rw [scanUint_itoa n hn [] (by simp)]
  rfl

/-- C18: a reply with that label, or in an open batch that carries it, is for that client. -/
theorem C18_reply_is_for_client (batches : BatchLabels) (d n : Nat) (hd : d < 2 ^ 64) (hn : n < 2 ^ 64) (ref : Str)
    (hb : GoMap.get batches ref = some (labelOf d n)) :
    messageDownstream batches (some (labelOf d n)) none = some d ∧
    messageDownstream batches (some (labelOf d n)) (some ref) = some d ∧
    messageDownstream batches none (some ref) = some d := by
  have hne : labelOf d n ≠ [] := by simp [labelOf]
  refine ⟨?_, ?_, ?_⟩ <;>
    simp [messageDownstream, messageLabel, hb, hne, C18_label_roundtrip d n hd hn]

/-- C18: once a batch has been opened with a client's label, it keeps that label whatever other batches are
opened (nested or not) and closed, until it is closed itself. -/
theorem C18_batch_keeps_label (batches : BatchLabels) (ref : Str) (l : Str) (h0 : GoMap.get batches ref = some l)
    (ops : List (Bool × Str × Option Str × Option Str)) (hops : ∀ o ∈ ops, ¬ (o.1 = false ∧ o.2.1 = ref)) :
    GoMap.get (ops.foldl (fun b o => (handleBatch b o.1 o.2.1 o.2.2.1 o.2.2.2).getD b) batches) ref = some l := by
  induction ops generalizing batches with
  | nil => exact h0
  | cons o ops ih =>
    refine ih _ ?_ (fun o' ho' => hops o' (by simp [ho']))
    have ho := hops o (by simp)
    obtain ⟨opens, r, lab, bat⟩ := o
    simp only
    unfold handleBatch
    split
    · split
      · split
        · exact h0
        · rename_i hnone
          simp only [Option.getD_some]
          rw [mget_mset]
          split
          · rename_i he; subst he; rw [h0] at hnone; simp at hnone
          · exact h0
      · split
        · simp only [Option.getD_some]
          rw [mget_mdel]
          split
          · simp_all
          · exact h0
        · exact h0
    · exact h0

/-- C18: a batch opened by a labelled message carries the label of that message. -/
theorem C18_batch_gets_label (batches : BatchLabels) (ref : Str) (d n : Nat) (hd : d < 2 ^ 64) (hn : n < 2 ^ 64)
    (hfree : GoMap.get batches ref = none) :
    ∃ b, handleBatch batches true ref (some (labelOf d n)) none = some b ∧ GoMap.get b ref = some (labelOf d n) := by
  have hne : labelOf d n ≠ [] := by simp [labelOf]
  refine ⟨_, by simp [handleBatch, messageDownstream, messageLabel, hne, C18_label_roundtrip d n hd hn, hfree]; rfl, ?_⟩
  rw [mget_mset, if_pos rfl]

private theorem labelOf_inj {d n d' n' : Nat} (h : labelOf d n = labelOf d' n') : d = d' ∧ n = n' := by
  unfold labelOf at h
  simp only [List.append_assoc] at h
  have h := List.append_cancel_left h
  have hd : ∀ k : Nat, ∀ c ∈ ((b!"-" ++ itoa k) : Str).head?, isDigit c = false := by
    intro k c hc; simp at hc; subst hc; decide
  have e1 := span_digits (itoa d) (b!"-" ++ itoa n) (itoa_all_digit d) (hd n)
  have e2 := span_digits (itoa d') (b!"-" ++ itoa n') (itoa_all_digit d') (hd n')
  rw [h] at e1
  have h1 := e1.1.symm.trans e2.1
  have h2 := e1.2.symm.trans e2.2
  exact ⟨itoa_inj h1, itoa_inj (List.append_cancel_left h2)⟩

/-- C18: labels attached on one connection are pairwise distinct, even for different clients (for the first
2^64 messages). -/
theorem C18_labels_distinct (ds : List Nat) (h : ds.length ≤ 2 ^ 64) : (mintLabels 0 ds).Nodup := by
  have key : ∀ (ds : List Nat) (n : Nat), n + ds.length ≤ 2 ^ 64 →
      (mintLabels n ds).Nodup ∧ ∀ l ∈ mintLabels n ds, ∃ d k, l = labelOf d k ∧ n ≤ k := by
    intro ds
    induction ds with
    | nil => intro n _; simp [mintLabels]
    | cons d ds ih =>
      intro n hn
      simp only [List.length_cons] at hn
      by_cases hw : n + 1 = 2 ^ 64
      · have : ds = [] := List.eq_nil_of_length_eq_zero (by omega)
        subst this
        simp only [mintLabels, mintLabel, List.mem_singleton]
        exact ⟨by simp, fun l hl => ⟨d, n, hl, Nat.le_refl _⟩⟩
      · have hm : (n + 1) % 2 ^ 64 = n + 1 := Nat.mod_eq_of_lt (by omega)
        simp only [mintLabels, mintLabel, hm]
        obtain ⟨i1, i2⟩ := ih (n + 1) (by omega)
        refine ⟨List.nodup_cons.2 ⟨?_, i1⟩, ?_⟩
        · intro hmem
          obtain ⟨d', k, he, hk⟩ := i2 _ hmem
          have := (labelOf_inj he).2
          omega
        · intro l hl
          rcases List.mem_cons.1 hl with rfl | hl
          · exact ⟨d, n, rfl, Nat.le_refl _⟩
          · obtain ⟨d', k, he, hk⟩ := i2 l hl
            exact ⟨d', k, he, by omega⟩
  exact (key ds 0 (by omega)).1

/-- C18: a message for client `id` reaches the connections of the network with that ID and no other; an
unlabelled one reaches every client of the network; neither reaches clients of other networks. -/
theorem C18_routing (clients : List (Nat × Option Nat)) (net id c : Nat) :
    c ∈ forEachByID clients net id ↔ (c, some net) ∈ clients ∧ (id = 0 ∨ id = c) := by
  simp only [forEachByID, List.mem_map, List.mem_filter, decide_eq_true_eq, Bool.not_eq_true',
    decide_eq_false_iff_not]
  constructor
  · rintro ⟨⟨x, n⟩, ⟨⟨h1, h2⟩, h3⟩, rfl⟩
    simp only at h2 h3
    subst h2
    exact ⟨h1, by omega⟩
  · rintro ⟨h1, h2⟩
    exact ⟨(c, some net), ⟨⟨h1, rfl⟩, by simp only; omega⟩, rfl⟩

/-- C18: a non-empty label that does not start with `sd-`, a number, a dash and another number (spaces
apart) makes the whole message refused: it is routed to nobody. -/
theorem C18_foreign_label_refused (batches : BatchLabels) (label : Str) (d : Nat) (hne : label ≠ [])
    (h : messageDownstream batches (some label) none = some d) :
    ∃ sp1 ds sp2 es junk, label = b!"sd-" ++ sp1 ++ ds ++ b!"-" ++ sp2 ++ es ++ junk ∧
      sp1.all scanSpace = true ∧ sp2.all scanSpace = true ∧
      ds ≠ [] ∧ (∀ c ∈ ds, 48 ≤ c ∧ c ≤ 57) ∧ es ≠ [] ∧ (∀ c ∈ es, 48 ≤ c ∧ c ≤ 57) ∧ digitsVal ds = d := by
  simp only [messageDownstream, messageLabel, Option.getD_some, if_neg hne] at h
  have scan : ∀ s n rest, scanUint s = some (n, rest) → ∃ sp ds, s = sp ++ ds ++ rest ∧ sp.all scanSpace = true ∧
      ds ≠ [] ∧ (∀ c ∈ ds, 48 ≤ c ∧ c ≤ 57) ∧ digitsVal ds = n := by
    intro s n rest hs
    unfold scanUint at hs
    simp only [Option.map_eq_some_iff, Prod.mk.injEq] at hs
    obtain ⟨m, hp, rfl, rfl⟩ := hs
    unfold parseUint64 at hp
    split at hp
    · rename_i hc
      simp at hp
      refine ⟨s.takeWhile scanSpace, (s.dropWhile scanSpace).takeWhile isDigit, ?_, ?_, hc.1, ?_, hp⟩
      · rw [List.append_assoc, List.takeWhile_append_dropWhile, List.takeWhile_append_dropWhile]
      · exact List.all_takeWhile
      · intro c hcm
        exact (isDigit_iff c).1 (List.all_eq_true.1 hc.2.1 c hcm)
    · simp at hp
  unfold scanLabel at h
  split at h
  · rename_i hp
    have hlab : label = b!"sd-" ++ label.drop 3 := by
      have := List.isPrefixOf_iff_prefix.1 hp
      obtain ⟨t, ht⟩ := this
      rw [← ht]; simp
    split at h
    · rename_i d' rest hs
      obtain ⟨sp1, ds, e1, hsp1, hds1, hds2, hval⟩ := scan _ _ _ hs
      simp only [Option.map_eq_some_iff] at h
      obtain ⟨⟨n, rest2⟩, hs2, rfl⟩ := h
      obtain ⟨sp2, es, e2, hsp2, hes1, hes2, _⟩ := scan _ _ _ hs2
      refine ⟨sp1, ds, sp2, es, rest2, ?_, hsp1, hsp2, hds1, hds2, hes1, hes2, hval⟩
      rw [hlab, e1, e2]
      simp
    · simp at h
  · simp at h

/-- C18 is not exact the other way: a label the bouncer never attached, with text after the second number,
is taken as client 7's. -/
theorem C18_foreign_label_violated : ∃ label, (∀ d n, labelOf d n ≠ label) ∧
    messageDownstream [] (some label) none = some 7 := by
  refine ⟨b!"sd-7-0;x", ?_, by decide⟩
  intro d n h
  have hx : (120 : Nat) ∈ labelOf d n := by rw [h]; decide
  simp only [labelOf, List.mem_append] at hx
  rcases hx with ((hx | hx) | hx) | hx
  · revert hx; decide
  · have := itoa_digits d _ hx; omega
  · revert hx; decide
  · have := itoa_digits n _ hx; omega

example : mintLabels 0 [7, 12, 7] = [b!"sd-7-0", b!"sd-12-1", b!"sd-7-2"] ∧
    scanLabel b!"sd-12-1" = some 12 ∧ scanLabel b!"foo" = none ∧
    forEachByID [(7, some 1), (12, some 1), (3, some 2)] 1 12 = [12] ∧
    forEachByID [(7, some 1), (12, some 1), (3, some 2)] 1 0 = [7, 12] := by decide

end Verif.Props
