import Verif.Model.Caps
import Verif.Proof.GoMap
import Verif.Proof.Util

/-! # Lemmas about capability negotiation -/

namespace Verif.Proof
open Verif.Model

theorem isEnabled_iff {cr : CapReg} {n : Str} : cr.isEnabled n = true ↔ n ∈ cr.enabled := by
  simp [CapReg.isEnabled]

theorem mem_setEnabled {cr : CapReg} {n : Str} {e : Bool} {k : Str} :
    k ∈ (cr.setEnabled n e).enabled ↔ if k = n then e = true else k ∈ cr.enabled := by
  unfold CapReg.setEnabled
  cases e <;> grind

theorem setEnabled_available {cr : CapReg} {n : Str} {e : Bool} :
    (cr.setEnabled n e).available = cr.available := by
  unfold CapReg.setEnabled; split <;> rfl

theorem isAvailable_congr {cr cr' : CapReg} (h : cr.available = cr'.available) (k : Str) :
    cr.isAvailable k = cr'.isAvailable k := by simp [CapReg.isAvailable, h]

theorem mem_del {cr : CapReg} {n k : Str} : k ∈ (cr.del n).enabled ↔ k ≠ n ∧ k ∈ cr.enabled := by
  simp [CapReg.del]; grind

theorem del_available {cr : CapReg} {n k : Str} :
    (cr.del n).isAvailable k = (decide (k ≠ n) && cr.isAvailable k) := by
  simp only [CapReg.isAvailable, CapReg.del, mget_mdel]
  grind

theorem set_available {cr : CapReg} {n v k : Str} :
    ({ cr with available := GoMap.set cr.available n v } : CapReg).isAvailable k =
      (decide (k = n) || cr.isAvailable k) := by
  simp only [CapReg.isAvailable, mget_mset]
  grind

theorem sets_available (ns : List Str) (m : GoMap Str Str) (k : Str) :
    (GoMap.get (ns.foldl (fun m k => GoMap.set m k []) m) k).isSome =
      (decide (k ∈ ns) || (GoMap.get m k).isSome) := by
  induction ns generalizing m with
  | nil => simp
  | cons n ns ih => simp only [List.foldl_cons, ih, mget_mset]; grind

/-- Applying the map of a CAP REQ. -/
def applyReq (m : GoMap Str Bool) (r : CapReg) : CapReg :=
  m.foldl (fun (r : CapReg) (p : Str × Bool) => r.setEnabled p.1 p.2) r

theorem applyReq_available (m : GoMap Str Bool) (r : CapReg) : (applyReq m r).available = r.available := by
  unfold applyReq
  induction m generalizing r with
  | nil => rfl
  | cons p m ih => simp only [List.foldl_cons, ih, setEnabled_available]

theorem applyReq_enabled (m : GoMap Str Bool) (nd : (m.map (·.1)).Nodup) (r : CapReg) (k : Str) :
    k ∈ (applyReq m r).enabled ↔
      (match GoMap.get m k with | some e => e = true | none => k ∈ r.enabled) := by
  unfold applyReq
  induction m generalizing r with
  | nil => simp [GoMap.get]
  | cons p m ih =>
    obtain ⟨n, e⟩ := p
    simp only [List.map_cons, List.nodup_cons] at nd
    simp only [List.foldl_cons]
    rw [ih nd.2]
    simp only [GoMap.get]
    by_cases h : n = k
    · subst h
      have : GoMap.get m n = none := mget_none_iff.2 nd.1
      simp [this, mem_setEnabled]
    · simp only [h, if_false, mem_setEnabled, Ne.symm h]

/-- A word of a CAP REQ that can be honoured. -/
def tokenOk (st : DCaps) (w : Str) : Prop :=
  (capToken w).2 = st.reg.isEnabled (capToken w).1 ∨
  (st.reg.isAvailable (capToken w).1 = true ∧
    ¬ ((capToken w).1 = b!"cap-notify" ∧ st.version ≥ 302 ∧ (capToken w).2 = false) ∧
    (capToken w).1 ≠ b!"soju.im/account-required")

theorem capReqLoop_none {st : DCaps} {ws : List Str} {m : GoMap Str Bool} :
    capReqLoop st ws m = none ↔ ∃ w ∈ ws, ¬ tokenOk st w := by
  induction ws generalizing m with
  | nil => simp [capReqLoop]
  | cons w ws ih =>
    simp only [capReqLoop, List.mem_cons, exists_eq_or_imp]
    unfold tokenOk
    split
    · rw [ih]; unfold tokenOk; simp_all
    · split
      · simp_all
      · split
        · simp_all
        · split
          · simp_all
          · rw [ih]; unfold tokenOk; simp_all

/-- What the map of a successful CAP REQ holds: the names whose state changes. -/
theorem capReqLoop_some {st : DCaps} {ws : List Str} {m m' : GoMap Str Bool}
    (nd : (m.map (·.1)).Nodup) (h : capReqLoop st ws m = some m') :
    (m'.map (·.1)).Nodup ∧
    (∀ k e, GoMap.get m' k = some e →
      GoMap.get m k = some e ∨ (∃ w ∈ ws, capToken w = (k, e) ∧ e ≠ st.reg.isEnabled k ∧
        st.reg.isAvailable k = true ∧ ¬ (k = b!"cap-notify" ∧ st.version ≥ 302 ∧ e = false) ∧
        k ≠ b!"soju.im/account-required")) ∧
    (∀ k, (∃ w ∈ ws, capToken w = (k, !st.reg.isEnabled k)) ∨ GoMap.get m k ≠ none →
      GoMap.get m' k ≠ none) := by
  induction ws generalizing m with
  | nil =>
    simp only [capReqLoop, Option.some.injEq] at h
    subst h
    refine ⟨nd, fun k e h => Or.inl h, ?_⟩
    intro k h
    rcases h with ⟨w, h, _⟩ | h
    · cases h
    · exact h
  | cons w ws ih =>
    simp only [capReqLoop] at h
    split at h
    · rename_i he
      obtain ⟨h1, h2, h3⟩ := ih nd h
      refine ⟨h1, ?_, ?_⟩
      · intro k e hk
        rcases h2 k e hk with h | ⟨w', hw', h⟩
        · exact Or.inl h
        · exact Or.inr ⟨w', List.mem_cons_of_mem _ hw', h⟩
      · intro k hk
        apply h3
        rcases hk with ⟨w', hw', ht⟩ | h
        · rcases List.mem_cons.1 hw' with rfl | hw'
          · rw [ht] at he; simp at he
          · exact Or.inl ⟨w', hw', ht⟩
        · exact Or.inr h
    · rename_i he
      split at h
      · cases h
      · rename_i ha
        split at h
        · cases h
        · rename_i hc
          split at h
          · cases h
          · rename_i hr
            obtain ⟨h1, h2, h3⟩ := ih (mset_nodup nd _ _) h
            refine ⟨h1, ?_, ?_⟩
            · intro k e hk
              rcases h2 k e hk with h | ⟨w', hw', h⟩
              · rw [mget_mset] at h
                split at h
                · rename_i hk'
                  right
                  refine ⟨w, List.mem_cons_self, ?_⟩
                  cases hk'
                  cases h
                  exact ⟨rfl, he, by simpa using ha, hc, hr⟩
                · exact Or.inl h
              · exact Or.inr ⟨w', List.mem_cons_of_mem _ hw', h⟩
            · intro k hk
              apply h3
              rcases hk with ⟨w', hw', ht⟩ | h
              · rcases List.mem_cons.1 hw' with rfl | hw'
                · right
                  rw [mget_mset, ht]; simp
                · exact Or.inl ⟨w', hw', ht⟩
              · right
                rw [mget_mset]
                split
                · simp
                · exact h

end Verif.Proof
