import Verif.Model.Casemap
import Verif.Proof.GoMap
import Verif.Spec.Casemap

namespace Verif.Proof
open Verif.Model Verif.Spec

/-- The specification's name for each mapping of the code. -/
def sysOf : CaseMapping → CaseSys
  | .ascii => .ascii
  | .rfc1459 => .rfc1459
  | .rfc1459Strict => .rfc1459Strict

def foldByte : CaseMapping → Byte → Byte
  | .ascii => casemapASCIIByte
  | .rfc1459 => casemapRFC1459Byte
  | .rfc1459Strict => casemapRFC1459StrictByte

theorem casemap_eq_map (cm : CaseMapping) (s : Str) : casemap cm s = s.map (foldByte cm) := by
  cases cm <;> rfl

theorem foldByte_idem (cm : CaseMapping) (x : Byte) :
    foldByte cm (foldByte cm x) = foldByte cm x := by
  cases cm <;> simp only [foldByte, casemapASCIIByte, casemapRFC1459Byte, casemapRFC1459StrictByte] <;>
    grind

theorem foldByte_eq_iff (cm : CaseMapping) (x y : Byte) :
    foldByte cm x = foldByte cm y ↔ sameChar (sysOf cm) x y := by
  cases cm <;>
    simp only [foldByte, casemapASCIIByte, casemapRFC1459Byte, casemapRFC1459StrictByte, sysOf,
      sameChar, upperLower] <;> grind (splits := 60)

theorem casemap_eq_iff (cm : CaseMapping) (a b : Str) :
    casemap cm a = casemap cm b ↔ SameName (sysOf cm) a b := by
  simp only [casemap_eq_map]
  induction a generalizing b with
  | nil => cases b <;> simp [SameName]
  | cons x xs ih =>
    cases b with
    | nil => simp [SameName]
    | cons y ys => simp [SameName, ih, foldByte_eq_iff]

section
variable {V : Type}

/-- Invariant of every reachable map: keys are distinct and each key is the fold of the spelling
it stores. -/
def CMInv (c : CMMap V) : Prop :=
  (c.m.map (·.1)).Nodup ∧ ∀ p ∈ c.m, p.1 = casemap c.cm p.2.originalKey

theorem cmInv_new (cm : CaseMapping) : CMInv (CMMap.new cm : CMMap V) := by
  simp [CMInv, CMMap.new]

theorem set_cm (c : CMMap V) (n : Str) (v : V) : (c.set n v).cm = c.cm := by
  unfold CMMap.set; simp only; split <;> rfl

theorem cmInv_set {c : CMMap V} (h : CMInv c) (n : Str) (v : V) : CMInv (c.set n v) := by
  unfold CMMap.set
  simp only
  split
  · refine ⟨mset_nodup h.1 _ _, ?_⟩
    intro p hp
    rcases mem_mset hp with rfl | hp
    · rfl
    · exact h.2 p hp
  · rename_i entry he
    refine ⟨mset_nodup h.1 _ _, ?_⟩
    intro p hp
    rcases mem_mset hp with rfl | hp
    · exact h.2 (_, entry) (mget_some_mem he)
    · exact h.2 p hp

theorem cmInv_del {c : CMMap V} (h : CMInv c) (n : Str) : CMInv (c.del n) := by
  refine ⟨mdel_nodup h.1 _, ?_⟩
  intro p hp
  exact h.2 p (List.mem_filter.1 hp).1

theorem step_cm (c : CMMap V) (op : CMMap.Op V) : (c.step op).cm = c.cm := by
  cases op
  · exact set_cm _ _ _
  · rfl

theorem cmInv_step {c : CMMap V} (h : CMInv c) (op : CMMap.Op V) : CMInv (c.step op) := by
  cases op
  · exact cmInv_set h _ _
  · exact cmInv_del h _

/-- The specification's view of an operation. -/
def eventOf : CMMap.Op V → MapEvent V
  | .set n v => .stored n v
  | .del n => .deleted n

theorem mget_set (c : CMMap V) (n : Str) (v : V) (k : Str) :
    GoMap.get (c.set n v).m k =
      if casemap c.cm n = k then
        some (match GoMap.get c.m k with
          | none => ⟨n, v⟩
          | some e => ⟨e.originalKey, v⟩)
      else GoMap.get c.m k := by
  unfold CMMap.set
  simp only
  split <;> rename_i h <;> simp only [mget_mset] <;> split <;> simp_all

/-- State after a history: the entry under the folded key of `q` is described by the
specification functions. -/
theorem run_mget (cm : CaseMapping) (ops : List (CMMap.Op V)) (q : Str) :
    (CMMap.run cm ops).cm = cm ∧
    (GoMap.get (CMMap.run cm ops).m (casemap cm q)).map (·.value)
      = lastValue (sysOf cm) q ((ops.map eventOf).reverse) ∧
    (GoMap.get (CMMap.run cm ops).m (casemap cm q)).map (·.originalKey)
      = spelling (sysOf cm) q ((ops.map eventOf).reverse) := by
  unfold CMMap.run
  rw [← List.reverse_reverse ops]
  generalize ops.reverse = r
  rw [List.foldl_reverse, List.map_reverse, List.reverse_reverse]
  induction r with
  | nil => simp [CMMap.new, GoMap.get, lastValue, spelling]
  | cons op r ih =>
    obtain ⟨ih1, ih2, ih3⟩ := ih
    simp only [List.foldr_cons, List.map_cons]
    revert ih1 ih2 ih3
    generalize List.foldr (fun x y => CMMap.step y x) (CMMap.new cm) r = c
    intro ih1 ih2 ih3
    refine ⟨by rw [step_cm]; exact ih1, ?_, ?_⟩
    · cases op with
      | set n v =>
        simp only [CMMap.step, eventOf, lastValue]
        rw [mget_set, ih1]
        simp only [casemap_eq_iff, ← ih2]
        split
        · cases GoMap.get c.m (casemap cm q) <;> simp
        · rfl
      | del n =>
        simp only [CMMap.step, eventOf, lastValue, CMMap.del]
        rw [mget_mdel, ih1]
        simp only [casemap_eq_iff, ← ih2]
        split <;> simp
    · cases op with
      | set n v =>
        simp only [CMMap.step, eventOf, spelling]
        rw [mget_set, ih1]
        simp only [casemap_eq_iff, ← ih3]
        split
        · cases GoMap.get c.m (casemap cm q) <;> simp
        · rfl
      | del n =>
        simp only [CMMap.step, eventOf, spelling, CMMap.del]
        rw [mget_mdel, ih1]
        simp only [casemap_eq_iff, ← ih3]
        split <;> simp

theorem cmInv_run (cm : CaseMapping) (ops : List (CMMap.Op V)) : CMInv (CMMap.run cm ops) := by
  unfold CMMap.run
  have : ∀ c : CMMap V, CMInv c → CMInv (ops.foldl CMMap.step c) := by
    induction ops with
    | nil => intro c h; exact h
    | cons op ops ih => intro c h; exact ih _ (cmInv_step h op)
  exact this _ (cmInv_new cm)

/-- Rebuilding from a list of entries whose new keys are distinct appends them one by one. -/
theorem rebuild_eq (cm' : CaseMapping) (l acc : List (Str × CMEntry V))
    (hnd : (acc.map (·.1) ++ l.map (fun p => casemap cm' p.2.originalKey)).Nodup) :
    l.foldl (fun m p => GoMap.set m (casemap cm' p.2.originalKey) p.2) acc
      = acc ++ l.map (fun p => (casemap cm' p.2.originalKey, p.2)) := by
  induction l generalizing acc with
  | nil => simp
  | cons p l ih =>
    simp only [List.foldl_cons, List.map_cons]
    have habs : casemap cm' p.2.originalKey ∉ acc.map (·.1) := by
      intro hm
      rw [List.nodup_append] at hnd
      exact hnd.2.2 _ hm _ (by simp) rfl
    rw [mset_of_absent habs, ih]
    · simp
    · simpa using hnd

theorem cmInv_setCaseMapping (c : CMMap V) (order : List (Str × CMEntry V)) (cm' : CaseMapping) :
    CMInv (c.setCaseMapping order cm') := by
  unfold CMMap.setCaseMapping CMInv
  simp only
  have : ∀ acc : List (Str × CMEntry V), (acc.map (·.1)).Nodup →
      (∀ p ∈ acc, p.1 = casemap cm' p.2.originalKey) →
      ((order.foldl (fun m p => GoMap.set m (casemap cm' p.2.originalKey) p.2) acc).map (·.1)).Nodup ∧
      ∀ p ∈ order.foldl (fun m p => GoMap.set m (casemap cm' p.2.originalKey) p.2) acc,
        p.1 = casemap cm' p.2.originalKey := by
    induction order with
    | nil => intro acc h1 h2; exact ⟨h1, h2⟩
    | cons p l ih =>
      intro acc h1 h2
      simp only [List.foldl_cons]
      refine ih _ (mset_nodup h1 _ _) ?_
      intro q hq
      rcases mem_mset hq with rfl | hq
      · rfl
      · exact h2 q hq
  exact this [] (by simp) (by simp)

theorem cmInv_reach {c : CMMap V} (h : CMMap.Reach c) : CMInv c := by
  induction h with
  | new cm => exact cmInv_new cm
  | set n v _ ih => exact cmInv_set ih n v
  | del n _ ih => exact cmInv_del ih n
  | recase order cm' _ _ _ => exact cmInv_setCaseMapping _ order cm'

theorem reach_run (cm : CaseMapping) (ops : List (CMMap.Op V)) : CMMap.Reach (CMMap.run cm ops) := by
  unfold CMMap.run
  have : ∀ c : CMMap V, CMMap.Reach c → CMMap.Reach (ops.foldl CMMap.step c) := by
    induction ops with
    | nil => intro c h; exact h
    | cons op ops ih =>
      intro c h
      refine ih _ ?_
      cases op
      · exact .set _ _ h
      · exact .del _ h
  exact this _ (.new cm)

end
end Verif.Proof
