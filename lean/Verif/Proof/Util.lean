import Verif.Basic

/-! # General lemmas on lists -/

namespace Verif.Proof

/-- Induction on lists from the right end. -/
theorem snocInd {α : Type _} {motive : List α → Prop} (nil : motive [])
    (snoc : ∀ l a, motive l → motive (l ++ [a])) (l : List α) : motive l := by
  have : ∀ n (l : List α), l.length = n → motive l := by
    intro n
    induction n with
    | zero => intro l h; rw [List.length_eq_zero_iff.1 h]; exact nil
    | succ n ih =>
      intro l h
      have hne : l ≠ [] := by rintro rfl; simp at h
      rw [← List.dropLast_concat_getLast hne]
      exact snoc _ _ (ih _ (by simp [h]))
  exact this _ l rfl

/-- A key that is not repeated identifies the element. -/
theorem eq_of_nodup_map {α β : Type _} {f : α → β} {l : List α} (h : (l.map f).Nodup) {a b : α}
    (ha : a ∈ l) (hb : b ∈ l) (hab : f a = f b) : a = b := by
  induction l with
  | nil => simp at ha
  | cons c l ih =>
    simp only [List.map_cons, List.nodup_cons] at h
    rcases List.mem_cons.1 ha with h1 | h1 <;> rcases List.mem_cons.1 hb with h2 | h2
    · rw [h1, h2]
    · subst h1; exact absurd (hab ▸ List.mem_map_of_mem h2) h.1
    · subst h2; exact absurd (hab ▸ List.mem_map_of_mem h1) h.1
    · exact ih h.2 h1 h2

/-- A list whose keys are not repeated has no repetition. -/
theorem nodup_of_map {α β : Type _} {f : α → β} {l : List α} (h : (l.map f).Nodup) : l.Nodup := by
  unfold List.Nodup at h ⊢
  rw [List.pairwise_map] at h
  exact h.imp (fun hab e => hab (by rw [e]))

end Verif.Proof
