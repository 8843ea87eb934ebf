import Verif.Model.MsgDb
import Verif.Proof.Util

/-! # Lemmas on the message tables -/

namespace Verif.Proof
open Verif.Model

theorem foldl_max_ge (l : List Nat) : ∀ a, a ≤ l.foldl max a ∧ ∀ x ∈ l, x ≤ l.foldl max a := by
  induction l with
  | nil => intro a; simp
  | cons y l ih =>
    intro a
    obtain ⟨h1, h2⟩ := ih (max a y)
    simp only [List.foldl_cons]
    refine ⟨by omega, ?_⟩
    intro x hx
    rcases List.mem_cons.1 hx with rfl | hx
    · omega
    · exact h2 x hx

theorem lt_nextRowId (ids : List Nat) : ∀ x ∈ ids, x < nextRowId ids := by
  intro x hx
  have := (foldl_max_ge ids 0).2 x hx
  unfold nextRowId
  omega

theorem nextRowId_range (n : Nat) : nextRowId ((List.range n).map (· + 1)) = n + 1 := by
  unfold nextRowId
  congr 1
  induction n with
  | zero => rfl
  | succ n ih =>
    rw [List.range_succ, List.map_append, List.foldl_append, ih]
    simp only [List.map_cons, List.map_nil, List.foldl_cons, List.foldl_nil]
    omega

theorem perm_map_inv {α β : Type _} (f : α → β) {l l2 : List β} (h : l.Perm l2) :
    ∀ L : List α, l2 = L.map f → ∃ L' : List α, L'.Perm L ∧ l = L'.map f := by
  induction h with
  | nil => intro L hL; exact ⟨[], by cases L <;> simp_all, rfl⟩
  | cons x _ ih =>
    intro L hL
    cases L with
    | nil => cases hL
    | cons a L =>
      simp only [List.map_cons, List.cons.injEq] at hL
      obtain ⟨L', h1, h2⟩ := ih L hL.2
      exact ⟨a :: L', h1.cons a, by rw [hL.1, h2]; rfl⟩
  | swap x y l =>
    intro L hL
    match L, hL with
    | a :: b :: L, hL =>
      simp only [List.map_cons, List.cons.injEq] at hL
      exact ⟨b :: a :: L, List.Perm.swap _ _ _, by rw [hL.1, hL.2.1, hL.2.2]; rfl⟩
  | trans _ _ ih1 ih2 =>
    intro L hL
    obtain ⟨L2, h1, h2⟩ := ih2 L hL
    obtain ⟨L1, h3, h4⟩ := ih1 L2 h2
    exact ⟨L1, h3.trans h1, h4⟩

theorem filter_singleton {α : Type _} {p : α → Bool} {l : List α} (a : α) (nd : l.Nodup) (ha : a ∈ l)
    (hp : ∀ x ∈ l, p x = true ↔ x = a) : l.filter p = [a] := by
  induction l with
  | nil => cases ha
  | cons b l ih =>
    rw [List.nodup_cons] at nd
    rw [List.filter_cons]
    by_cases hb : b = a
    · subst hb
      rw [if_pos ((hp b (by simp)).2 rfl)]
      congr 1
      rw [List.filter_eq_nil_iff]
      intro x hx hpx
      rw [(hp x (by simp [hx])).1 hpx] at hx
      exact nd.1 hx
    · rw [if_neg (fun h => hb ((hp b (by simp)).1 h))]
      refine ih nd.2 ?_ (fun x hx => hp x (by simp [hx]))
      rcases List.mem_cons.1 ha with h | h
      · exact absurd h.symm hb
      · exact h

end Verif.Proof
