import Verif.Basic

/-! # Specification: how a receiver splits the parameters of an IRC line

RFC 2812 §2.3.1, as implemented by every client: parameters are separated by spaces; one that starts
with a colon extends to the end of the line. -/

namespace Verif.Spec

/-- The parameters of a line, given what follows the command. -/
def parseParams (s : Str) : List Str :=
  match _h : s.dropWhile (· = 32) with
  | [] => []
  | c :: s' =>
    if c = 58 then [s']
    else (c :: s').takeWhile (· ≠ 32) :: parseParams ((c :: s').dropWhile (· ≠ 32))
termination_by s.length
decreasing_by
  have h1 : (s.dropWhile (· = 32)).length ≤ s.length := (List.dropWhile_sublist _).length_le
  have h2 : c ≠ 32 := by
    intro hc
    have hd : (s.dropWhile (· = 32)).head? = some c := by rw [_h]; rfl
    have := List.head?_dropWhile_not (fun x : Nat => decide (x = 32)) s
    rw [hd] at this
    simp [hc] at this
  have h3 : ((c :: s').dropWhile (· ≠ 32)).length ≤ s'.length := by
    rw [List.dropWhile_cons_of_pos (by simpa using h2)]
    exact (List.dropWhile_sublist _).length_le
  rw [_h] at h1
  simp at h1 ⊢
  simp at h3
  omega

/-- A parameter that may stand in any position of a line. -/
def Middle (p : Str) : Prop := p ≠ [] ∧ 32 ∉ p ∧ p.head? ≠ some 58

instance (p : Str) : Decidable (Middle p) := by unfold Middle; infer_instance

end Verif.Spec
