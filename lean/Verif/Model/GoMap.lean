import Verif.Basic

/-! # Go maps as association lists

The built-in `map[K]V` of Go, used by every other module of the model.  The order of the list stands
for one (arbitrary) iteration order; theorems about code that iterates quantify over permutations. -/

namespace Verif.Model

/-- A Go `map[K]V`. -/
abbrev GoMap (K V : Type) := List (K × V)

namespace GoMap
variable {K V : Type} [DecidableEq K]

/-- Go map read `v, ok := m[k]`. -/
def get (m : GoMap K V) (k : K) : Option V :=
  match m with
  | [] => none
  | (k', e) :: m' => if k' = k then some e else get m' k

/-- Go map write `m[k] = e`: replace in place, or add. -/
def set (m : GoMap K V) (k : K) (e : V) : GoMap K V :=
  match m with
  | [] => [(k, e)]
  | (k', e') :: m' => if k' = k then (k, e) :: m' else (k', e') :: set m' k e

/-- Go `delete(m, k)`. -/
def del (m : GoMap K V) (k : K) : GoMap K V :=
  m.filter (fun p => decide (p.1 ≠ k))

end GoMap
end Verif.Model
