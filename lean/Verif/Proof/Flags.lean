import Verif.Model.Flags
import Verif.Spec.Flags
import Verif.Proof.GoStr

/-! # Lemmas about the parser of flags -/

namespace Verif.Proof
open Verif.Model Verif.Spec

theorem parseFlags_value {σ : Type} (formal : Str → Option (FlagDef σ)) (name v : Str) (args : List Str)
    (st st' : σ) (f : FlagDef σ) (hn : name ≠ []) (h45 : 45 ≠ name.head hn) (h61 : 61 ∉ name)
    (hf : formal name = some f) (hb : f.isBool = false) (hs : f.set v st = some st') :
    parseFlags formal ((45 :: name) :: v :: args) st = parseFlags formal args st' := by
  cases name with
  | nil => exact absurd rfl hn
  | cons c name =>
    simp only [List.head_cons] at h45
    simp only [List.mem_cons, not_or] at h61
    rw [parseFlags.eq_def]
    dsimp only
    rw [if_neg (by simp), if_neg (by
      intro h; simp only [List.cons.injEq] at h; exact h45 h.2.1.symm)]
    have hp : hasPrefix [45, 45] (45 :: c :: name) = false := by
      simp [hasPrefix, List.isPrefixOf, h45]
    rw [hp]
    simp only [Bool.false_eq_true, if_false, List.drop_succ_cons, List.drop_zero]
    rw [if_neg (by
      simp only [List.head?_cons, Option.some.injEq, reduceCtorEq, false_or, not_or]
      exact ⟨fun e => h45 e.symm, fun e => h61.1 e.symm⟩)]
    have hfn : flagNameValue (c :: name) = (c :: name, none) := by
      unfold flagNameValue
      dsimp only
      have : cutStr [61] name = none := by
        exact cutStr_byte_none 61 name h61.2
      rw [this]
    rw [hfn]
    dsimp only
    rw [hf]
    dsimp only
    rw [hb, hs]
    simp

theorem parseBool_word (v : Bool) : parseBool (boolWord v) = some v := by cases v <;> decide

/-- A flag without value. -/
theorem parseFlags_bool {σ : Type} (formal : Str → Option (FlagDef σ)) (name : Str) (args : List Str)
    (st st' : σ) (f : FlagDef σ) (hn : name ≠ []) (h45 : 45 ≠ name.head hn) (h61 : 61 ∉ name)
    (hf : formal name = some f) (hb : f.isBool = true) (hs : f.set b!"true" st = some st') :
    parseFlags formal ((45 :: name) :: args) st = parseFlags formal args st' := by
  cases name with
  | nil => exact absurd rfl hn
  | cons c name =>
    simp only [List.head_cons] at h45
    simp only [List.mem_cons, not_or] at h61
    rw [parseFlags.eq_def]
    dsimp only
    rw [if_neg (by simp), if_neg (by
      intro h; simp only [List.cons.injEq] at h; exact h45 h.2.1.symm)]
    have hp : hasPrefix [45, 45] (45 :: c :: name) = false := by
      simp [hasPrefix, List.isPrefixOf, h45]
    rw [hp]
    simp only [Bool.false_eq_true, if_false, List.drop_succ_cons, List.drop_zero]
    rw [if_neg (by
      simp only [List.head?_cons, Option.some.injEq, reduceCtorEq, false_or, not_or]
      exact ⟨fun e => h45 e.symm, fun e => h61.1 e.symm⟩)]
    have hfn : flagNameValue (c :: name) = (c :: name, none) := by
      unfold flagNameValue
      dsimp only
      have : cutStr [61] name = none := by
        exact cutStr_byte_none 61 name h61.2
      rw [this]
    rw [hfn]
    dsimp only
    rw [hf]
    dsimp only
    rw [hb, hs]
    simp

theorem lastGiven_snoc {α β : Type} (f : α → Option β) (l : List α) (x : α) :
    lastGiven f (l ++ [x]) = (f x).or (lastGiven f l) := by
  unfold lastGiven
  rw [List.filterMap_append]
  cases hx : f x with
  | none => simp [hx]
  | some v => simp [hx]

end Verif.Proof
