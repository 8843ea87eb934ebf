import Verif.Spec.Line
import Verif.Model.GenMsg

/-! # Lemmas: rendering parameters and splitting them again -/

namespace Verif.Proof
open Verif.Model Verif.Spec

theorem takeWhile_append_sep (p rest : Str) (h : 32 ∉ p) :
    (p ++ 32 :: rest).takeWhile (· ≠ 32) = p ∧ (p ++ 32 :: rest).dropWhile (· ≠ 32) = 32 :: rest := by
  induction p with
  | nil => simp
  | cons c p ih =>
    simp only [List.mem_cons, not_or] at h
    obtain ⟨h1, h2⟩ := ih h.2
    have hc : c ≠ 32 := fun e => h.1 e.symm
    simp only [List.cons_append]
    rw [List.takeWhile_cons_of_pos (by simpa using hc), List.dropWhile_cons_of_pos (by simpa using hc)]
    exact ⟨by rw [h1], h2⟩

theorem takeWhile_all (p : Str) (h : 32 ∉ p) :
    p.takeWhile (· ≠ 32) = p ∧ p.dropWhile (· ≠ 32) = [] := by
  induction p with
  | nil => simp
  | cons c p ih =>
    simp only [List.mem_cons, not_or] at h
    obtain ⟨h1, h2⟩ := ih h.2
    have hc : c ≠ 32 := fun e => h.1 e.symm
    rw [List.takeWhile_cons_of_pos (by simpa using hc), List.dropWhile_cons_of_pos (by simpa using hc)]
    exact ⟨by rw [h1], h2⟩

theorem parseParams_space (s : Str) : parseParams (32 :: s) = parseParams s := by
  rw [parseParams, parseParams]
  rw [List.dropWhile_cons_of_pos (by simp)]

theorem parseParams_nil : parseParams [] = [] := by rw [parseParams]; rfl

theorem parseParams_trailing (s : Str) : parseParams (58 :: s) = [s] := by
  rw [parseParams]
  rw [List.dropWhile_cons_of_neg (by simp)]
  simp

theorem parseParams_tok (c : Byte) (s : Str) (h : c ≠ 32) (h' : c ≠ 58) :
    parseParams (c :: s) = (c :: s).takeWhile (· ≠ 32) :: parseParams ((c :: s).dropWhile (· ≠ 32)) := by
  conv => lhs; rw [parseParams]
  rw [List.dropWhile_cons_of_neg (by simpa using h)]
  simp [h']

theorem parseParams_go (ps : List Str) (h : ∀ p ∈ ps.dropLast, Middle p) :
    parseParams (msgString.go ps) = ps := by
  fun_induction msgString.go ps with
  | case1 => exact parseParams_nil
  | case2 p hp => simp only [List.cons_append, List.nil_append]; rw [parseParams_space, parseParams_trailing]
  | case3 p hp =>
    rw [parseParams_space]
    simp only [not_or] at hp
    obtain ⟨c, s, rfl⟩ := List.exists_cons_of_ne_nil hp.1
    have h1 : c ≠ 32 := by rintro rfl; exact hp.2.1 (by simp)
    have h2 : c ≠ 58 := by rintro rfl; exact hp.2.2 rfl
    rw [parseParams_tok c s h1 h2, (takeWhile_all _ hp.2.1).1, (takeWhile_all _ hp.2.1).2, parseParams_nil]
  | case4 p q l ih =>
    have hp : Middle p := h p (by simp)
    have IH := ih (fun x hx => h x (by simpa using Or.inr hx))
    obtain ⟨c, s, rfl⟩ := List.exists_cons_of_ne_nil hp.1
    have h1 : c ≠ 32 := by rintro rfl; exact hp.2.1 (by simp)
    have h2 : c ≠ 58 := by rintro rfl; exact hp.2.2 rfl
    have hgo : ∃ r, msgString.go (q :: l) = 32 :: r := by
      cases l <;> simp only [msgString.go]
      · split <;> exact ⟨_, rfl⟩
      · exact ⟨_, rfl⟩
    obtain ⟨r, hr⟩ := hgo
    rw [List.cons_append, parseParams_space]
    have e := takeWhile_append_sep (c :: s) r hp.2.1
    rw [hr] at IH
    rw [List.cons_append] at e
    rw [hr, List.cons_append, parseParams_tok c _ h1 h2, e.1, e.2, IH]

end Verif.Proof
