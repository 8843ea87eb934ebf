import Verif.Model.GoStr
import Verif.Spec.LogPath
import Verif.Proof.Util

/-! # Lemmas on Go string functions -/

namespace Verif.Proof
open Verif.Model Verif.Spec

theorem splitByte_ne_nil (sep : Byte) (s : Str) : splitByte sep s ≠ [] := by
  cases s with
  | nil => simp [splitByte]
  | cons c s => unfold splitByte; split; simp; split <;> simp

theorem splitByte_cons (sep c : Byte) (s : Str) : splitByte sep (c :: s)
    = if c = sep then [] :: splitByte sep s
      else match splitByte sep s with
        | [] => [[c]]
        | x :: xs => (c :: x) :: xs := rfl

theorem splitByte_append (sep : Byte) (a b : Str) :
    splitByte sep (a ++ sep :: b) = splitByte sep a ++ splitByte sep b := by
  induction a with
  | nil => simp [splitByte]
  | cons c a ih =>
    rw [List.cons_append]
    rw [splitByte_cons sep c a, splitByte_cons]
    split
    · rw [ih]; rfl
    · rw [ih]
      cases h : splitByte sep a with
      | nil => exact absurd h (splitByte_ne_nil _ _)
      | cons x xs => rfl

theorem splitByte_free (sep : Byte) (a : Str) (h : sep ∉ a) : splitByte sep a = [a] := by
  induction a with
  | nil => rfl
  | cons c a ih =>
    simp only [List.mem_cons, not_or] at h
    unfold splitByte
    rw [if_neg (Ne.symm h.1), ih h.2]

theorem splitByte_mem_free (sep : Byte) (s : Str) : ∀ x ∈ splitByte sep s, sep ∉ x := by
  induction s with
  | nil => simp [splitByte]
  | cons c s ih =>
    unfold splitByte
    split
    · simpa using ih
    · rename_i hc
      cases h : splitByte sep s with
      | nil => exact absurd h (splitByte_ne_nil _ _)
      | cons x xs =>
        rw [h] at ih
        intro y hy
        simp only [List.mem_cons] at hy
        rcases hy with rfl | hy
        · simp only [List.mem_cons, not_or]; exact ⟨Ne.symm hc, ih x (by simp)⟩
        · exact ih y (by simp [hy])

theorem joinStr_cons (sep x : Str) (xs : List Str) (h : xs ≠ []) :
    joinStr sep (x :: xs) = x ++ sep ++ joinStr sep xs := by
  cases xs with
  | nil => exact absurd rfl h
  | cons y ys => rfl

theorem splitByte_joinStr (sep : Byte) (l : List Str) (hl : l ≠ []) (h : ∀ x ∈ l, sep ∉ x) :
    splitByte sep (joinStr [sep] l) = l := by
  induction l with
  | nil => exact absurd rfl hl
  | cons x xs ih =>
    by_cases hx : xs = []
    · subst hx; exact splitByte_free sep x (h x (by simp))
    · rw [joinStr_cons _ _ _ hx, List.append_assoc, List.singleton_append, splitByte_append,
        splitByte_free sep x (h x (by simp)), ih hx (fun y hy => h y (by simp [hy]))]
      rfl

theorem joinStr_splitByte (sep : Byte) (s : Str) : joinStr [sep] (splitByte sep s) = s := by
  induction s with
  | nil => rfl
  | cons c s ih =>
    unfold splitByte
    split
    · rename_i h
      rw [joinStr_cons _ _ _ (splitByte_ne_nil _ _), ih, h]; rfl
    · cases h : splitByte sep s with
      | nil => exact absurd h (splitByte_ne_nil _ _)
      | cons x xs =>
        rw [h] at ih
        cases xs with
        | nil => simp only [joinStr] at ih ⊢; rw [ih]
        | cons y ys =>
          rw [joinStr_cons _ _ _ (by simp)] at ih ⊢
          rw [← ih]; simp

theorem components_eq (p : Str) : components p = splitByte 47 p := by
  induction p with
  | nil => rfl
  | cons c s ih =>
    unfold components splitByte
    rw [ih]
    cases splitByte 47 s <;> rfl

/-! ## cutStr -/

theorem isPrefixOf_append (a b : Str) : a.isPrefixOf (a ++ b) = true := by
  rw [List.isPrefixOf_iff_prefix]; exact List.prefix_append _ _

theorem cutStr_byte (x : Byte) (a b : Str) (h : x ∉ a) : cutStr [x] (a ++ x :: b) = some (a, b) := by
  induction a with
  | nil => simp [cutStr]
  | cons c a ih =>
    simp only [List.mem_cons, not_or] at h
    rw [List.cons_append]
    unfold cutStr
    rw [if_neg (by simpa using h.1), ih h.2]; rfl

theorem cutStr_byte_none (x : Byte) (a : Str) (h : x ∉ a) : cutStr [x] a = none := by
  induction a with
  | nil => rfl
  | cons c a ih =>
    simp only [List.mem_cons, not_or] at h
    unfold cutStr
    rw [if_neg (by simpa using h.1), ih h.2]; rfl

/-- A two-byte separator that ends in a space, after a word without space. -/
theorem cutStr_sp (x : Byte) (hx : x ≠ 32) (a b : Str) (h : 32 ∉ a) :
    cutStr [x, 32] (a ++ x :: 32 :: b) = some (a, b) := by
  induction a with
  | nil => simp [cutStr]
  | cons c a ih =>
    simp only [List.mem_cons, not_or] at h
    rw [List.cons_append]
    unfold cutStr
    rw [if_neg, ih h.2]
    · rfl
    · cases a with
      | nil => simp [Ne.symm hx]
      | cons d a =>
        have := h.2
        simp only [List.mem_cons, not_or] at this
        simp [this.1]

theorem cutStr_some {sep s a b : Str} (h : cutStr sep s = some (a, b)) : s = a ++ sep ++ b := by
  induction s generalizing a with
  | nil => simp [cutStr] at h
  | cons c s ih =>
    unfold cutStr at h
    split at h
    · rename_i hp
      rw [List.isPrefixOf_iff_prefix] at hp
      obtain ⟨t, ht⟩ := hp
      simp only [Option.some.injEq, Prod.mk.injEq] at h
      obtain ⟨rfl, rfl⟩ := h
      rw [← ht]; simp
    · cases hr : cutStr sep s with
      | none => rw [hr] at h; simp at h
      | some p =>
        rw [hr] at h
        simp only [Option.map_some, Option.some.injEq, Prod.mk.injEq] at h
        obtain ⟨rfl, rfl⟩ := h
        rw [ih (a := p.1) hr]; simp

@[simp] theorem hasPrefix_nil (s : Str) : hasPrefix [] s = true := by simp [hasPrefix]
@[simp] theorem hasPrefix_cons_nil (a : Byte) (p : Str) : hasPrefix (a :: p) [] = false := by simp [hasPrefix]
@[simp] theorem hasPrefix_cons (a b : Byte) (p s : Str) :
    hasPrefix (a :: p) (b :: s) = (decide (a = b) && hasPrefix p s) := by
  simp only [hasPrefix, List.isPrefixOf]
  rfl

theorem trimPrefix_append (p s : Str) : trimPrefix p (p ++ s) = s := by
  unfold trimPrefix hasPrefix; rw [isPrefixOf_append]; simp

theorem trimSuffix_append (p s : Str) : trimSuffix p (s ++ p) = s := by
  unfold trimSuffix hasSuffix
  rw [List.isSuffixOf_iff_suffix.2 (List.suffix_append _ _)]; simp

/-! ## Paths -/

/-- What a cleaned list of components may contain. -/
def CleanName (s : Str) : Prop := PlainName s ∨ s = b!".."

theorem cleanComps_ok {rooted : Bool} {acc : List Str} {c : Str} (h : ∀ x ∈ acc, CleanName x)
    (hc : 47 ∉ c) : ∀ x ∈ cleanComps rooted acc c, CleanName x := by
  unfold cleanComps
  split
  · exact h
  · rename_i h1
    simp only [not_or] at h1
    split
    · rename_i h2
      split
      · cases rooted with
        | true => simp
        | false => intro x hx; simp at hx; right; rw [hx, h2]
      · split
        · intro x hx
          rcases List.mem_append.1 hx with hx | hx
          · exact h x hx
          · right; simpa [h2] using hx
        · intro x hx; exact h x (List.dropLast_subset _ hx)
    · rename_i h2
      intro x hx
      rcases List.mem_append.1 hx with hx | hx
      · exact h x hx
      · left; simp only [List.mem_singleton] at hx; rw [hx]; exact ⟨h1.1, hc, h1.2, h2⟩

theorem enter_plain {dir : List Str} {x : Str} (h : PlainName x) : enter dir x = dir ++ [x] := by
  obtain ⟨h1, h2, h3, h4⟩ := h
  unfold enter
  rw [if_neg (by simp only [not_or]; exact ⟨h1, h3⟩), if_neg h4]

theorem cleanComps_enter {rooted : Bool} {acc : List Str} {c : Str} (dir : List Str)
    (hr : rooted = true → dir = []) (h : ∀ x ∈ acc, CleanName x) :
    (cleanComps rooted acc c).foldl enter dir = enter (acc.foldl enter dir) c := by
  unfold cleanComps
  split
  · rename_i h1; unfold enter; rw [if_pos h1]
  · split
    · rename_i h1 h2
      split
      · rename_i h3
        subst h3 h2
        cases rooted with
        | true => rw [hr rfl]; rfl
        | false => rfl
      · rename_i h3
        split
        · rw [List.foldl_append]; rfl
        · rename_i h4
          conv => rhs; rw [← List.dropLast_concat_getLast h3]
          rw [List.foldl_append]
          have hl := h _ (List.getLast_mem h3)
          rw [List.getLast?_eq_some_getLast h3] at h4
          rcases hl with hl | hl
          · simp only [List.foldl_cons, List.foldl_nil]
            rw [enter_plain hl, h2]
            have : ∀ d : List Str, enter d b!".." = d.dropLast := fun d => rfl
            rw [this, List.dropLast_concat]
          · exact absurd (by rw [hl]) h4
    · rw [List.foldl_append]; rfl

theorem cleanList_spec (rooted : Bool) (cs : List Str) (dir : List Str) (hr : rooted = true → dir = [])
    (hcs : ∀ c ∈ cs, 47 ∉ c) : ∀ acc : List Str, (∀ x ∈ acc, CleanName x) →
    (∀ x ∈ cs.foldl (cleanComps rooted) acc, CleanName x) ∧
    (cs.foldl (cleanComps rooted) acc).foldl enter dir = cs.foldl enter (acc.foldl enter dir) := by
  induction cs with
  | nil => intro acc h; exact ⟨h, rfl⟩
  | cons c cs ih =>
    intro acc h
    have := ih (fun c hc => hcs c (by simp [hc])) (cleanComps rooted acc c)
      (cleanComps_ok h (hcs c (by simp)))
    rw [List.foldl_cons, List.foldl_cons]
    refine ⟨this.1, ?_⟩
    rw [this.2, cleanComps_enter dir hr h]

theorem resolve_nil (cwd : List Str) : resolve cwd [] = cwd := rfl

theorem resolve_join (cwd : List Str) (l : List Str) (h : ∀ x ∈ l, x ≠ [] ∧ 47 ∉ x) :
    resolve cwd (joinStr b!"/" l) = l.foldl enter cwd := by
  by_cases hl : l = []
  · subst hl; rfl
  · unfold resolve
    rw [components_eq, splitByte_joinStr 47 l hl (fun x hx => (h x hx).2)]
    have : (joinStr b!"/" l).head? ≠ some 47 := by
      cases l with
      | nil => exact absurd rfl hl
      | cons x xs =>
        have hx := h x (by simp)
        cases x with
        | nil => exact absurd rfl hx.1
        | cons c x =>
          have : (joinStr b!"/" ((c :: x) :: xs)).head? = some c := by
            cases xs <;> simp [joinStr]
          rw [this]
          intro hc
          simp only [Option.some.injEq] at hc
          exact hx.2 (by simp [hc])
    rw [if_neg this]

theorem cleanName_ok {x : Str} (h : CleanName x) : x ≠ [] ∧ 47 ∉ x := by
  rcases h with h | rfl
  · exact ⟨h.1, h.2.1⟩
  · decide

theorem resolve_cleanPath (cwd : List Str) (p : Str) : resolve cwd (cleanPath p) = resolve cwd p := by
  unfold cleanPath
  by_cases hr : p.head? = some 47
  · have := cleanList_spec true (splitByte 47 p) [] (fun _ => rfl) (splitByte_mem_free 47 p) [] (by simp)
    have hcl : cleanList p = (splitByte 47 p).foldl (cleanComps true) [] := by
      unfold cleanList; simp [hr]
    simp only [hr, if_true]
    rw [if_neg (by simp)]
    have h1 : resolve cwd (b!"/" ++ joinStr b!"/" (cleanList p))
        = resolve [] (joinStr b!"/" (cleanList p)) := by
      unfold resolve
      rw [components_eq, components_eq]
      simp only [List.cons_append, List.nil_append, List.head?_cons, if_true]
      have : splitByte 47 (47 :: joinStr [47] (cleanList p)) = [] :: splitByte 47 (joinStr [47] (cleanList p)) := by
        conv => lhs; unfold splitByte
        simp
      rw [this]
      simp [enter]
    rw [h1, resolve_join [] _ (fun x hx => cleanName_ok (this.1 x (by rw [← hcl]; exact hx))), hcl, this.2]
    unfold resolve
    rw [components_eq, if_pos hr]; rfl
  · have := cleanList_spec false (splitByte 47 p) cwd (by simp) (splitByte_mem_free 47 p) [] (by simp)
    have hcl : cleanList p = (splitByte 47 p).foldl (cleanComps false) [] := by
      unfold cleanList; simp [hr]
    simp only [hr, if_false, List.nil_append]
    have h2 : resolve cwd p = (cleanList p).foldl enter cwd := by
      rw [hcl, this.2]; unfold resolve; rw [components_eq, if_neg hr]; rfl
    have hj := resolve_join cwd (cleanList p) (fun x hx => cleanName_ok (this.1 x (by rw [← hcl]; exact hx)))
    split
    · rename_i h0
      rw [h2, ← hj, h0]; rfl
    · rw [h2, hj]

theorem resolve_append (cwd : List Str) (r s : Str) (hr : r ≠ []) :
    resolve cwd (r ++ 47 :: s) = (splitByte 47 s).foldl enter (resolve cwd r) := by
  unfold resolve
  rw [components_eq, components_eq, splitByte_append, List.foldl_append]
  have : (r ++ 47 :: s).head? = r.head? := by cases r with | nil => exact absurd rfl hr | cons c r => rfl
  rw [this]

theorem resolve_joinPath (cwd : List Str) (r : Str) (es : List Str) (hes : es ≠ [])
    (h : ∀ e ∈ es, e ≠ [] ∧ 47 ∉ e) :
    resolve cwd (joinPath (r :: es)) = es.foldl enter (resolve cwd r) := by
  unfold joinPath
  split
  · rename_i hr
    subst hr
    cases es with
    | nil => exact absurd rfl hes
    | cons e es =>
      unfold joinPath
      rw [if_neg (h e (by simp)).1, resolve_cleanPath, resolve_join cwd _ h]; rfl
  · rename_i hr
    rw [resolve_cleanPath, joinStr_cons _ _ _ hes, List.append_assoc, List.singleton_append,
      resolve_append _ _ _ hr, splitByte_joinStr 47 es hes (fun x hx => (h x hx).2)]

/-! ## Decimal numbers -/

theorem digitsAux_fuel : ∀ (f g n : Nat), n < f → n < g → digitsAux f n = digitsAux g n := by
  intro f
  induction f with
  | zero => intro g n h; omega
  | succ f ih =>
    intro g n h1 h2
    cases g with
    | zero => omega
    | succ g =>
      unfold digitsAux
      split
      · rfl
      · rw [ih g (n / 10) (by omega) (by omega)]

theorem itoa_eq (n : Nat) : itoa n = if n < 10 then [48 + n] else itoa (n / 10) ++ [48 + n % 10] := by
  unfold itoa
  conv => lhs; unfold digitsAux
  split
  · rfl
  · rw [digitsAux_fuel n (n / 10 + 1) (n / 10) (by omega) (by omega)]

/-- Value of a string of decimal digits. -/
def decVal (s : Str) : Nat := s.foldl (fun a c => a * 10 + (c - 48)) 0

theorem decVal_snoc (s : Str) (c : Byte) : decVal (s ++ [c]) = decVal s * 10 + (c - 48) := by
  simp [decVal]

theorem decVal_itoa (n : Nat) : decVal (itoa n) = n := by
  induction n using Nat.strongRecOn with
  | ind n ih =>
    rw [itoa_eq]
    split
    · simp [decVal]
    · rw [decVal_snoc, ih (n / 10) (by omega)]; omega

theorem itoa_digits (n : Nat) : ∀ c ∈ itoa n, 48 ≤ c ∧ c ≤ 57 := by
  induction n using Nat.strongRecOn with
  | ind n ih =>
    rw [itoa_eq]
    split
    · intro c hc; simp only [List.mem_singleton] at hc; omega
    · intro c hc
      rcases List.mem_append.1 hc with hc | hc
      · exact ih (n / 10) (by omega) c hc
      · simp only [List.mem_singleton] at hc; omega

theorem itoa_ne_nil (n : Nat) : itoa n ≠ [] := by rw [itoa_eq]; split <;> simp

theorem itoa_inj {m n : Nat} (h : itoa m = itoa n) : m = n := by
  rw [← decVal_itoa m, h, decVal_itoa]

theorem decVal_zeros (k : Nat) (s : Str) : decVal (List.replicate k 48 ++ s) = decVal s := by
  unfold decVal
  rw [List.foldl_append]
  congr 1
  induction k with
  | zero => rfl
  | succ k ih => rw [List.replicate_succ, List.foldl_cons]; exact ih

theorem decVal_padDec (w n : Nat) : decVal (padDec w n) = n := by
  unfold padDec; rw [decVal_zeros, decVal_itoa]

theorem padDec_digits (w n : Nat) : ∀ c ∈ padDec w n, 48 ≤ c ∧ c ≤ 57 := by
  unfold padDec
  intro c hc
  rcases List.mem_append.1 hc with hc | hc
  · have := List.eq_of_mem_replicate hc; omega
  · exact itoa_digits n c hc

theorem itoa_length_le (n w : Nat) (hw : 0 < w) (h : n < 10 ^ w) : (itoa n).length ≤ w := by
  induction w generalizing n with
  | zero => omega
  | succ w ih =>
    rw [itoa_eq]
    split
    · simp
    · rename_i hn
      rw [List.length_append, List.length_singleton]
      have hw : 0 < w := by
        rcases Nat.eq_zero_or_pos w with h0 | h0
        · subst h0; simp at h; omega
        · exact h0
      have := ih (n / 10) hw (by rw [Nat.pow_succ] at h; omega)
      omega

theorem padDec_length (w n : Nat) (hw : 0 < w) (h : n < 10 ^ w) : (padDec w n).length = w := by
  have := itoa_length_le n w hw h
  unfold padDec; simp; omega

end Verif.Proof
