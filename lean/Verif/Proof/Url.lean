import Verif.Model.Network
import Verif.Proof.GoStr

/-! # Lemmas on addresses -/

namespace Verif.Proof
open Verif.Model

theorem cutStr_byte_some {x : Byte} {s a b : Str} (h : cutStr [x] s = some (a, b)) :
    s = a ++ x :: b ∧ x ∉ a := by
  refine ⟨by simpa using cutStr_some h, fun hx => ?_⟩
  obtain ⟨p, q, hpq, hp⟩ : ∃ p q, a = p ++ x :: q ∧ x ∉ p := by
    clear h
    induction a with
    | nil => simp at hx
    | cons c a ih =>
      by_cases hc : c = x
      · exact ⟨[], a, by simp [hc], by simp⟩
      · obtain ⟨p, q, h1, h2⟩ := ih (by grind)
        exact ⟨c :: p, q, by simp [h1], by grind⟩
  have hs := cutStr_some h
  subst hpq
  rw [show p ++ x :: q ++ [x] ++ b = p ++ x :: (q ++ x :: b) by simp] at hs
  rw [hs, cutStr_byte x p _ hp] at h
  simp at h

theorem cutStr_byte_eq_none {x : Byte} {s : Str} (h : cutStr [x] s = none) : x ∉ s := by
  induction s with
  | nil => simp
  | cons c s ih =>
    unfold cutStr at h
    split at h
    · simp at h
    · rename_i hp
      simp [List.isPrefixOf] at hp
      simp at h
      grind

/-- What is cut off at a separator: nothing, or the separator and the rest. -/
theorem cutStr_byte_tail (x : Byte) (s : Str) :
    ∃ a t, s = a ++ t ∧ x ∉ a ∧
      ((cutStr [x] s = none ∧ t = []) ∨ ∃ b, cutStr [x] s = some (a, b) ∧ t = x :: b) := by
  cases h : cutStr [x] s with
  | none => exact ⟨s, [], by simp, cutStr_byte_eq_none h, .inl ⟨rfl, rfl⟩⟩
  | some p =>
    obtain ⟨a, b⟩ := p
    obtain ⟨h1, h2⟩ := cutStr_byte_some h
    exact ⟨a, x :: b, h1, h2, .inr ⟨b, rfl, rfl⟩⟩

theorem getSchemeLoop_some {raw pre s sch rest : Str} (h : getSchemeLoop raw pre s = some (sch, rest)) :
    (sch = [] ∧ rest = raw) ∨ (sch ≠ [] ∧ pre ++ s = sch ++ 58 :: rest) := by
  induction s generalizing pre with
  | nil => simp [getSchemeLoop] at h; grind
  | cons c s ih =>
    unfold getSchemeLoop at h
    split at h
    · have := ih h; simpa using this
    · split at h
      · split at h
        · simp at h; grind
        · have := ih h; simpa using this
      · split at h
        · split at h
          · simp at h
          · simp at h; grind
        · simp at h; grind

theorem getScheme_some {raw sch rest : Str} (h : getScheme raw = some (sch, rest)) :
    (sch = [] ∧ rest = raw) ∨ (sch ≠ [] ∧ raw = sch ++ 58 :: rest) := by
  simpa using getSchemeLoop_some h

theorem pctDecode_nil {s : Str} (h : pctDecode s = some []) : s = [] := by
  unfold pctDecode at h
  split at h
  · rfl
  · simp [Option.bind_eq_some_iff] at h
  · split at h
    · simp at h
    · simp at h

theorem cutLast_none {x : Byte} {s : Str} (h : cutLast x s = none) : x ∉ s := by
  induction s with
  | nil => simp
  | cons c s ih =>
    unfold cutLast at h
    split at h
    · simp at h
    · rename_i hs
      split at h
      · simp at h
      · have := ih hs; grind

theorem cutLast_some {x : Byte} {s a b : Str} (h : cutLast x s = some (a, b)) : s = a ++ x :: b ∧ x ∉ b := by
  induction s generalizing a b with
  | nil => simp [cutLast] at h
  | cons c s ih =>
    unfold cutLast at h
    split at h
    · rename_i a' b' hs
      simp at h
      have := ih hs
      grind
    · rename_i hs
      split at h
      · simp at h; have := cutLast_none hs; grind
      · simp at h

theorem parseAuthority_noUser {lib : UrlLib} {auth h : Str} (hp : parseAuthority lib auth = some (false, h)) :
    64 ∉ auth ∧ lib.parseHost auth = some h := by
  unfold parseAuthority at hp
  split at hp
  · rename_i hc
    exact ⟨cutLast_none hc, by simpa using hp⟩
  · split at hp
    · simp at hp
    · split at hp <;> simp at hp

theorem takeWhile_not_mem (x : Byte) (s : Str) : x ∉ s.takeWhile (fun c => decide (c ≠ x)) := by
  induction s with
  | nil => simp
  | cons c s ih =>
    by_cases h : c = x <;> simp [h] at ih ⊢
    grind

/-- The scheme, what follows it and what is dropped of an address that is parsed as a URL. -/
structure UrlParts (lib : UrlLib) (s : Str) (u : Url) : Prop where
  parts : ∃ sch rest tail, s = sch ++ 58 :: rest ++ tail ∧ asciiLower sch = u.scheme ∧
    63 ∉ rest ∧ 35 ∉ rest ∧ (tail = [] ∨ tail = b!"?" ∨ tail = b!"#" ∨ tail = b!"?#") ∧
    ((hasPrefix b!"//" rest = false ∧ u.host = [] ∧ (hasPrefix b!"/" rest = false → u.path = []) ∧
        (hasPrefix b!"/" rest = true → pctDecode rest = some u.path)) ∨
      ∃ auth path, rest = 47 :: 47 :: auth ++ path ∧ 47 ∉ auth ∧ 64 ∉ auth ∧ lib.parseHost auth = some u.host ∧
        pctDecode path = some u.path ∧ (path = [] ∨ ∃ p, path = 47 :: p))

theorem asciiLower_nil {s : Str} : asciiLower s = [] ↔ s = [] := by simp [asciiLower]

theorem dropWhile_slash (s : Str) :
    s.dropWhile (fun c => decide (c ≠ 47)) = [] ∨ ∃ p, s.dropWhile (fun c => decide (c ≠ 47)) = 47 :: p := by
  induction s with
  | nil => simp
  | cons c s ih =>
    by_cases h : c = 47 <;> simp [h] at ih ⊢
    exact ih

theorem urlParseNoFrag_parts {lib : UrlLib} {s : Str} {u : Url} (h : urlParseNoFrag lib s = some u)
    (hs : u.scheme ≠ []) (hq : u.rawQuery = []) (hu : u.user = false) (hno : 35 ∉ s) :
    u.fragment = [] ∧ ∃ sch rest tail, s = sch ++ 58 :: rest ++ tail ∧ asciiLower sch = u.scheme ∧
    63 ∉ rest ∧ 35 ∉ rest ∧ (tail = [] ∨ tail = b!"?") ∧
    ((hasPrefix b!"//" rest = false ∧ u.host = [] ∧ (hasPrefix b!"/" rest = false → u.path = []) ∧
        (hasPrefix b!"/" rest = true → pctDecode rest = some u.path)) ∨
      ∃ auth path, rest = 47 :: 47 :: auth ++ path ∧ 47 ∉ auth ∧ 64 ∉ auth ∧ lib.parseHost auth = some u.host ∧
        pctDecode path = some u.path ∧ (path = [] ∨ ∃ p, path = 47 :: p)) := by
  unfold urlParseNoFrag at h
  split at h
  · simp at h
  split at h
  · simp at h; subst h; simp at hs
  split at h
  · simp at h
  rename_i scheme rest hg
  obtain ⟨a, t, hat, hna, hcut⟩ := cutStr_byte_tail 63 rest
  -- the query
  have key : ∃ q, cutQuery rest = (a, q) ∧
      ((q = [] → t = [] ∨ t = b!"?")) := by
    rcases hcut with ⟨h1, h2⟩ | ⟨b, h1, h2⟩
    · subst h2
      refine ⟨[], ?_, fun _ => .inl rfl⟩
      unfold cutQuery
      rw [h1]; simp at hat; rw [hat]
    · refine ⟨b, ?_, fun hb => .inr (by subst hb; exact h2)⟩
      unfold cutQuery
      rw [h1]
  obtain ⟨q, hk, hqt⟩ := key
  simp only [hk] at h
  have h35 : 35 ∉ a := by
    rcases getScheme_some hg with ⟨_, h2⟩ | ⟨_, h2⟩
    · subst h2; rw [hat] at hno; grind
    · rw [h2, hat] at hno; grind
  have sch : u.scheme = asciiLower scheme ∧ u.rawQuery = q ∧ u.fragment = [] := by
    split at h
    · simp at h; subst h; simp
    split at h
    · simp at h
    split at h
    · split at h
      · simp at h; subst h; simp
      · simp at h
    · simp at h; obtain ⟨p, _, h⟩ := h; subst h; simp
  obtain ⟨hsc, hrq, hfr⟩ := sch
  have hsne : scheme ≠ [] := by
    intro he; rw [hsc, he] at hs; simp [asciiLower] at hs
  have hraw : s = scheme ++ 58 :: rest := by
    rcases getScheme_some hg with ⟨h1, _⟩ | ⟨_, h2⟩
    · exact absurd h1 hsne
    · exact h2
  refine ⟨hfr, scheme, a, t, by rw [hraw, hat]; simp, hsc.symm, hna, h35, hqt (by rw [← hrq, hq]), ?_⟩
  have hsl : asciiLower scheme ≠ [] := by rw [Ne, asciiLower_nil]; exact hsne
  split at h
  · rename_i hp
    simp at h; subst h
    refine .inl ⟨?_, rfl, fun _ => rfl, fun hp' => ?_⟩
    · cases a with
      | nil => rfl
      | cons c a => simp [hasPrefix, List.isPrefixOf] at hp ⊢; grind
    · rw [hp.1] at hp'; simp at hp'
  split at h
  · simp at h
  split at h
  · rename_i hnp _ hpp
    right
    split at h
    · rename_i user host p hpa hpd
      simp at h
      subst h
      simp only at hu
      subst hu
      obtain ⟨h64, hph⟩ := parseAuthority_noUser hpa
      refine ⟨_, _, ?_, takeWhile_not_mem 47 (a.drop 2), h64, hph, hpd, ?_⟩
      · have := hpp.2
        match a, this with
        | 47 :: 47 :: a', _ => simp [List.takeWhile_append_dropWhile]
        | [], h => simp [hasPrefix, List.isPrefixOf] at h
        | [c], h => simp [hasPrefix, List.isPrefixOf] at h
        | c :: d :: a', h =>
          simp [hasPrefix, List.isPrefixOf] at h
          obtain ⟨h1, h2⟩ := h
          subst h1; subst h2
          simp [List.takeWhile_append_dropWhile]
      · exact dropWhile_slash _
    · simp at h
  · rename_i hnp _ hpp
    simp at h
    obtain ⟨p, hpd, h⟩ := h
    subst h
    refine .inl ⟨?_, rfl, fun hp => ?_, fun _ => hpd⟩
    · cases hb : hasPrefix b!"//" a with
      | false => rfl
      | true => exact absurd ⟨.inl hsl, hb⟩ hpp
    · exact absurd ⟨hp, hsl⟩ hnp

theorem urlParse_parts {lib : UrlLib} {s : Str} {u : Url} (h : urlParse lib s = some u)
    (hs : u.scheme ≠ []) (hq : u.rawQuery = []) (hu : u.user = false) (hf : u.fragment = []) :
    UrlParts lib s u := by
  constructor
  unfold urlParse at h
  split at h
  · rename_i hc
    have hno : 35 ∉ s := cutStr_byte_eq_none hc
    obtain ⟨_, sch, rest, tail, h1, h2, h3, h4, h5, h6⟩ := urlParseNoFrag_parts h hs hq hu hno
    exact ⟨sch, rest, tail, h1, h2, h3, h4, by grind, h6⟩
  · rename_i u' frag hc
    obtain ⟨h1, h2⟩ := cutStr_byte_some hc
    split at h
    · rename_i url f hp hd
      simp at h
      subst h
      simp only at hf
      subst hf
      have := pctDecode_nil hd
      subst this
      obtain ⟨_, sch, rest, tail, g1, g2, g3, g4, g5, g6⟩ := urlParseNoFrag_parts hp hs hq hu h2
      refine ⟨sch, rest, tail ++ [35], by rw [h1, g1]; simp, g2, g3, g4, ?_, g6⟩
      rcases g5 with g5 | g5 <;> subst g5 <;> simp
    · simp at h

end Verif.Proof
