import Verif.Model.SearchText
import Verif.Proof.GoStr

/-! # C41: formatting is stripped without losing text; C42: search text cannot inject query syntax -/

namespace Verif.Props
open Verif.Model Verif.Proof

/-! ## Specification -/

/-- One or two digits. -/
def ColorNum (a : Str) : Prop := (a.length = 1 ∨ a.length = 2) ∧ ∀ c ∈ a, 48 ≤ c ∧ c ≤ 57

/-- The arguments of a color control: nothing, a foreground, or a foreground and a background. -/
def ColorArgs (a : Str) : Prop :=
  a = [] ∨ ColorNum a ∨ ∃ f b, ColorNum f ∧ ColorNum b ∧ a = f ++ [44] ++ b

/-- Six hexadecimal digits. -/
def HexNum (a : Str) : Prop :=
  a.length = 6 ∧ ∀ c ∈ a, (48 ≤ c ∧ c ≤ 57) ∨ (97 ≤ c ∧ c ≤ 102) ∨ (65 ≤ c ∧ c ≤ 70)

/-- The arguments of a hexadecimal color control. -/
def HexArgs (a : Str) : Prop :=
  a = [] ∨ HexNum a ∨ ∃ f b, HexNum f ∧ HexNum b ∧ a = f ++ [44] ++ b

/-- `a` is the longest beginning of `s` that satisfies `P`. -/
def LongestPrefix (P : Str → Prop) (a s : Str) : Prop :=
  P a ∧ a <+: s ∧ ∀ a', P a' → a' <+: s → a'.length ≤ a.length

/-- The message `s` without formatting is `out`: controls are left out, the color controls with the longest
possible arguments, and everything else stays. -/
inductive Unformatted : Str → Str → Prop
  | nil : Unformatted [] []
  | text {c s out} : c ∉ fmtControls → Unformatted s out → Unformatted (c :: s) (c :: out)
  | control {c s out} : c ∈ fmtControls → c ≠ 3 → c ≠ 4 → Unformatted s out → Unformatted (c :: s) out
  | color {a s out} : LongestPrefix ColorArgs a (a ++ s) → Unformatted s out → Unformatted (3 :: (a ++ s)) out
  | hex {a s out} : LongestPrefix HexArgs a (a ++ s) → Unformatted s out → Unformatted (4 :: (a ++ s)) out

/-! ## Lemmas -/

private theorem isDigit_iff {c : Byte} : isDigit c = true ↔ 48 ≤ c ∧ c ≤ 57 := by simp [isDigit]

private theorem isHexDigit_iff {c : Byte} : isHexDigit c = true ↔
    (48 ≤ c ∧ c ≤ 57) ∨ (97 ≤ c ∧ c ≤ 102) ∨ (65 ≤ c ∧ c ≤ 70) := by simp [isHexDigit]

/-- Skipping digits from a string that starts with one. -/
private theorem skipDigits_spec {d : Byte} {r : Str} (hd : isDigit d = true) :
    ∃ a, ColorNum a ∧ d :: r = a ++ skipDigits (d :: r) ∧
      (a.length = 1 → ∀ e, r.head? = some e → isDigit e = false) := by
  cases r with
  | nil =>
    refine ⟨[d], ⟨Or.inl rfl, by simpa using isDigit_iff.1 hd⟩, by simp [skipDigits, hd], by simp⟩
  | cons e r =>
    by_cases he : isDigit e = true
    · refine ⟨[d, e], ⟨Or.inr rfl, ?_⟩, by simp [skipDigits, hd, he], by simp⟩
      intro c hc
      simp only [List.mem_cons, List.not_mem_nil, or_false] at hc
      rcases hc with rfl | rfl
      · exact isDigit_iff.1 hd
      · exact isDigit_iff.1 he
    · refine ⟨[d], ⟨Or.inl rfl, by simpa using isDigit_iff.1 hd⟩, by simp [skipDigits, hd, he], ?_⟩
      intro _ e' h
      simp only [List.head?_cons, Option.some.injEq] at h
      subst h
      simpa using he

private theorem colorNum_head {a : Str} (h : ColorNum a) : ∃ d r, a = d :: r ∧ isDigit d = true := by
  cases a with
  | nil => rcases h.1 with h | h <;> simp at h
  | cons d r => exact ⟨d, r, rfl, isDigit_iff.2 (h.2 d List.mem_cons_self)⟩

/-- A number at the beginning of a string is no longer than the digits skipped, and if the rest does not
continue with a digit it is as long. -/
private theorem colorNum_longest {a b s t : Str} (ha : ColorNum a) (hb : ColorNum b)
    (hs : a ++ s = b ++ t) (hmax : a.length = 1 → ∀ e, s.head? = some e → isDigit e = false) :
    b.length ≤ a.length ∧ (b.length < a.length → ∃ e, t.head? = some e ∧ isDigit e = true) := by
  obtain ⟨la, da⟩ := ha
  obtain ⟨lb, db⟩ := hb
  match a, b, la, lb with
  | [x], [y], _, _ => simp
  | [x, x'], [y], _, _ =>
    refine ⟨by simp, fun _ => ?_⟩
    simp only [List.cons_append, List.nil_append, List.cons.injEq] at hs
    obtain ⟨_, rfl⟩ := hs
    exact ⟨x', rfl, isDigit_iff.2 (da x' (by simp))⟩
  | [x, x'], [y, y'], _, _ => simp
  | [x], [y, y'], _, _ =>
    simp only [List.cons_append, List.nil_append, List.cons.injEq] at hs
    obtain ⟨_, rfl⟩ := hs
    have := hmax rfl y' rfl
    rw [isDigit_iff.2 (db y' (by simp))] at this
    cases this

private theorem color_longest (s : Str) : ∃ a, s = a ++ skipColor s ∧ LongestPrefix ColorArgs a s := by
  have nohead : ∀ a', ColorArgs a' → a' <+: s → (s.head?.map isDigit).getD false = false → a' = [] := by
    intro a' ha' hp hh
    have : ∀ f x, ColorNum f → f ++ x <+: s → False := by
      rintro f x hf ⟨t, ht⟩
      obtain ⟨d, r, rfl, hd⟩ := colorNum_head hf
      subst ht
      simp [hd] at hh
    rcases ha' with h | h | ⟨f, b, hf, _, rfl⟩
    · exact h
    · exact (this a' [] h (by simpa using hp)).elim
    · exact (this f ([44] ++ b) hf (by simpa using hp)).elim
  unfold skipColor
  by_cases hh : (s.head?.map isDigit).getD false = false
  · rw [if_pos hh]
    refine ⟨[], rfl, Or.inl rfl, List.nil_prefix, ?_⟩
    intro a' ha' hp
    rw [nohead a' ha' hp hh]; simp
  · rw [if_neg hh]
    cases s with
    | nil => simp at hh
    | cons d r =>
      have hd : isDigit d = true := by simpa using hh
      obtain ⟨f, hf, hs, hmax⟩ := skipDigits_spec (r := r) hd
      -- the digits skipped, and what follows them
      have hmax' : f.length = 1 → ∀ e, (skipDigits (d :: r)).head? = some e → isDigit e = false := by
        intro hl e he
        match f, hl, hmax with
        | [x], _, hmax =>
          simp only [List.cons_append, List.nil_append, List.cons.injEq] at hs
          apply hmax rfl e
          rw [hs.2]; exact he
      generalize hk : skipDigits (d :: r) = k at hs hmax' ⊢
      -- a shorter number is followed by a digit, hence not by a comma
      have hshort : ∀ b t, ColorNum b → b ++ t = d :: r → b.length ≤ f.length ∧
          (b.length < f.length → ∃ e, t.head? = some e ∧ isDigit e = true) := by
        intro b t hb ht
        exact colorNum_longest hf hb (by rw [ht, ← hs]) hmax'
      have hsame : ∀ f' t, ColorNum f' → f' ++ 44 :: t = d :: r → f' = f ∧ 44 :: t = k := by
        intro f' t hf' ht
        obtain ⟨h1, h2⟩ := hshort f' _ hf' ht
        have hlen : f'.length = f.length := by
          by_cases h : f'.length < f.length
          · obtain ⟨e, he, hde⟩ := h2 h
            simp only [List.head?_cons, Option.some.injEq] at he
            subst he
            simp [isDigit] at hde
          · omega
        rw [hs] at ht
        exact List.append_inj ht hlen
      have plain : (∀ c e rest, k = c :: e :: rest → ¬ (c = 44 ∧ isDigit e = true)) →
          LongestPrefix ColorArgs f (d :: r) := by
        intro hno
        refine ⟨Or.inr (Or.inl hf), ⟨k, by rw [hs]⟩, ?_⟩
        rintro a' (rfl | ha' | ⟨f', b', hf', hb', rfl⟩) ⟨t, ht⟩
        · simp
        · exact (hshort a' t ha' ht).1
        · exfalso
          obtain ⟨e, er, rfl, he⟩ := colorNum_head hb'
          simp only [List.append_assoc, List.cons_append, List.nil_append] at ht
          obtain ⟨_, hk'⟩ := hsame f' _ hf' ht
          exact hno 44 e (er ++ t) hk'.symm ⟨rfl, he⟩
      match k, hs, plain, hsame with
      | [], hs, plain, _ => exact ⟨f, hs, plain (by simp)⟩
      | [c], hs, plain, _ => exact ⟨f, hs, plain (by simp)⟩
      | c :: e :: rest, hs, plain, hsame =>
        by_cases hce : c = 44 ∧ isDigit e = true
        · obtain ⟨rfl, he⟩ := hce
          simp only [he, and_self, if_true]
          obtain ⟨b, hb, hbs, hbmax⟩ := skipDigits_spec (r := rest) he
          have hbmax' : b.length = 1 → ∀ x, (skipDigits (e :: rest)).head? = some x → isDigit x = false := by
            intro hl x hx
            match b, hl, hbmax with
            | [y], _, hbmax =>
              simp only [List.cons_append, List.nil_append, List.cons.injEq] at hbs
              apply hbmax rfl x
              rw [hbs.2]; exact hx
          refine ⟨f ++ [44] ++ b, ?_, Or.inr (Or.inr ⟨f, b, hf, hb, rfl⟩), ?_, ?_⟩
          · rw [hs]; simp only [List.append_assoc, List.cons_append, List.nil_append]; rw [← hbs]
          · refine ⟨skipDigits (e :: rest), ?_⟩
            simp only [List.append_assoc, List.cons_append, List.nil_append]
            rw [← hbs, ← hs]
          · rintro a' (rfl | ha' | ⟨f', b', hf', hb', rfl⟩) ⟨t, ht⟩
            · simp
            · have := (hshort a' t ha' ht).1
              simp; omega
            · simp only [List.append_assoc, List.cons_append, List.nil_append] at ht
              obtain ⟨rfl, hk'⟩ := hsame f' _ hf' ht
              simp only [List.cons.injEq, true_and] at hk'
              have := (colorNum_longest hb hb' (by rw [hk', ← hbs]) hbmax').1
              simp; omega
        · dsimp only
          rw [if_neg hce]
          exact ⟨f, hs, plain (by
            intro c' e' rest' h
            simp only [List.cons.injEq] at h
            obtain ⟨rfl, rfl, _⟩ := h
            exact hce)⟩

private theorem startsHexColor_iff {s : Str} : startsHexColor s = true ↔ ∃ a t, HexNum a ∧ s = a ++ t := by
  unfold startsHexColor
  constructor
  · intro h
    simp only [Bool.and_eq_true, decide_eq_true_eq, List.all_eq_true] at h
    refine ⟨s.take 6, s.drop 6, ⟨by rw [List.length_take]; omega, ?_⟩, (List.take_append_drop 6 s).symm⟩
    intro c hc
    exact isHexDigit_iff.1 (h.2 c hc)
  · rintro ⟨a, t, ⟨hl, hc⟩, rfl⟩
    simp only [Bool.and_eq_true, decide_eq_true_eq, List.all_eq_true]
    refine ⟨by rw [List.length_append]; omega, ?_⟩
    rw [show (6 : Nat) = a.length from hl.symm, List.take_left]
    intro c h
    exact isHexDigit_iff.2 (hc c h)

private theorem hex_longest (s : Str) : ∃ a, s = a ++ skipHexColor s ∧ LongestPrefix HexArgs a s := by
  unfold skipHexColor
  cases hh : startsHexColor s with
  | false =>
    rw [if_pos rfl]
    refine ⟨[], rfl, Or.inl rfl, List.nil_prefix, ?_⟩
    have no : ∀ f x, HexNum f → f ++ x = s → False := by
      intro f x hf he
      rw [startsHexColor_iff.2 ⟨f, x, hf, he.symm⟩] at hh; cases hh
    rintro a' (rfl | h | ⟨f, b, hf, _, rfl⟩) ⟨t, ht⟩
    · simp
    · exact (no _ _ h ht).elim
    · exact (no f ([44] ++ b ++ t) hf (by simpa using ht)).elim
  | true =>
    rw [if_neg (by simp)]
    obtain ⟨f, t, hf, rfl⟩ := startsHexColor_iff.1 hh
    have hdrop : (f ++ t).drop 6 = t := by rw [← hf.1, List.drop_left]
    rw [hdrop]
    have same : ∀ f' x, HexNum f' → f' ++ x = f ++ t → f' = f ∧ x = t := fun f' x hf' he =>
      List.append_inj he (by rw [hf'.1, hf.1])
    have plain : (∀ rest, t = 44 :: rest → startsHexColor rest = false) →
        LongestPrefix HexArgs f (f ++ t) := by
      intro hno
      refine ⟨Or.inr (Or.inl hf), ⟨t, rfl⟩, ?_⟩
      rintro a' (rfl | h | ⟨f', b, hf', hb, rfl⟩) ⟨x, hx⟩
      · simp
      · rw [h.1, hf.1]; exact Nat.le_refl _
      · exfalso
        simp only [List.append_assoc, List.cons_append, List.nil_append] at hx
        obtain ⟨_, hx'⟩ := same f' _ hf' hx
        have := hno _ hx'.symm
        rw [startsHexColor_iff.2 ⟨b, x, hb, rfl⟩] at this; cases this
    match t, plain, same with
    | [], plain, _ => exact ⟨f, rfl, plain (by simp)⟩
    | c :: rest, plain, same =>
      by_cases hc : c = 44 ∧ startsHexColor rest = true
      · obtain ⟨rfl, hr⟩ := hc
        simp only [hr, and_self, if_true]
        obtain ⟨b, u, hb, rfl⟩ := startsHexColor_iff.1 hr
        have hdrop2 : (b ++ u).drop 6 = u := by rw [← hb.1, List.drop_left]
        rw [hdrop2]
        refine ⟨f ++ [44] ++ b, by simp, Or.inr (Or.inr ⟨f, b, hf, hb, rfl⟩), ⟨u, by simp⟩, ?_⟩
        rintro a' (rfl | h | ⟨f', b', hf', hb', rfl⟩) ⟨x, hx⟩
        · simp
        · simp [h.1, hf.1, hb.1]
        · simp [hf.1, hb.1, hf'.1, hb'.1]
      · dsimp only
        rw [if_neg hc]
        exact ⟨f, rfl, plain (by
          intro rest' h
          simp only [List.cons.injEq] at h
          obtain ⟨rfl, rfl⟩ := h
          cases hr : startsHexColor rest with
          | false => rfl
          | true => exact absurd ⟨rfl, hr⟩ hc)⟩

private theorem stripLoop_spec : ∀ (n : Nat) (s : Str), s.length ≤ n → Unformatted s (stripLoop s) := by
  intro n
  induction n with
  | zero => intro s h; cases s with
    | nil => rw [stripLoop]; exact .nil
    | cons c s => simp at h
  | succ n ih =>
    intro s h
    cases s with
    | nil => rw [stripLoop]; exact .nil
    | cons c s =>
      simp only [List.length_cons] at h
      rw [stripLoop]
      split
      · next hc =>
        have h1 : c ∈ fmtControls := by
          simp only [fmtControls, List.mem_cons, List.not_mem_nil, or_false]; omega
        exact .control h1 (by omega) (by omega) (ih s (by omega))
      · next hn =>
        split
        · next hc =>
          subst hc
          obtain ⟨a, hs, hl⟩ := color_longest s
          have hle := skipColor_le s
          generalize hk : skipColor s = k at hs hle ⊢
          rw [hs] at hl ⊢
          exact .color hl (ih k (by omega))
        · split
          · next hc =>
            subst hc
            obtain ⟨a, hs, hl⟩ := hex_longest s
            have hle := skipHexColor_le s
            generalize hk : skipHexColor s = k at hs hle ⊢
            rw [hs] at hl ⊢
            exact .hex hl (ih k (by omega))
          · refine .text ?_ (ih s (by omega))
            simp only [fmtControls, List.mem_cons, List.not_mem_nil, or_false]; omega

private theorem unformatted_self : ∀ (s : Str), (∀ c ∈ s, c ∉ fmtControls) → Unformatted s s
  | [], _ => .nil
  | c :: s, h => .text (h c List.mem_cons_self) (unformatted_self s (fun c hc => h c (List.mem_cons_of_mem _ hc)))

private theorem any_controls_false {s : Str} : s.any (fun c => decide (c ∈ fmtControls)) = false ↔
    ∀ c ∈ s, c ∉ fmtControls := by
  rw [Bool.eq_false_iff, ne_eq, List.any_eq_true]
  constructor
  · intro h c hc hm; exact h ⟨c, hc, by simpa using hm⟩
  · rintro h ⟨c, hc, hm⟩; exact h c hc (by simpa using hm)

private theorem longest_unique {P : Str → Prop} {a a' s : Str} (h : LongestPrefix P a s)
    (h' : LongestPrefix P a' s) : a = a' := by
  have hl : a.length = a'.length := Nat.le_antisymm (h'.2.2 a h.1 h.2.1) (h.2.2 a' h'.1 h'.2.1)
  obtain ⟨t, ht⟩ := h.2.1
  obtain ⟨t', ht'⟩ := h'.2.1
  exact (List.append_inj (ht.trans ht'.symm) hl).1

/-! ## C41 -/

/-- The search text of a message is the message without its formatting: controls are dropped, color controls
with their arguments, and nothing else. -/
theorem C41_unformatted (s : Str) : Unformatted s (stripANSI s) := by
  unfold stripANSI
  split
  · next h => exact unformatted_self s (any_controls_false.1 h)
  · exact stripLoop_spec s.length s (Nat.le_refl _)

example : stripANSI b!"a\x02b\x0312,4cd\x03e\x04ff00aA,1f" = b!"abcde,1f" := by
  decide +kernel

/-- `Unformatted` leaves no choice: there is exactly one text without formatting. -/
theorem C41_unique {s out out' : Str} (h : Unformatted s out) (h' : Unformatted s out') : out = out' := by
  induction h generalizing out' with
  | nil => cases h'; rfl
  | text hc h ih =>
    cases h' with
    | text hc' h' => rw [ih h']
    | control hc' => exact absurd hc' hc
    | color => exact absurd (by decide) hc
    | hex => exact absurd (by decide) hc
  | control hc h3 h4 h ih =>
    cases h' with
    | text hc' h' => exact absurd hc hc'
    | control _ _ _ h' => exact ih h'
    | color => exact absurd rfl h3
    | hex => exact absurd rfl h4
  | @color a s out hl h ih =>
    generalize hx : 3 :: (a ++ s) = x at h'
    cases h' with
    | nil => cases hx
    | text hc' h' => cases hx; exact absurd (by decide) hc'
    | control _ h3 => cases hx; exact absurd rfl h3
    | @color a' s' _ hl' h' =>
      simp only [List.cons.injEq, true_and] at hx
      rw [← hx] at hl'
      have := longest_unique hl hl'
      subst this
      have hs := List.append_cancel_left hx
      subst hs
      exact ih h'
    | hex => cases hx
  | @hex a s out hl h ih =>
    generalize hx : 4 :: (a ++ s) = x at h'
    cases h' with
    | nil => cases hx
    | text hc' h' => cases hx; exact absurd (by decide) hc'
    | control _ _ h4 => cases hx; exact absurd rfl h4
    | @hex a' s' _ hl' h' =>
      simp only [List.cons.injEq, true_and] at hx
      rw [← hx] at hl'
      have := longest_unique hl hl'
      subst this
      have hs := List.append_cancel_left hx
      subst hs
      exact ih h'
    | color => cases hx

example : Unformatted [3, 49, 97] [97] :=
  .color (a := [49]) (s := [97]) ⟨Or.inr (Or.inl ⟨Or.inl rfl, by simp⟩), ⟨[97], rfl⟩, by
    rintro a' (rfl | h | ⟨f, b, hf, hb, rfl⟩) ⟨t, ht⟩
    · simp
    · match a', h with
      | [x], _ => simp
      | [x, y], h =>
        simp only [List.cons_append, List.nil_append, List.cons.injEq] at ht
        have := h.2 y (by simp)
        omega
    · match f, hf with
      | [x], _ => simp at ht
      | [x, y], h =>
        simp only [List.cons_append, List.nil_append, List.cons.injEq] at ht
        have := h.2 y (by simp)
        omega⟩ (.text (by decide) .nil)

/-- The search text contains no formatting control. -/
theorem C41_clean (s : Str) : ∀ c ∈ stripANSI s, c ∉ fmtControls := by
  have : ∀ s out, Unformatted s out → ∀ c ∈ out, c ∉ fmtControls := by
    intro s out h
    induction h with
    | nil => intro c h; cases h
    | text hc _ ih =>
      intro c hm
      rcases List.mem_cons.1 hm with rfl | hm
      · exact hc
      · exact ih c hm
    | control _ _ _ _ ih => exact ih
    | color _ _ ih => exact ih
    | hex _ _ ih => exact ih
  exact this _ _ (C41_unformatted s)

example : stripANSI [2, 3, 49, 50, 44, 65] = b!",A" := by decide +kernel

/-- The search text is a subsequence of the message: nothing is added or reordered. -/
theorem C41_subsequence (s : Str) : List.Sublist (stripANSI s) s := by
  have : ∀ s out, Unformatted s out → List.Sublist out s := by
    intro s out h
    induction h with
    | nil => exact .slnil
    | text _ _ ih => exact ih.cons_cons _
    | control _ _ _ _ ih => exact ih.cons _
    | color _ _ ih => exact (ih.trans (List.sublist_append_right _ _)).cons _
    | hex _ _ ih => exact (ih.trans (List.sublist_append_right _ _)).cons _
  exact this _ _ (C41_unformatted s)

/-- A message without formatting controls is its own search text. -/
theorem C41_plain (s : Str) (h : ∀ c ∈ s, c ∉ fmtControls) : stripANSI s = s := by
  unfold stripANSI
  rw [if_pos (any_controls_false.2 h)]

example : stripANSI b!"12,34 plain" = b!"12,34 plain" := C41_plain _ (by decide)

/-! ## C42 -/

/-- A full-text query in the syntax of FTS5 strings: strings in double quotes, in which a doubled double
quote stands for one, with spaces between them. `none` is anything else: barewords, operators, an open
string. The second argument is the string being read. -/
def ftsStrings : Option Str → Str → Option (List Str)
  | none, [] => some []
  | none, c :: s => if c = 34 then ftsStrings (some []) s else if c = 32 then ftsStrings none s else none
  | some _, [] => none
  | some cur, c :: s =>
    if c = 34 then
      match s with
      | 34 :: s' => ftsStrings (some (cur ++ [34])) s'
      | s => (ftsStrings none s).map (cur :: ·)
    else ftsStrings (some (cur ++ [c])) s
termination_by _ s => s.length

/-- `toks` are the maximal runs of characters with `tok` in a text. -/
inductive Runs (tok : Nat → Bool) : Str → List Str → Prop
  | nil : Runs tok [] []
  | sep {c s toks} : tok c = false → Runs tok s toks → Runs tok (c :: s) toks
  | last {t} : t ≠ [] → (∀ c ∈ t, tok c = true) → Runs tok t [t]
  | run {t c s toks} : t ≠ [] → (∀ c ∈ t, tok c = true) → tok c = false → Runs tok s toks →
      Runs tok (t ++ c :: s) (t :: toks)

private theorem fieldsFrom_runs (tok : Nat → Bool) : ∀ (s cur : Str), (∀ c ∈ cur, tok c = true) →
    Runs tok (cur ++ s) (fieldsFrom tok cur s) := by
  intro s
  induction s with
  | nil =>
    intro cur h
    rw [fieldsFrom, List.append_nil]
    split
    · next he => subst he; exact .nil
    · next hn => exact .last hn h
  | cons c s ih =>
    intro cur h
    rw [fieldsFrom]
    split
    · next hc =>
      have := ih (cur ++ [c]) (by
        intro x hx
        rcases List.mem_append.1 hx with hx | hx
        · exact h x hx
        · rw [List.mem_singleton.1 hx]; exact hc)
      simpa using this
    · next hc =>
      have hc' : tok c = false := by simpa using hc
      have := ih [] (by simp)
      split
      · next he => subst he; simpa using Runs.sep hc' this
      · next hn => simpa using Runs.run hn h hc' this

private theorem ftsStrings_quoted (t rest : Str) (hr : rest.head? ≠ some 34) : ∀ cur,
    ftsStrings (some cur) (doubleQuotes t ++ 34 :: rest) = (ftsStrings none rest).map ((cur ++ t) :: ·) := by
  induction t with
  | nil =>
    intro cur
    rw [show doubleQuotes [] = [] from rfl, List.nil_append, ftsStrings.eq_def]
    dsimp only
    rw [if_pos rfl]
    split
    · next s' => simp at hr
    · rw [List.append_nil]
  | cons c t ih =>
    intro cur
    by_cases hc : c = 34
    · subst hc
      rw [show doubleQuotes (34 :: t) ++ 34 :: rest = 34 :: 34 :: (doubleQuotes t ++ 34 :: rest) from rfl]
      rw [ftsStrings.eq_def]
      dsimp only
      rw [if_pos rfl]
      show ftsStrings (some (cur ++ [34])) (doubleQuotes t ++ 34 :: rest) = _
      rw [ih]
      simp
    · have : doubleQuotes (c :: t) = c :: doubleQuotes t := by simp [doubleQuotes, hc]
      rw [this, List.cons_append, ftsStrings.eq_def]
      dsimp only
      rw [if_neg hc, ih]
      simp

private theorem quoteFTS_fold : ∀ (toks : List Str) (sb : Str), sb.length > 0 →
    toks.foldl (fun sb t => (if sb.length > 0 then sb ++ [32] else sb) ++ [34] ++ doubleQuotes t ++ [34]) sb =
      sb ++ toks.flatMap (fun t => 32 :: 34 :: (doubleQuotes t ++ [34]))
  | [], sb, _ => by simp
  | t :: toks, sb, h => by
    rw [List.foldl_cons, if_pos h, quoteFTS_fold toks _ (by simp; omega), List.flatMap_cons]
    simp

private theorem ftsStrings_rest : ∀ (toks : List Str),
    ftsStrings none (toks.flatMap (fun t => 32 :: 34 :: (doubleQuotes t ++ [34]))) = some toks
  | [] => by rw [List.flatMap_nil, ftsStrings]
  | t :: toks => by
    rw [List.flatMap_cons, List.cons_append, List.cons_append, ftsStrings, if_neg (by decide), if_pos rfl,
      ftsStrings, if_pos rfl, List.append_assoc, List.singleton_append, ftsStrings_quoted, ftsStrings_rest toks]
    · rfl
    · cases toks <;> simp

/-- Whatever a client searches for, the query given to the database consists of quoted strings only, and
their contents are the runs of letters and digits of the text. -/
theorem C42_query (tok : Nat → Bool) (text : Str) :
    ∃ toks, Runs tok text toks ∧ ftsStrings none (quoteFTSQuery tok text) = some toks := by
  refine ⟨fieldsFrom tok [] text, by simpa using fieldsFrom_runs tok text [] (by simp), ?_⟩
  unfold quoteFTSQuery
  cases h : fieldsFrom tok [] text with
  | nil => rw [List.foldl_nil, ftsStrings]
  | cons t toks =>
    rw [List.foldl_cons, quoteFTS_fold _ _ (by simp)]
    simp only [List.length_nil, Nat.lt_irrefl, if_false, List.nil_append, List.cons_append, gt_iff_lt,
      List.append_assoc]
    rw [ftsStrings, if_pos rfl, ftsStrings_quoted, ftsStrings_rest]
    · rfl
    · cases toks <;> simp

example : quoteFTSQuery (fun c => decide (97 ≤ c ∧ c ≤ 122)) b!"foo\" OR bar*" = b!"\"foo\" \"bar\"" := by
  decide

/-- The runs are unique: the query depends on nothing else. -/
theorem C42_runs_unique {tok : Nat → Bool} {s : Str} {l l' : List Str} (h : Runs tok s l) (h' : Runs tok s l') :
    l = l' := by
  have cut : ∀ (t t' s s' : Str) (c c' : Nat), (∀ x ∈ t, tok x = true) → (∀ x ∈ t', tok x = true) →
      tok c = false → tok c' = false → t ++ c :: s = t' ++ c' :: s' → t = t' ∧ s = s' := by
    intro t
    induction t with
    | nil =>
      intro t' s s' c c' _ h2 h3 h4 he
      cases t' with
      | nil => simp only [List.nil_append, List.cons.injEq] at he; exact ⟨rfl, he.2⟩
      | cons x t' =>
        simp only [List.nil_append, List.cons_append, List.cons.injEq] at he
        have := h2 x List.mem_cons_self
        rw [← he.1, h3] at this; cases this
    | cons x t ih =>
      intro t' s s' c c' h1 h2 h3 h4 he
      cases t' with
      | nil =>
        simp only [List.nil_append, List.cons_append, List.cons.injEq] at he
        have := h1 x List.mem_cons_self
        rw [he.1, h4] at this; cases this
      | cons y t' =>
        simp only [List.cons_append, List.cons.injEq] at he
        obtain ⟨rfl, he⟩ := he
        obtain ⟨rfl, rfl⟩ := ih t' s s' c c' (fun x h => h1 x (List.mem_cons_of_mem _ h))
          (fun x h => h2 x (List.mem_cons_of_mem _ h)) h3 h4 he
        exact ⟨rfl, rfl⟩
  have headTok : ∀ (t s : Str) (c : Nat), t ≠ [] → (∀ x ∈ t, tok x = true) → tok c = false →
      ∀ u, t ++ s ≠ c :: u := by
    intro t s c hne ht hc u he
    cases t with
    | nil => exact hne rfl
    | cons x t =>
      simp only [List.cons_append, List.cons.injEq] at he
      have := ht x List.mem_cons_self
      rw [he.1, hc] at this; cases this
  induction h generalizing l' with
  | nil =>
    generalize hx : ([] : Str) = x at h'
    cases h' with
    | nil => rfl
    | sep => cases hx
    | last hne => exact absurd hx.symm hne
    | run => simp at hx
  | @sep c s toks hc h ih =>
    generalize hx : c :: s = x at h'
    cases h' with
    | nil => cases hx
    | sep _ h' => cases hx; exact ih h'
    | last hne ht =>
      subst hx
      exact absurd (ht c (by simp)) (by rw [hc]; simp)
    | @run t _ _ _ hne ht => exact absurd hx.symm (headTok t _ c hne ht hc s)
  | @last t hne ht =>
    cases h' with
    | nil => exact absurd rfl hne
    | @sep c s _ hc => exact absurd (ht c List.mem_cons_self) (by rw [hc]; simp)
    | last => rfl
    | @run t' c s _ _ _ hc => exact absurd (ht c (by simp)) (by rw [hc]; simp)
  | @run t c s toks hne ht hc h ih =>
    generalize hx : t ++ c :: s = x at h'
    cases h' with
    | nil => simp at hx
    | @sep c' s' _ hc' => exact absurd hx (headTok t _ c' hne ht hc' s')
    | @last t' _ ht' =>
      subst hx
      exact absurd (ht' c (by simp)) (by rw [hc]; simp)
    | @run t' c' s' _ hne' ht' hc' h' =>
      obtain ⟨rfl, rfl⟩ := cut t t' s s' c c' ht ht' hc hc' hx
      rw [ih h']

example : Runs (fun c => decide (97 ≤ c)) b!"a -b" [b!"a", b!"b"] :=
  .run (t := b!"a") (by decide) (by decide) (by decide) (.sep (by decide) (.last (by decide) (by decide)))

end Verif.Props
