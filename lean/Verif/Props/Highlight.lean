import Verif.Model.Highlight
import Verif.Proof.GoStr

/-! # C50: highlights are whole-word mentions outside URLs -/

namespace Verif.Props
open Verif.Model

/-! ## Specification -/

/-- The character ends a word: it is no letter, no number and none of `-_|`. -/
def WordEdge (lib : RuneLib) (c : Nat) : Prop :=
  lib.letter c = false ∧ lib.number c = false ∧ c ≠ 45 ∧ c ≠ 95 ∧ c ≠ 124

/-- A character of a URL scheme: an ASCII letter, a digit, or one of `+-.`. -/
def SchemeChar (c : Nat) : Prop :=
  (97 ≤ c ∧ c ≤ 122) ∨ (65 ≤ c ∧ c ≤ 90) ∨ (48 ≤ c ∧ c ≤ 57) ∨ c ∈ b!"+-."

instance (c : Nat) : Decidable (SchemeChar c) := by unfold SchemeChar; infer_instance

/-- What follows `s` is part of a URL: `s` has a scheme and "://", with no space since. -/
def InUrl (lib : RuneLib) (s : List Nat) : Prop :=
  ∃ a c b, s = a ++ c :: b!"://" ++ b ∧ SchemeChar c ∧ ∀ x ∈ b, lib.space x = false

/-- The text mentions the nick: it has an occurrence of it, delimited by the ends of words or the ends of the
text, that is not part of a URL. -/
def Mention (lib : RuneLib) (text nick : List Nat) : Prop :=
  ∃ pre post, text = pre ++ nick ++ post ∧ (∀ c, pre.getLast? = some c → WordEdge lib c) ∧
    (∀ c, post.head? = some c → WordEdge lib c) ∧ ¬ InUrl lib pre

/-- The property of the statement. -/
def HighlightsAreMentions (lib : RuneLib) : Prop :=
  ∀ text nick, nick ≠ [] → (isHighlight lib text nick = some true ↔ Mention lib text nick)

/-- Facts of the classes of characters: U+FFFD, `:`, `/` and the characters of schemes. -/
def RuneLib.Ok (lib : RuneLib) : Prop :=
  lib.letter 65533 = false ∧ lib.number 65533 = false ∧ lib.space 58 = false ∧ lib.space 47 = false ∧
    ∀ c, SchemeChar c → lib.space c = false

/-- Any two mentions of the nick in the text have a space between them. -/
def Apart (lib : RuneLib) (text nick : List Nat) : Prop :=
  ∀ pre post pre' post', text = pre ++ nick ++ post → text = pre' ++ nick ++ post' → pre.length < pre'.length →
    ∃ mid, pre' = pre ++ nick ++ mid ∧ ∃ x ∈ mid, lib.space x = true

/-- A word of the text has "://" at most once. -/
def OneUrl (lib : RuneLib) (s : List Nat) : Prop :=
  ∀ a b a' b', s = a ++ b!"://" ++ b → s = a' ++ b!"://" ++ b' → (∀ x ∈ b, lib.space x = false) →
    (∀ x ∈ b', lib.space x = false) → a = a'

/-! ## Proofs -/

private theorem scheme_iff {c : Nat} : isSchemeChar c = true ↔ SchemeChar c := by
  unfold isSchemeChar SchemeChar
  simp only [List.mem_cons, List.not_mem_nil, or_false]
  split
  · rename_i h; simp only [true_iff]; omega
  · rename_i h
    simp only [Bool.or_eq_true, decide_eq_true_eq]
    omega

private theorem cut_none {sep s : List Nat} (h : cutStr sep s = none) (hs : sep ≠ []) :
    ∀ p q, s ≠ p ++ sep ++ q := by
  induction s with
  | nil =>
    intro p q he
    have := congrArg List.length he
    simp at this
    exact hs (List.length_eq_zero_iff.1 (by omega))
  | cons c s ih =>
    intro p q he
    rw [cutStr] at h
    split at h
    · cases h
    · rename_i hp
      cases hc : cutStr sep s with
      | some x => rw [hc] at h; cases h
      | none =>
        cases p with
        | nil => exact hp (by rw [he]; exact List.isPrefixOf_iff_prefix.2 (by simp))
        | cons d p =>
          simp only [List.cons_append, List.cons.injEq] at he
          exact ih hc p q he.2

private theorem cut_first {sep s a b : List Nat} (h : cutStr sep s = some (a, b)) :
    ∀ p q, s = p ++ sep ++ q → a.length ≤ p.length := by
  induction s generalizing a with
  | nil => intro p q he; simp [cutStr] at h
  | cons c s ih =>
    intro p q he
    rw [cutStr] at h
    split at h
    · injection h with h; injection h with h1 h2; rw [← h1]; simp
    · rename_i hp
      cases hc : cutStr sep s with
      | none => rw [hc] at h; cases h
      | some x =>
        obtain ⟨a', b'⟩ := x
        rw [hc] at h
        simp only [Option.map_some, Option.some.injEq, Prod.mk.injEq] at h
        cases p with
        | nil => exact absurd (by rw [he]; exact List.isPrefixOf_iff_prefix.2 (by simp)) hp
        | cons d p =>
          simp only [List.cons_append, List.cons.injEq] at he
          have := ih (by rw [hc, h.2]) p q he.2
          rw [← h.1]
          simp only [List.length_cons]
          omega

private theorem boundary_iff {lib : RuneLib} (ok : RuneLib.Ok lib) (o : Option Nat) :
    isWordBoundary lib (o.getD 65533) = true ↔ ∀ c, o = some c → WordEdge lib c := by
  cases o with
  | none => simp [isWordBoundary, ok.1, ok.2.1]
  | some r =>
    simp only [Option.getD_some, Option.some.injEq, forall_eq']
    unfold isWordBoundary WordEdge
    split
    · rename_i h
      simp only [Bool.false_eq_true, false_iff]
      rintro ⟨-, -, h1, h2, h3⟩
      omega
    · rename_i h
      simp only [Bool.and_eq_true, Bool.not_eq_true']
      constructor
      · rintro ⟨h1, h2⟩; exact ⟨h1, h2, by omega, by omega, by omega⟩
      · rintro ⟨h1, h2, -⟩; exact ⟨h1, h2⟩

private theorem lastSpace_some {lib : RuneLib} {s t : List Nat} (h : fromLastSpace lib s = some t) :
    ∃ u c w, s = u ++ c :: w ∧ t = c :: w ∧ lib.space c = true ∧ ∀ x ∈ w, lib.space x = false := by
  induction s with
  | nil => cases h
  | cons c s ih =>
    rw [fromLastSpace] at h
    cases hs : fromLastSpace lib s with
    | some t' =>
      rw [hs] at h
      injection h with h
      subst h
      obtain ⟨u, d, w, h1, h2, h3, h4⟩ := ih hs
      exact ⟨c :: u, d, w, by simp [h1], h2, h3, h4⟩
    | none =>
      rw [hs] at h
      dsimp only at h
      split at h
      · rename_i hc
        injection h with h
        refine ⟨[], c, s, rfl, h.symm, hc, ?_⟩
        clear ih h
        induction s with
        | nil => intro x hx; cases hx
        | cons d s ih =>
          rw [fromLastSpace] at hs
          cases hs' : fromLastSpace lib s with
          | some _ => rw [hs'] at hs; cases hs
          | none =>
            rw [hs'] at hs
            dsimp only at hs
            split at hs
            · cases hs
            · rename_i hd
              intro x hx
              rcases List.mem_cons.1 hx with rfl | hx
              · simpa using hd
              · exact ih hs' x hx
      · cases h

private theorem lastSpace_none {lib : RuneLib} {s : List Nat} (h : fromLastSpace lib s = none) :
    ∀ x ∈ s, lib.space x = false := by
  induction s with
  | nil => intro x hx; cases hx
  | cons d s ih =>
    rw [fromLastSpace] at h
    cases hs' : fromLastSpace lib s with
    | some _ => rw [hs'] at h; cases h
    | none =>
      rw [hs'] at h
      dsimp only at h
      split at h
      · cases h
      · rename_i hd
        intro x hx
        rcases List.mem_cons.1 hx with rfl | hx
        · simpa using hd
        · exact ih hs' x hx

/-- The last word: what the code looks at is the end of the text, and has no space but perhaps the first
character. -/
private theorem lastWord (lib : RuneLib) (s : List Nat) :
    ∃ u, s = u ++ (fromLastSpace lib s).getD s ∧ (∀ x ∈ ((fromLastSpace lib s).getD s).drop 1, lib.space x = false) ∧
      ((u = [] ∧ ∀ x ∈ s, lib.space x = false) ∨ ∃ c w, (fromLastSpace lib s).getD s = c :: w ∧ lib.space c = true) := by
  cases h : fromLastSpace lib s with
  | none =>
    have hn := lastSpace_none h
    exact ⟨[], rfl, fun x hx => hn x (List.mem_of_mem_drop hx), Or.inl ⟨rfl, hn⟩⟩
  | some t =>
    obtain ⟨u, c, w, h1, h2, h3, h4⟩ := lastSpace_some h
    subst h2
    exact ⟨u, h1, by simpa using h4, Or.inr ⟨c, w, rfl, h3⟩⟩

private theorem getLast_getD {l : List Nat} {d : Nat} (h : isSchemeChar (l.getLast?.getD d) = true)
    (hd : isSchemeChar d = false) : ∃ l' c, l = l' ++ [c] ∧ isSchemeChar c = true := by
  cases hl : l.getLast? with
  | none => rw [hl, Option.getD_none, hd] at h; cases h
  | some c =>
    rw [hl] at h
    obtain ⟨l', hl'⟩ := List.getLast?_eq_some_iff.1 hl
    exact ⟨l', c, hl', h⟩

private theorem uri_sound {lib : RuneLib} {s : List Nat} (h : isURIPrefix lib s = true) : InUrl lib s := by
  unfold isURIPrefix at h
  obtain ⟨u, hs, hw, -⟩ := lastWord lib s
  generalize (fromLastSpace lib s).getD s = t at h hs hw
  split at h
  · cases h
  · rename_i before after hc
    have ht := Verif.Proof.cutStr_some hc
    obtain ⟨l', c, hl, hsc⟩ := getLast_getD h (by decide)
    refine ⟨u ++ l', c, after, by simp [hs, ht, hl], scheme_iff.1 hsc, ?_⟩
    intro x hx
    apply hw x
    rw [ht, hl]
    cases l' with
    | nil => simp [hx]
    | cons _ _ => simp [hx]

/-- An equation `u ++ t = a ++ v` where `t` is at least as long as `v`. -/
private theorem suffix_le {u t a v : List Nat} (h : u ++ t = a ++ v) (hl : v.length ≤ t.length) :
    ∃ a', t = a' ++ v ∧ a = u ++ a' := by
  rcases List.append_eq_append_iff.1 h with ⟨x, h1, h2⟩ | ⟨x, h1, h2⟩
  · exact ⟨x, h2, h1⟩
  · have : x = [] := by
      have := congrArg List.length h2
      simp at this
      exact List.length_eq_zero_iff.1 (by omega)
    subst this
    exact ⟨[], by simpa using h2.symm, by simpa using h1.symm⟩

private theorem uri_complete {lib : RuneLib} (ok : RuneLib.Ok lib) {s : List Nat} (one : OneUrl lib s)
    (h : InUrl lib s) : isURIPrefix lib s = true := by
  obtain ⟨a, c, b, hs, hsc, hb⟩ := h
  obtain ⟨u, hu, hw, hc⟩ := lastWord lib s
  unfold isURIPrefix
  have hv : ∀ x ∈ c :: b!"://" ++ b, lib.space x = false := by
    intro x hx
    rcases List.mem_append.1 hx with hx | hx
    · rcases List.mem_cons.1 hx with rfl | hx
      · exact ok.2.2.2.2 _ hsc
      · have : x = 58 ∨ x = 47 := by simp at hx; omega
        rcases this with rfl | rfl
        · exact ok.2.2.1
        · exact ok.2.2.2.1
    · exact hb x hx
  -- the word has the whole of "c://b"
  have hlen : (c :: b!"://" ++ b).length ≤ ((fromLastSpace lib s).getD s).length := by
    rcases hc with ⟨rfl, -⟩ | ⟨d, w, hd, hsp⟩
    · have h1 := congrArg List.length hu
      have h2 := congrArg List.length hs
      simp only [List.nil_append] at h1
      rw [← h1, h2]
      simp
    · apply Nat.le_of_not_lt
      intro hlt
      have he : a ++ (c :: b!"://" ++ b) = u ++ (fromLastSpace lib s).getD s := by rw [← hu, hs]; simp
      obtain ⟨a', h1, -⟩ := suffix_le he (by omega)
      have : d ∈ c :: b!"://" ++ b := by rw [h1, hd]; simp
      rw [hv d this] at hsp
      cases hsp
  obtain ⟨a', ht, ha⟩ := suffix_le (by rw [← hu]; simpa using hs) hlen
  generalize (fromLastSpace lib s).getD s = t at hu hw hc ht
  cases hcut : cutStr b!"://" t with
  | none => exact absurd (by rw [ht]; simp) (cut_none hcut (by simp) (a' ++ [c]) b)
  | some x =>
    obtain ⟨before, after⟩ := x
    dsimp only
    have ht2 := Verif.Proof.cutStr_some hcut
    have hafter : ∀ x ∈ after, lib.space x = false := by
      rcases hc with ⟨rfl, hall⟩ | ⟨d, w, hd, hsp⟩
      · intro x hx; apply hall; rw [hu, ht2]; simp [hx]
      · intro x hx
        apply hw
        rw [ht2]
        cases before with
        | nil => simp [hx]
        | cons _ _ => simp [hx]
    have := one (u ++ (a' ++ [c])) b (u ++ before) after (by rw [hu, ht]; simp) (by rw [hu, ht2]; simp) hb hafter
    have := List.append_cancel_left this
    rw [← this]
    simpa using scheme_iff.2 hsc

private theorem inUrl_suffix {lib : RuneLib} {u s : List Nat} (h : InUrl lib s) : InUrl lib (u ++ s) := by
  obtain ⟨a, c, b, hs, h1, h2⟩ := h
  exact ⟨u ++ a, c, b, by simp [hs], h1, h2⟩

private theorem inUrl_space {lib : RuneLib} (ok : RuneLib.Ok lib) {u s : List Nat} (hx : ∃ x ∈ s, lib.space x = true)
    (h : InUrl lib (u ++ s)) : InUrl lib s := by
  obtain ⟨a, c, b, hs, h1, h2⟩ := h
  have hv : ∀ x ∈ c :: b!"://" ++ b, lib.space x = false := by
    intro x hx
    rcases List.mem_append.1 hx with hx | hx
    · rcases List.mem_cons.1 hx with rfl | hx
      · exact ok.2.2.2.2 _ h1
      · have : x = 58 ∨ x = 47 := by simp at hx; omega
        rcases this with rfl | rfl
        · exact ok.2.2.1
        · exact ok.2.2.2.1
    · exact h2 x hx
  have he : u ++ s = a ++ (c :: b!"://" ++ b) := by rw [hs]; simp
  by_cases hl : (c :: b!"://" ++ b).length ≤ s.length
  · obtain ⟨a', h3, -⟩ := suffix_le he hl
    exact ⟨a', c, b, by rw [h3]; simp, h1, h2⟩
  · obtain ⟨a', h3, -⟩ := suffix_le he.symm (by omega)
    obtain ⟨x, hxs, hsp⟩ := hx
    have : x ∈ c :: b!"://" ++ b := by rw [h3]; simp [hxs]
    rw [hv x this] at hsp
    cases hsp

private theorem getLast_suffix {u m : List Nat} {c : Nat} (h : m.getLast? = some c) : (u ++ m).getLast? = some c := by
  rw [List.getLast?_append, h]; rfl

/-- C50, in one direction: a text that mentions the nick highlights the user, for a nick made of letters, numbers
and `-_|`. -/
theorem C50_complete (lib : RuneLib) (ok : RuneLib.Ok lib) (text nick : List Nat) (hne : nick ≠ [])
    (hword : ∀ c ∈ nick, ¬ WordEdge lib c) (h : Mention lib text nick) : isHighlight lib text nick = some true := by
  unfold isHighlight
  rw [if_neg hne]
  congr 1
  have key : ∀ f text, text.length < f → Mention lib text nick → highlightLoop lib nick f text = true := by
    intro f
    induction f with
    | zero => intro text hf; omega
    | succ f ih =>
      intro text hf hm
      obtain ⟨pre, post, ht, hleft, hright, hurl⟩ := hm
      rw [highlightLoop]
      cases hcut : cutStr nick text with
      | none => exact absurd ht (cut_none hcut hne pre post)
      | some x =>
        obtain ⟨l, r⟩ := x
        dsimp only
        have hlr := Verif.Proof.cutStr_some hcut
        have hle := cut_first hcut pre post ht
        have hnl : 0 < nick.length := List.length_pos_iff.2 hne
        have heq : l ++ (nick ++ r) = pre ++ (nick ++ post) := by
          rw [List.append_assoc] at hlr ht; rw [← hlr, ← ht]
        by_cases hpl : pre.length = l.length
        · have h1 := List.append_inj heq hpl.symm
          have h2 := List.append_cancel_left h1.2
          rw [h1.1, h2, (boundary_iff ok _).2 hleft, (boundary_iff ok _).2 hright]
          have : isURIPrefix lib pre = false := by
            cases hu : isURIPrefix lib pre with
            | false => rfl
            | true => exact absurd (uri_sound hu) hurl
          rw [this]; rfl
        · split
          · rfl
          · apply ih r
            · have := congrArg List.length hlr
              simp at this
              omega
            · rcases List.append_eq_append_iff.1 heq with ⟨x, h1, h2⟩ | ⟨x, h1, h2⟩
              · -- pre = l ++ x, nick ++ r = x ++ (nick ++ post)
                have hx0 : 0 < x.length := by
                  have := congrArg List.length h1
                  simp at this; omega
                rcases List.append_eq_append_iff.1 h2 with ⟨y, h3, h4⟩ | ⟨y, h3, h4⟩
                · refine ⟨y, post, by rw [h4]; simp, ?_, hright, ?_⟩
                  · intro c hc
                    apply hleft
                    rw [h1, h3]
                    exact getLast_suffix (getLast_suffix hc)
                  · intro hu
                    apply hurl
                    rw [h1, h3]
                    exact inUrl_suffix (inUrl_suffix hu)
                · -- x is part of the nick: its last character is in the nick and ends a word
                  exfalso
                  obtain ⟨c, hc⟩ : ∃ c, x.getLast? = some c := by
                    cases hx : x.getLast? with
                    | none => rw [List.getLast?_eq_none_iff] at hx; subst hx; simp at hx0
                    | some c => exact ⟨c, rfl⟩
                  apply hword c
                  · rw [h3]; exact List.mem_append_left _ (List.mem_of_getLast? hc)
                  · apply hleft; rw [h1]; exact getLast_suffix hc
              · have := congrArg List.length h1
                simp at this; omega
  exact key _ text (by omega) h

/-- C50 where the occurrences of the nick are in different words, with at most one "://" in a word: a message
highlights the user exactly if it mentions the nick. Missing: occurrences in the same word
(`C50_violated`). -/
theorem C50_exact_partial (lib : RuneLib) (ok : RuneLib.Ok lib) (text nick : List Nat) (hne : nick ≠ [])
    (apart : Apart lib text nick) (one : ∀ pre post, text = pre ++ nick ++ post → OneUrl lib pre) :
    isHighlight lib text nick = some true ↔ Mention lib text nick := by
  unfold isHighlight
  rw [if_neg hne]
  have hnl : 0 < nick.length := List.length_pos_iff.2 hne
  -- the occurrences after `done`
  have key : ∀ f r done, r.length < f → text = done ++ r → (done = [] ∨ ∃ d, done = d ++ nick) →
      (highlightLoop lib nick f r = true ↔ ∃ pre post, r = pre ++ nick ++ post ∧
        (∀ c, (done ++ pre).getLast? = some c → WordEdge lib c) ∧ (∀ c, post.head? = some c → WordEdge lib c) ∧
        ¬ InUrl lib (done ++ pre)) := by
    intro f
    induction f with
    | zero => intro r done hf; omega
    | succ f ih =>
      intro r done hf htext hdone
      rw [highlightLoop]
      cases hcut : cutStr nick r with
      | none =>
        simp only [Bool.false_eq_true, false_iff]
        rintro ⟨pre, post, h, -⟩
        exact cut_none hcut hne pre post h
      | some x =>
        obtain ⟨l, r'⟩ := x
        dsimp only
        have hlr := Verif.Proof.cutStr_some hcut
        have hl1 := one (done ++ l) r' (by rw [htext, hlr]; simp)
        -- the context that has been cut off does not matter
        have hctx : (∀ c, l.getLast? = some c → WordEdge lib c) ∧ ¬ isURIPrefix lib l = true ↔
            (∀ c, (done ++ l).getLast? = some c → WordEdge lib c) ∧ ¬ InUrl lib (done ++ l) := by
          rcases hdone with rfl | ⟨d, rfl⟩
          · simp only [List.nil_append] at hl1 ⊢
            constructor
            · rintro ⟨h1, h2⟩; exact ⟨h1, fun h => h2 (uri_complete ok hl1 h)⟩
            · rintro ⟨h1, h2⟩; exact ⟨h1, fun h => h2 (uri_sound h)⟩
          · obtain ⟨mid, hm, hsp⟩ := apart d (r) (d ++ nick ++ l) r' (by rw [htext]) (by rw [htext, hlr]; simp)
              (by simp; omega)
            have hm' : l = mid := List.append_cancel_left hm
            subst hm'
            have hlne : l ≠ [] := by rintro rfl; obtain ⟨x, hx, -⟩ := hsp; cases hx
            have hgl : (d ++ nick ++ l).getLast? = l.getLast? := by
              rw [List.getLast?_append]
              cases hx : l.getLast? with
              | none => rw [List.getLast?_eq_none_iff] at hx; exact absurd hx hlne
              | some c => rfl
            rw [hgl]
            constructor
            · rintro ⟨h1, h2⟩
              refine ⟨h1, fun h => h2 (uri_complete ok ?_ (inUrl_space ok hsp h))⟩
              intro a b a' b' e1 e2 e3 e4
              have := hl1 (d ++ nick ++ a) b (d ++ nick ++ a') b' (by rw [e1]; simp) (by rw [e2]; simp) e3 e4
              exact List.append_cancel_left this
            · rintro ⟨h1, h2⟩
              exact ⟨h1, fun h => h2 (inUrl_suffix (uri_sound h))⟩
        by_cases hcond : (isWordBoundary lib (l.getLast?.getD 65533) && isWordBoundary lib (r'.head?.getD 65533) &&
          !isURIPrefix lib l) = true
        · rw [if_pos hcond]
          simp only [true_iff]
          simp only [Bool.and_eq_true, Bool.not_eq_true'] at hcond
          obtain ⟨⟨c1, c2⟩, c3⟩ := hcond
          have := hctx.1 ⟨(boundary_iff ok _).1 c1, by rw [c3]; simp⟩
          exact ⟨l, r', hlr, this.1, (boundary_iff ok _).1 c2, this.2⟩
        · rw [if_neg hcond]
          rw [ih r' (done ++ l ++ nick) (by have := congrArg List.length hlr; simp at this; omega)
            (by rw [htext, hlr]; simp) (Or.inr ⟨_, rfl⟩)]
          constructor
          · rintro ⟨pre, post, h1, h2, h3, h4⟩
            refine ⟨l ++ nick ++ pre, post, by rw [hlr, h1]; simp, ?_, h3, ?_⟩
            · intro c hc; apply h2; rw [← hc]; simp
            · intro h; apply h4; simpa using h
          · rintro ⟨pre, post, h1, h2, h3, h4⟩
            have hle := cut_first hcut pre post h1
            by_cases hpl : l.length = pre.length
            · exfalso
              have heq : l ++ (nick ++ r') = pre ++ (nick ++ post) := by
                rw [List.append_assoc] at hlr h1; rw [← hlr, ← h1]
              have e1 := List.append_inj heq hpl
              have e2 := List.append_cancel_left e1.2
              obtain ⟨e1, -⟩ := e1
              subst e1
              subst e2
              have := hctx.2 ⟨h2, h4⟩
              apply hcond
              simp only [Bool.and_eq_true, Bool.not_eq_true']
              exact ⟨⟨(boundary_iff ok _).2 this.1, (boundary_iff ok _).2 h3⟩, by simpa using this.2⟩
            · obtain ⟨mid, hm, hsp⟩ := apart (done ++ l) r' (done ++ pre) post (by rw [htext, hlr]; simp)
                (by rw [htext, h1]; simp) (by simp; omega)
              have hm' : pre = l ++ nick ++ mid := by
                have : done ++ pre = done ++ (l ++ nick ++ mid) := by rw [hm]; simp
                exact List.append_cancel_left this
              subst hm'
              refine ⟨mid, post, ?_, ?_, h3, ?_⟩
              · have : l ++ nick ++ r' = l ++ nick ++ (mid ++ nick ++ post) := by rw [← hlr, h1]; simp
                exact List.append_cancel_left this
              · intro c hc; apply h2; rw [← hc]; simp
              · intro h; apply h4; simpa using h
  have := key (text.length + 1) text [] (by omega) rfl (Or.inl rfl)
  simp only [List.nil_append] at this
  simp only [Option.some.injEq]
  exact this

/-- C50: a highlight always has the nick, with the end of a word after it, and before it the end of a word or
another occurrence of the nick. -/
theorem C50_occurrence (lib : RuneLib) (ok : RuneLib.Ok lib) (text nick : List Nat)
    (h : isHighlight lib text nick = some true) :
    ∃ pre post, text = pre ++ nick ++ post ∧ (∀ c, post.head? = some c → WordEdge lib c) ∧
      ((∀ c, pre.getLast? = some c → WordEdge lib c) ∨ ∃ p, pre = p ++ nick) := by
  unfold isHighlight at h
  split at h
  · cases h
  · rename_i hne
    injection h with h
    have key : ∀ f r done, text = done ++ r → (done = [] ∨ ∃ d, done = d ++ nick) →
        highlightLoop lib nick f r = true → ∃ pre post, text = pre ++ nick ++ post ∧
          (∀ c, post.head? = some c → WordEdge lib c) ∧
          ((∀ c, pre.getLast? = some c → WordEdge lib c) ∨ ∃ p, pre = p ++ nick) := by
      intro f
      induction f with
      | zero => intro r done _ _ h; cases h
      | succ f ih =>
        intro r done htext hdone h
        rw [highlightLoop] at h
        cases hcut : cutStr nick r with
        | none => rw [hcut] at h; cases h
        | some x =>
          obtain ⟨l, r'⟩ := x
          rw [hcut] at h
          dsimp only at h
          have hlr := Verif.Proof.cutStr_some hcut
          split at h
          · rename_i hcond
            simp only [Bool.and_eq_true, Bool.not_eq_true'] at hcond
            obtain ⟨⟨c1, c2⟩, c3⟩ := hcond
            refine ⟨done ++ l, r', by rw [htext, hlr]; simp, (boundary_iff ok _).1 c2, ?_⟩
            by_cases hl0 : l = []
            · subst hl0
              rcases hdone with rfl | ⟨d, rfl⟩
              · left; intro c hc; cases hc
              · right; exact ⟨d, by simp⟩
            · left
              intro c hc
              apply (boundary_iff ok _).1 c1
              rw [List.getLast?_append] at hc
              cases hx : l.getLast? with
              | none => rw [List.getLast?_eq_none_iff] at hx; exact absurd hx hl0
              | some d => rw [hx] at hc; exact hc
          · exact ih r' (done ++ l ++ nick) (by rw [htext, hlr]; simp) (Or.inr ⟨_, rfl⟩) h
    exact key _ text [] rfl (Or.inl rfl) h

/-! ## Counterexamples -/

/-- ASCII. -/
def runeLibEx : RuneLib :=
  { letter := fun c => decide ((97 ≤ c ∧ c ≤ 122) ∨ (65 ≤ c ∧ c ≤ 90))
    number := fun c => decide (48 ≤ c ∧ c ≤ 57)
    space := fun c => decide (c = 32) || decide (9 ≤ c ∧ c ≤ 13) }

private theorem runeLibEx_ok : RuneLib.Ok runeLibEx := by
  refine ⟨by decide, by decide, by decide, by decide, ?_⟩
  intro c hc
  simp only [runeLibEx, Bool.or_eq_false_iff, decide_eq_false_iff_not]
  simp only [SchemeChar, List.mem_cons, List.not_mem_nil, or_false] at hc
  omega

/-- C50 does not hold. Once an occurrence is rejected, what is before it is forgotten: "foofoo" highlights "foo"
although the nick is not a word of it, and so does "http://foo/foo" although both are in a URL. And an occurrence
that overlaps a rejected one is missed: "a[[[" does not highlight "[[". -/
theorem C50_violated : ¬ HighlightsAreMentions runeLibEx := by
  intro h
  have := (h b!"foofoo" b!"foo" (by decide)).1 (by decide)
  obtain ⟨pre, post, ht, hl, hr, -⟩ := this
  have hlen := congrArg List.length ht
  simp at hlen
  -- the prefixes of the text of length at most three
  have hpre : pre = b!"foofoo".take pre.length := by rw [ht]; simp
  have hpost : post = b!"foofoo".drop (pre.length + 3) := by
    rw [ht, List.drop_append_of_le_length (by simp)]
    simp
  rcases hpl : pre.length with _ | _ | _ | _ | n
  · rw [hpl] at hpost
    have := hr 102 (by rw [hpost]; rfl)
    exact absurd this.1 (by decide)
  · rw [hpl] at hpre
    have := hl 102 (by rw [hpre]; rfl)
    exact absurd this.1 (by decide)
  · rw [hpl] at hpre
    have := hl 111 (by rw [hpre]; rfl)
    exact absurd this.1 (by decide)
  · rw [hpl] at hpre
    have := hl 111 (by rw [hpre]; rfl)
    exact absurd this.1 (by decide)
  · omega

/-- C50: the two other ways the verdict differs from the statement. -/
theorem C50_context_violated :
    (isHighlight runeLibEx b!"http://foo/foo" b!"foo" = some true ∧ ∀ n ≤ 14,
      (b!"http://foo/foo".drop n).take 3 = b!"foo" → InUrl runeLibEx (b!"http://foo/foo".take n)) ∧
    (isHighlight runeLibEx b!"a[[[" b!"[[" = some false ∧ Mention runeLibEx b!"a[[[" b!"[[") := by
  refine ⟨⟨by decide, ?_⟩, by decide, ?_⟩
  · intro n hn h
    have : n = 7 ∨ n = 11 :=
      (by decide : ∀ n < 15, (b!"http://foo/foo".drop n).take 3 = b!"foo" → n = 7 ∨ n = 11) n (by omega) h
    rcases this with rfl | rfl
    · exact ⟨b!"htt", 112, [], by decide, by decide, by decide⟩
    · exact ⟨b!"htt", 112, b!"foo/", by decide, by decide, by decide⟩
  · refine ⟨b!"a[", [], by decide, ?_, by simp, ?_⟩
    · intro c hc
      have : c = 91 := by simpa using hc.symm
      subst this
      exact ⟨by decide, by decide, by decide, by decide, by decide⟩
    · rintro ⟨a, c, b, h, -⟩
      have := congrArg List.length h
      simp at this
      omega

/-- C50: only messages and notices highlight, and never those of the user; their second parameter decides. -/
theorem C50_who (lib : RuneLib) (command : Str) (sender nick target text : List Nat) (more : List (List Nat)) :
    networkIsHighlight lib command sender (target :: text :: more) nick = some true ↔
      (command = b!"PRIVMSG" ∨ command = b!"NOTICE") ∧ sender ≠ nick ∧ isHighlight lib text nick = some true := by
  unfold networkIsHighlight
  by_cases h1 : command = b!"PRIVMSG" ∨ command = b!"NOTICE"
  · rw [if_neg (by rcases h1 with h | h <;> simp [h])]
    by_cases h2 : sender = nick
    · simp [h2]
    · rw [if_neg h2]; simp [h1, h2]
  · rw [if_pos (by simpa [not_or] using h1)]
    simp [h1]

/-- C50: with a nick there is no panic. -/
theorem C50_no_panic (lib : RuneLib) (command : Str) (sender nick : List Nat) (params : List (List Nat)) (hn : nick ≠ []) :
    (networkIsHighlight lib command sender params nick).isSome = true := by
  unfold networkIsHighlight
  split
  · rfl
  · split
    · rfl
    · unfold isHighlight; rw [if_neg hn]; rfl

example : networkIsHighlight runeLibEx b!"NOTICE" b!"alice" [b!"#soju", b!"hi soju!"] b!"soju" = some true ∧
    networkIsHighlight runeLibEx b!"NOTICE" b!"soju" [b!"#soju", b!"hi soju!"] b!"soju" = some false ∧
    networkIsHighlight runeLibEx b!"TOPIC" b!"alice" [b!"#soju", b!"hi soju!"] b!"soju" = some false := by decide

/-! ## The theorems are not about nothing -/

example : RuneLib.Ok runeLibEx := runeLibEx_ok

example : isHighlight runeLibEx b!"see https://soju.example (cc soju)" b!"soju" = some true ∧
    isHighlight runeLibEx b!"see https://soju.example" b!"soju" = some false ∧
    isHighlight runeLibEx b!"sojusan" b!"soju" = some false := by decide

private theorem hiSoju_pre {pre post : List Nat} (h : b!"hi soju" = pre ++ b!"soju" ++ post) : pre = b!"hi " := by
  have hl := congrArg List.length h
  simp at hl
  have hp : pre = b!"hi soju".take pre.length := by rw [h]; simp
  have h4 : (b!"hi soju".drop pre.length).take 4 = b!"soju" := by rw [h]; simp
  have : pre.length = 3 :=
    (by decide : ∀ n < 8, (b!"hi soju".drop n).take 4 = b!"soju" → n = 3) _ (by omega) h4
  rw [hp, this]; rfl

/-- The hypotheses of `C50_exact_partial`. -/
example : Apart runeLibEx b!"hi soju" b!"soju" ∧
    ∀ pre post, b!"hi soju" = pre ++ b!"soju" ++ post → OneUrl runeLibEx pre := by
  constructor
  · intro pre post pre' post' h h' hl
    rw [hiSoju_pre h, hiSoju_pre h'] at hl
    exact absurd hl (by decide)
  · intro pre post h a b a' b' e1 _ _ _
    rw [hiSoju_pre h] at e1
    have := congrArg List.length e1
    simp at this
    have : a = [] ∧ b = [] := ⟨List.length_eq_zero_iff.1 (by omega), List.length_eq_zero_iff.1 (by omega)⟩
    obtain ⟨rfl, rfl⟩ := this
    exact absurd e1 (by decide)

example : ∀ c ∈ b!"soju_1", ¬ WordEdge runeLibEx c := by unfold WordEdge; decide

end Verif.Props
