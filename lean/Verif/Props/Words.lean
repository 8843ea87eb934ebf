import Verif.Model.Words
import Verif.Proof.GoStr

/-! # C38: quoted service command words arrive intact -/

namespace Verif.Props
open Verif.Model Verif.Proof

/-! ## Specification -/

/-- Quote a word: put a backslash before each double quote and backslash, and double quotes around. -/
def quoteWord (w : Str) : Str :=
  [34] ++ w.flatMap (fun c => if c = 34 ∨ c = 92 then [92, c] else [c]) ++ [34]

/-- A piece of a quoted string: a character, or a character after a backslash. -/
inductive QPiece
  | lit (c : Nat)
  | esc (c : Nat)
  deriving DecidableEq, Repr

/-- A piece of a command line: a character, a character after a backslash, a string in quotes (`q` is the
quote character). -/
inductive Piece
  | lit (c : Nat)
  | esc (c : Nat)
  | quoted (q : Nat) (ps : List QPiece)
  deriving DecidableEq, Repr

/-- Characters with a meaning of their own: backslash and the two quotes. -/
def Special (c : Nat) : Prop := c = 92 ∨ c = 34 ∨ c = 39

instance (c : Nat) : Decidable (Special c) := by unfold Special; infer_instance

/-- What a piece in quotes looks like, which is also what it means, except for backslashes. -/
def QPiece.text : QPiece → Str
  | .lit c => [c]
  | .esc c => [92, c]

/-- The text a piece in quotes stands for. -/
def QPiece.value : QPiece → Str
  | .lit c => [c]
  | .esc c => [c]

/-- Inside quotes only the quote itself and the backslash cannot be written as they are. -/
def QPiece.OK (q : Nat) : QPiece → Prop
  | .lit c => c ≠ q ∧ c ≠ 92
  | .esc _ => True

/-- What a piece looks like. -/
def Piece.text : Piece → Str
  | .lit c => [c]
  | .esc c => [92, c]
  | .quoted q ps => [q] ++ ps.flatMap QPiece.text ++ [q]

/-- The text a piece stands for. -/
def Piece.value : Piece → Str
  | .lit c => [c]
  | .esc c => [c]
  | .quoted _ ps => ps.flatMap QPiece.value

/-- Well-formed pieces. -/
def Piece.OK : Piece → Prop
  | .lit c => ¬ Special c
  | .esc _ => True
  | .quoted q ps => (q = 34 ∨ q = 39) ∧ ∀ p ∈ ps, p.OK q

/-- White space between words. -/
def Piece.isSep : Piece → Bool
  | .lit c => isSpaceRune c
  | _ => false

/-- The words of a command line: the maximal runs of pieces other than separators. `cur` is the word being
read. -/
def wordsFrom (cur : Option Str) : List Piece → List Str
  | [] => cur.toList
  | p :: ps => if p.isSep then cur.toList ++ wordsFrom none ps
    else wordsFrom (some (cur.getD [] ++ p.value)) ps

/-- The words of a command line. -/
def lineWords (ps : List Piece) : List Str := wordsFrom none ps

/-- An escaped white space, such as `\ `. -/
def Piece.isEscSpace : Piece → Bool
  | .esc c => isSpaceRune c
  | _ => false

/-- No word ends in an escaped white space. -/
def NoEscSpaceEnd : List Piece → Prop
  | [] => True
  | p :: ps => (p.isEscSpace = true → ∃ p' ps', ps = p' :: ps' ∧ p'.isSep = false) ∧ NoEscSpaceEnd ps

/-! ## Lemmas -/

private theorem fold_qpieces (q : Nat) (hq : q = 34 ∨ q = 39) :
    ∀ (ps : List QPiece), (∀ p ∈ ps, p.OK q) → ∀ (ws : List Str) (lw : Str) (pv : Nat),
      ∃ pv', (ps.flatMap QPiece.text).foldl splitStep ⟨ws, lw, false, pv, q⟩ =
        ⟨ws, lw ++ ps.flatMap QPiece.value, false, pv', q⟩ := by
  have hq32 : q ≠ 32 := by omega
  intro ps
  induction ps with
  | nil => intro _ ws lw pv; exact ⟨pv, by simp⟩
  | cons p ps ih =>
    intro hok ws lw pv
    have hp := hok p (List.mem_cons_self)
    have hps : ∀ p ∈ ps, p.OK q := fun p h => hok p (List.mem_cons_of_mem _ h)
    cases p with
    | lit c =>
      obtain ⟨h1, h2⟩ := hp
      obtain ⟨pv', h⟩ := ih hps ws (lw ++ [c]) c
      refine ⟨pv', ?_⟩
      have hs : splitStep ⟨ws, lw, false, pv, q⟩ c = ⟨ws, lw ++ [c], false, c, q⟩ := by
        simp [splitStep, splitBody, h1, h2, hq32]
      simp only [List.flatMap_cons, QPiece.text, List.singleton_append, List.foldl_cons, hs, h, QPiece.value,
        List.append_assoc]
    | esc c =>
      obtain ⟨pv', h⟩ := ih hps ws (lw ++ [c]) c
      refine ⟨pv', ?_⟩
      have hs : splitStep (splitStep ⟨ws, lw, false, pv, q⟩ 92) c = ⟨ws, lw ++ [c], false, c, q⟩ := by
        simp [splitStep, splitBody]
      simp only [List.flatMap_cons, QPiece.text, List.cons_append, List.nil_append, List.foldl_cons, hs, h,
        QPiece.value, List.append_assoc]

private theorem space_not_special {c : Nat} (h : isSpaceRune c = true) : ¬ Special c := by
  simp only [isSpaceRune, decide_eq_true_eq] at h
  unfold Special; omega

private theorem special_not_space {c : Nat} (h : Special c) : isSpaceRune c = false := by
  cases hc : isSpaceRune c with
  | false => rfl
  | true => exact absurd h (space_not_special hc)

/-- A piece that is no separator is added to the last word. -/
private theorem fold_piece (p : Piece) (hok : p.OK) (hsep : p.isSep = false) (ws : List Str) (lw : Str)
    (pv : Nat) : ∃ pv', p.text.foldl splitStep ⟨ws, lw, false, pv, 32⟩ =
      ⟨ws, lw ++ p.value, false, pv', 32⟩ ∧ (isSpaceRune pv' = true → p.isEscSpace = true) := by
  cases p with
  | lit c =>
    refine ⟨c, ?_, ?_⟩
    · have hc : ¬ Special c := hok
      have h92 : c ≠ 92 := fun h => hc (Or.inl h)
      have h34 : ¬ (c = 34 ∨ c = 39) := fun h => hc (Or.inr h)
      have hs : isSpaceRune c = false := hsep
      have h32 : c ≠ 32 := by intro h; subst h; simp [isSpaceRune] at hs
      simp [Piece.text, Piece.value, splitStep, splitBody, h92, h34, hs, h32]
    · intro h
      simp only [Piece.isSep] at hsep
      rw [hsep] at h; cases h
  | esc c =>
    exact ⟨c, by simp [Piece.text, Piece.value, splitStep, splitBody], fun h => h⟩
  | quoted q ps =>
    obtain ⟨hq, hps⟩ := hok
    have hsp : isSpaceRune q = false := special_not_space (Or.inr hq)
    have hq32 : q ≠ 32 := by omega
    have hq92 : q ≠ 92 := by omega
    refine ⟨q, ?_, by intro h; rw [hsp] at h; cases h⟩
    obtain ⟨pv', h⟩ := fold_qpieces q hq ps hps ws lw q
    have h1 : splitStep ⟨ws, lw, false, pv, 32⟩ q = ⟨ws, lw, false, q, q⟩ := by
      simp [splitStep, splitBody, hsp, hq32, hq92, hq]
    have h2 : splitStep ⟨ws, lw ++ ps.flatMap QPiece.value, false, pv', q⟩ q =
        ⟨ws, lw ++ ps.flatMap QPiece.value, false, q, 32⟩ := by
      simp [splitStep, splitBody, hq32, hq92]
    simp only [Piece.text, Piece.value, List.cons_append, List.foldl_cons, h1,
      List.foldl_append, h, h2, List.foldl_nil]

private theorem fold_sep (p : Piece) (hsep : p.isSep = true) (ws : List Str) (lw : Str) (pv : Nat) :
    ∃ pv', isSpaceRune pv' = true ∧ p.text.foldl splitStep ⟨ws, lw, false, pv, 32⟩ =
      (if isSpaceRune pv = false then ⟨ws ++ [lw], [], false, pv', 32⟩ else ⟨ws, lw, false, pv', 32⟩) := by
  cases p with
  | lit c =>
    have hs : isSpaceRune c = true := hsep
    have h92 : c ≠ 92 := fun h => space_not_special hs (Or.inl h)
    refine ⟨c, hs, ?_⟩
    simp only [Piece.text, List.foldl_cons, List.foldl_nil, splitStep, splitBody, hs, h92]
    by_cases h : isSpaceRune pv = false <;> simp [h]
  | esc c => cases hsep
  | quoted q ps => cases hsep

/-- The state of the loop against the word being read. -/
private def Rel (cur : Option Str) (st : SplitState) (ps : List Piece) : Prop :=
  st.escape = false ∧ st.wordDelim = 32 ∧
  match cur with
  | none => st.lastWord = [] ∧ isSpaceRune st.prev = true
  | some w => st.lastWord = w ∧
      (isSpaceRune st.prev = true → ∃ p' ps', ps = p' :: ps' ∧ p'.isSep = false)

private theorem split_rel : ∀ (ps : List Piece), (∀ p ∈ ps, p.OK) → NoEscSpaceEnd ps →
    ∀ (cur : Option Str) (st : SplitState), Rel cur st ps →
    splitEnd ((ps.flatMap Piece.text).foldl splitStep st) = some (st.words ++ wordsFrom cur ps) := by
  intro ps
  induction ps with
  | nil =>
    rintro _ _ cur ⟨ws, lw, es, pv, wd⟩ ⟨h1, h2, h3⟩
    simp only at h1 h2
    subst h1; subst h2
    cases cur with
    | none =>
      obtain ⟨_, h⟩ := h3
      simp only at h
      simp [splitEnd, wordsFrom, h]
    | some w =>
      obtain ⟨h, hp⟩ := h3
      simp only at h hp
      have : isSpaceRune pv = false := by
        cases hpv : isSpaceRune pv with
        | false => rfl
        | true => obtain ⟨_, _, h, _⟩ := hp hpv; cases h
      simp [splitEnd, wordsFrom, this, h]
  | cons p ps ih =>
    rintro hok hne cur ⟨ws, lw, es, pv, wd⟩ ⟨h1, h2, h3⟩
    simp only at h1 h2
    subst h1; subst h2
    have hps : ∀ p ∈ ps, p.OK := fun p h => hok p (List.mem_cons_of_mem _ h)
    obtain ⟨hesc, hne'⟩ := hne
    rw [List.flatMap_cons, List.foldl_append]
    cases hsep : p.isSep with
    | true =>
      obtain ⟨pv', hpv', hf⟩ := fold_sep p hsep ws lw pv
      rw [hf]
      cases cur with
      | none =>
        obtain ⟨hlw, hpv⟩ := h3
        simp only at hlw hpv
        rw [if_neg (by simp [hpv])]
        rw [ih hps hne' none _ ⟨rfl, rfl, hlw, hpv'⟩]
        simp [wordsFrom, hsep]
      | some w =>
        obtain ⟨hlw, hpv⟩ := h3
        simp only at hlw hpv
        have hpvf : isSpaceRune pv = false := by
          cases hb : isSpaceRune pv with
          | false => rfl
          | true =>
            obtain ⟨p', ps', he, hs⟩ := hpv hb
            cases he; rw [hsep] at hs; cases hs
        rw [if_pos hpvf]
        rw [ih hps hne' none _ ⟨rfl, rfl, rfl, hpv'⟩]
        simp [wordsFrom, hsep, hlw]
    | false =>
      obtain ⟨pv', hf, hsp⟩ := fold_piece p (hok p List.mem_cons_self) hsep ws lw pv
      rw [hf]
      rw [ih hps hne' (some (lw ++ p.value)) _ ⟨rfl, rfl, rfl, fun h => hesc (hsp h)⟩]
      have : lw = cur.getD [] := by
        cases cur with
        | none => exact h3.1
        | some w => exact h3.1
      simp [wordsFrom, hsep, this]

/-- What remains to be read from a state of the lexer, if it is to end properly. -/
private def Rest (escape : Bool) (delim : Nat) (s : Str) : Prop :=
  if delim = 32 then
    if escape then ∃ (c : Nat) (ps : List Piece), s = c :: ps.flatMap Piece.text ∧ ∀ p ∈ ps, p.OK
    else ∃ ps : List Piece, s = ps.flatMap Piece.text ∧ ∀ p ∈ ps, p.OK
  else
    if escape then ∃ (c : Nat) (qs : List QPiece) (ps : List Piece), s = c :: (qs.flatMap QPiece.text ++ delim :: ps.flatMap Piece.text) ∧
      (∀ p ∈ qs, p.OK delim) ∧ ∀ p ∈ ps, p.OK
    else ∃ (qs : List QPiece) (ps : List Piece), s = qs.flatMap QPiece.text ++ delim :: ps.flatMap Piece.text ∧
      (∀ p ∈ qs, p.OK delim) ∧ ∀ p ∈ ps, p.OK

private theorem split_rest : ∀ (s : Str) (ws : List Str) (lw : Str) (es : Bool) (pv wd : Nat),
    (wd = 32 ∨ wd = 34 ∨ wd = 39) →
    (splitEnd (s.foldl splitStep ⟨ws, lw, es, pv, wd⟩)).isSome = true → Rest es wd s := by
  intro s
  induction s with
  | nil =>
    intro ws lw es pv wd hwd h
    simp only [List.foldl_nil, splitEnd] at h
    by_cases h32 : wd = 32
    · subst h32
      cases es with
      | true => simp at h
      | false => exact ⟨[], by simp⟩
    · simp [h32] at h
  | cons r s ih =>
    intro ws lw es pv wd hwd h
    rw [List.foldl_cons] at h
    cases es with
    | true =>
      have hs : splitStep ⟨ws, lw, true, pv, wd⟩ r = ⟨ws, lw ++ [r], false, r, wd⟩ := by
        simp [splitStep, splitBody]
      rw [hs] at h
      have := ih _ _ _ _ _ hwd h
      by_cases h32 : wd = 32
      · subst h32
        obtain ⟨ps, rfl, hps⟩ := this
        exact ⟨r, ps, rfl, hps⟩
      · simp only [Rest, h32, if_false] at this ⊢
        obtain ⟨qs, ps, rfl, hqs, hps⟩ := this
        exact ⟨r, qs, ps, rfl, hqs, hps⟩
    | false =>
      by_cases h92 : r = 92
      · subst h92
        have hs : splitStep ⟨ws, lw, false, pv, wd⟩ 92 = ⟨ws, lw, true, 92, wd⟩ := by
          simp [splitStep, splitBody]
        rw [hs] at h
        have := ih _ _ _ _ _ hwd h
        by_cases h32 : wd = 32
        · subst h32
          obtain ⟨c, ps, rfl, hps⟩ := this
          exact ⟨.esc c :: ps, by simp [Piece.text], by
            intro p hp; rcases List.mem_cons.1 hp with rfl | hp
            · trivial
            · exact hps p hp⟩
        · simp only [Rest, h32, if_false] at this ⊢
          obtain ⟨c, qs, ps, rfl, hqs, hps⟩ := this
          exact ⟨.esc c :: qs, ps, by simp [QPiece.text], by
            intro p hp; rcases List.mem_cons.1 hp with rfl | hp
            · trivial
            · exact hqs p hp, hps⟩
      · by_cases h32 : wd = 32
        · subst h32
          by_cases hquote : r = 34 ∨ r = 39
          · have hsp : isSpaceRune r = false := special_not_space (Or.inr hquote)
            have hr32 : r ≠ 32 := by omega
            have hs : splitStep ⟨ws, lw, false, pv, 32⟩ r = ⟨ws, lw, false, r, r⟩ := by
              simp [splitStep, splitBody, h92, hsp, hr32, hquote]
            rw [hs] at h
            have := ih _ _ _ _ _ (Or.inr hquote) h
            simp only [Rest, hr32, if_false] at this
            obtain ⟨qs, ps, rfl, hqs, hps⟩ := this
            exact ⟨.quoted r qs :: ps, by simp [Piece.text], by
              intro p hp; rcases List.mem_cons.1 hp with rfl | hp
              · exact ⟨hquote, hqs⟩
              · exact hps p hp⟩
          · have hns : ¬ Special r := by
              unfold Special; omega
            have : ∃ ws' lw', splitStep ⟨ws, lw, false, pv, 32⟩ r = ⟨ws', lw', false, r, 32⟩ := by
              simp only [splitStep, splitBody, h92, hquote]
              by_cases hsp : isSpaceRune r = true
              · by_cases hpv : isSpaceRune pv = false
                · exact ⟨ws ++ [lw], [], by simp [hsp, hpv]⟩
                · exact ⟨ws, lw, by simp [hsp, hpv]⟩
              · by_cases hr : r = 32
                · subst hr; simp [isSpaceRune] at hsp
                · exact ⟨ws, lw ++ [r], by simp [hsp, hr]⟩
            obtain ⟨ws', lw', hs⟩ := this
            rw [hs] at h
            obtain ⟨ps, rfl, hps⟩ := ih _ _ _ _ _ hwd h
            exact ⟨.lit r :: ps, by simp [Piece.text], by
              intro p hp; rcases List.mem_cons.1 hp with rfl | hp
              · exact hns
              · exact hps p hp⟩
        · by_cases hd : r = wd
          · subst hd
            have hs : splitStep ⟨ws, lw, false, pv, r⟩ r = ⟨ws, lw, false, r, 32⟩ := by
              simp [splitStep, splitBody, h92, h32]
            rw [hs] at h
            obtain ⟨ps, rfl, hps⟩ := ih _ _ _ _ _ (Or.inl rfl) h
            simp only [Rest, h32, if_false]
            exact ⟨[], ps, by simp, by simp, hps⟩
          · have hs : splitStep ⟨ws, lw, false, pv, wd⟩ r = ⟨ws, lw ++ [r], false, r, wd⟩ := by
              simp [splitStep, splitBody, h92, h32, hd]
            rw [hs] at h
            have := ih _ _ _ _ _ hwd h
            simp only [Rest, h32, if_false] at this ⊢
            obtain ⟨qs, ps, rfl, hqs, hps⟩ := this
            exact ⟨.lit r :: qs, ps, by simp [QPiece.text], by
              intro p hp; rcases List.mem_cons.1 hp with rfl | hp
              · exact ⟨hd, h92⟩
              · exact hqs p hp, hps⟩

/-- The loop always ends properly on a text made of whole pieces. -/
private theorem fold_pieces_some : ∀ (ps : List Piece), (∀ p ∈ ps, p.OK) → ∀ (ws : List Str) (lw : Str)
    (pv : Nat), (splitEnd ((ps.flatMap Piece.text).foldl splitStep ⟨ws, lw, false, pv, 32⟩)).isSome = true := by
  intro ps
  induction ps with
  | nil => intro _ ws lw pv; simp [splitEnd]
  | cons p ps ih =>
    intro hok ws lw pv
    have hps : ∀ p ∈ ps, p.OK := fun p h => hok p (List.mem_cons_of_mem _ h)
    rw [List.flatMap_cons, List.foldl_append]
    cases hsep : p.isSep with
    | true =>
      obtain ⟨pv', _, hf⟩ := fold_sep p hsep ws lw pv
      rw [hf]; split <;> exact ih hps _ _ _
    | false =>
      obtain ⟨pv', hf, _⟩ := fold_piece p (hok p List.mem_cons_self) hsep ws lw pv
      rw [hf]; exact ih hps _ _ _

/-- The pieces of a quoted word. -/
private def quotePieces (w : Str) : List QPiece := w.map (fun c => if c = 34 ∨ c = 92 then .esc c else .lit c)

private theorem quotePieces_text (w : Str) : (quotePieces w).flatMap QPiece.text =
    w.flatMap (fun c => if c = 34 ∨ c = 92 then [92, c] else [c]) := by
  induction w with
  | nil => rfl
  | cons c w ih =>
    simp only [quotePieces, List.map_cons, List.flatMap_cons] at ih ⊢
    rw [ih]; split <;> rfl

private theorem quotePieces_value (w : Str) : (quotePieces w).flatMap QPiece.value = w := by
  induction w with
  | nil => rfl
  | cons c w ih =>
    simp only [quotePieces, List.map_cons, List.flatMap_cons] at ih ⊢
    rw [ih]; split <;> rfl

private theorem quotePieces_ok (w : Str) : ∀ p ∈ quotePieces w, p.OK 34 := by
  intro p hp
  obtain ⟨c, _, rfl⟩ := List.mem_map.1 hp
  by_cases h : c = 34 ∨ c = 92
  · simp only [h, if_true]; trivial
  · simp only [h, if_false]; exact ⟨fun e => h (Or.inl e), fun e => h (Or.inr e)⟩

private def linePieces : List Str → List Piece
  | [] => []
  | [w] => [.quoted 34 (quotePieces w)]
  | w :: ws => .quoted 34 (quotePieces w) :: .lit 32 :: linePieces ws

private theorem linePieces_text : ∀ (ws : List Str),
    (linePieces ws).flatMap Piece.text = joinStr [32] (ws.map quoteWord)
  | [] => rfl
  | [w] => by simp [linePieces, Piece.text, joinStr, quoteWord, quotePieces_text]
  | w :: w' :: ws => by
    have := linePieces_text (w' :: ws)
    simp only [linePieces, List.flatMap_cons, Piece.text, quotePieces_text, List.map_cons]
    rw [this]
    simp [joinStr, quoteWord]

private theorem linePieces_words : ∀ (ws : List Str), lineWords (linePieces ws) = ws
  | [] => rfl
  | [w] => by simp [lineWords, linePieces, wordsFrom, Piece.isSep, Piece.value, quotePieces_value]
  | w :: w' :: ws => by
    have := linePieces_words (w' :: ws)
    simp only [lineWords] at this
    simp [lineWords, linePieces, wordsFrom, Piece.isSep, Piece.value, quotePieces_value, this, isSpaceRune]

private theorem linePieces_ok : ∀ (ws : List Str), ∀ p ∈ linePieces ws, p.OK
  | [] => by simp [linePieces]
  | [w] => by simp [linePieces, Piece.OK]; exact quotePieces_ok w
  | w :: w' :: ws => by
    intro p hp
    simp only [linePieces, List.mem_cons] at hp
    rcases hp with rfl | rfl | hp
    · exact ⟨Or.inl rfl, quotePieces_ok w⟩
    · show ¬ Special 32
      decide
    · exact linePieces_ok (w' :: ws) p (by
        cases ws <;> simpa [linePieces] using hp)

private theorem linePieces_noEsc : ∀ (ws : List Str), NoEscSpaceEnd (linePieces ws)
  | [] => trivial
  | [w] => by simp [linePieces, NoEscSpaceEnd, Piece.isEscSpace]
  | w :: w' :: ws => by
    refine ⟨by simp [Piece.isEscSpace], by simp [Piece.isEscSpace], linePieces_noEsc (w' :: ws)⟩

/-! ## Theorems -/

/-- Quoted words arrive intact: for every list of words, the line of the quoted words separated by spaces
is split into exactly these words. -/
theorem C38_quoted (ws : List Str) : splitWords (joinStr [32] (ws.map quoteWord)) = some ws := by
  rw [← linePieces_text]
  have := split_rel (linePieces ws) (linePieces_ok ws) (linePieces_noEsc ws) none .start
    ⟨rfl, rfl, rfl, by decide⟩
  unfold splitWords
  rw [this]
  simp [SplitState.start]
  exact linePieces_words ws

example : joinStr [32] ([b!"a \"b\"", b!"", b!"c\\ 'd"].map quoteWord) =
    b!"\"a \\\"b\\\"\" \"\" \"c\\\\ 'd\"" := by decide

/-- A command line is accepted exactly if it consists of whole pieces: no quoted string and no backslash
sequence is left open. -/
theorem C38_terminated (s : Str) : (splitWords s).isSome = true ↔
    ∃ ps : List Piece, (∀ p ∈ ps, p.OK) ∧ s = ps.flatMap Piece.text := by
  constructor
  · intro h
    obtain ⟨ps, hs, hps⟩ := split_rest s [] [] false 32 32 (Or.inl rfl) h
    exact ⟨ps, hps, hs⟩
  · rintro ⟨ps, hps, rfl⟩
    exact fold_pieces_some ps hps [] [] 32

example : (splitWords b!"user create \"x").isSome = false ∧ (splitWords b!"foo\\").isSome = false ∧
    (splitWords b!"it's").isSome = false := by decide

/-- A line ending in an open quote is refused whatever comes before the quote. -/
theorem C38_open_quote (ps : List Piece) (hps : ∀ p ∈ ps, p.OK) (q : Nat) (hq : q = 34 ∨ q = 39)
    (qs : List QPiece) (hqs : ∀ p ∈ qs, p.OK q) :
    splitWords (ps.flatMap Piece.text ++ q :: qs.flatMap QPiece.text) = none := by
  have key : ∀ (ps : List Piece), (∀ p ∈ ps, p.OK) → ∀ (ws : List Str) (lw : Str) (pv : Nat),
      splitEnd ((ps.flatMap Piece.text ++ q :: qs.flatMap QPiece.text).foldl splitStep
        ⟨ws, lw, false, pv, 32⟩) = none := by
    intro ps
    induction ps with
    | nil =>
      intro _ ws lw pv
      have hsp : isSpaceRune q = false := special_not_space (Or.inr hq)
      have hq32 : q ≠ 32 := by omega
      have hq92 : q ≠ 92 := by omega
      have h1 : splitStep ⟨ws, lw, false, pv, 32⟩ q = ⟨ws, lw, false, q, q⟩ := by
        simp [splitStep, splitBody, hsp, hq32, hq92, hq]
      obtain ⟨pv', h⟩ := fold_qpieces q hq qs hqs ws lw q
      simp [h1, h, splitEnd, hq32]
    | cons p ps ih =>
      intro hok ws lw pv
      have hps : ∀ p ∈ ps, p.OK := fun p h => hok p (List.mem_cons_of_mem _ h)
      rw [List.flatMap_cons, List.append_assoc, List.foldl_append]
      cases hsep : p.isSep with
      | true =>
        obtain ⟨pv', _, hf⟩ := fold_sep p hsep ws lw pv
        rw [hf]; split <;> exact ih hps _ _ _
      | false =>
        obtain ⟨pv', hf, _⟩ := fold_piece p (hok p List.mem_cons_self) hsep ws lw pv
        rw [hf]; exact ih hps _ _ _
  exact key ps hps [] [] 32

example : splitWords b!"a \"b\" 'c \" d" = none := by decide

/-- Every accepted line is split into its words — the maximal runs of pieces other than white space, quotes
and backslashes removed — if no word ends in an escaped white space.

Missing: a word that ends in an escaped white space, see `C38_words_violated`. -/
theorem C38_words_partial (ps : List Piece) (hps : ∀ p ∈ ps, p.OK) (hne : NoEscSpaceEnd ps) :
    splitWords (ps.flatMap Piece.text) = some (lineWords ps) := by
  have := split_rel ps hps hne none .start ⟨rfl, rfl, rfl, by decide⟩
  unfold splitWords
  rw [this]
  simp [SplitState.start, lineWords]

example : splitWords b!" user\\ x 'a \"b'c  \"d\" " = some [b!"user x", b!"a \"bc", b!"d"] := by decide

/-- A word that ends in an escaped space is lost, or glued to the next one. -/
theorem C38_words_violated :
    (∃ ps : List Piece, (∀ p ∈ ps, p.OK) ∧ lineWords ps = [b!"a "] ∧
      splitWords (ps.flatMap Piece.text) = some []) ∧
    (∃ ps : List Piece, (∀ p ∈ ps, p.OK) ∧ lineWords ps = [b!"a ", b!"b"] ∧
      splitWords (ps.flatMap Piece.text) = some [b!"a b"]) := by
  refine ⟨⟨[.lit 97, .esc 32], ?_, by decide, by decide⟩,
    ⟨[.lit 97, .esc 32, .lit 32, .lit 98], ?_, by decide, by decide⟩⟩
  · intro p hp
    simp only [List.mem_cons, List.not_mem_nil, or_false] at hp
    rcases hp with rfl | rfl
    · show ¬ Special 97
      decide
    · trivial
  · intro p hp
    simp only [List.mem_cons, List.not_mem_nil, or_false] at hp
    rcases hp with rfl | rfl | rfl | rfl
    · show ¬ Special 97
      decide
    · trivial
    · show ¬ Special 32
      decide
    · show ¬ Special 98
      decide

/-- The words given to sojuctl arrive intact if they consist of printable characters.

Missing: words with other characters, see `C38_sojuctl_violated`. -/
theorem C38_sojuctl_partial (isPrint : Nat → Bool) (ws : List Str)
    (h : ∀ w ∈ ws, ∀ c ∈ w, isPrint c = true) : splitWords (quoteWords isPrint ws) = some ws := by
  have hq : ∀ w ∈ ws, goQuote isPrint w = quoteWord w := by
    intro w hw
    have : ∀ (l : Str), (∀ c ∈ l, isPrint c = true) → l.flatMap (quoteRune isPrint) =
        l.flatMap (fun c => if c = 34 ∨ c = 92 then [92, c] else [c]) := by
      intro l
      induction l with
      | nil => intro _; rfl
      | cons c l ih =>
        intro hl
        rw [List.flatMap_cons, List.flatMap_cons, ih (fun c h => hl c (List.mem_cons_of_mem _ h))]
        unfold quoteRune
        simp [hl c List.mem_cons_self]
    unfold goQuote quoteWord
    rw [this w (h w hw)]
  have hacc : ∀ (l : List Str) (acc : Str), acc.length > 0 →
      l.foldl (fun s w => (if s.length > 0 then s ++ [32] else s) ++ goQuote isPrint w) acc =
        acc ++ l.flatMap (fun w => 32 :: goQuote isPrint w) := by
    intro l
    induction l with
    | nil => intro acc _; simp
    | cons w l ih =>
      intro acc hpos
      rw [List.foldl_cons, if_pos hpos, ih _ (by simp; omega), List.flatMap_cons]
      simp
  have hjoin : ∀ (w : Str) (l : List Str),
      joinStr [32] ((w :: l).map (goQuote isPrint)) = goQuote isPrint w ++ l.flatMap (fun w => 32 :: goQuote isPrint w) := by
    intro w l
    induction l generalizing w with
    | nil => simp [joinStr]
    | cons w' l ih =>
      have := ih w'
      simp only [List.map_cons] at this ⊢
      rw [joinStr, this]
      simp
  have : quoteWords isPrint ws = joinStr [32] (ws.map quoteWord) := by
    rw [show ws.map quoteWord = ws.map (goQuote isPrint) from
      List.map_congr_left (fun w hw => (hq w hw).symm)]
    cases ws with
    | nil => rfl
    | cons w l =>
      rw [hjoin]
      unfold quoteWords
      rw [List.foldl_cons, hacc _ _ (by simp [goQuote])]
      rfl
  rw [this]
  exact C38_quoted ws

example : quoteWords (fun c => decide (32 ≤ c)) [b!"user", b!"create", b!"a\"b"] =
    b!"\"user\" \"create\" \"a\\\"b\"" := by decide

/-- A tab in a word given to sojuctl arrives as the letter t. -/
theorem C38_sojuctl_violated (isPrint : Nat → Bool) (h : isPrint 9 = false) :
    splitWords (quoteWords isPrint [[9]]) = some [b!"t"] := by
  have : quoteWords isPrint [[9]] = b!"\"\\t\"" := by
    simp [quoteWords, goQuote, quoteRune, h]
  rw [this]
  decide

end Verif.Props
