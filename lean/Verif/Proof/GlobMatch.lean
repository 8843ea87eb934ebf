import Verif.Proof.Glob

/-! # `path.Match` and the meaning of patterns: whole patterns -/

namespace Verif.Proof

open Verif.Model Verif.Spec

/-- A chunk of a valid pattern is its next parts. -/
theorem chunk_complete : ∀ {q : List Nat} {toks : List GlobTok}, GlobSyntax q toks →
    ∃ items toks', toks = items ++ toks' ∧ (∀ t ∈ items, t ≠ .star) ∧ GlobSyntax (scanEnd false q).2 toks' ∧
      ∀ (f : Nat) (s : Option (List Nat)), (scanEnd false q).1.length ≤ f →
        matchChunkAux f (scanEnd false q).1 s = some (itemsRun items s) := by
  intro q toks h
  have more : ∀ {t : GlobTok} {items : List GlobTok}, t ≠ .star → (∀ x ∈ items, x ≠ .star) → ∀ x ∈ t :: items, x ≠ .star := by
    intro t items h1 h2 x hx
    rcases List.mem_cons.1 hx with rfl | hx
    · exact h1
    · exact h2 x hx
  induction h with
  | nil =>
    refine ⟨[], [], rfl, by simp, .nil, ?_⟩
    intro f s _
    cases f <;> simp [scanEnd, matchChunkAux, itemsRun]
  | @star p toks h ih =>
    have : scanEnd false (42 :: p) = ([], 42 :: p) := by rw [scanEnd.eq_def]; simp
    rw [this]
    refine ⟨[], .star :: toks, rfl, by simp, .star h, ?_⟩
    intro f s _
    cases f <;> simp [matchChunkAux, itemsRun]
  | @any p toks h ih =>
    obtain ⟨items, toks', rfl, h2, h3, h4⟩ := ih
    rw [scanEnd_cons false 63 p (by decide) (by decide)]
    refine ⟨.any :: items, toks', rfl, more (by simp) h2, by simpa using h3, ?_⟩
    intro f s hf
    cases f with
    | zero => simp at hf
    | succ f =>
      simp only [if_neg (show ¬ (63 : Nat) = 91 by decide), if_neg (show ¬ (63 : Nat) = 93 by decide)] at hf ⊢
      simp only [matchChunkAux]
      rw [if_neg (by decide), if_true, h4 f _ (by simpa using hf), itemsRun_cons]
      congr 2
      match s with
      | none => simp
      | some [] => simp
      | some (e :: s) => by_cases he : e = 47 <;> simp [GlobTok.accepts, he]
  | @quoted c p toks h ih =>
    obtain ⟨items, toks', rfl, h2, h3, h4⟩ := ih
    rw [scanEnd_quoted]
    refine ⟨.lit c :: items, toks', rfl, more (by simp) h2, h3, ?_⟩
    intro f s hf
    cases f with
    | zero => simp at hf
    | succ f =>
      simp only [matchChunkAux]
      rw [if_neg (by decide), if_neg (by decide), if_true, h4 f _ (by simp at hf; omega), itemsRun_cons]
      congr 2
      match s with
      | none => simp
      | some [] => simp
      | some (e :: s) => simp [GlobTok.accepts]
  | @plain c p toks hc h ih =>
    obtain ⟨items, toks', rfl, h2, h3, h4⟩ := ih
    have hb : (if c = 91 then true else if c = 93 then false else false) = false := by
      rw [if_neg hc.2.2.1]; split <;> rfl
    rw [scanEnd_cons false c p hc.2.2.2 (fun e => hc.1 e.1), hb]
    refine ⟨.lit c :: items, toks', rfl, more (by simp) h2, h3, ?_⟩
    intro f s hf
    cases f with
    | zero => simp at hf
    | succ f =>
      simp only [matchChunkAux]
      rw [if_neg hc.2.2.1, if_neg hc.2.1, if_neg hc.2.2.2, h4 f _ (by simpa using hf), itemsRun_cons]
      congr 2
      match s with
      | none => simp
      | some [] => simp
      | some (e :: s) => simp [GlobTok.accepts]
  | @cls body ranges p toks hb hne hn h ih =>
    obtain ⟨items, toks', rfl, h2, h3, h4⟩ := ih
    obtain ⟨b1, b2⟩ := body_scan hb
    rw [scanEnd_cons false 91 body (by decide) (by decide)]
    simp only [if_true]
    refine ⟨.cls false ranges :: items, toks', rfl, more (by simp) h2, by rw [b2]; exact h3, ?_⟩
    intro f s hf
    cases f with
    | zero => simp at hf
    | succ f =>
      have hn' : (scanEnd true body).1.head? ≠ some 94 := by
        cases body with
        | nil => simp [scanEnd]
        | cons d body =>
          by_cases hd : d = 92
          · subst hd
            cases body with
            | nil => simp [scanEnd]
            | cons e body => rw [scanEnd_quoted]; simp
          · rw [scanEnd_cons true d body hd (by simp)]
            simpa using hn
      simp only [matchChunkAux]
      rw [if_true, if_neg hn', decide_eq_false hn', classLoop_complete _ b1 _ _ _ (.inr hne) (Nat.le_succ _)]
      dsimp only
      rw [h4 f _ (by have := body_len b1; simp at hf; omega), itemsRun_cons]
      congr 2
      match s with
      | none => simp only [reduceCtorEq, if_false, Option.map_none]; exact ite_self _
      | some [] => simp only [if_true, Option.map_none]; exact ite_self _
      | some (e :: s) =>
        simp only [reduceCtorEq, if_false, Option.getD_some, List.headD_cons, Option.map_some,
          List.drop_one, List.tail_cons, Bool.false_or, GlobTok.accepts, Option.some.injEq]
        have bne_if : ∀ (w n : Bool) (t : Option Str),
            (if w = n then none else t) = if (w != n) = true then t else none := by
          intro w n t
          cases w <;> cases n <;> rfl
        exact bne_if _ _ _
  | @negated body ranges p toks hb hne h ih =>
    obtain ⟨items, toks', rfl, h2, h3, h4⟩ := ih
    obtain ⟨b1, b2⟩ := body_scan hb
    rw [scanEnd_cons false 91 _ (by decide) (by decide)]
    simp only [if_true]
    rw [scanEnd_cons true 94 body (by decide) (by decide)]
    simp only [if_neg (show ¬ (94 : Nat) = 91 by decide), if_neg (show ¬ (94 : Nat) = 93 by decide)]
    refine ⟨.cls true ranges :: items, toks', rfl, more (by simp) h2, by rw [b2]; exact h3, ?_⟩
    intro f s hf
    cases f with
    | zero => simp at hf
    | succ f =>
      simp only [matchChunkAux]
      rw [if_true]
      simp only [List.head?_cons, if_true, decide_true, List.drop_one, List.tail_cons]
      rw [classLoop_complete _ b1 _ _ _ (.inr hne) (Nat.le_succ _)]
      dsimp only
      rw [h4 f _ (by have := body_len b1; simp at hf; omega), itemsRun_cons]
      congr 2
      match s with
      | none => simp only [reduceCtorEq, if_false, Option.map_none]; exact ite_self _
      | some [] => simp only [if_true, Option.map_none]; exact ite_self _
      | some (e :: s) =>
        simp only [reduceCtorEq, if_false, Option.getD_some, List.headD_cons, Option.map_some,
          List.drop_one, List.tail_cons, Bool.false_or, GlobTok.accepts, Option.some.injEq]
        have bne_if : ∀ (w n : Bool) (t : Option Str),
            (if w = n then none else t) = if (w != n) = true then t else none := by
          intro w n t
          cases w <;> cases n <;> rfl
        exact bne_if _ _ _

/-- The stars at the front of a pattern. -/
theorem stars_split (p : List Nat) : ∃ k, p = List.replicate k 42 ++ p.dropWhile (fun c => decide (c = 42)) ∧
    (p.head? = some 42 ↔ k ≠ 0) := by
  induction p with
  | nil => exact ⟨0, rfl, by simp⟩
  | cons c p ih =>
    by_cases hc : c = 42
    · subst hc
      obtain ⟨k, h1, -⟩ := ih
      refine ⟨k + 1, ?_, by simp⟩
      simp only [List.dropWhile_cons, decide_true, if_true, List.replicate_succ, List.cons_append]
      rw [← h1]
    · exact ⟨0, by simp [hc], by simp [hc]⟩

theorem syntax_stars {q : List Nat} {toks : List GlobTok} (h : GlobSyntax q toks) (k : Nat) :
    GlobSyntax (List.replicate k 42 ++ q) (List.replicate k .star ++ toks) := by
  induction k with
  | zero => exact h
  | succ k ih => exact .star ih

theorem syntax_stars_inv (k : Nat) {q : List Nat} {toks : List GlobTok} (h : GlobSyntax (List.replicate k 42 ++ q) toks) :
    ∃ toks', toks = List.replicate k .star ++ toks' ∧ GlobSyntax q toks' := by
  induction k generalizing toks with
  | zero => exact ⟨toks, rfl, h⟩
  | succ k ih =>
    rw [List.replicate_succ, List.cons_append] at h
    cases h with
    | star h =>
      obtain ⟨toks', rfl, h'⟩ := ih h
      exact ⟨toks', rfl, h'⟩
    | plain hc => exact absurd rfl hc.1

theorem match_stars {toks : List GlobTok} {s : List Nat} (h : GlobMatch toks s) (k : Nat) (hk : k ≠ 0) (pre : List Nat)
    (hp : 47 ∉ pre) : GlobMatch (List.replicate k .star ++ toks) (pre ++ s) := by
  cases k with
  | zero => exact absurd rfl hk
  | succ k =>
    refine .star pre hp ?_
    clear hk
    induction k with
    | zero => exact h
    | succ k ih => exact .star [] (by simp) ih

theorem match_stars_inv (k : Nat) {toks : List GlobTok} {s : List Nat} (h : GlobMatch (List.replicate k .star ++ toks) s) :
    ∃ pre s', s = pre ++ s' ∧ 47 ∉ pre ∧ (k = 0 → pre = []) ∧ GlobMatch toks s' := by
  induction k generalizing s with
  | zero => exact ⟨[], s, rfl, by simp, fun _ => rfl, h⟩
  | succ k ih =>
    rw [List.replicate_succ, List.cons_append] at h
    cases h with
    | star pre hp h =>
      obtain ⟨pre', s', rfl, h1, -, h2⟩ := ih h
      exact ⟨pre ++ pre', s', by simp, by simp [hp, h1], by simp, h2⟩
    | item ha => cases ha

theorem match_items {items : List GlobTok} (hi : ∀ t ∈ items, t ≠ .star) {toks : List GlobTok} {s : List Nat} :
    GlobMatch (items ++ toks) s ↔ ∃ t, itemsRun items (some s) = some t ∧ GlobMatch toks t := by
  induction items generalizing s with
  | nil => simp [itemsRun]
  | cons x items ih =>
    have ih' := fun s => @ih (fun t ht => hi t (by simp [ht])) s
    rw [List.cons_append]
    constructor
    · intro h
      cases h with
      | star => exact absurd rfl (hi .star (by simp))
      | item ha h =>
        obtain ⟨t, h1, h2⟩ := (ih' _).1 h
        exact ⟨t, by rw [itemsRun, if_pos ha, h1], h2⟩
    · rintro ⟨t, h1, h2⟩
      cases s with
      | nil => rw [itemsRun] at h1; cases h1
      | cons c s =>
        rw [itemsRun] at h1
        split at h1
        · rename_i ha
          exact .item ha ((ih' s).2 ⟨t, h1, h2⟩)
        · cases h1

theorem starLoop_sound {chunk : List Nat} {last : Bool} {name t : List Nat} (h : starLoop chunk last name = some (some t)) :
    ∃ pre name', name = pre ++ name' ∧ 47 ∉ pre ∧ matchChunk chunk name' = some (some t) := by
  induction name with
  | nil => cases h
  | cons c name ih =>
    rw [starLoop] at h
    split at h
    · cases h
    · rename_i hc
      have hc' : 47 ∉ [c] := by simpa using fun e : 47 = c => hc e.symm
      have go : starLoop chunk last name = some (some t) →
          ∃ pre name', c :: name = pre ++ name' ∧ 47 ∉ pre ∧ matchChunk chunk name' = some (some t) := by
        intro h
        obtain ⟨pre, name', rfl, h1, h2⟩ := ih h
        exact ⟨c :: pre, name', rfl, by simp [h1]; simpa using hc', h2⟩
      split at h
      · cases h
      · rename_i t' ht
        split at h
        · exact go h
        · simp only [Option.some.injEq] at h
          subst h
          exact ⟨[c], name, rfl, hc', ht⟩
      · exact go h

theorem pathMatch_sound : ∀ (f : Nat) (p s : List Nat), p.length ≤ f → pathMatchAux f p s = some true →
    ∃ toks, GlobSyntax p toks ∧ GlobMatch toks s := by
  intro f
  induction f with
  | zero =>
    intro p s hp h
    have : p = [] := List.length_eq_zero_iff.1 (by omega)
    subst this
    simp only [pathMatchAux, Option.some.injEq, decide_eq_true_eq] at h
    subst h
    exact ⟨[], .nil, .nil⟩
  | succ f ih =>
    intro p s hp h
    rw [pathMatchAux] at h
    split at h
    · rename_i h0
      subst h0
      simp only [Option.some.injEq, decide_eq_true_eq] at h
      subst h
      exact ⟨[], .nil, .nil⟩
    · rename_i hne
      dsimp only at h
      have hlt := scanChunk_lt hne
      obtain ⟨k, hk, hk0⟩ := stars_split p
      have hstar : (scanChunk p).1 = true ↔ k ≠ 0 := by simpa [scanChunk] using hk0
      split at h
      · rename_i hs
        simp only [Option.some.injEq, decide_eq_true_eq] at h
        have h2 := scanChunk_star hs.2
        have hq : p.dropWhile (fun c => decide (c = 42)) = [] := by
          rcases scanEnd_nil (p := p.dropWhile (fun c => decide (c = 42))) hs.2 with h | h
          · exact h
          · have hx := List.head?_dropWhile_not (fun c => decide (c = 42)) p
            rw [h.1] at hx
            simp at hx
        rw [hq] at hk
        refine ⟨List.replicate k .star ++ [], ?_, ?_⟩
        · rw [hk]; exact syntax_stars .nil k
        · have := match_stars .nil k (hstar.1 hs.1) s h
          simpa using this
      · -- what is found after a prefix is a match
        have found : ∀ pre name' t, s = pre ++ name' → 47 ∉ pre → (k = 0 → pre = []) →
            matchChunk (scanChunk p).2.1 name' = some (some t) → pathMatchAux f (scanChunk p).2.2 t = some true →
            ∃ toks, GlobSyntax p toks ∧ GlobMatch toks s := by
          intro pre name' t e h47 hpre hm hn
          obtain ⟨toks, h1, h2⟩ := ih _ t (by omega) hn
          obtain ⟨items, i1, i2⟩ := chunk_sound _ (p.dropWhile (fun c => decide (c = 42))) (Nat.le_refl _) _ _ _ hm
          refine ⟨List.replicate k .star ++ (items ++ toks), ?_, ?_⟩
          · have := syntax_stars (i1.2 toks h1) k
            rwa [← hk] at this
          · have hg : GlobMatch (items ++ toks) name' := (match_items i1.1).2 ⟨t, i2.symm, h2⟩
            rw [e]
            by_cases hk0 : k = 0
            · subst hk0
              rw [hpre rfl]
              exact hg
            · exact match_stars hg k hk0 pre h47
        have tail : matchTail (pathMatchAux f (scanChunk p).2.2) (restOk p.length (scanChunk p).2.2)
              (if (scanChunk p).1 = true then starLoop (scanChunk p).2.1 (decide ((scanChunk p).2.2 = [])) s else some none) = some true →
            ∃ toks, GlobSyntax p toks ∧ GlobMatch toks s := by
          intro h
          unfold matchTail at h
          split at h
          · cases h
          · rename_i t ht
            split at ht
            · rename_i hst
              obtain ⟨pre, name', e, h1, h2⟩ := starLoop_sound ht
              exact found pre name' t e h1 (fun e => absurd e (hstar.1 hst)) h2 h
            · cases ht
          · split at h <;> cases h
        split at h
        · cases h
        · rename_i t ht
          split at h
          · exact found [] s t rfl (by simp) (fun _ => rfl) ht h
          · exact tail h
        · exact tail h

/-! ## The first match is as good as any -/

theorem itemsRun_some {items : List GlobTok} {s t : List Nat} (h : itemsRun items (some s) = some t) :
    t = s.drop items.length ∧ items.length ≤ s.length ∧
    ∀ (i : Nat) (tok : GlobTok), items[i]? = some tok → ∃ c, s[i]? = some c ∧ tok.accepts c = true := by
  induction items generalizing s with
  | nil =>
    simp only [itemsRun, Option.some.injEq] at h
    exact ⟨by simp [h], by simp, by simp⟩
  | cons x items ih =>
    cases s with
    | nil => cases h
    | cons c s =>
      rw [itemsRun] at h
      split at h
      · rename_i ha
        obtain ⟨h1, h2, h3⟩ := ih h
        refine ⟨by simpa using h1, by simpa using h2, ?_⟩
        intro i tok hi
        cases i with
        | zero =>
          simp only [List.getElem?_cons_zero, Option.some.injEq] at hi
          subst hi
          exact ⟨c, by simp, ha⟩
        | succ i =>
          simp only [List.getElem?_cons_succ] at hi ⊢
          exact h3 i tok hi
      · cases h

theorem gap_no_slash {items : List GlobTok} {d s' t0 t' : List Nat} (hs : SlashByName items ∨ 47 ∉ s') (hd : 47 ∉ d)
    (h0 : itemsRun items (some (d ++ s')) = some t0) (h1 : itemsRun items (some s') = some t') :
    ∃ gap, t0 = gap ++ t' ∧ 47 ∉ gap := by
  obtain ⟨a1, a2, a3⟩ := itemsRun_some h0
  obtain ⟨b1, b2, b3⟩ := itemsRun_some h1
  by_cases hd0 : d = []
  · subst hd0
    refine ⟨[], ?_, by simp⟩
    rw [a1, b1]; simp
  have hpos := List.length_pos_iff.2 hd0
  have key : ∀ n i, i ≤ n → i < items.length + d.length → (d ++ s')[i]? ≠ some 47 := by
    intro n
    induction n with
    | zero =>
      intro i hi hlt he
      have : i = 0 := by omega
      subst this
      rw [List.getElem?_append_left hpos] at he
      exact hd (List.mem_of_getElem? he)
    | succ n ih =>
      intro i hi hlt he
      by_cases hid : i < d.length
      · rw [List.getElem?_append_left hid] at he
        exact hd (List.mem_of_getElem? he)
      · have hid' : d.length ≤ i := by omega
        rw [List.getElem?_append_right hid'] at he
        have hlen : i - d.length < items.length := by omega
        obtain ⟨c, hc, hacc⟩ := b3 (i - d.length) items[i - d.length] (by simp [hlen])
        rw [he] at hc
        simp only [Option.some.injEq] at hc
        subst hc
        have hlit := (hs.resolve_right (fun hn => hn (List.mem_of_getElem? he))) _ (List.getElem_mem hlen) hacc
        obtain ⟨c, hc, hacc⟩ := a3 (i - d.length) items[i - d.length] (by simp [hlen])
        rw [hlit] at hacc
        simp only [GlobTok.accepts, decide_eq_true_eq] at hacc
        subst hacc
        exact ih (i - d.length) (by omega) (by omega) hc
  refine ⟨((d ++ s').drop items.length).take d.length, ?_, ?_⟩
  · have : t' = ((d ++ s').drop items.length).drop d.length := by
      rw [b1, List.drop_drop, Nat.add_comm, ← List.drop_drop, List.drop_left]
    rw [this, a1, List.take_append_drop]
  · intro hm
    obtain ⟨j, hj⟩ := List.mem_iff_getElem?.1 hm
    rw [List.getElem?_take] at hj
    split at hj
    · rename_i hlt
      rw [List.getElem?_drop] at hj
      exact key _ (items.length + j) (Nat.le_refl _) (by omega) hj
    · cases hj

/-- The loop finds a match of the chunk if there is one. -/
theorem starLoop_complete {chunk : List Nat} {items : List GlobTok}
    (hm : ∀ s, matchChunk chunk s = some (itemsRun items (some s))) (last : Bool) :
    ∀ (pre s' t' : List Nat), pre ≠ [] → 47 ∉ pre → itemsRun items (some s') = some t' → (last = true → t' = []) →
    ∃ pre0 d t0, pre = pre0 ++ d ∧ starLoop chunk last (pre ++ s') = some (some t0) ∧
      itemsRun items (some (d ++ s')) = some t0 ∧ (last = true → t0 = []) := by
  intro pre
  induction pre with
  | nil => intro _ _ h; exact absurd rfl h
  | cons c pre ih =>
    intro s' t' _ h47 hr hl
    have hc : c ≠ 47 := fun e => h47 (by simp [e])
    rw [List.cons_append, starLoop, if_neg hc, hm]
    by_cases hx : ∃ t0, itemsRun items (some (pre ++ s')) = some t0 ∧ (last = true → t0 = [])
    · obtain ⟨t0, h1, h2⟩ := hx
      refine ⟨[c], pre, t0, rfl, ?_, h1, h2⟩
      rw [h1]
      dsimp only
      rw [if_neg (fun e => e.2 (h2 e.1))]
    · have hpre : pre ≠ [] := by
        rintro rfl
        exact hx ⟨t', hr, hl⟩
      obtain ⟨pre0, d, t0, rfl, h1, h2, h3⟩ := ih s' t' hpre (fun h => h47 (by simp [h])) hr hl
      refine ⟨c :: pre0, d, t0, rfl, ?_, h2, h3⟩
      cases hi : itemsRun items (some (pre0 ++ d ++ s')) with
      | none => exact h1
      | some t0' =>
        dsimp only
        rw [if_pos]
        · exact h1
        · by_cases hlast : last = true
          · refine ⟨hlast, fun e => hx ⟨t0', hi, fun _ => e⟩⟩
          · exact absurd ⟨t0', hi, fun e => absurd e hlast⟩ hx

/-- Past the end of a chunk there is a star, or nothing. -/
theorem scanEnd_rest : ∀ (n : Nat) (q : List Nat) (b : Bool), q.length ≤ n → (scanEnd b q).2 = [] ∨ (scanEnd b q).2.head? = some 42 := by
  intro n
  induction n with
  | zero =>
    intro q b h
    have : q = [] := List.length_eq_zero_iff.1 (by omega)
    subst this
    left; rw [scanEnd]
  | succ n ih =>
    intro q b h
    cases q with
    | nil => left; rw [scanEnd]
    | cons c q =>
      have hq : q.length ≤ n := by simpa using h
      by_cases h92 : c = 92
      · subst h92
        cases q with
        | nil => left; simp [scanEnd]
        | cons d q => rw [scanEnd_quoted]; exact ih q b (by simp at hq; omega)
      · by_cases h42 : c = 42 ∧ b = false
        · obtain ⟨rfl, rfl⟩ := h42
          right; rw [scanEnd.eq_def]; simp
        · rw [scanEnd_cons b c q h92 h42]
          exact ih q _ hq

theorem pathMatch_complete : ∀ (f : Nat) (p s : List Nat) (toks : List GlobTok), p.length ≤ f → (SlashByName toks ∨ 47 ∉ s) →
    GlobSyntax p toks → GlobMatch toks s → pathMatchAux f p s = some true := by
  intro f
  induction f with
  | zero =>
    intro p s toks hp _ hsyn h
    have : p = [] := List.length_eq_zero_iff.1 (by omega)
    subst this
    cases hsyn
    cases h
    rfl
  | succ f ih =>
    intro p s toks hp hsl hsyn h
    rw [pathMatchAux]
    split
    · rename_i h0
      subst h0
      cases hsyn
      cases h
      rfl
    · rename_i hne
      dsimp only
      have hlt := scanChunk_lt hne
      obtain ⟨k, hk, hk0⟩ := stars_split p
      have hstar : (scanChunk p).1 = true ↔ k ≠ 0 := by simpa [scanChunk] using hk0
      rw [hk] at hsyn
      obtain ⟨toks1, rfl, hsyn1⟩ := syntax_stars_inv k hsyn
      obtain ⟨pre, s', rfl, h47, hpre, hg⟩ := match_stars_inv k h
      obtain ⟨items, toks', rfl, i1, i2, i3⟩ := chunk_complete hsyn1
      obtain ⟨t', hr, hg'⟩ := (match_items i1).1 hg
      have hm : ∀ s, matchChunk (scanChunk p).2.1 s = some (itemsRun items (some s)) :=
        fun s => i3 _ (some s) (Nat.le_refl _)
      have hrest : GlobSyntax (scanChunk p).2.2 toks' := i2
      have hsli : SlashByName items ∨ 47 ∉ s' :=
        hsl.imp (fun hsl t ht => hsl t (by simp [ht])) (fun hs hm => hs (by simp [hm]))
      split
      · rename_i hs
        have h2 := scanChunk_star hs.2
        rw [h2] at hrest
        cases hrest
        cases hg'
        have hm0 := hm s'
        rw [hs.2, hr] at hm0
        simp only [matchChunk, List.length_nil, matchChunkAux, if_true, Option.some.injEq] at hm0
        subst hm0
        simpa using h47
      · -- a match of the chunk further to the left will do
        have left : ∀ d t0, 47 ∉ d → itemsRun items (some (d ++ s')) = some t0 →
            ((scanChunk p).2.2 = [] → t0 = []) → pathMatchAux f (scanChunk p).2.2 t0 = some true := by
          intro d t0 hd h0 hlast
          have hsl' : SlashByName toks' ∨ 47 ∉ t0 := by
            refine hsl.imp (fun hsl t ht => hsl t (by simp [ht])) (fun hs hm => ?_)
            rw [(itemsRun_some h0).1] at hm
            rcases List.mem_append.1 (List.mem_of_mem_drop hm) with hm | hm
            · exact hd hm
            · exact hs (by simp [hm])
          refine ih _ t0 toks' (by omega) hsl' hrest ?_
          rcases scanEnd_rest _ (p.dropWhile (fun c => decide (c = 42))) false (Nat.le_refl _) with he | he
          · have he' : (scanChunk p).2.2 = [] := he
            rw [hlast he']
            rw [he'] at hrest
            cases hrest
            exact .nil
          · have he' : (scanChunk p).2.2.head? = some 42 := he
            cases hq : (scanChunk p).2.2 with
            | nil => rw [hq] at he'; cases he'
            | cons c q =>
              rw [hq] at he' hrest
              simp only [List.head?_cons, Option.some.injEq] at he'
              subst he'
              cases hrest with
              | plain hc => exact absurd rfl hc.1
              | star hq' =>
                obtain ⟨gap, rfl, hgap⟩ := gap_no_slash hsli hd h0 hr
                cases hg' with
                | star pre1 hp1 hg'' =>
                  rw [← List.append_assoc]
                  exact .star _ (by simp [hgap, hp1]) hg''
                | item ha => cases ha
        have hend : (scanChunk p).2.2 = [] → t' = [] := by
          intro e
          rw [e] at hrest
          cases hrest
          cases hg'
          rfl
        rw [hm]
        by_cases hfirst : ∃ t0, itemsRun items (some (pre ++ s')) = some t0 ∧ (t0 = [] ∨ (scanChunk p).2.2 ≠ [])
        · obtain ⟨t0, h1, h2⟩ := hfirst
          rw [h1]
          dsimp only
          rw [if_pos h2]
          exact left pre t0 h47 h1 (fun e => h2.resolve_right (fun hn => hn e))
        · have hpne : pre ≠ [] := by
            rintro rfl
            apply hfirst
            refine ⟨t', hr, ?_⟩
            by_cases e : (scanChunk p).2.2 = []
            · exact .inl (hend e)
            · exact .inr e
          have hkne : k ≠ 0 := fun e => hpne (hpre e)
          obtain ⟨pre0, d, t0, e, h1, h2, h3⟩ := starLoop_complete hm (decide ((scanChunk p).2.2 = [])) pre s' t' hpne h47 hr
            (fun e => hend (by simpa using e))
          have hd : 47 ∉ d := fun hx => h47 (by rw [e]; simp [hx])
          have hgo := left d t0 hd h2 (fun e => h3 (by simpa using e))
          have htail : matchTail (pathMatchAux f (scanChunk p).2.2) (restOk p.length (scanChunk p).2.2)
              (if (scanChunk p).1 = true then starLoop (scanChunk p).2.1 (decide ((scanChunk p).2.2 = [])) (pre ++ s') else some none) = some true := by
            rw [if_pos (hstar.2 hkne), h1]
            exact hgo
          cases hi : itemsRun items (some (pre ++ s')) with
          | none => exact htail
          | some t1 =>
            dsimp only
            rw [if_neg (fun hx => hfirst ⟨t1, hi, hx⟩)]
            exact htail

/-! ## Valid patterns -/

theorem restOk_sound : ∀ (f : Nat) (p : List Nat), p.length ≤ f → restOk f p = true → ∃ toks, GlobSyntax p toks := by
  intro f
  induction f with
  | zero =>
    intro p hp _
    have : p = [] := List.length_eq_zero_iff.1 (by omega)
    subst this
    exact ⟨[], .nil⟩
  | succ f ih =>
    intro p hp h
    rw [restOk] at h
    split at h
    · rename_i h0; subst h0; exact ⟨[], .nil⟩
    · rename_i hne
      have hlt := scanChunk_lt hne
      rw [Bool.and_eq_true] at h
      obtain ⟨x, hx⟩ := Option.isSome_iff_exists.1 h.1
      obtain ⟨toks, ht⟩ := ih _ (by omega) h.2
      obtain ⟨items, i1, -⟩ := chunk_sound _ (p.dropWhile (fun c => decide (c = 42))) (Nat.le_refl _) _ _ _ hx
      obtain ⟨k, hk, -⟩ := stars_split p
      have := syntax_stars (i1.2 toks ht) k
      rw [← hk] at this
      exact ⟨_, this⟩

theorem restOk_complete : ∀ (f : Nat) (p : List Nat) (toks : List GlobTok), GlobSyntax p toks → restOk f p = true := by
  intro f
  induction f with
  | zero => intro p toks _; rfl
  | succ f ih =>
    intro p toks h
    rw [restOk]
    split
    · rfl
    · obtain ⟨k, hk, -⟩ := stars_split p
      rw [hk] at h
      obtain ⟨toks1, rfl, hsyn1⟩ := syntax_stars_inv k h
      obtain ⟨items, toks', rfl, i1, i2, i3⟩ := chunk_complete hsyn1
      have hm : matchChunk (scanChunk p).2.1 [] = some (itemsRun items (some [])) := i3 _ (some []) (Nat.le_refl _)
      have hr : restOk f (scanChunk p).2.2 = true := ih _ toks' i2
      rw [hm, hr]
      rfl

theorem pathMatch_valid (p s : List Nat) : pathMatch p s ≠ none ↔ ∃ toks, GlobSyntax p toks := by
  rw [← Option.isSome_iff_ne_none]
  unfold pathMatch
  rw [pathMatch_isSome _ _ _ (Nat.le_refl _)]
  exact ⟨restOk_sound _ _ (Nat.le_refl _), fun ⟨toks, h⟩ => restOk_complete _ _ toks h⟩

/-! ## A pattern has one reading -/

theorem classChar_unique {t c r} (h : ClassChar t c r) {c' r'} (h' : ClassChar t c' r') : c = c' ∧ r = r' := by
  cases h with
  | plain _ _ hc =>
    cases h' with
    | plain => exact ⟨rfl, rfl⟩
    | quoted => exact absurd rfl hc.2.2
  | quoted =>
    cases h' with
    | plain _ _ hc => exact absurd rfl hc.2.2
    | quoted => exact ⟨rfl, rfl⟩

theorem classBody_unique {t rs rest} (h : ClassBody t rs rest) : ∀ {rs' rest'}, ClassBody t rs' rest' → rs = rs' ∧ rest = rest' := by
  induction h with
  | close rest =>
    intro rs' rest' h'
    cases h' with
    | close => exact ⟨rfl, rfl⟩
    | one h => exact absurd rfl (classChar_head h)
    | range h => exact absurd rfl (classChar_head h)
  | one h hd hr ih =>
    intro rs' rest' h'
    cases h' with
    | close => exact absurd rfl (classChar_head h)
    | one h2 hd2 hr2 =>
      obtain ⟨rfl, rfl⟩ := classChar_unique h h2
      obtain ⟨rfl, rfl⟩ := ih hr2
      exact ⟨rfl, rfl⟩
    | range h2 h3 hr2 =>
      obtain ⟨rfl, rfl⟩ := classChar_unique h h2
      exact absurd rfl hd
  | range h h3 hr ih =>
    intro rs' rest' h'
    cases h' with
    | close => exact absurd rfl (classChar_head h)
    | one h2 hd2 hr2 =>
      obtain ⟨rfl, rfl⟩ := classChar_unique h h2
      exact absurd rfl hd2
    | range h2 h4 hr2 =>
      obtain ⟨rfl, e⟩ := classChar_unique h h2
      simp only [List.cons.injEq, true_and] at e
      subst e
      obtain ⟨rfl, rfl⟩ := classChar_unique h3 h4
      obtain ⟨rfl, rfl⟩ := ih hr2
      exact ⟨rfl, rfl⟩

theorem globSyntax_unique {p toks} (h : GlobSyntax p toks) : ∀ {toks'}, GlobSyntax p toks' → toks = toks' := by
  induction h with
  | nil => intro _ h'; cases h'; rfl
  | star h ih =>
    intro _ h'
    cases h' with
    | star h' => rw [ih h']
    | plain hc => exact absurd rfl hc.1
  | any h ih =>
    intro _ h'
    cases h' with
    | any h' => rw [ih h']
    | plain hc => exact absurd rfl hc.2.1
  | quoted h ih =>
    intro _ h'
    cases h' with
    | quoted h' => rw [ih h']
    | plain hc => exact absurd rfl hc.2.2.2
  | plain hc h ih =>
    intro _ h'
    cases h' with
    | plain _ h' => rw [ih h']
    | star => exact absurd rfl hc.1
    | any => exact absurd rfl hc.2.1
    | quoted => exact absurd rfl hc.2.2.2
    | cls => exact absurd rfl hc.2.2.1
    | negated => exact absurd rfl hc.2.2.1
  | cls hb hne hn h ih =>
    intro _ h'
    cases h' with
    | plain hc => exact absurd rfl hc.2.2.1
    | cls hb' _ _ h' =>
      obtain ⟨rfl, rfl⟩ := classBody_unique hb hb'
      rw [ih h']
    | negated => exact absurd rfl hn
  | negated hb hne h ih =>
    intro _ h'
    cases h' with
    | plain hc => exact absurd rfl hc.2.2.1
    | cls _ _ hn => exact absurd rfl hn
    | negated hb' _ h' =>
      obtain ⟨rfl, rfl⟩ := classBody_unique hb hb'
      rw [ih h']

end Verif.Proof
