import Verif.Spec.Glob
import Verif.Model.PathMatch

/-! # `path.Match` and the meaning of patterns -/

namespace Verif.Proof

open Verif.Model Verif.Spec

/-- A run of parts other than `*` over a text. -/
def itemsRun : List GlobTok → Option (List Nat) → Option (List Nat)
  | [], s => s
  | _ :: _, none => none
  | _ :: _, some [] => none
  | t :: items, some (c :: s) => if t.accepts c then itemsRun items (some s) else none

theorem itemsRun_none (items : List GlobTok) : itemsRun items none = none := by cases items <;> rfl

/-! ## Classes -/

theorem getEsc_sound {t : List Nat} {c : Nat} {r : List Nat} (h : getEsc t = some (c, r)) : ClassChar t c r ∧ r ≠ [] := by
  unfold getEsc at h
  split at h
  · cases h
  · rename_i d rest
    split at h
    · cases h
    · rename_i hd
      split at h
      · rename_i h92
        split at h
        · cases h
        · split at h
          · cases h
          · rename_i hne
            simp only [Option.some.injEq, Prod.mk.injEq] at h
            obtain ⟨rfl, rfl⟩ := h
            subst h92
            exact ⟨.quoted _ _, hne⟩
      · rename_i h92
        split at h
        · cases h
        · rename_i hne
          simp only [Option.some.injEq, Prod.mk.injEq] at h
          obtain ⟨rfl, rfl⟩ := h
          exact ⟨.plain _ _ ⟨fun e => hd (.inl e), fun e => hd (.inr e), h92⟩, hne⟩

theorem getEsc_complete {t : List Nat} {c : Nat} {r : List Nat} (h : ClassChar t c r) (hr : r ≠ []) :
    getEsc t = some (c, r) := by
  unfold getEsc
  cases h with
  | plain _ _ h => simp [h.1, h.2.1, h.2.2, hr]
  | quoted => simp [hr]

theorem classLoop_sound (r : Nat) : ∀ (f : Nat) (chunk : List Nat) (n : Nat) (found b : Bool) (rest : List Nat),
    classLoop f chunk r n found = some (b, rest) →
    ∃ rs, ClassBody chunk rs rest ∧ b = (found || rs.any (fun x => decide (x.1 ≤ r ∧ r ≤ x.2))) ∧ (n > 0 ∨ rs ≠ []) := by
  intro f
  induction f with
  | zero => intro chunk n found b rest h; cases h
  | succ f ih =>
    intro chunk n found b rest h
    unfold classLoop at h
    split at h
    · rename_i hc
      simp only [Option.some.injEq, Prod.mk.injEq] at h
      obtain ⟨rfl, rfl⟩ := h
      cases chunk with
      | nil => simp at hc
      | cons d chunk =>
        simp only [List.head?_cons, Option.some.injEq] at hc
        obtain ⟨rfl, hn⟩ := hc
        exact ⟨[], .close _, by simp, .inl hn⟩
    · split at h
      · cases h
      · rename_i lo chunk1 hg
        obtain ⟨hcc, hne⟩ := getEsc_sound hg
        split at h
        · rename_i h45
          split at h
          · cases h
          · rename_i hi chunk2 hg2
            obtain ⟨hcc2, hne2⟩ := getEsc_sound hg2
            obtain ⟨rs, h1, h2, -⟩ := ih _ _ _ _ _ h
            cases chunk1 with
            | nil => cases h45
            | cons d chunk1 =>
              simp only [List.head?_cons, Option.some.injEq] at h45
              subst h45
              refine ⟨(lo, hi) :: rs, .range hcc hcc2 h1, ?_, .inr (by simp)⟩
              rw [h2, List.any_cons, Bool.or_assoc]
        · rename_i h45
          obtain ⟨rs, h1, h2, -⟩ := ih _ _ _ _ _ h
          refine ⟨(lo, lo) :: rs, .one hcc h45 h1, ?_, .inr (by simp)⟩
          rw [h2, List.any_cons, Bool.or_assoc]

theorem classBody_ne {t rs rest} (h : ClassBody t rs rest) : t ≠ [] := by
  cases h with
  | close => simp
  | one h => cases h <;> simp
  | range h => cases h <;> simp

theorem classChar_len {t c r} (h : ClassChar t c r) : r.length < t.length := by
  cases h <;> simp <;> omega

theorem body_len {t rs rest} (h : ClassBody t rs rest) : rest.length < t.length := by
  induction h with
  | close => simp
  | one h _ _ ih => have := classChar_len h; omega
  | range h h' _ ih => have := classChar_len h; have := classChar_len h'; simp at *; omega

theorem classChar_plain {d c : Nat} {t r : List Nat} (h : ClassChar (d :: t) c r) (hd : d ≠ 92) :
    c = d ∧ r = t ∧ d ≠ 45 ∧ d ≠ 93 ∧ d ≠ 92 := by
  cases h with
  | plain _ _ h => exact ⟨rfl, rfl, h⟩
  | quoted => exact absurd rfl hd

theorem classChar_head {t c r} (h : ClassChar t c r) : t.head? ≠ some 93 := by
  cases h with
  | plain _ _ h => simpa using h.2.1
  | quoted => simp

theorem classLoop_complete (r : Nat) {chunk rs rest} (h : ClassBody chunk rs rest) : ∀ (f n : Nat) (found : Bool),
    (n > 0 ∨ rs ≠ []) → chunk.length ≤ f →
    classLoop f chunk r n found = some (found || rs.any (fun x => decide (x.1 ≤ r ∧ r ≤ x.2)), rest) := by
  induction h with
  | close rest =>
    intro f n found hn hf
    cases f with
    | zero => simp at hf
    | succ f =>
      rw [classLoop, if_pos ⟨rfl, by simpa using hn⟩]
      simp
  | @one text c text' ranges rest h hd hr ih =>
    intro f n found _ hf
    cases f with
    | zero => cases h <;> simp at hf
    | succ f =>
      rw [classLoop, if_neg (fun e => classChar_head h e.1), getEsc_complete h (classBody_ne hr)]
      dsimp only
      rw [if_neg hd, ih f _ _ (.inl (Nat.succ_pos _)) (by have := classChar_len h; omega), List.any_cons, Bool.or_assoc]
  | @range text lo text' hi text'' ranges rest h h' hr ih =>
    intro f n found _ hf
    cases f with
    | zero => cases h <;> simp at hf
    | succ f =>
      rw [classLoop, if_neg (fun e => classChar_head h e.1), getEsc_complete h (by simp)]
      dsimp only
      rw [List.head?_cons, if_pos rfl, List.drop_one, List.tail_cons, getEsc_complete h' (classBody_ne hr)]
      dsimp only
      rw [ih f _ _ (.inl (Nat.succ_pos _)) (by
        have h1 := classChar_len h
        have h2 := classChar_len h'
        simp only [List.length_cons] at h1
        omega), List.any_cons, Bool.or_assoc]

/-! ## The end of a chunk -/

theorem scanEnd_cons (b : Bool) (c : Nat) (rest : List Nat) (h1 : c ≠ 92) (h2 : ¬ (c = 42 ∧ b = false)) :
    scanEnd b (c :: rest) =
      (c :: (scanEnd (if c = 91 then true else if c = 93 then false else b) rest).1,
        (scanEnd (if c = 91 then true else if c = 93 then false else b) rest).2) := by
  rw [scanEnd.eq_def]
  dsimp only
  rw [if_neg h1]
  by_cases h91 : c = 91
  · rw [if_pos h91, if_pos h91]
  · rw [if_neg h91, if_neg h91]
    by_cases h93 : c = 93
    · rw [if_pos h93, if_pos h93]
    · rw [if_neg h93, if_neg h93, if_neg h2]

theorem scanEnd_quoted (b : Bool) (d : Nat) (rest : List Nat) :
    scanEnd b (92 :: d :: rest) = (92 :: d :: (scanEnd b rest).1, (scanEnd b rest).2) := by
  rw [scanEnd.eq_def]; rfl

/-- A character of a class in a chunk is one of the pattern. -/
theorem scan_char {q : List Nat} {c : Nat} {r : List Nat} (h : ClassChar (scanEnd true q).1 c r) :
    ∃ q', ClassChar q c q' ∧ r = (scanEnd true q').1 ∧ (scanEnd true q).2 = (scanEnd true q').2 := by
  cases q with
  | nil => rw [scanEnd] at h; cases h
  | cons d q =>
    by_cases h92 : d = 92
    · subst h92
      cases q with
      | nil =>
        rw [scanEnd] at h
        simp only [if_true] at h
        cases h with
        | plain _ _ h => exact absurd rfl h.2.2
      | cons e q =>
        rw [scanEnd_quoted] at h ⊢
        cases h with
        | plain _ _ h => exact absurd rfl h.2.2
        | quoted => exact ⟨q, .quoted _ _, rfl, rfl⟩
    · rw [scanEnd_cons true d q h92 (by simp)] at h ⊢
      obtain ⟨rfl, rfl, hd⟩ := classChar_plain h h92
      refine ⟨q, .plain _ _ hd, ?_, ?_⟩
      · rw [if_neg hd.2.1]; simp
      · rw [if_neg hd.2.1]; simp

theorem char_scan {q : List Nat} {c : Nat} {q' : List Nat} (h : ClassChar q c q') :
    ClassChar (scanEnd true q).1 c (scanEnd true q').1 ∧ (scanEnd true q).2 = (scanEnd true q').2 := by
  cases h with
  | plain _ _ h =>
    rw [scanEnd_cons true _ _ h.2.2 (by simp), if_neg h.2.1]
    simp only [ite_self]
    exact ⟨.plain _ _ h, trivial⟩
  | quoted => rw [scanEnd_quoted]; exact ⟨.quoted _ _, rfl⟩

theorem scan_head45 {q : List Nat} : (scanEnd true q).1.head? = some 45 ↔ q.head? = some 45 := by
  cases q with
  | nil => simp [scanEnd]
  | cons d q =>
    by_cases h92 : d = 92
    · subst h92
      cases q with
      | nil => simp [scanEnd]
      | cons e q => rw [scanEnd_quoted]; simp
    · rw [scanEnd_cons true d q h92 (by simp)]; simp

theorem scan_tail45 {q : List Nat} {t : List Nat} (h : (scanEnd true q).1 = 45 :: t) :
    ∃ q', q = 45 :: q' ∧ t = (scanEnd true q').1 ∧ (scanEnd true q).2 = (scanEnd true q').2 := by
  have hh := scan_head45 (q := q)
  rw [h] at hh
  simp only [List.head?_cons, true_iff] at hh
  cases q with
  | nil => cases hh
  | cons d q =>
    simp only [List.head?_cons, Option.some.injEq] at hh
    subst hh
    rw [scanEnd_cons true 45 q (by decide) (by decide)] at h ⊢
    simp only [List.cons.injEq] at h
    exact ⟨q, rfl, h.2.symm, rfl⟩

theorem scan_body {t : List Nat} {rs : List (Nat × Nat)} {rest : List Nat} (h : ClassBody t rs rest) :
    ∀ q, t = (scanEnd true q).1 →
      ∃ q', ClassBody q rs q' ∧ rest = (scanEnd false q').1 ∧ (scanEnd true q).2 = (scanEnd false q').2 := by
  induction h with
  | close rest =>
    intro q e
    cases q with
    | nil => simp [scanEnd] at e
    | cons d q =>
      by_cases h92 : d = 92
      · subst h92
        cases q with
        | nil => simp [scanEnd] at e
        | cons x q => rw [scanEnd_quoted] at e; simp at e
      · rw [scanEnd_cons true d q h92 (by simp)] at e ⊢
        simp only [List.cons.injEq] at e
        obtain ⟨rfl, rfl⟩ := e
        exact ⟨q, .close _, rfl, rfl⟩
  | @one text c text' ranges rest h hd hr ih =>
    intro q e
    subst e
    obtain ⟨q1, a1, a2, a3⟩ := scan_char h
    obtain ⟨q2, b1, b2, b3⟩ := ih q1 a2
    refine ⟨q2, .one a1 ?_ b1, b2, a3.trans b3⟩
    rw [a2] at hd
    exact fun e => hd (scan_head45.2 e)
  | @range text lo text' hi text'' ranges rest h h' hr ih =>
    intro q e
    subst e
    obtain ⟨q1, a1, a2, a3⟩ := scan_char h
    obtain ⟨q2, rfl, c2, c3⟩ := scan_tail45 a2.symm
    rw [c2] at h'
    obtain ⟨q3, d1, d2, d3⟩ := scan_char h'
    obtain ⟨q4, b1, b2, b3⟩ := ih q3 d2
    exact ⟨q4, .range a1 d1 b1, b2, a3.trans (c3.trans (d3.trans b3))⟩

theorem body_scan {q : List Nat} {rs : List (Nat × Nat)} {q' : List Nat} (h : ClassBody q rs q') :
    ClassBody (scanEnd true q).1 rs (scanEnd false q').1 ∧ (scanEnd true q).2 = (scanEnd false q').2 := by
  induction h with
  | close rest =>
    rw [scanEnd_cons true 93 rest (by decide) (by decide)]
    exact ⟨.close _, rfl⟩
  | @one text c text' ranges rest h hd hr ih =>
    obtain ⟨a1, a2⟩ := char_scan h
    exact ⟨.one a1 (fun e => hd (scan_head45.1 e)) ih.1, a2.trans ih.2⟩
  | @range text lo text' hi text'' ranges rest h h' hr ih =>
    obtain ⟨a1, a2⟩ := char_scan h
    obtain ⟨b1, b2⟩ := char_scan h'
    rw [scanEnd_cons true 45 text' (by decide) (by decide)] at a1 a2
    exact ⟨.range a1 b1 ih.1, a2.trans (b2.trans ih.2)⟩

/-! ## Chunks -/

theorem itemsRun_cons (t : GlobTok) (items : List GlobTok) (s : Option (List Nat)) :
    itemsRun (t :: items) s =
      itemsRun items (match s with
        | some (c :: s) => if t.accepts c then some s else none
        | _ => none) := by
  match s with
  | none => rw [itemsRun_none]; exact (itemsRun_none _).symm
  | some [] => exact (itemsRun_none _).symm
  | some (c :: s) =>
    rw [itemsRun]
    dsimp only
    split
    · rfl
    · exact (itemsRun_none _).symm

/-- The parts in front of a pattern. -/
def Prefixed (q : List Nat) (items : List GlobTok) (r : List Nat) : Prop :=
  (∀ t ∈ items, t ≠ .star) ∧ ∀ toks, GlobSyntax r toks → GlobSyntax q (items ++ toks)

theorem chunk_sound : ∀ (n : Nat) (q : List Nat), q.length ≤ n → ∀ (f : Nat) (s x : Option (List Nat)),
    matchChunkAux f (scanEnd false q).1 s = some x →
    ∃ items, Prefixed q items (scanEnd false q).2 ∧ x = itemsRun items s := by
  intro n
  induction n with
  | zero =>
    intro q hq f s x h
    have : q = [] := List.length_eq_zero_iff.1 (Nat.le_zero.1 hq)
    subst this
    refine ⟨[], ⟨by simp, fun toks h => h⟩, ?_⟩
    simp only [scanEnd] at h
    cases f <;> simp [matchChunkAux] at h <;> exact h.symm
  | succ n ih =>
    intro q hq f s x h
    have hempty : (scanEnd false q).1 = [] → (scanEnd false q).2 = q →
        ∃ items, Prefixed q items (scanEnd false q).2 ∧ x = itemsRun items s := by
      intro e1 e2
      rw [e1] at h
      refine ⟨[], ⟨by simp, fun toks h => by rw [e2] at h; exact h⟩, ?_⟩
      cases f <;> simp [matchChunkAux] at h <;> exact h.symm
    cases q with
    | nil => exact hempty rfl rfl
    | cons c q =>
      have hq' : q.length ≤ n := by simpa using hq
      by_cases h92 : c = 92
      · subst h92
        cases q with
        | nil =>
          simp only [scanEnd, if_true] at h
          cases f with
          | zero => simp [matchChunkAux] at h
          | succ f => simp [matchChunkAux] at h
        | cons d q =>
          rw [scanEnd_quoted] at h ⊢
          cases f with
          | zero => simp [matchChunkAux] at h
          | succ f =>
            simp only [matchChunkAux] at h
            rw [if_neg (by decide), if_neg (by decide), if_true] at h
            obtain ⟨items, h1, h2⟩ := ih q (by simp at hq'; omega) f _ x h
            refine ⟨.lit d :: items, ⟨?_, fun toks ht => .quoted (h1.2 toks ht)⟩, ?_⟩
            · intro t ht
              rcases List.mem_cons.1 ht with rfl | ht
              · simp
              · exact h1.1 t ht
            · rw [h2, itemsRun_cons]
              congr 1
              match s with
              | none => simp
              | some [] => simp
              | some (e :: s) => simp [GlobTok.accepts]
      · by_cases h42 : c = 42
        · subst h42
          have : scanEnd false (42 :: q) = ([], 42 :: q) := by rw [scanEnd.eq_def]; simp
          exact hempty (by rw [this]) (by rw [this])
        · rw [scanEnd_cons false c q h92 (by simp [h42])] at h ⊢
          cases f with
          | zero => simp [matchChunkAux] at h
          | succ f =>
            by_cases h91 : c = 91
            · subst h91
              simp only [if_true] at h ⊢
              simp only [matchChunkAux] at h
              rw [if_true] at h
              -- the class
              have key : ∀ (neg : Bool) (body : List Nat), body.length ≤ n →
                  (match classLoop ((scanEnd true body).1.length + 1) (scanEnd true body).1
                      (((if s = some [] then none else s).getD []).headD 0) 0 false with
                    | none => none
                    | some (found, rest') =>
                      matchChunkAux f rest' (if found = neg then none else
                        (if s = some [] then none else s).map (List.drop 1))) = some x →
                  ∃ items ranges p, ClassBody body ranges p ∧ ranges ≠ [] ∧
                    Prefixed p items (scanEnd true body).2 ∧ x = itemsRun (.cls neg ranges :: items) s := by
                intro neg body hbl h
                cases hcl : classLoop ((scanEnd true body).1.length + 1) (scanEnd true body).1
                      (((if s = some [] then none else s).getD []).headD 0) 0 false with
                | none => rw [hcl] at h; cases h
                | some fr =>
                  obtain ⟨found, rest'⟩ := fr
                  rw [hcl] at h
                  dsimp only at h
                  obtain ⟨rs, b1, b2, b3⟩ := classLoop_sound _ _ _ _ _ _ _ hcl
                  have hne : rs ≠ [] := by simpa using b3
                  obtain ⟨p, c1, c2, c3⟩ := scan_body b1 body rfl
                  rw [c2] at h
                  have hpl : p.length ≤ n := by
                    have := body_len c1
                    omega
                  obtain ⟨items, h1, h2⟩ := ih p hpl f _ x h
                  refine ⟨items, rs, p, c1, hne, ?_, ?_⟩
                  · rw [c3]; exact h1
                  · rw [h2, itemsRun_cons]
                    congr 1
                    rw [b2]
                    match s with
                    | none => simp
                    | some [] => simp
                    | some (e :: s) =>
                      simp only [reduceCtorEq, if_false, Option.getD_some, List.headD_cons, Option.map_some,
                        List.drop_one, List.tail_cons, Bool.false_or, GlobTok.accepts, Option.some.injEq]
                      have bne_if : ∀ (w n : Bool) (t : Option Str),
                          (if w = n then none else t) = if (w != n) = true then t else none := by
                        intro w n t
                        cases w <;> cases n <;> rfl
                      exact bne_if _ _ _
              by_cases h94 : q.head? = some 94
              · cases q with
                | nil => cases h94
                | cons d q =>
                  simp only [List.head?_cons, Option.some.injEq] at h94
                  subst h94
                  rw [scanEnd_cons true 94 q (by decide) (by decide)] at h ⊢
                  simp only [List.head?_cons, decide_true, if_true, List.drop_one, List.tail_cons] at h
                  obtain ⟨items, rs, p, k1, k2, k3, k4⟩ := key true q (by simp at hq'; omega) h
                  refine ⟨.cls true rs :: items, ⟨?_, fun toks ht => .negated k1 k2 (k3.2 toks ht)⟩, k4⟩
                  intro t ht
                  rcases List.mem_cons.1 ht with rfl | ht
                  · simp
                  · exact k3.1 t ht
              · have h94' : (scanEnd true q).1.head? ≠ some 94 := by
                  cases q with
                  | nil => simp [scanEnd]
                  | cons d q =>
                    by_cases hd : d = 92
                    · subst hd
                      cases q with
                      | nil => simp [scanEnd]
                      | cons e q => rw [scanEnd_quoted]; simp
                    · rw [scanEnd_cons true d q hd (by simp)]
                      simpa using h94
                rw [if_neg h94', decide_eq_false h94'] at h
                obtain ⟨items, rs, p, k1, k2, k3, k4⟩ := key false q hq' h
                refine ⟨.cls false rs :: items, ⟨?_, fun toks ht => .cls k1 k2 h94 (k3.2 toks ht)⟩, k4⟩
                intro t ht
                rcases List.mem_cons.1 ht with rfl | ht
                · simp
                · exact k3.1 t ht
            · have hb : (if c = 91 then true else if c = 93 then false else false) = false := by
                rw [if_neg h91]; split <;> rfl
              rw [hb] at h ⊢
              simp only [matchChunkAux] at h
              rw [if_neg h91] at h
              by_cases h63 : c = 63
              · subst h63
                rw [if_pos rfl] at h
                obtain ⟨items, h1, h2⟩ := ih q hq' f _ x h
                refine ⟨.any :: items, ⟨?_, fun toks ht => .any (h1.2 toks ht)⟩, ?_⟩
                · intro t ht
                  rcases List.mem_cons.1 ht with rfl | ht
                  · simp
                  · exact h1.1 t ht
                · rw [h2, itemsRun_cons]
                  congr 1
                  match s with
                  | none => simp
                  | some [] => simp
                  | some (e :: s) => by_cases he : e = 47 <;> simp [GlobTok.accepts, he]
              · rw [if_neg h63, if_neg h92] at h
                obtain ⟨items, h1, h2⟩ := ih q hq' f _ x h
                refine ⟨.lit c :: items, ⟨?_, fun toks ht => .plain ⟨h42, h63, h91, h92⟩ (h1.2 toks ht)⟩, ?_⟩
                · intro t ht
                  rcases List.mem_cons.1 ht with rfl | ht
                  · simp
                  · exact h1.1 t ht
                · rw [h2, itemsRun_cons]
                  congr 1
                  match s with
                  | none => simp
                  | some [] => simp
                  | some (e :: s) => simp [GlobTok.accepts]

/-! ## Bad patterns -/

theorem classLoop_isSome : ∀ f chunk r r' nrange found found',
    (classLoop f chunk r nrange found).map (·.2) = (classLoop f chunk r' nrange found').map (·.2) := by
  intro f
  induction f with
  | zero => intros; rfl
  | succ f ih =>
    intro chunk r r' nrange found found'
    rw [classLoop, classLoop]
    split
    · rfl
    · split
      · rfl
      · split
        · split
          · rfl
          · apply ih
        · apply ih

theorem matchChunkAux_isSome : ∀ f chunk s s',
    (matchChunkAux f chunk s).isSome = (matchChunkAux f chunk s').isSome := by
  intro f
  induction f with
  | zero => intro chunk s s'; rw [matchChunkAux, matchChunkAux]; split <;> rfl
  | succ f ih =>
    intro chunk s s'
    rw [matchChunkAux.eq_def, matchChunkAux.eq_def]
    dsimp only
    cases chunk with
    | nil => rfl
    | cons c rest =>
      dsimp only
      split
      · generalize (if rest.head? = some 94 then rest.drop 1 else rest) = body
        have h := classLoop_isSome (body.length + 1) body
          (((if s = some [] then none else s).getD []).headD 0)
          (((if s' = some [] then none else s').getD []).headD 0) 0 false false
        revert h
        generalize classLoop (body.length + 1) body (((if s = some [] then none else s).getD []).headD 0) 0 false = x
        generalize classLoop (body.length + 1) body (((if s' = some [] then none else s').getD []).headD 0) 0 false = y
        intro h
        cases x with
        | none => cases y with
          | none => rfl
          | some y => cases h
        | some x => cases y with
          | none => cases h
          | some y =>
            obtain ⟨x1, x2⟩ := x
            obtain ⟨y1, y2⟩ := y
            simp only [Option.map_some, Option.some.injEq] at h
            subst h
            exact ih _ _ _
      · split
        · exact ih _ _ _
        · split
          · cases rest with
            | nil => rfl
            | cons d rest' => exact ih _ _ _
          · exact ih _ _ _

theorem matchChunk_isSome (chunk s s' : List Nat) : (matchChunk chunk s).isSome = (matchChunk chunk s').isSome :=
  matchChunkAux_isSome _ _ _ _

theorem starLoop_isSome (chunk : List Nat) (last : Bool) (h : (matchChunk chunk []).isSome = true) :
    ∀ name, (starLoop chunk last name).isSome = true := by
  intro name
  induction name with
  | nil => rfl
  | cons c name ih =>
    rw [starLoop]
    split
    · rfl
    · have h2 := matchChunk_isSome chunk name []
      rw [h] at h2
      split
      · rename_i hn; rw [hn] at h2; cases h2
      · split
        · exact ih
        · rfl
      · exact ih

theorem scanEnd_length : ∀ n p b, p.length ≤ n →
    (scanEnd b p).1.length + (scanEnd b p).2.length = p.length ∧ (scanEnd b p).1 ++ (scanEnd b p).2 = p := by
  intro n
  induction n with
  | zero => intro p b h; have : p = [] := List.length_eq_zero_iff.1 (by omega)
            subst this; rw [scanEnd]; exact ⟨rfl, rfl⟩
  | succ n ih =>
    intro p b h
    cases p with
    | nil => rw [scanEnd]; exact ⟨rfl, rfl⟩
    | cons c rest =>
      simp only [List.length_cons] at h
      rw [scanEnd.eq_def]
      dsimp only
      split
      · rename_i h92
        subst h92
        cases rest with
        | nil => exact ⟨rfl, rfl⟩
        | cons d rest' =>
          dsimp only
          simp only [List.length_cons] at h
          have := ih rest' b (by omega)
          refine ⟨by simp only [List.length_cons]; omega, by simp [this.2]⟩
      · split
        · have := ih rest true (by omega)
          exact ⟨by simp only [List.length_cons]; omega, by simp [this.2]⟩
        · split
          · have := ih rest false (by omega)
            exact ⟨by simp only [List.length_cons]; omega, by simp [this.2]⟩
          · split
            · exact ⟨by simp, rfl⟩
            · have := ih rest b (by omega)
              exact ⟨by simp only [List.length_cons]; omega, by simp [this.2]⟩

theorem scanEnd_nil {p : List Nat} {b : Bool} (h : (scanEnd b p).1 = []) : p = [] ∨ (p.head? = some 42 ∧ b = false) := by
  cases p with
  | nil => left; rfl
  | cons c rest =>
    rw [scanEnd.eq_def] at h
    dsimp only at h
    split at h
    · cases rest <;> simp at h
    · split at h
      · simp at h
      · split at h
        · simp at h
        · split at h
          · rename_i h1; right; simp [h1]
          · simp at h

/-- The rest of a pattern is shorter than the pattern. -/
theorem scanChunk_lt {p : List Nat} (h : p ≠ []) : (scanChunk p).2.2.length < p.length := by
  unfold scanChunk
  dsimp only
  have hl := (scanEnd_length _ (p.dropWhile (fun c => decide (c = 42))) false (Nat.le_refl _)).1
  have hd : (p.dropWhile (fun c => decide (c = 42))).length ≤ p.length := (List.dropWhile_suffix _).length_le
  by_cases h42 : p.head? = some 42
  · cases p with
    | nil => cases h42
    | cons c rest =>
      simp only [List.head?_cons, Option.some.injEq] at h42
      subst h42
      simp only [List.dropWhile_cons, decide_true, if_true] at hl hd ⊢
      have : (rest.dropWhile (fun c => decide (c = 42))).length ≤ rest.length := (List.dropWhile_suffix _).length_le
      simp only [List.length_cons]
      omega
  · have hdw : p.dropWhile (fun c => decide (c = 42)) = p := by
      cases p with
      | nil => rfl
      | cons c rest =>
        simp only [List.head?_cons, Option.some.injEq] at h42
        simp [h42]
    rw [hdw] at hl ⊢
    have : (scanEnd false p).1 ≠ [] := by
      intro he
      rcases scanEnd_nil he with he | he
      · exact h he
      · exact h42 he.1
    have := List.length_pos_iff.2 this
    omega

/-- After the stars, an empty chunk means that the pattern is at its end. -/
theorem scanChunk_star {p : List Nat} (h : (scanChunk p).2.1 = []) : (scanChunk p).2.2 = [] := by
  unfold scanChunk at h ⊢
  dsimp only at h ⊢
  rcases scanEnd_nil h with he | he
  · rw [he]; rfl
  · exfalso
    have hx := List.head?_dropWhile_not (fun c => decide (c = 42)) p
    rw [he.1] at hx
    simp at hx

theorem restOk_mono : ∀ f f' p, p.length ≤ f → p.length ≤ f' → restOk f p = restOk f' p := by
  intro f
  induction f with
  | zero =>
    intro f' p h h'
    have : p = [] := List.length_eq_zero_iff.1 (by omega)
    subst this
    cases f' <;> rfl
  | succ f ih =>
    intro f' p h h'
    cases f' with
    | zero =>
      have : p = [] := List.length_eq_zero_iff.1 (by omega)
      subst this; rfl
    | succ f' =>
      rw [restOk, restOk]
      split
      · rfl
      · rename_i hne
        have := scanChunk_lt hne
        rw [ih f' _ (by omega) (by omega)]

/-- A pattern is refused or not whatever it is matched against. -/
theorem pathMatch_isSome : ∀ f p name, p.length ≤ f → (pathMatchAux f p name).isSome = restOk p.length p := by
  intro f
  induction f with
  | zero =>
    intro p name h
    have : p = [] := List.length_eq_zero_iff.1 (by omega)
    subst this; rfl
  | succ f ih =>
    intro p name h
    rw [pathMatchAux]
    split
    · rename_i h0; subst h0; rfl
    · rename_i hne
      dsimp only
      have hlt := scanChunk_lt hne
      have hr : restOk p.length p = ((matchChunk (scanChunk p).2.1 []).isSome && restOk (scanChunk p).2.2.length (scanChunk p).2.2) := by
        obtain ⟨n, hn⟩ : ∃ n, p.length = n + 1 := ⟨p.length - 1, by have := List.length_pos_iff.2 hne; omega⟩
        rw [hn, restOk, if_neg hne]
        rw [restOk_mono n _ (scanChunk p).2.2 (by omega) (Nat.le_refl _)]
      rw [hr]
      have hro : restOk p.length (scanChunk p).2.2 = restOk (scanChunk p).2.2.length (scanChunk p).2.2 :=
        restOk_mono _ _ _ (by omega) (Nat.le_refl _)
      split
      · rename_i hs
        have h2 := scanChunk_star hs.2
        rw [h2, hs.2]
        rfl
      · have key : ∀ (hm : (matchChunk (scanChunk p).2.1 []).isSome = true),
            (matchTail (pathMatchAux f (scanChunk p).2.2) (restOk p.length (scanChunk p).2.2)
              (if (scanChunk p).1 = true then starLoop (scanChunk p).2.1 (decide ((scanChunk p).2.2 = [])) name else some none)).isSome =
            restOk (scanChunk p).2.2.length (scanChunk p).2.2 := by
          intro hm
          have hs : (if (scanChunk p).1 = true then starLoop (scanChunk p).2.1 (decide ((scanChunk p).2.2 = [])) name else some none).isSome = true := by
            split
            · exact starLoop_isSome _ _ hm _
            · rfl
          unfold matchTail
          split
          · rename_i hn; rw [hn] at hs; cases hs
          · exact ih _ _ (by omega)
          · rw [hro]; cases restOk (scanChunk p).2.2.length (scanChunk p).2.2 <;> rfl
        have hm := matchChunk_isSome (scanChunk p).2.1 name []
        split
        · rename_i hn
          rw [hn] at hm
          rw [← hm]; rfl
        · rename_i t ht
          rw [ht] at hm
          rw [← hm, Option.isSome_some, Bool.true_and]
          split
          · exact ih _ _ (by omega)
          · exact key hm.symm
        · rename_i ht
          rw [ht] at hm
          rw [← hm, Option.isSome_some, Bool.true_and]
          exact key hm.symm

end Verif.Proof
