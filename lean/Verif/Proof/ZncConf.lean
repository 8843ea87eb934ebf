import Verif.Spec.ZncConf

/-! # Lemmas about the parser for ZNC configuration files -/

namespace Verif.Proof
open Verif.Model Verif.Spec

theorem znc_word_hit (d : Nat) (w s : Str) (h : d ∉ w) (h2 : 10 ∉ w) : zncWord d (w ++ d :: s) = some (w, s) := by
  induction w with
  | nil => simp [zncWord]
  | cons c w ih =>
    simp only [List.mem_cons, not_or] at h h2
    rw [List.cons_append, zncWord, if_neg (Ne.symm h.1), if_neg (Ne.symm h2.1), ih h.2 h2.2]
    rfl

theorem znc_word_some {d : Nat} {s w r : Str} (h : zncWord d s = some (w, r)) :
    s = w ++ d :: r ∧ d ∉ w ∧ 10 ∉ w := by
  induction s generalizing w with
  | nil => cases h
  | cons c s ih =>
    rw [zncWord] at h
    by_cases h1 : c = d
    · rw [if_pos h1] at h
      simp only [Option.some.injEq, Prod.mk.injEq] at h
      obtain ⟨rfl, rfl⟩ := h
      simp [h1]
    · rw [if_neg h1] at h
      by_cases h2 : c = 10
      · rw [if_pos h2] at h; cases h
      · rw [if_neg h2] at h
        cases hw : zncWord d s with
        | none => rw [hw] at h; cases h
        | some p =>
          rw [hw] at h
          simp only [Option.map_some, Option.some.injEq, Prod.mk.injEq] at h
          obtain ⟨rfl, rfl⟩ := h
          obtain ⟨e, n1, n2⟩ := ih (w := p.1) hw
          refine ⟨by rw [e]; rfl, ?_, ?_⟩
          · simp only [List.mem_cons, not_or]; exact ⟨Ne.symm h1, n1⟩
          · simp only [List.mem_cons, not_or]; exact ⟨Ne.symm h2, n2⟩

theorem dropWhile_blank {a s : Str} (h : Blank a) : (a ++ s).dropWhile isSpaceRune = s.dropWhile isSpaceRune := by
  induction a with
  | nil => rfl
  | cons c a ih =>
    rw [List.cons_append, List.dropWhile_cons, if_pos (h c (by simp)), ih (fun x hx => h x (by simp [hx]))]

theorem dropWhile_stop {s : Str} (h : ∀ c, s.head? = some c → isSpaceRune c = false) : s.dropWhile isSpaceRune = s := by
  cases s with
  | nil => rfl
  | cons c s => rw [List.dropWhile_cons, if_neg (by simp [h c rfl])]

theorem dropWhile_split (s : Str) :
    ∃ a, Blank a ∧ s = a ++ s.dropWhile isSpaceRune ∧
      ∀ c, (s.dropWhile isSpaceRune).head? = some c → isSpaceRune c = false := by
  induction s with
  | nil => exact ⟨[], (fun c hc => by simp at hc), rfl, (fun c hc => by simp at hc)⟩
  | cons x s ih =>
    by_cases hx : isSpaceRune x = true
    · obtain ⟨a, ha, he, hh⟩ := ih
      rw [List.dropWhile_cons, if_pos hx]
      refine ⟨x :: a, ?_, by rw [List.cons_append, ← he], hh⟩
      intro c hc
      rcases List.mem_cons.1 hc with rfl | hc
      · exact hx
      · exact ha c hc
    · rw [List.dropWhile_cons, if_neg hx]
      refine ⟨[], (fun c hc => by simp at hc), rfl, ?_⟩
      intro c hc
      simp only [List.head?_cons, Option.some.injEq] at hc
      subst hc
      simpa using hx

theorem trims_eq {s t : Str} (h : Trims s t) : trimSpaceRunes s = t := by
  obtain ⟨a, b, ha, hb, rfl, hh, hl⟩ := h
  unfold trimSpaceRunes
  rw [List.append_assoc, dropWhile_blank ha]
  have hb' : Blank b.reverse := fun c hc => hb c (by simpa using hc)
  cases t with
  | nil =>
    have e : ([] ++ b : Str).dropWhile isSpaceRune = [] := by
      have := dropWhile_blank (s := []) hb
      simpa using this
    rw [e]; rfl
  | cons x t =>
    rw [dropWhile_stop (s := x :: t ++ b) (fun c hc => hh c (by simpa using hc)), List.reverse_append, dropWhile_blank hb',
      dropWhile_stop, List.reverse_reverse]
    intro c hc
    rw [List.head?_reverse] at hc
    exact hl c hc

theorem trims_self (s : Str) : Trims s (trimSpaceRunes s) := by
  obtain ⟨a, ha, he, hh⟩ := dropWhile_split s
  obtain ⟨b, hb, he2, hh2⟩ := dropWhile_split (s.dropWhile isSpaceRune).reverse
  unfold trimSpaceRunes
  have e3 : s.dropWhile isSpaceRune = ((s.dropWhile isSpaceRune).reverse.dropWhile isSpaceRune).reverse ++ b.reverse := by
    rw [← List.reverse_append, ← he2, List.reverse_reverse]
  refine ⟨a, b.reverse, ha, fun c hc => hb c (by simpa using hc), ?_, ?_, ?_⟩
  · rw [List.append_assoc, ← e3]; exact he
  · intro c hc
    refine hh c ?_
    rw [e3]
    cases hd : ((s.dropWhile isSpaceRune).reverse.dropWhile isSpaceRune).reverse with
    | nil => rw [hd] at hc; cases hc
    | cons y l => rw [hd] at hc; simpa using hc
  · intro c hc
    rw [List.getLast?_reverse] at hc
    exact hh2 c hc

theorem znc_skip_line (line s : Str) (h : 10 ∉ line) : zncSkipLine (line ++ 10 :: s) = s := by
  induction line with
  | nil => simp [zncSkipLine]
  | cons c l ih =>
    simp only [List.mem_cons, not_or] at h
    rw [List.cons_append, zncSkipLine, if_neg (Ne.symm h.1), ih h.2]

theorem znc_skip_end (line : Str) (h : 10 ∉ line) : zncSkipLine line = [] := by
  induction line with
  | nil => rfl
  | cons c l ih =>
    simp only [List.mem_cons, not_or] at h
    rw [zncSkipLine, if_neg (Ne.symm h.1), ih h.2]

theorem znc_skip_cases (s : Str) : (10 ∉ s ∧ zncSkipLine s = []) ∨ ∃ l, 10 ∉ l ∧ s = l ++ 10 :: zncSkipLine s := by
  induction s with
  | nil => exact .inl ⟨by simp, rfl⟩
  | cons c s ih =>
    rw [zncSkipLine]
    by_cases hc : c = 10
    · rw [if_pos hc]; exact .inr ⟨[], by simp, by simp [hc]⟩
    · rw [if_neg hc]
      rcases ih with ⟨h1, h2⟩ | ⟨l, h1, h2⟩
      · exact .inl ⟨by simp only [List.mem_cons, not_or]; exact ⟨Ne.symm hc, h1⟩, h2⟩
      · exact .inr ⟨c :: l, by simp only [List.mem_cons, not_or]; exact ⟨Ne.symm hc, h1⟩, by rw [List.cons_append, ← h2]⟩

theorem znc_header_hit (typ name s : Str) (h : 32 ∉ typ ∧ 10 ∉ typ) (hn : 62 ∉ name ∧ 10 ∉ name) :
    zncHeader (60 :: (typ ++ 32 :: (name ++ 62 :: s))) = some (typ, name, s) := by
  have e : zncExpect 60 (60 :: (typ ++ 32 :: (name ++ 62 :: s))) = some (typ ++ 32 :: (name ++ 62 :: s)) := by
    simp [zncExpect]
  unfold zncHeader
  rw [e]
  dsimp only
  rw [znc_word_hit 32 typ _ h.1 h.2]
  dsimp only
  rw [znc_word_hit 62 name _ hn.1 hn.2]

theorem znc_footer_hit (typ s : Str) (h : 62 ∉ typ ∧ 10 ∉ typ) :
    zncFooter (60 :: 47 :: (typ ++ 62 :: s)) = some (typ, s) := by
  simp only [zncFooter, zncExpect, if_pos, Option.bind_some]
  exact znc_word_hit 62 typ s h.1 h.2

theorem znc_pair_hit (k v s : Str) (hk : 61 ∉ k ∧ 10 ∉ k) (hv : 10 ∉ v) :
    zncPair (k ++ 61 :: (v ++ 10 :: s)) = some (trimSpaceRunes k, trimSpaceRunes v, s) := by
  unfold zncPair
  rw [znc_word_hit 61 k _ hk.1 hk.2]
  dsimp only
  rw [znc_word_hit 10 v _ hv hv]

/-- White space before the rest does not matter. -/
theorem znc_body_blank (n : Nat) (vs : List (Str × Str)) (cs : List ZncSection) {ws s : Str} (h : Blank ws) :
    zncBody n vs cs (ws ++ s) = zncBody n vs cs s := by
  cases n with
  | zero => rfl
  | succ n =>
    conv => lhs; unfold zncBody
    conv => rhs; unfold zncBody
    rw [show zncSkipSpace (ws ++ s) = zncSkipSpace s from dropWhile_blank h]

private theorem skip_lt (s : Str) : zncSkipSpace (60 :: s) = 60 :: s := dropWhile_stop (by simp; decide)

theorem znc_body_close (n : Nat) (vs : List (Str × Str)) (cs : List ZncSection) (s : Str) :
    zncBody (n + 1) vs cs (60 :: 47 :: s) = some (vs, cs, 60 :: 47 :: s) := by
  unfold zncBody
  rw [skip_lt]
  simp

theorem znc_body_sect (n : Nat) (vs : List (Str × Str)) (cs : List ZncSection) (typ name s : Str)
    (ht : 32 ∉ typ ∧ 62 ∉ typ ∧ 10 ∉ typ ∧ ¬ b!"/" <+: typ) (hn : 62 ∉ name ∧ 10 ∉ name) :
    zncBody (n + 1) vs cs (60 :: (typ ++ 32 :: (name ++ 62 :: s))) =
      match zncBody n [] [] s with
      | none => none
      | some (cvs, ccs, s) => match zncFooter s with
        | none => none
        | some (footer, s) =>
          if footer ≠ typ then none else zncBody n vs (cs ++ [.mk typ name cvs ccs]) s := by
  conv => lhs; unfold zncBody
  rw [skip_lt]
  have hh := znc_header_hit typ name s ⟨ht.1, ht.2.2.1⟩ hn
  cases typ with
  | nil =>
    dsimp only [List.nil_append] at hh ⊢
    rw [if_pos rfl, if_neg (by decide), hh]
    rfl
  | cons d typ =>
    have hd : d ≠ 47 := fun e => ht.2.2.2 (by rw [e]; exact ⟨typ, rfl⟩)
    dsimp only [List.cons_append] at hh ⊢
    rw [if_pos rfl, if_neg hd, hh]
    rfl

theorem znc_body_comment (n : Nat) (vs : List (Str × Str)) (cs : List ZncSection) (s : Str) :
    zncBody (n + 1) vs cs (47 :: 47 :: s) = zncBody n vs cs (zncSkipLine s) := by
  conv => lhs; unfold zncBody
  rw [show zncSkipSpace (47 :: 47 :: s) = 47 :: 47 :: s from dropWhile_stop (by simp; decide)]
  simp [zncSkipComment, zncExpect]

theorem znc_body_value (n : Nat) (vs : List (Str × Str)) (cs : List ZncSection) (k v s : Str)
    (hk : 61 ∉ k ∧ 10 ∉ k) (hv : 10 ∉ v) (h1 : ¬ b!"<" <+: k) (h2 : ¬ b!"//" <+: k)
    (h3 : ∀ c, k.head? = some c → isSpaceRune c = false) :
    zncBody (n + 1) vs cs (k ++ 61 :: (v ++ 10 :: s)) =
      zncBody n (vs ++ [(trimSpaceRunes k, trimSpaceRunes v)]) cs s := by
  have hp := znc_pair_hit k v s hk hv
  conv => lhs; unfold zncBody
  have hs : zncSkipSpace (k ++ 61 :: (v ++ 10 :: s)) = k ++ 61 :: (v ++ 10 :: s) := by
    refine dropWhile_stop ?_
    intro c hc
    cases k with
    | nil =>
      simp only [List.nil_append, List.head?_cons, Option.some.injEq] at hc
      subst hc; decide
    | cons x k => exact h3 c (by simpa using hc)
  rw [hs]
  cases k with
  | nil =>
    cases v with
    | nil =>
      dsimp only [List.nil_append] at hp ⊢
      rw [if_neg (by decide), if_neg (by decide), hp]
    | cons y v =>
      dsimp only [List.nil_append, List.cons_append] at hp ⊢
      rw [if_neg (by decide), if_neg (by omega), hp]
  | cons x k =>
    have hx : x ≠ 60 := fun e => h1 (by rw [e]; exact ⟨k, rfl⟩)
    cases k with
    | nil =>
      dsimp only [List.nil_append, List.cons_append] at hp ⊢
      rw [if_neg hx, if_neg (by omega), hp]
    | cons y k =>
      have hxy : ¬ (x = 47 ∧ y = 47) := fun e => h2 (by rw [e.1, e.2]; exact ⟨k, rfl⟩)
      dsimp only [List.cons_append] at hp ⊢
      rw [if_neg hx, if_neg hxy, hp]

/-- What is written is read, whatever follows. -/
theorem znc_reads {items : List ZncItem} {text : Str} (h : ZncWritten items text) :
    ∀ (n : Nat) (vs : List (Str × Str)) (cs : List ZncSection) (tail : Str), ∃ m, n ≤ m ∧
      zncBody (n + text.length) vs cs (text ++ tail) =
        zncBody m (vs ++ zncSettings items) (cs ++ zncSectionsOf items) tail := by
  induction h with
  | done ws hb =>
    intro n vs cs tail
    refine ⟨n + ws.length, by omega, ?_⟩
    rw [znc_body_blank _ _ _ hb]
    simp [zncSettings, zncSectionsOf]
  | @comment ws line items text hb hl _ ih =>
    intro n vs cs tail
    obtain ⟨m, hm, e⟩ := ih (n + ws.length + line.length + 2) vs cs tail
    refine ⟨m, by omega, ?_⟩
    rw [← e]
    simp only [List.append_assoc]
    rw [znc_body_blank _ _ _ hb]
    have : n + (ws ++ (b!"//" ++ (line ++ ([10] ++ text)))).length = (n + ws.length + line.length + 2 + text.length) + 1 := by
      simp; omega
    rw [this]
    have e2 : b!"//" ++ (line ++ ([10] ++ (text ++ tail))) = 47 :: 47 :: (line ++ 10 :: (text ++ tail)) := rfl
    rw [e2, znc_body_comment, znc_skip_line _ _ hl]
  | @value ws rk rv k v items text hb hk1 hk2 hv hp1 hp2 hp3 tk tv _ ih =>
    intro n vs cs tail
    obtain ⟨m, hm, e⟩ := ih (n + ws.length + rk.length + rv.length + 1) (vs ++ [(k, v)]) cs tail
    refine ⟨m, by omega, ?_⟩
    rw [show zncSettings (.value k v :: items) = [(k, v)] ++ zncSettings items from rfl,
      show zncSectionsOf (.value k v :: items) = zncSectionsOf items by simp [zncSectionsOf, zncSectionOf],
      ← List.append_assoc, ← e]
    simp only [List.append_assoc]
    rw [znc_body_blank _ _ _ hb]
    have : n + (ws ++ (rk ++ (b!"=" ++ (rv ++ ([10] ++ text))))).length =
        (n + ws.length + rk.length + rv.length + 1 + text.length) + 1 := by
      simp; omega
    rw [this]
    have e2 : rk ++ (b!"=" ++ (rv ++ ([10] ++ (text ++ tail)))) = rk ++ 61 :: (rv ++ 10 :: (text ++ tail)) := rfl
    rw [e2, znc_body_value _ _ _ _ _ _ ⟨hk1, hk2⟩ hv hp1 hp2 hp3, trims_eq tk, trims_eq tv]
  | @sect ws typ name body items inner text hb ht hn1 hn2 _ _ ih1 ih2 =>
    intro n vs cs tail
    obtain ⟨m, hm, e⟩ := ih2 (n + ws.length + typ.length + name.length + inner.length + typ.length + 5) vs
      (cs ++ [.mk typ name (zncSettings body) (zncSectionsOf body)]) tail
    refine ⟨m, by omega, ?_⟩
    rw [show zncSettings (.sect typ name body :: items) = zncSettings items from rfl,
      show zncSectionsOf (.sect typ name body :: items) =
        [.mk typ name (zncSettings body) (zncSectionsOf body)] ++ zncSectionsOf items by simp [zncSectionsOf, zncSectionOf],
      ← List.append_assoc, ← e]
    simp only [List.append_assoc]
    rw [znc_body_blank _ _ _ hb]
    have : n + (ws ++ (b!"<" ++ (typ ++ (b!" " ++ (name ++ (b!">" ++ (inner ++ (b!"</" ++ (typ ++ (b!">" ++ text)))))))))).length =
        (n + ws.length + typ.length + name.length + inner.length + typ.length + 5 + text.length) + 1 := by
      simp; omega
    rw [this]
    have e2 : b!"<" ++ (typ ++ (b!" " ++ (name ++ (b!">" ++ (inner ++ (b!"</" ++ (typ ++ (b!">" ++ (text ++ tail))))))))) =
        60 :: (typ ++ 32 :: (name ++ 62 :: (inner ++ 60 :: 47 :: (typ ++ 62 :: (text ++ tail))))) := rfl
    rw [e2, znc_body_sect _ _ _ _ _ _ ht ⟨hn1, hn2⟩]
    obtain ⟨m2, hm2, e3⟩ := ih1 (n + ws.length + typ.length + name.length + typ.length + 5 + text.length) [] []
      (60 :: 47 :: (typ ++ 62 :: (text ++ tail)))
    rw [show n + ws.length + typ.length + name.length + inner.length + typ.length + 5 + text.length =
      n + ws.length + typ.length + name.length + typ.length + 5 + text.length + inner.length by omega, e3]
    obtain ⟨m3, rfl⟩ : ∃ m3, m2 = m3 + 1 := ⟨m2 - 1, by omega⟩
    rw [znc_body_close]
    dsimp only
    rw [znc_footer_hit _ _ ⟨ht.2.1, ht.2.2.1⟩]
    simp only [ne_eq, not_true, if_false, List.nil_append]

/-- What may be left when the reading ends. -/
def ZncRest (tail rest : Str) : Prop :=
  (rest = tail ∧ (tail = [] ∨ (∃ c, c < 128 ∧ tail = [c]) ∨ b!"</" <+: tail)) ∨
  (rest = [] ∧ ∃ line, 10 ∉ line ∧ tail = b!"//" ++ line)

private theorem expect_some {r : Nat} {s t : Str} (h : zncExpect r s = some t) : s = r :: t := by
  cases s with
  | nil => cases h
  | cons c s =>
    rw [zncExpect] at h
    by_cases hc : c = r
    · rw [if_pos hc] at h; cases h; rw [hc]
    · rw [if_neg hc] at h; cases h

private theorem footer_some {s f t : Str} (h : zncFooter s = some (f, t)) :
    s = b!"</" ++ f ++ b!">" ++ t ∧ 62 ∉ f ∧ 10 ∉ f := by
  unfold zncFooter at h
  obtain ⟨s1, h1, h⟩ := Option.bind_eq_some_iff.1 h
  obtain ⟨s2, h2, h⟩ := Option.bind_eq_some_iff.1 h
  obtain ⟨h3, h4⟩ := znc_word_some h
  refine ⟨?_, h4⟩
  rw [expect_some h1, expect_some h2, h3]
  simp

private theorem header_some {s typ name t : Str} (h : zncHeader s = some (typ, name, t)) :
    s = 60 :: (typ ++ 32 :: (name ++ 62 :: t)) ∧ (32 ∉ typ ∧ 10 ∉ typ) ∧ 62 ∉ name ∧ 10 ∉ name := by
  unfold zncHeader at h
  split at h
  · cases h
  · rename_i s1 h1
    split at h
    · cases h
    · rename_i typ' s2 h2
      split at h
      · cases h
      · rename_i name' s3 h3
        simp only [Option.some.injEq, Prod.mk.injEq] at h
        obtain ⟨rfl, rfl, rfl⟩ := h
        obtain ⟨e2, n2⟩ := znc_word_some h2
        obtain ⟨e3, n3⟩ := znc_word_some h3
        exact ⟨by rw [expect_some h1, e2, e3], n2, n3⟩

private theorem pair_some {s k v t : Str} (h : zncPair s = some (k, v, t)) :
    ∃ rk rv, s = rk ++ 61 :: (rv ++ 10 :: t) ∧ 61 ∉ rk ∧ 10 ∉ rk ∧ 10 ∉ rv ∧ k = trimSpaceRunes rk ∧
      v = trimSpaceRunes rv := by
  unfold zncPair at h
  split at h
  · cases h
  · rename_i rk s1 h1
    split at h
    · cases h
    · rename_i rv s2 h2
      simp only [Option.some.injEq, Prod.mk.injEq] at h
      obtain ⟨rfl, rfl, rfl⟩ := h
      obtain ⟨e1, n1, m1⟩ := znc_word_some h1
      obtain ⟨e2, n2, m2⟩ := znc_word_some h2
      exact ⟨rk, rv, by rw [e1, e2], n1, m1, n2, rfl, rfl⟩

/-- What is read is written in the file. -/
theorem znc_sound (n : Nat) : ∀ (vs : List (Str × Str)) (cs : List ZncSection) (s : Str) (vs' : List (Str × Str))
    (cs' : List ZncSection) (rest : Str), zncBody n vs cs s = some (vs', cs', rest) →
    ∃ items text tail, ZncWritten items text ∧ s = text ++ tail ∧ vs' = vs ++ zncSettings items ∧
      cs' = cs ++ zncSectionsOf items ∧ ZncRest tail rest := by
  induction n with
  | zero => intro vs cs s vs' cs' rest h; cases h
  | succ n ih =>
    intro vs cs s vs' cs' rest h
    unfold zncBody at h
    obtain ⟨ws, hb, he, hh⟩ := dropWhile_split s
    change s = ws ++ zncSkipSpace s at he
    change ∀ c, (zncSkipSpace s).head? = some c → isSpaceRune c = false at hh
    generalize zncSkipSpace s = s0 at he hh h
    subst he
    match s0, hh, h with
    | [], _, h =>
      simp only [Option.some.injEq, Prod.mk.injEq] at h
      obtain ⟨rfl, rfl, rfl⟩ := h
      exact ⟨[], ws, [], .done ws hb, rfl, by simp [zncSettings], by simp [zncSectionsOf], .inl ⟨rfl, .inl rfl⟩⟩
    | [c], _, h =>
      dsimp only at h
      by_cases hc : c < 128
      · rw [if_pos hc] at h
        simp only [Option.some.injEq, Prod.mk.injEq] at h
        obtain ⟨rfl, rfl, rfl⟩ := h
        exact ⟨[], ws, [c], .done ws hb, rfl, by simp [zncSettings], by simp [zncSectionsOf],
          .inl ⟨rfl, .inr (.inl ⟨c, hc, rfl⟩)⟩⟩
      · rw [if_neg hc] at h; cases h
    | c :: d :: s, hh, h =>
      dsimp only at h
      by_cases hc : c = 60
      · rw [if_pos hc] at h
        subst hc
        by_cases hd : d = 47
        · rw [if_pos hd] at h
          simp only [Option.some.injEq, Prod.mk.injEq] at h
          obtain ⟨rfl, rfl, rfl⟩ := h
          subst hd
          exact ⟨[], ws, 60 :: 47 :: s, .done ws hb, rfl, by simp [zncSettings], by simp [zncSectionsOf],
            .inl ⟨rfl, .inr (.inr ⟨s, rfl⟩)⟩⟩
        · rw [if_neg hd] at h
          split at h
          · cases h
          · rename_i typ name s1 h1
            split at h
            · cases h
            · rename_i cvs ccs s2 h2
              split at h
              · cases h
              · rename_i footer s3 h3
                by_cases hf : footer ≠ typ
                · rw [if_pos hf] at h; cases h
                · rw [if_neg hf] at h
                  simp only [ne_eq, Decidable.not_not] at hf
                  subst hf
                  obtain ⟨e1, n1, m1⟩ := header_some h1
                  obtain ⟨e3, n3⟩ := footer_some h3
                  obtain ⟨body, inner, t2, w2, e2, hv2, hc2, r2⟩ := ih _ _ _ _ _ _ h2
                  obtain ⟨items, text, tail, w4, e4, hv4, hc4, r4⟩ := ih _ _ _ _ _ _ h
                  have ht2 : s2 = t2 := by
                    rcases r2 with ⟨r2, -⟩ | ⟨r2, -⟩
                    · exact r2
                    · rw [r2] at e3; simp at e3
                  subst ht2
                  refine ⟨.sect footer name body :: items, _, tail, .sect ws footer name hb ⟨n1.1, n3.1, n1.2, ?_⟩ m1.1 m1.2 w2 w4,
                    ?_, ?_, ?_, r4⟩
                  · rintro ⟨x, hx⟩
                    rw [← hx] at e1
                    simp only [List.cons_append, List.nil_append, List.cons.injEq, true_and] at e1
                    exact hd e1.1
                  · rw [e1, e2, e3, e4]; simp
                  · rw [hv4]; rfl
                  · rw [hc4, hv2, hc2]; simp [zncSectionsOf, zncSectionOf]
      · rw [if_neg hc] at h
        by_cases hcm : c = 47 ∧ d = 47
        · rw [if_pos hcm] at h
          obtain ⟨rfl, rfl⟩ := hcm
          simp only [zncSkipComment, zncExpect, if_pos, Option.bind_some, Option.map_some] at h
          rcases znc_skip_cases s with ⟨h1, h2⟩ | ⟨l, h1, h2⟩
          · rw [h2] at h
            cases n with
            | zero => cases h
            | succ n =>
              simp only [zncBody, zncSkipSpace, List.dropWhile_nil, Option.some.injEq, Prod.mk.injEq] at h
              obtain ⟨rfl, rfl, rfl⟩ := h
              exact ⟨[], ws, 47 :: 47 :: s, .done ws hb, rfl, by simp [zncSettings], by simp [zncSectionsOf],
                .inr ⟨rfl, s, h1, rfl⟩⟩
          · obtain ⟨items, text, tail, w4, e4, hv4, hc4, r4⟩ := ih _ _ _ _ _ _ h
            refine ⟨items, _, tail, .comment ws l hb h1 w4, ?_, hv4, hc4, r4⟩
            rw [h2, e4]; simp
        · rw [if_neg hcm] at h
          split at h
          · cases h
          · rename_i k v s1 h1
            obtain ⟨rk, rv, e1, k1, k2, v1, rfl, rfl⟩ := pair_some h1
            obtain ⟨items, text, tail, w4, e4, hv4, hc4, r4⟩ := ih _ _ _ _ _ _ h
            refine ⟨.value (trimSpaceRunes rk) (trimSpaceRunes rv) :: items, _, tail,
              .value ws rk rv _ _ hb k1 k2 v1 ?_ ?_ ?_ (trims_self rk) (trims_self rv) w4, ?_, ?_, ?_, r4⟩
            · rintro ⟨x, hx⟩
              rw [← hx] at e1
              simp only [List.cons_append, List.nil_append, List.cons.injEq] at e1
              exact hc e1.1
            · rintro ⟨x, hx⟩
              rw [← hx] at e1
              simp only [List.cons_append, List.nil_append, List.cons.injEq] at e1
              exact hcm ⟨e1.1, e1.2.1⟩
            · intro x hx
              refine hh x ?_
              rw [e1]
              cases rk with
              | nil => cases hx
              | cons y rk => exact hx
            · rw [e1, e4]; simp
            · rw [hv4]; simp [zncSettings]
            · rw [hc4]; simp [zncSectionsOf, zncSectionOf]

end Verif.Proof
