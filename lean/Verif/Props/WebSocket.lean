import Verif.Model.WebSocket

/-! # C107: clients on a WebSocket -/

namespace Verif.Props
open Verif.Model

/-! ## Specification -/

/-- The bytes of a character. -/
def utf8Encode (cp : Nat) : Str :=
  if cp < 0x80 then [cp]
  else if cp < 0x800 then [0xC0 + cp / 64, 0x80 + cp % 64]
  else if cp < 0x10000 then [0xE0 + cp / 4096, 0x80 + cp / 64 % 64, 0x80 + cp % 64]
  else [0xF0 + cp / 262144, 0x80 + cp / 4096 % 64, 0x80 + cp / 64 % 64, 0x80 + cp % 64]

/-- The characters of Unicode. -/
def Scalar (cp : Nat) : Prop := cp < 0xD800 ∨ (0xE000 ≤ cp ∧ cp < 0x110000)

/-- A text in UTF-8. -/
def ValidUtf8 (s : Str) : Prop := ∃ cps : List Nat, (∀ cp ∈ cps, Scalar cp) ∧ s = cps.flatMap utf8Encode

/-- Bytes no character begins with. -/
def NeverFirst (b : Byte) : Prop := (0x80 ≤ b ∧ b < 0xC2) ∨ 0xF5 ≤ b

/-! ## Proofs -/

private theorem cont_some {b : Option Byte} {lo hi : Byte} (h : utf8Cont b lo hi = true) : ∃ x, b = some x ∧ lo ≤ x ∧ x ≤ hi := by
  unfold utf8Cont at h
  cases b with
  | none => cases h
  | some x => exact ⟨x, rfl, by simpa using h⟩

private theorem width_pos (c : Byte) (s : Str) : 1 ≤ utf8Width (c :: s) := by
  unfold utf8Width
  dsimp only
  repeat' split
  all_goals omega

theorem width_char (c : Byte) (s : Str) (h : utf8Width (c :: s) ≠ 1) :
    ∃ cp t, Scalar cp ∧ 128 ≤ cp ∧ utf8Encode cp = c :: s.take (utf8Width (c :: s) - 1) ∧
      s = s.take (utf8Width (c :: s) - 1) ++ t ∧ s.drop (utf8Width (c :: s) - 1) = t := by
  have split1 : ∀ n, s = s.take n ++ s.drop n := fun n => (List.take_append_drop n s).symm
  unfold utf8Width at h ⊢
  dsimp only at h ⊢
  split
  · rename_i h2
    rw [if_pos h2] at h
    split
    · rename_i hc
      obtain ⟨x, hx, h3, h4⟩ := cont_some hc
      refine ⟨(c - 0xC0) * 64 + (x - 0x80), _, by unfold Scalar; omega, by omega, ?_, split1 _, rfl⟩
      cases s with
      | nil => cases hx
      | cons y s =>
        have : y = x := by simpa using hx
        subst this
        unfold utf8Encode
        rw [if_neg (by omega), if_pos (by omega)]
        simp only [Nat.reduceSub, List.take_succ_cons, List.take_zero, List.cons.injEq, and_true]
        refine ⟨by omega, by omega⟩
    · rename_i hc; rw [if_neg hc] at h; exact absurd rfl h
  · rename_i h2
    rw [if_neg h2] at h
    split
    · rename_i h3
      rw [if_pos h3] at h
      generalize hlo : (if c = 0xE0 then 0xA0 else 0x80 : Nat) = lo at h ⊢
      generalize hhi : (if c = 0xED then 0x9F else 0xBF : Nat) = hi at h ⊢
      split
      · rename_i hc
        rw [Bool.and_eq_true] at hc
        obtain ⟨x, hx, hx1, hx2⟩ := cont_some hc.1
        obtain ⟨y, hy, hy1, hy2⟩ := cont_some hc.2
        have hE0 : c = 0xE0 → 0xA0 ≤ x := by intro e; rw [if_pos e] at hlo; omega
        have hED : c = 0xED → x ≤ 0x9F := by intro e; rw [if_pos e] at hhi; omega
        have hx1 : 0x80 ≤ x := by split at hlo <;> omega
        have hx2 : x ≤ 0xBF := by split at hhi <;> omega
        refine ⟨(c - 0xE0) * 4096 + (x - 0x80) * 64 + (y - 0x80), _, by unfold Scalar; omega, by omega, ?_, split1 _, rfl⟩
        match s, hx, hy with
        | a :: b :: s, hx, hy =>
          have : a = x := by simpa using hx
          subst this
          have : b = y := by simpa using hy
          subst this
          unfold utf8Encode
          rw [if_neg (by omega), if_neg (by omega), if_pos (by omega)]
          simp only [Nat.reduceSub, List.take_succ_cons, List.take_zero, List.cons.injEq, and_true]
          refine ⟨by omega, by omega, by omega⟩
      · rename_i hc; rw [if_neg hc] at h; exact absurd rfl h
    · rename_i h3
      rw [if_neg h3] at h
      split
      · rename_i h4
        rw [if_pos h4] at h
        generalize hlo : (if c = 0xF0 then 0x90 else 0x80 : Nat) = lo at h ⊢
        generalize hhi : (if c = 0xF4 then 0x8F else 0xBF : Nat) = hi at h ⊢
        split
        · rename_i hc
          rw [Bool.and_eq_true, Bool.and_eq_true] at hc
          obtain ⟨x, hx, hx1, hx2⟩ := cont_some hc.1.1
          obtain ⟨y, hy, hy1, hy2⟩ := cont_some hc.1.2
          obtain ⟨z, hz, hz1, hz2⟩ := cont_some hc.2
          have hF0 : c = 0xF0 → 0x90 ≤ x := by intro e; rw [if_pos e] at hlo; omega
          have hF4 : c = 0xF4 → x ≤ 0x8F := by intro e; rw [if_pos e] at hhi; omega
          have hx1 : 0x80 ≤ x := by split at hlo <;> omega
          have hx2 : x ≤ 0xBF := by split at hhi <;> omega
          refine ⟨(c - 0xF0) * 262144 + (x - 0x80) * 4096 + (y - 0x80) * 64 + (z - 0x80), _, by unfold Scalar; omega, by omega, ?_,
            split1 _, rfl⟩
          match s, hx, hy, hz with
          | a :: b :: d :: s, hx, hy, hz =>
            have : a = x := by simpa using hx
            subst this
            have : b = y := by simpa using hy
            subst this
            have : d = z := by simpa using hz
            subst this
            unfold utf8Encode
            rw [if_neg (by omega), if_neg (by omega), if_neg (by omega)]
            simp only [Nat.reduceSub, List.take_succ_cons, List.take_zero, List.cons.injEq, and_true]
            refine ⟨by omega, by omega, by omega, by omega⟩
        · rename_i hc; rw [if_neg hc] at h; exact absurd rfl h
      · rename_i h4; rw [if_neg h4] at h; exact absurd rfl h

/-- A character that is not ASCII is recognised. -/
theorem width_encode (cp : Nat) (hs : Scalar cp) (h : 128 ≤ cp) (t : Str) :
    ∃ c r, utf8Encode cp = c :: r ∧ 128 ≤ c ∧ utf8Width (c :: (r ++ t)) = r.length + 1 ∧ 1 ≤ r.length ∧ ∀ b ∈ r, 128 ≤ b := by
  unfold Scalar at hs
  unfold utf8Encode
  rw [if_neg (by omega)]
  by_cases h2 : cp < 0x800
  · rw [if_pos h2]
    refine ⟨_, _, rfl, by omega, ?_, by simp, by intro b hb; simp at hb; omega⟩
    unfold utf8Width
    dsimp only
    rw [if_pos (by omega), if_pos (by simp [utf8Cont]; omega)]
    rfl
  · rw [if_neg h2]
    by_cases h3 : cp < 0x10000
    · rw [if_pos h3]
      refine ⟨_, _, rfl, by omega, ?_, by simp, by intro b hb; simp at hb; omega⟩
      unfold utf8Width
      dsimp only
      rw [if_neg (by omega), if_pos (by omega), if_pos]
      · rfl
      · simp only [List.cons_append, List.nil_append, List.getElem?_cons_zero, List.getElem?_cons_succ, utf8Cont, Bool.and_eq_true,
          decide_eq_true_eq]
        refine ⟨⟨?_, ?_⟩, by omega, by omega⟩
        · split <;> omega
        · split <;> omega
    · rw [if_neg h3]
      refine ⟨_, _, rfl, by omega, ?_, by simp, by intro b hb; simp at hb; omega⟩
      unfold utf8Width
      dsimp only
      rw [if_neg (by omega), if_neg (by omega), if_pos (by omega), if_pos]
      · rfl
      · simp only [List.cons_append, List.nil_append, List.getElem?_cons_zero, List.getElem?_cons_succ, utf8Cont, Bool.and_eq_true,
          decide_eq_true_eq]
        refine ⟨⟨⟨?_, ?_⟩, by omega, by omega⟩, by omega, by omega⟩
        · split <;> omega
        · split <;> omega

private theorem valid_nil : ValidUtf8 [] := ⟨[], by simp, rfl⟩

private theorem valid_append {a b : Str} (ha : ValidUtf8 a) (hb : ValidUtf8 b) : ValidUtf8 (a ++ b) := by
  obtain ⟨x, hx, rfl⟩ := ha
  obtain ⟨y, hy, rfl⟩ := hb
  refine ⟨x ++ y, ?_, by rw [List.flatMap_append]⟩
  intro cp h
  rcases List.mem_append.1 h with h | h
  · exact hx cp h
  · exact hy cp h

private theorem valid_char {cp : Nat} (h : Scalar cp) : ValidUtf8 (utf8Encode cp) :=
  ⟨[cp], by simpa using h, by simp⟩

private theorem loop_valid (inv : Bool) (s : Str) : ValidUtf8 (toValidLoop inv s) := by
  induction hn : s.length using Nat.strongRecOn generalizing inv s with
  | _ n ih =>
    subst hn
    cases s with
    | nil => rw [toValidLoop]; exact valid_nil
    | cons c s =>
      rw [toValidLoop]
      split
      · rename_i hc
        have h1 : ValidUtf8 [c] := by
          have := @valid_char c (by unfold Scalar; omega)
          unfold utf8Encode at this
          rw [if_pos hc] at this
          exact this
        exact valid_append h1 (ih s.length (by simp) false s rfl)
      · split
        · refine valid_append ?_ (ih s.length (by simp) true s rfl)
          split
          · exact valid_nil
          · exact @valid_char 0xFFFD (by unfold Scalar; omega)
        · rename_i hw
          obtain ⟨cp, t, hs, -, he, -, hd⟩ := width_char c s hw
          rw [← he]
          exact valid_append (valid_char hs) (ih _ (by simp; omega) false _ rfl)

private theorem loop_char (inv : Bool) (cp : Nat) (h : Scalar cp) (t : Str) :
    toValidLoop inv (utf8Encode cp ++ t) = utf8Encode cp ++ toValidLoop false t := by
  by_cases hc : cp < 128
  · unfold utf8Encode
    rw [if_pos hc]
    show toValidLoop inv (cp :: t) = _
    rw [toValidLoop, if_pos hc]
    rfl
  · obtain ⟨c, r, e, h1, h2, h3, -⟩ := width_encode cp h (by omega) t
    rw [e]
    show toValidLoop inv (c :: (r ++ t)) = _
    rw [toValidLoop, if_neg (by omega), h2, if_neg (by omega)]
    simp

private theorem loop_unchanged (inv : Bool) (v t : Str) (h : ValidUtf8 v) (hv : v ≠ []) :
    toValidLoop inv (v ++ t) = v ++ toValidLoop false t := by
  obtain ⟨cps, h1, rfl⟩ := h
  induction cps generalizing inv with
  | nil => exact absurd rfl hv
  | cons cp cps ih =>
    rw [List.flatMap_cons, List.append_assoc, loop_char inv cp (h1 cp (by simp)), List.append_assoc]
    by_cases hn : cps.flatMap utf8Encode = []
    · rw [hn]; rfl
    · rw [ih false (fun x hx => h1 x (by simp [hx])) hn]

private theorem loop_never (inv : Bool) (bad t : Str) (h : ∀ b ∈ bad, NeverFirst b) (hb : bad ≠ []) :
    toValidLoop inv (bad ++ t) = (if inv then [] else [0xEF, 0xBF, 0xBD]) ++ toValidLoop true t := by
  have w : ∀ b t, NeverFirst b → ¬ b < 128 ∧ utf8Width (b :: t) = 1 := by
    intro b t hb
    unfold NeverFirst at hb
    refine ⟨by omega, ?_⟩
    unfold utf8Width
    dsimp only
    rw [if_neg (by omega), if_neg (by omega), if_neg (by omega)]
  induction bad generalizing inv with
  | nil => exact absurd rfl hb
  | cons b bad ih =>
    obtain ⟨w1, w2⟩ := w b (bad ++ t) (h b (by simp))
    rw [List.cons_append, toValidLoop, if_neg w1, if_pos w2]
    by_cases hn : bad = []
    · subst hn; rfl
    · rw [ih true (fun x hx => h x (by simp [hx])) hn]; rfl

/-! ## Theorems -/

/-- Whatever bytes a message has, its frame is text in UTF-8, as the protocol demands of text frames. -/
theorem C107_text (line : Str) : ValidUtf8 (wsWrite line) := loop_valid false line

/-- A message that is in UTF-8 is sent as it is. -/
theorem C107_unchanged (line : Str) (h : ValidUtf8 line) : wsWrite line = line := by
  unfold wsWrite
  by_cases hn : line = []
  · subst hn; rw [toValidLoop]
  · have := loop_unchanged false line [] h hn
    rw [List.append_nil] at this
    rw [this, toValidLoop, List.append_nil]

/-- The characters of ASCII, and with them the spaces and colons that make up a message, are kept in any case. -/
theorem C107_ascii (line : Str) : (wsWrite line).filter (· < 128) = line.filter (· < 128) := by
  unfold wsWrite
  suffices ∀ inv s, (toValidLoop inv s).filter (· < 128) = s.filter (· < 128) from this false line
  intro inv s
  induction hn : s.length using Nat.strongRecOn generalizing inv s with
  | _ n ih =>
    subst hn
    cases s with
    | nil => rw [toValidLoop]
    | cons c s =>
      rw [toValidLoop]
      split
      · rename_i hc
        rw [List.filter_cons_of_pos (by simpa using hc), List.filter_cons_of_pos (by simpa using hc), ih s.length (by simp) false s rfl]
      · rename_i hc
        split
        · rw [List.filter_append, ih s.length (by simp) true s rfl, List.filter_cons_of_neg (by simpa using hc)]
          cases inv <;> rfl
        · rename_i hw
          obtain ⟨cp, t, hs, h8, he, hst, hd⟩ := width_char c s hw
          obtain ⟨c', r, e, h1, -, -, h4⟩ := width_encode cp hs h8 []
          rw [← he, hd, List.filter_append, ih t.length (by rw [hst]; simp; omega) false t rfl]
          rw [he] at e
          have e1 : c = c' := (List.cons.inj e).1
          have e2 : s.take (utf8Width (c :: s) - 1) = r := (List.cons.inj e).2
          rw [e2] at hst
          have : (utf8Encode cp).filter (· < 128) = [] := by
            rw [he, e2, List.filter_eq_nil_iff]
            intro b hb
            rcases List.mem_cons.1 hb with rfl | hb
            · simp; omega
            · have := h4 b hb; simp; omega
          have hr : r.filter (· < 128) = [] :=
            List.filter_eq_nil_iff.2 (fun b hb => by have := h4 b hb; simp; omega)
          rw [this, List.filter_cons_of_neg (by simpa using hc), hst, List.filter_append, hr]

/-- Bytes that cannot be read are replaced, as many as there are in a row, by one replacement character (U+FFFD), and the
text before and after them is kept. -/
theorem C107_replaced (v bad w : Str) (hv : ValidUtf8 v) (hb : bad ≠ []) (hbad : ∀ b ∈ bad, NeverFirst b) (hw : ValidUtf8 w) :
    wsWrite (v ++ bad ++ w) = v ++ utf8Encode 0xFFFD ++ w := by
  have h1 : toValidLoop false (bad ++ w) = utf8Encode 0xFFFD ++ w := by
    rw [loop_never false bad w hbad hb]
    by_cases hn : w = []
    · subst hn; rw [toValidLoop]; rfl
    · have := loop_unchanged true w [] hw hn
      rw [List.append_nil] at this
      rw [this, toValidLoop, List.append_nil]
      rfl
  unfold wsWrite
  rw [List.append_assoc, List.append_assoc]
  by_cases hn : v = []
  · subst hn; exact h1
  · rw [loop_unchanged false v _ hv hn, h1]

/-- A frame should hold one message.  One with a line break in it is taken as a message whose text has the line break in
it, and passed on to a server, or to a client on a plain connection, it is two lines: the second is a message of its own. -/
theorem C107_line_violated : ∃ (frame : Str) (m : Msg), wsRead (.frame frame) = .msg m ∧
    splitByte 10 (msgString m) = [b!"PRIVMSG #c :hello", b!"QUIT :bye"] := by
  refine ⟨b!"PRIVMSG #c :hello\nQUIT :bye", ⟨b!"PRIVMSG", [b!"#c", b!"hello\nQUIT :bye"]⟩, by decide, by decide⟩

example : ValidUtf8 (b!"a" ++ utf8Encode 0xE9 ++ utf8Encode 0x1F600) ∧ NeverFirst 0xFF ∧
    wsWrite (b!"a" ++ [0xC3, 0x28, 0xFF, 0xFE] ++ b!"b") = b!"a" ++ [0xEF, 0xBF, 0xBD] ++ b!"(" ++ [0xEF, 0xBF, 0xBD] ++ b!"b" := by
  refine ⟨⟨[97, 0xE9, 0x1F600], by intro cp h; simp at h; unfold Scalar; omega, by simp [utf8Encode]⟩, by unfold NeverFirst; omega, ?_⟩
  unfold wsWrite
  simp [toValidLoop, utf8Width, utf8Cont]

end Verif.Props
