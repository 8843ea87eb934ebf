import Verif.Basic

/-! # Patterns with wildcards

The syntax and the meaning of the patterns of Go's `path.Match`, as documented there: `*` is any sequence of
characters other than `/`, `?` any one such character, `[a-z]` and `[^a-z]` classes of characters, and a backslash
quotes the next character.  Independent of the model. -/

namespace Verif.Spec

/-- A part of a pattern. -/
inductive GlobTok where
  | star
  | any
  | lit (c : Nat)
  /-- characters in one of these ranges, or in none of them -/
  | cls (negated : Bool) (ranges : List (Nat × Nat))
deriving DecidableEq, Repr

/-- One character of a class, as written: 92 is the backslash, 45 '-', 93 ']'. -/
inductive ClassChar : List Nat → Nat → List Nat → Prop
  | plain (c rest) (h : c ≠ 45 ∧ c ≠ 93 ∧ c ≠ 92) : ClassChar (c :: rest) c rest
  | quoted (c rest) : ClassChar (92 :: c :: rest) c rest

/-- The ranges of a class up to its `]`, as written. -/
inductive ClassBody : List Nat → List (Nat × Nat) → List Nat → Prop
  | close (rest) : ClassBody (93 :: rest) [] rest
  | one {text c text' ranges rest} (h : ClassChar text c text') (hd : text'.head? ≠ some 45)
      (hr : ClassBody text' ranges rest) : ClassBody text ((c, c) :: ranges) rest
  | range {text lo text' hi text'' ranges rest} (h : ClassChar text lo (45 :: text')) (h' : ClassChar text' hi text'')
      (hr : ClassBody text'' ranges rest) : ClassBody text ((lo, hi) :: ranges) rest

/-- A pattern, as written: 42 is '*', 63 '?', 91 '[', 94 '^'. -/
inductive GlobSyntax : List Nat → List GlobTok → Prop
  | nil : GlobSyntax [] []
  | star {p toks} (h : GlobSyntax p toks) : GlobSyntax (42 :: p) (.star :: toks)
  | any {p toks} (h : GlobSyntax p toks) : GlobSyntax (63 :: p) (.any :: toks)
  | quoted {c p toks} (h : GlobSyntax p toks) : GlobSyntax (92 :: c :: p) (.lit c :: toks)
  | plain {c p toks} (hc : c ≠ 42 ∧ c ≠ 63 ∧ c ≠ 91 ∧ c ≠ 92) (h : GlobSyntax p toks) : GlobSyntax (c :: p) (.lit c :: toks)
  | cls {body ranges p toks} (hb : ClassBody body ranges p) (hne : ranges ≠ []) (hn : body.head? ≠ some 94)
      (h : GlobSyntax p toks) : GlobSyntax (91 :: body) (.cls false ranges :: toks)
  | negated {body ranges p toks} (hb : ClassBody body ranges p) (hne : ranges ≠ []) (h : GlobSyntax p toks) :
      GlobSyntax (91 :: 94 :: body) (.cls true ranges :: toks)

/-- The characters a part other than `*` stands for; 47 is '/'. -/
def GlobTok.accepts : GlobTok → Nat → Bool
  | .star, _ => false
  | .any, c => c ≠ 47
  | .lit d, c => c = d
  | .cls negated ranges, c => ranges.any (fun r => decide (r.1 ≤ c ∧ c ≤ r.2)) != negated

/-- The texts a pattern stands for. -/
inductive GlobMatch : List GlobTok → List Nat → Prop
  | nil : GlobMatch [] []
  | star {toks s} (pre) (hp : 47 ∉ pre) (h : GlobMatch toks s) : GlobMatch (.star :: toks) (pre ++ s)
  | item {tok toks c s} (ha : tok.accepts c = true) (h : GlobMatch toks s) : GlobMatch (tok :: toks) (c :: s)

/-- No class of the pattern contains `/`. -/
def SlashByName (toks : List GlobTok) : Prop :=
  ∀ t ∈ toks, t.accepts 47 = true → t = .lit 47

end Verif.Spec
