import Verif.Model.Isupport
import Verif.Props.Modes
import Verif.Props.GenMsg
import Verif.Proof.GoStr
import Verif.Proof.Util

/-! # C48: the features announced by the server -/

namespace Verif.Props
open Verif.Model Verif.Spec Verif.Proof

/-! ## Specification -/

/-- The name of a token: what precedes the first `=`, in upper case. -/
def saidName (t : Str) : Str := (t.takeWhile (fun c => decide (c ≠ 61))).map upperByte

/-- The value of a token: what follows the first `=`. -/
def saidValue (t : Str) : Option Str := ((t.dropWhile (fun c => decide (c ≠ 61))).tail?)

/-- The last token of this name: `none` if there is none, `some none` if it has no value. -/
def lastSaid (name : Str) (toks : List Str) : Option (Option Str) :=
  (toks.reverse.find? (fun t => decide (saidName t = name))).map saidValue

/-- The value of a CHANMODES token: four lists of letters, and possibly more. -/
def ChanModesValue (v a b c d : Str) : Prop :=
  44 ∉ a ∧ 44 ∉ b ∧ 44 ∉ c ∧ 44 ∉ d ∧ ∃ rest, v = a ++ 44 :: (b ++ 44 :: (c ++ 44 :: (d ++ rest))) ∧
    (rest = [] ∨ rest.head? = some 44)

/-- The value of a PREFIX token: the modes in parentheses, then the signs in the same order. -/
def PrefixValue (v : Str) (l : List Model.Membership) : Prop :=
  (v = [] ∧ l = []) ∨ (41 ∉ l.map (·.mode) ∧ v = 40 :: l.map (·.mode) ++ 41 :: l.map (·.pfx))

/-- A token that is not a negation and whose value is well formed. -/
def PlainToken (t : Str) : Prop :=
  t.head? ≠ some 45 ∧
  (saidName t = b!"CHANMODES" → ∃ a b c d, ChanModesValue ((saidValue t).getD []) a b c d) ∧
  (saidName t = b!"PREFIX" → ∃ l, PrefixValue ((saidValue t).getD []) l)

/-- The tokens of a connection, in order. -/
def tokensOf (ops : List IsOp) : List Str := ops.flatMap (fun o => match o with | .isupport l => l | .motd => [])

/-- The features clients are told about: limits on lengths, limits on numbers, lists and bans, the names of channels and
modes, status prefixes, the network, and optional commands. -/
def clientFeatures : List Str :=
  [b!"AWAYLEN", b!"CHANNELLEN", b!"HOSTLEN", b!"KICKLEN", b!"LINELEN", b!"NAMELEN", b!"NICKLEN", b!"TOPICLEN", b!"USERLEN",
   b!"CHANLIMIT", b!"MAXLIST", b!"MAXTARGETS", b!"MODES", b!"TARGMAX",
   b!"ACCOUNTEXTBAN", b!"EXCEPTS", b!"EXTBAN", b!"INVEX", b!"ELIST", b!"SAFELIST",
   b!"CASEMAPPING", b!"CHANMODES", b!"CHANTYPES", b!"PREFIX", b!"STATUSMSG",
   b!"NETWORK", b!"UTF8ONLY", b!"CLIENTTAGDENY", b!"BOT", b!"MONITOR", b!"WHOX"]

/-- The property of the statement for negated tokens: such a token puts the prefixes of channel names back to the
default. -/
def NegationRestores : Prop :=
  ∀ cm ops, (isRun cm (ops ++ [.isupport [b!"-CHANTYPES"]])).chanTypes = b!"#&+!"

/-! ## Proofs -/

private theorem features_perm : passthroughIsupport.Perm clientFeatures := by decide +kernel

private theorem lastSaid_snoc (name : Str) (toks : List Str) (t : Str) :
    lastSaid name (toks ++ [t]) = if saidName t = name then some (saidValue t) else lastSaid name toks := by
  unfold lastSaid
  rw [List.reverse_append, List.reverse_singleton, List.singleton_append, List.find?_cons]
  by_cases h : saidName t = name
  · simp [h]
  · simp [h]

private theorem not_mem_takeWhile (t : Str) : 61 ∉ t.takeWhile (fun c => decide (c ≠ 61)) := by
  induction t with
  | nil => simp
  | cons c t ih =>
    rw [List.takeWhile_cons]
    split
    · rename_i h
      simp only [List.mem_cons, not_or]
      exact ⟨fun e => by simp [← e] at h, ih⟩
    · simp

private theorem takeWhile_self {p : Byte → Bool} {l : Str} (h : ∀ c ∈ l, p c = true) :
    l.takeWhile p = l ∧ l.dropWhile p = [] := by
  induction l with
  | nil => exact ⟨rfl, rfl⟩
  | cons c l ih =>
    have := ih (fun d hd => h d (by simp [hd]))
    simp [h c (by simp), this]

private theorem cut_said (t : Str) :
    (∃ p v, cutStr b!"=" t = some (p, v) ∧ saidValue t = some v ∧ asciiUpper p = saidName t) ∨
    (cutStr b!"=" t = none ∧ saidValue t = none ∧ asciiUpper t = saidName t) := by
  by_cases h : 61 ∈ t
  · left
    have hd : t = t.takeWhile (fun c => decide (c ≠ 61)) ++ t.dropWhile (fun c => decide (c ≠ 61)) :=
      (List.takeWhile_append_dropWhile).symm
    cases hx : t.dropWhile (fun c => decide (c ≠ 61)) with
    | nil =>
      rw [hx, List.append_nil] at hd
      rw [hd] at h
      exact absurd h (not_mem_takeWhile t)
    | cons c v =>
      have hc : c = 61 := by
        have := List.head?_dropWhile_not (fun c => decide (c ≠ 61)) t
        rw [hx] at this
        simpa using this
      subst hc
      refine ⟨t.takeWhile (fun c => decide (c ≠ 61)), v, ?_, ?_, rfl⟩
      · conv => lhs; rw [hd, hx]
        apply cutStr_byte
        exact not_mem_takeWhile t
      · unfold saidValue
        rw [hx]
        rfl
  · right
    have h1 : t.takeWhile (fun c => decide (c ≠ 61)) = t ∧ t.dropWhile (fun c => decide (c ≠ 61)) = [] := by
      have : ∀ c ∈ t, decide (c ≠ 61) = true := by
        intro c hc
        have : c ≠ 61 := by rintro rfl; exact h hc
        simpa using this
      exact takeWhile_self this
    refine ⟨cutStr_byte_none 61 t h, ?_, ?_⟩
    · unfold saidValue; rw [h1.2]; rfl
    · unfold saidName asciiUpper; rw [h1.1]

private theorem token_plain (st : IsState) (t : Str) (h : t.head? ≠ some 45) :
    isupportToken st t =
      let r := isupportSwitch { st with isupport := GoMap.set st.isupport (saidName t) (saidValue t) } (saidName t)
        ((saidValue t).getD []) false
      (r.1, if r.2 = false ∧ saidName t ∈ passthroughIsupport then some t else none, r.2) := by
  have hn : hasPrefix b!"-" t = false := by
    cases t with
    | nil => rfl
    | cons c t =>
      have : c ≠ 45 := by simpa using h
      simp [hasPrefix, List.isPrefixOf, Ne.symm this]
  unfold isupportToken
  rw [hn]
  rcases cut_said t with ⟨p, v, h1, h2, h3⟩ | ⟨h1, h2, h3⟩
  · simp only [if_false, Bool.false_eq_true, h1, h2, h3, Option.getD_some]
  · simp only [if_false, Bool.false_eq_true, h1, h2, h3, Option.getD_none]

private theorem chanModes_value {v a b c d : Str} (h : ChanModesValue v a b c d) :
    handleChanModes v = some (addChanModes (addChanModes (addChanModes (addChanModes [] .A a) .B b) .C c) .D d) := by
  obtain ⟨ha, hb, hc, hd, rest, rfl, hr⟩ := h
  unfold handleChanModes
  rw [splitByte_append, splitByte_append, splitByte_append, splitByte_free _ _ ha, splitByte_free _ _ hb,
    splitByte_free _ _ hc]
  rcases hr with rfl | hr
  · rw [List.append_nil, splitByte_free _ _ hd]
    rfl
  · cases rest with
    | nil => cases hr
    | cons x rest =>
      simp only [List.head?_cons, Option.some.injEq] at hr
      subst hr
      rw [splitByte_append, splitByte_free _ _ hd]
      rfl

private theorem prefix_value {v : Str} {l : List Model.Membership} (h : PrefixValue v l) : handleMemberships v = some l := by
  rcases h with ⟨rfl, rfl⟩ | ⟨h1, rfl⟩
  · rfl
  · exact C03_prefix_token l (fun m hm e => h1 (List.mem_map.2 ⟨m, hm, e⟩))

private theorem addChanModes_get (m : GoMap Byte ModeType) (mt : ModeType) (part : Str) (x : Byte) :
    GoMap.get (addChanModes m mt part) x = if x ∈ part then some mt else GoMap.get m x := by
  unfold addChanModes
  induction part generalizing m with
  | nil => simp
  | cons c part ih =>
    rw [List.foldl_cons, ih, mget_mset]
    by_cases h1 : x ∈ part
    · simp [h1]
    · by_cases h2 : c = x
      · simp [h1, h2]
      · simp [h1, h2, Ne.symm h2]

private structure IsInv (cm : CaseMapping) (toks : List Str) (motd : Bool) (st : IsState) : Prop where
  map : ∀ name, GoMap.get st.isupport name = lastSaid name toks
  got : st.gotMotd = motd
  casemap : st.casemap = match lastSaid b!"CASEMAPPING" toks with
    | none => if motd then .rfc1459 else cm
    | some v => (parseCaseMapping (v.getD [])).getD .rfc1459
  chanTypes : st.chanTypes = match lastSaid b!"CHANTYPES" toks with | none => b!"#&+!" | some v => v.getD []
  statusMsg : st.statusMsg = match lastSaid b!"STATUSMSG" toks with | none => [] | some v => v.getD []
  rate : st.rateLimit = (lastSaid b!"SOJU.IM/SAFERATE" toks).isNone
  prefs : match lastSaid b!"PREFIX" toks with
    | none => st.memberships = stdMemberships
    | some v => handleMemberships (v.getD []) = some st.memberships
  modes : match lastSaid b!"CHANMODES" toks with
    | none => st.chanModes = stdChannelModes
    | some v => handleChanModes (v.getD []) = some st.chanModes

private theorem inv_token {cm : CaseMapping} {toks : List Str} {motd : Bool} {st : IsState} (h : IsInv cm toks motd st)
    (t : Str) (ht : PlainToken t) :
    (isupportToken st t).2.2 = false ∧ IsInv cm (toks ++ [t]) motd (isupportToken st t).1 := by
  obtain ⟨t1, t2, t3⟩ := ht
  rw [token_plain st t t1]
  dsimp only
  have hmap : ∀ name, GoMap.get (GoMap.set st.isupport (saidName t) (saidValue t)) name = lastSaid name (toks ++ [t]) := by
    intro name
    rw [mget_mset, lastSaid_snoc, h.map]
  generalize GoMap.set st.isupport (saidName t) (saidValue t) = m at hmap
  obtain ⟨-, i2, i3, i4, i5, i6, i7, i8⟩ := h
  generalize hp : saidName t = p at *
  unfold isupportSwitch
  by_cases c1 : p = b!"CASEMAPPING"
  · rw [if_pos c1]
    subst c1
    refine ⟨rfl, hmap, i2, ?_, ?_, ?_, ?_, ?_, ?_⟩ <;> simp only [lastSaid_snoc, hp]
    · rfl
    all_goals (first | exact i4 | exact i5 | exact i6 | exact i7 | exact i8)
  rw [if_neg c1]
  by_cases c2 : p = b!"CHANMODES"
  · rw [if_pos c2]
    obtain ⟨a, b, c, d, hv⟩ := t2 c2
    subst c2
    rw [if_pos rfl, chanModes_value hv]
    refine ⟨rfl, hmap, i2, ?_, ?_, ?_, ?_, ?_, ?_⟩ <;> simp only [lastSaid_snoc, hp]
    · exact i3
    · exact i4
    · exact i5
    · exact i6
    · exact i7
    · exact chanModes_value hv
  rw [if_neg c2]
  by_cases c3 : p = b!"CHANTYPES"
  · rw [if_pos c3]
    subst c3
    refine ⟨rfl, hmap, i2, ?_, ?_, ?_, ?_, ?_, ?_⟩ <;> simp only [lastSaid_snoc, hp]
    · exact i3
    · rfl
    · exact i5
    · exact i6
    · exact i7
    · exact i8
  rw [if_neg c3]
  by_cases c4 : p = b!"STATUSMSG"
  · rw [if_pos c4]
    subst c4
    refine ⟨rfl, hmap, i2, ?_, ?_, ?_, ?_, ?_, ?_⟩ <;> simp only [lastSaid_snoc, hp]
    · exact i3
    · exact i4
    · rfl
    · exact i6
    · exact i7
    · exact i8
  rw [if_neg c4]
  by_cases c5 : p = b!"PREFIX"
  · rw [if_pos c5]
    obtain ⟨l, hv⟩ := t3 c5
    subst c5
    rw [if_pos rfl, prefix_value hv]
    refine ⟨rfl, hmap, i2, ?_, ?_, ?_, ?_, ?_, ?_⟩ <;> simp only [lastSaid_snoc, hp]
    · exact i3
    · exact i4
    · exact i5
    · exact i6
    · exact prefix_value hv
    · exact i8
  rw [if_neg c5]
  by_cases c6 : p = b!"SOJU.IM/SAFERATE"
  · rw [if_pos c6]
    subst c6
    refine ⟨rfl, hmap, i2, ?_, ?_, ?_, ?_, ?_, ?_⟩ <;> simp only [lastSaid_snoc, hp]
    · exact i3
    · exact i4
    · exact i5
    · rfl
    · exact i7
    · exact i8
  rw [if_neg c6]
  refine ⟨rfl, hmap, i2, ?_, ?_, ?_, ?_, ?_, ?_⟩ <;> simp only [lastSaid_snoc, hp, if_neg c1, if_neg c2, if_neg c3, if_neg c4,
    if_neg c5, if_neg c6]
  · exact i3
  · exact i4
  · exact i5
  · exact i6
  · exact i7
  · exact i8

private theorem inv_tokens {cm : CaseMapping} {motd : Bool} (l : List Str) : ∀ {toks : List Str} {st : IsState},
    IsInv cm toks motd st → (∀ t ∈ l, PlainToken t) →
    (isupportTokens st l).2.2 = false ∧ IsInv cm (toks ++ l) motd (isupportTokens st l).1 ∧
    (isupportTokens st l).2.1 = l.filter (fun t => decide (saidName t ∈ passthroughIsupport)) := by
  induction l with
  | nil => intro toks st h _; exact ⟨rfl, by simpa [isupportTokens] using h, rfl⟩
  | cons t l ih =>
    intro toks st h hl
    obtain ⟨e1, e2⟩ := inv_token h t (hl t (by simp))
    obtain ⟨j1, j2, j3⟩ := ih e2 (fun x hx => hl x (by simp [hx]))
    unfold isupportTokens
    dsimp only
    rw [e1, if_neg (by simp)]
    refine ⟨j1, by simpa using j2, ?_⟩
    dsimp only
    rw [j3]
    have hout : (isupportToken st t).2.1 = if saidName t ∈ passthroughIsupport then some t else none := by
      have e1' := e1
      rw [token_plain st t (hl t (by simp)).1] at e1' ⊢
      dsimp only at e1' ⊢
      rw [e1']
      simp
    rw [hout]
    by_cases hp : saidName t ∈ passthroughIsupport
    · simp [hp]
    · simp [hp]

private theorem inv_run (cm : CaseMapping) (ops : List IsOp) (h : ∀ t ∈ tokensOf ops, PlainToken t) :
    IsInv cm (tokensOf ops) (decide (IsOp.motd ∈ ops)) (isRun cm ops) := by
  induction ops using snocInd with
  | nil =>
    exact ⟨fun _ => rfl, rfl, rfl, rfl, rfl, rfl, rfl, rfl⟩
  | snoc ops o ih =>
    have ht : ∀ (l : List IsOp) o, tokensOf (l ++ [o]) = tokensOf l ++ tokensOf [o] := by
      intro l o; unfold tokensOf; rw [List.flatMap_append]
    rw [ht] at h
    have ih := ih (fun t hm => h t (by simp [hm]))
    have hrun : isRun cm (ops ++ [o]) = isStep (isRun cm ops) o := by
      unfold isRun; rw [List.foldl_append]; rfl
    rw [hrun, ht]
    cases o with
    | isupport l =>
      have hl : tokensOf [IsOp.isupport l] = l := by simp [tokensOf]
      rw [hl] at h ⊢
      have hm : decide (IsOp.motd ∈ ops ++ [IsOp.isupport l]) = decide (IsOp.motd ∈ ops) := by simp
      rw [hm]
      exact (inv_tokens l ih (fun t hx => h t (by simp [hx]))).2.1
    | motd =>
      have hl : tokensOf [IsOp.motd] = [] := rfl
      rw [hl, List.append_nil]
      have hm : decide (IsOp.motd ∈ ops ++ [IsOp.motd]) = true := by simp
      rw [hm]
      unfold isStep endOfMotd
      by_cases hg : (isRun cm ops).gotMotd
      · rw [if_pos hg]
        have := ih.got
        rw [hg] at this
        rw [← this] at ih
        exact ih
      · rw [if_neg hg]
        refine ⟨ih.map, rfl, ?_, ih.chanTypes, ih.statusMsg, ih.rate, ih.prefs, ih.modes⟩
        dsimp only
        rw [ih.map b!"CASEMAPPING"]
        have hc := ih.casemap
        cases hx : lastSaid b!"CASEMAPPING" (tokensOf ops) with
        | none => rfl
        | some v =>
          rw [hx] at hc
          cases v with
          | none => rfl
          | some v => exact hc

/-- C48: as long as the server negates no token, every setting of a connection is what the server said last about
it, or the default: the table of features, the case mapping, the prefixes of channel names, of status messages, and
the flood protection.  Missing: negated tokens (`C48_negation_violated`). -/
theorem C48_tracked_partial (cm : CaseMapping) (ops : List IsOp) (h : ∀ t ∈ tokensOf ops, PlainToken t) :
    (∀ name, GoMap.get (isRun cm ops).isupport name = lastSaid name (tokensOf ops)) ∧
    (isRun cm ops).casemap = (match lastSaid b!"CASEMAPPING" (tokensOf ops) with
      | none => if IsOp.motd ∈ ops then .rfc1459 else cm
      | some v => (parseCaseMapping (v.getD [])).getD .rfc1459) ∧
    (isRun cm ops).chanTypes = (match lastSaid b!"CHANTYPES" (tokensOf ops) with | none => b!"#&+!" | some v => v.getD []) ∧
    (isRun cm ops).statusMsg = (match lastSaid b!"STATUSMSG" (tokensOf ops) with | none => [] | some v => v.getD []) ∧
    (isRun cm ops).rateLimit = (lastSaid b!"SOJU.IM/SAFERATE" (tokensOf ops)).isNone := by
  have i := inv_run cm ops h
  refine ⟨i.map, ?_, i.chanTypes, i.statusMsg, i.rate⟩
  have := i.casemap
  rw [this]
  cases lastSaid b!"CASEMAPPING" (tokensOf ops) with
  | none => simp
  | some v => rfl

/-- C48: the membership prefixes are those of the last PREFIX token, and every channel mode has the kind that the
last CHANMODES token gives it.  Missing: negated tokens. -/
theorem C48_modes_partial (cm : CaseMapping) (ops : List IsOp) (h : ∀ t ∈ tokensOf ops, PlainToken t) :
    (lastSaid b!"PREFIX" (tokensOf ops) = none → (isRun cm ops).memberships = stdMemberships) ∧
    (∀ v l, lastSaid b!"PREFIX" (tokensOf ops) = some v → PrefixValue (v.getD []) l → (isRun cm ops).memberships = l) ∧
    (lastSaid b!"CHANMODES" (tokensOf ops) = none → (isRun cm ops).chanModes = stdChannelModes) ∧
    ∀ v a b c d, lastSaid b!"CHANMODES" (tokensOf ops) = some v → ChanModesValue (v.getD []) a b c d →
      ∀ x, GoMap.get (isRun cm ops).chanModes x =
        if x ∈ d then some .D else if x ∈ c then some .C else if x ∈ b then some .B else if x ∈ a then some .A else none := by
  have i := inv_run cm ops h
  refine ⟨fun hn => ?_, fun v l hv hp => ?_, fun hn => ?_, fun v a b c d hv hp x => ?_⟩
  · have := i.prefs; rw [hn] at this; exact this
  · have := i.prefs
    rw [hv] at this
    dsimp only at this
    rw [prefix_value hp] at this
    injection this with this
    exact this.symm
  · have := i.modes; rw [hn] at this; exact this
  · have := i.modes
    rw [hv] at this
    dsimp only at this
    rw [chanModes_value hp] at this
    injection this with this
    rw [← this, addChanModes_get, addChanModes_get, addChanModes_get, addChanModes_get]
    rfl

/-- C48: negating a token does not restore the default. -/
theorem C48_negation_violated : ¬ NegationRestores := by
  intro h
  exact absurd (h .rfc1459 [.isupport [b!"CHANTYPES=#"]]) (by decide)

/-- C48: the clients connected at the time are sent exactly the tokens meant for them, in the server's words, if
these contain no escape sequence.  Missing: tokens with escape sequences (`C48_relayed_violated`), negated tokens. -/
theorem C48_relayed_partial (cm : CaseMapping) (ops : List IsOp) (h : ∀ t ∈ tokensOf ops, PlainToken t) (l : List Str)
    (hl : ∀ t ∈ l, PlainToken t) (hb : ∀ t ∈ l, 92 ∉ t) :
    ((handleIsupport (isRun cm ops) l).2.flatMap (fun m => (m.params.drop 1).dropLast)).map isupportDecode =
      (l.map isupportDecode).filter (fun t => decide (saidName t ∈ clientFeatures)) := by
  have hfeat : ∀ x, x ∈ clientFeatures ↔ x ∈ passthroughIsupport := fun x => features_perm.symm.mem_iff
  simp only [hfeat]
  have i := inv_run cm ops h
  obtain ⟨e1, -, e3⟩ := inv_tokens l i hl
  have hdec : ∀ t : Str, 92 ∉ t → isupportDecode t = t := by
    intro t ht
    induction t with
    | nil => unfold isupportDecode; rfl
    | cons c t ih =>
      have hc : c ≠ 92 := by rintro rfl; simp at ht
      have := ih (fun hm => ht (by simp [hm]))
      rw [isupportDecode.eq_def]
      split
      · rename_i heq; injection heq with heq; exact absurd heq hc
      · rename_i heq; injection heq with h1 h2; rw [← h1, ← h2, this]
      · rename_i heq; cases heq
  have hlm : l.map isupportDecode = l := by
    conv => rhs; rw [← List.map_id l]
    apply List.map_congr_left
    intro t ht
    exact hdec t (hb t ht)
  rw [hlm]
  unfold handleIsupport
  dsimp only
  rw [e1, if_neg (by simp), e3]
  have := (C08_isupport_lossless (l.filter (fun t => decide (saidName t ∈ passthroughIsupport)))).1
  rw [List.map_flatMap]
  exact this

/-- C48: a token with an escape sequence is escaped a second time: the clients see another value. -/
theorem C48_relayed_violated : ∃ t, PlainToken t ∧ saidName t ∈ clientFeatures ∧
    ((handleIsupport (isRun .rfc1459 []) [t]).2.flatMap (fun m => (m.params.drop 1).dropLast)).map isupportDecode ≠
      [isupportDecode t] := by
  refine ⟨b!"NETWORK=My\\x20Net", ⟨by decide, fun h => absurd h (by decide), fun h => absurd h (by decide)⟩, by decide, ?_⟩
  decide +kernel

/-- C48: a client that connects later is told, for every feature it may know, what the server said last.  Missing:
negated tokens. -/
theorem C48_welcome_partial (cm : CaseMapping) (ops : List IsOp) (h : ∀ t ∈ tokensOf ops, PlainToken t) (order : List Str)
    (ho : order.Perm passthroughIsupport) (t : Str) :
    t ∈ welcomeTokens (isRun cm ops) order ↔
      ∃ name ∈ clientFeatures, ∃ v, lastSaid name (tokensOf ops) = some v ∧
        t = match v with | none => name | some v => name ++ b!"=" ++ v := by
  have ho := ho.trans features_perm
  have i := (inv_run cm ops h).map
  unfold welcomeTokens
  rw [List.mem_filterMap]
  constructor
  · rintro ⟨k, hk, he⟩
    refine ⟨k, ho.mem_iff.1 hk, ?_⟩
    rw [i k] at he
    cases hx : lastSaid k (tokensOf ops) with
    | none => rw [hx] at he; cases he
    | some v =>
      rw [hx] at he
      refine ⟨v, rfl, ?_⟩
      cases v with
      | none => injection he with he; exact he.symm
      | some v => injection he with he; exact he.symm
  · rintro ⟨k, hk, v, hv, rfl⟩
    refine ⟨k, ho.mem_iff.2 hk, ?_⟩
    rw [i k, hv]
    cases v <;> rfl

/-! ## The theorems are not about nothing -/

example : (∀ t ∈ [b!"CHANTYPES=#", b!"PREFIX=(ov)@+", b!"chanmodes=eIb,k,l,imnst", b!"WHOX"], PlainToken t) := by
  intro t ht
  simp only [List.mem_cons, List.not_mem_nil, or_false] at ht
  rcases ht with rfl | rfl | rfl | rfl
  · exact ⟨by decide, fun h => absurd h (by decide), fun h => absurd h (by decide)⟩
  · exact ⟨by decide, fun h => absurd h (by decide), fun _ => ⟨[⟨111, 64⟩, ⟨118, 43⟩], Or.inr ⟨by decide, by decide⟩⟩⟩
  · exact ⟨by decide, fun _ => ⟨b!"eIb", b!"k", b!"l", b!"imnst", by decide, by decide, by decide, by decide, [], by decide, Or.inl rfl⟩,
      fun h => absurd h (by decide)⟩
  · exact ⟨by decide, fun h => absurd h (by decide), fun h => absurd h (by decide)⟩

example : lastSaid b!"CHANTYPES" [b!"CHANTYPES=#", b!"whox", b!"chantypes=#&"] = some (some b!"#&") := by decide

end Verif.Props
