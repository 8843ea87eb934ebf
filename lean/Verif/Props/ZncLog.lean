import Verif.Model.ZncLog
import Verif.Spec.ZncLog
import Verif.Proof.GoStr

/-! # C15: logged lines read back as the message that was logged; C49: CTCP and status prefixes -/

namespace Verif.Props
open Verif.Model Verif.Spec Verif.Proof

/-! ## C49 -/

private theorem trimRight_snoc (cs s : Str) (c : Byte) (hc : c ∈ cs) :
    trimRight cs (s ++ [c]) = trimRight cs s := by
  unfold trimRight; simp [hc]

private theorem trimRight_id (cs s : Str) (h : ∀ c, s.getLast? = some c → c ∉ cs) : trimRight cs s = s := by
  induction s using snocInd with
  | nil => rfl
  | snoc s a _ =>
    have := h a (by simp)
    unfold trimRight; simp [this]

private theorem trimLeft_id (cs s : Str) (h : ∀ c, s.head? = some c → c ∉ cs) : trimLeft cs s = s := by
  cases s with
  | nil => rfl
  | cons a s =>
    have := h a rfl
    unfold trimLeft; simp [this]

/-- C49: a message is CTCP exactly when it is a PRIVMSG or NOTICE whose text starts with the byte 0x01. -/
theorem C49_ctcp_iff (command : Str) (params : List Str) :
    (parseCTCP command params).isSome ↔
      (command = b!"PRIVMSG" ∨ command = b!"NOTICE") ∧ ∃ target text more, params = target :: (1 :: text) :: more := by
  unfold parseCTCP
  by_cases hc : command = b!"PRIVMSG" ∨ command = b!"NOTICE"
  · rw [if_neg (not_not_intro hc)]
    match params with
    | [] => simp
    | [_] => simp
    | target :: [] :: more => simp
    | target :: (c :: text) :: more =>
      by_cases h1 : c = 1
      · subst h1
        simp only [hasPrefix, List.isPrefixOf, BEq.rfl, Bool.and_self, not_true_eq_false, if_false]
        constructor
        · intro _; exact ⟨hc, target, text, more, rfl⟩
        · intro _; split <;> rfl
      · have : hasPrefix [1] (c :: text) = false := by simp [Ne.symm h1]
        simp [this, h1]
  · rw [if_pos hc]; simp [hc]

/-- C49: command and parameters of a CTCP message are split without loss, whether or not the closing
delimiter is there. -/
theorem C49_ctcp_split (command target word args : Str) (more : List Str)
    (hc : command = b!"PRIVMSG" ∨ command = b!"NOTICE")
    (hw : word ≠ [] ∧ 32 ∉ word ∧ word.head? ≠ some 1) (ha : args.getLast? ≠ some 1) :
    parseCTCP command (target :: (1 :: word ++ 32 :: args ++ [1]) :: more) = some (word.map upperByte, args) ∧
    parseCTCP command (target :: (1 :: word ++ 32 :: args) :: more) = some (word.map upperByte, args) := by
  have hl : trimLeft [1] (word ++ 32 :: args) = word ++ 32 :: args := by
    apply trimLeft_id
    intro c h
    have : (word ++ 32 :: args).head? = word.head? := by
      cases word with | nil => exact absurd rfl hw.1 | cons => rfl
    rw [this] at h
    intro h1; simp at h1; subst h1; exact hw.2.2 h
  have hr : trimRight [1] (word ++ 32 :: args) = word ++ 32 :: args := by
    apply trimRight_id
    intro c h
    intro h1; simp at h1; subst h1
    cases args using snocInd with
    | nil => simp at h
    | snoc l a _ =>
      apply ha
      rw [← List.cons_append, ← List.append_assoc, List.getLast?_concat] at h
      rw [List.getLast?_concat, h]
  have hcut : cutStr b!" " (word ++ 32 :: args) = some (word, args) := cutStr_byte 32 word args hw.2.1
  have hp : ∀ t : Str, trimBoth [1] (1 :: t) = trimBoth [1] t := by intro t; simp [trimBoth, trimLeft]
  have hb : trimBoth [1] (word ++ 32 :: args) = word ++ 32 :: args := by
    unfold trimBoth; rw [hl, hr]
  have hb2 : trimBoth [1] (word ++ 32 :: args ++ [1]) = word ++ 32 :: args := by
    unfold trimBoth
    have : trimLeft [1] (word ++ 32 :: args ++ [1]) = word ++ 32 :: args ++ [1] := by
      cases word with
      | nil => exact absurd rfl hw.1
      | cons x xs =>
        apply trimLeft_id
        intro c h h1
        simp at h h1; subst h1 h
        exact hw.2.2 rfl
    rw [this, trimRight_snoc _ _ _ (by simp), hr]
  unfold parseCTCP
  rw [if_neg (not_not_intro hc), if_neg (not_not_intro hc)]
  constructor
  · rw [List.cons_append, List.cons_append]
    simp only [hasPrefix, List.isPrefixOf, BEq.rfl, Bool.and_self, not_true_eq_false, if_false]
    rw [hp, hb2, hcut]; rfl
  · rw [List.cons_append]
    simp only [hasPrefix, List.isPrefixOf, BEq.rfl, Bool.and_self, not_true_eq_false, if_false]
    rw [hp, hb, hcut]; rfl

/-- C49: a CTCP message without parameters. -/
theorem C49_ctcp_bare (command target word : Str) (more : List Str)
    (hc : command = b!"PRIVMSG" ∨ command = b!"NOTICE")
    (hw : word ≠ [] ∧ 32 ∉ word ∧ word.head? ≠ some 1 ∧ word.getLast? ≠ some 1) :
    parseCTCP command (target :: (1 :: word ++ [1]) :: more) = some (word.map upperByte, []) := by
  have hl : trimLeft [1] (word ++ [1]) = word ++ [1] := by
    cases word with
    | nil => exact absurd rfl hw.1
    | cons x xs =>
      apply trimLeft_id
      intro c h h1
      simp at h h1; subst h1 h
      exact hw.2.2.1 rfl
  have hr : trimRight [1] word = word := by
    apply trimRight_id
    intro c h h1; simp at h1; subst h1; exact hw.2.2.2 h
  unfold parseCTCP
  rw [if_neg (not_not_intro hc), List.cons_append]
  simp only [hasPrefix, List.isPrefixOf, BEq.rfl, Bool.and_self, not_true_eq_false, if_false]
  have : trimBoth [1] (1 :: (word ++ [1])) = word := by
    have : trimBoth [1] (1 :: (word ++ [1])) = trimBoth [1] (word ++ [1]) := by simp [trimBoth, trimLeft]
    rw [this]; unfold trimBoth; rw [hl, trimRight_snoc _ _ _ (by simp), hr]
  rw [this, cutStr_byte_none 32 word hw.2.1]; rfl

/-- C49: a channel status is accepted exactly when it is one of the three symbols. -/
theorem C49_channel_status_partial (s : Str) (c : Byte) (hs : s ≠ []) :
    parseChannelStatus s = some (some c) ↔ s = [c] ∧ (c = 61 ∨ c = 64 ∨ c = 42) := by
  unfold parseChannelStatus
  split
  · exact absurd rfl hs
  · rename_i d
    split
    · rename_i h
      simp only [Option.some.injEq, List.cons.injEq, and_true]
      constructor
      · rintro rfl; exact ⟨rfl, h⟩
      · exact fun h => h.1
    · rename_i h
      simp only [Option.some.injEq, reduceCtorEq, List.cons.injEq, and_true, false_iff]
      rintro ⟨rfl, h'⟩; exact h h'
  · rename_i h
    simp only [Option.some.injEq, reduceCtorEq, false_iff]
    rintro ⟨rfl, _⟩; exact h c rfl

/-- C49 (disagreement): an empty channel status (an RPL_NAMREPLY with an empty parameter) crashes instead
of being refused. -/
theorem C49_channel_status_violated : parseChannelStatus [] = none := rfl

/-- C49: STATUSMSG sigils: what is stripped from a target are advertised sigils only, all the leading
ones, and nothing when none is advertised. -/
theorem C49_statusmsg (available target : Str) :
    ∃ sigils, target = sigils ++ stripStatusMsg available target ∧ (∀ c ∈ sigils, c ∈ available) ∧
      ∀ c, (stripStatusMsg available target).head? = some c → c ∉ available := by
  unfold stripStatusMsg trimLeft
  refine ⟨target.takeWhile (fun c => decide (c ∈ available)), (List.takeWhile_append_dropWhile).symm, ?_, ?_⟩
  · intro c hc
    have := List.all_takeWhile (p := fun c => decide (c ∈ available)) (l := target)
    rw [List.all_eq_true] at this
    simpa using this c hc
  · intro c hc
    have := List.head?_dropWhile_not (fun c => decide (c ∈ available)) target
    rw [hc] at this
    simpa using this

/-- C49: of the flags in a WHO reply, exactly the membership prefixes of this network are dropped before
they are remembered: every other flag is kept, as often as it was there and in the same order. -/
theorem C49_flags (avail : List Model.Membership) (flags : Str) :
    (stripMemberPrefixes avail flags).Sublist flags ∧
    ∀ c, (stripMemberPrefixes avail flags).count c =
      if c ∈ avail.map (·.pfx) then 0 else flags.count c := by
  unfold stripMemberPrefixes
  refine ⟨List.filter_sublist, fun c => ?_⟩
  by_cases h : c ∈ avail.map (·.pfx)
  · rw [if_pos h]
    refine List.count_eq_zero.2 fun hc => ?_
    obtain ⟨m, hm, he⟩ := List.mem_map.1 h
    have h2 := (List.mem_filter.1 hc).2
    simp only [Bool.not_eq_true', List.any_eq_false] at h2
    exact h2 m hm (by simp [he])
  · rw [if_neg h]
    refine List.count_filter ?_
    simp only [Bool.not_eq_true', List.any_eq_false]
    intro m hm hc
    exact h (List.mem_map.2 ⟨m, hm, (of_decide_eq_true hc).symm⟩)

example : stripMemberPrefixes [⟨111, 64⟩, ⟨118, 43⟩] b!"G*@+Br" = b!"G*Br" := by decide

/-- C49: nothing of the text is lost: the prefixes found, followed by the rest, are the input. -/
theorem C49_membership_lossless (avail : List Model.Membership) (s : Str) :
    ((parseMembershipPrefix avail s).1.map (·.pfx)) ++ (parseMembershipPrefix avail s).2 = s ∧
    (parseMembershipPrefix avail s).1.Sublist avail := by
  induction avail generalizing s with
  | nil => simp [parseMembershipPrefix]
  | cons m avail ih =>
    cases s with
    | nil => simp [parseMembershipPrefix]
    | cons c s =>
      rw [show parseMembershipPrefix (m :: avail) (c :: s) = if c = m.pfx then
        (m :: (parseMembershipPrefix avail s).1, (parseMembershipPrefix avail s).2)
        else parseMembershipPrefix avail (c :: s) from rfl]
      split
      · rename_i h
        simp only [List.map_cons, List.cons_append, (ih s).1]
        exact ⟨by rw [h], (ih s).2.cons_cons _⟩
      · exact ⟨(ih (c :: s)).1, (ih (c :: s)).2.cons _⟩

example : parseCTCP b!"PRIVMSG" [b!"bob", [1] ++ b!"Ping 1 2" ++ [1]] = some (b!"PING", b!"1 2") := by decide
example : parseMembershipPrefix [⟨111, 64⟩, ⟨118, 43⟩] b!"+nick" = ([⟨118, 43⟩], b!"nick") := by decide
example : stripStatusMsg b!"@+" b!"@#chan" = b!"#chan" := by decide

/-! ## C15 -/

private theorem padDec2 (n : Nat) (h : n < 100) : padDec 2 n = [48 + n / 10, 48 + n % 10] := by
  unfold padDec
  rw [itoa_eq]
  split
  · rename_i hn
    rw [show n / 10 = 0 by omega, show n % 10 = n by omega]; rfl
  · rw [itoa_eq, if_pos (by omega)]; simp

private theorem twoDigits_ok (n : Nat) (h : n < 100) : twoDigits (48 + n / 10) (48 + n % 10) = some n := by
  unfold twoDigits
  rw [if_pos (by omega)]
  congr 1; omega

private theorem unmarshal_marshal (m : LogMsg) (h mi s : Nat) (hh : h < 100) (hm : mi < 100) (hs : s < 100)
    (hne : formatMessage m ≠ []) (entity own : Str) (events : Bool) :
    unmarshalLine (marshalLine m h mi s) entity own events = some
      ((if events && hasPrefix b!"*** " (formatMessage m) then
        match cutStr b!" " ((formatMessage m).drop 4) with
        | none => none
        | some (w, rest) =>
          if w = b!"Joins:" ∨ w = b!"Parts:" ∨ w = b!"Quits:" then parseHostEvent w rest entity
          else parseNickEvent w rest entity
      else parseText (formatMessage m) entity own), h, mi, s) := by
  unfold unmarshalLine marshalLine
  simp only [hne, if_false]
  rw [padDec2 h hh, padDec2 mi hm, padDec2 s hs]
  have : parseTimestamp (b!"[" ++ [48 + h / 10, 48 + h % 10] ++ b!":" ++ [48 + mi / 10, 48 + mi % 10] ++ b!":"
      ++ [48 + s / 10, 48 + s % 10] ++ b!"] " ++ formatMessage m) = some ((h, mi, s), formatMessage m) := by
    simp only [List.cons_append, List.nil_append, parseTimestamp]
    rw [twoDigits_ok h hh, twoDigits_ok mi hm, twoDigits_ok s hs]; rfl
  rw [this]
  rfl

private theorem unwrap_wrap (o c s : Str) : unwrap o c (o ++ s ++ c) = s := by
  unfold unwrap
  rw [List.append_assoc, trimPrefix_append, trimSuffix_append]

private theorem split3_two (a b : Str) (ha : 32 ∉ a) (hb : 32 ∉ b) : split3 (a ++ 32 :: b) = [a, b] := by
  unfold split3
  rw [cutStr_byte 32 a b ha]
  simp only
  rw [cutStr_byte_none 32 b hb]

private theorem split3_three (a b c : Str) (ha : 32 ∉ a) (hb : 32 ∉ b) :
    split3 (a ++ 32 :: (b ++ 32 :: c)) = [a, b, c] := by
  unfold split3
  rw [cutStr_byte 32 a _ ha]
  simp only
  rw [cutStr_byte 32 b c hb]

private theorem stripped_append (p s : Str) (hp : p ≠ []) : stripped p (p ++ s) = some s := by
  unfold stripped
  rw [trimPrefix_append, if_pos]
  intro h
  have := congrArg List.length h
  simp at this
  exact hp this

private theorem stripped_none (p s : Str) (h : hasPrefix p s = false) : stripped p s = none := by
  unfold stripped trimPrefix
  simp [h]

private theorem getD_withReason (l : List Str) (r : Str) :
    paramOr (withReason l r) l.length = r := by
  unfold withReason paramOr
  split
  · rename_i h; simp [h]
  · simp

/-- A CTCP message is parsed as an ACTION only if it is framed as one. -/
private theorem not_action (target t p : Str) (h : ¬ isAction t) :
    parseCTCP b!"PRIVMSG" [target, t] ≠ some (b!"ACTION", p) := by
  intro hp
  apply h
  unfold parseCTCP at hp
  rw [if_neg (by decide)] at hp
  simp only at hp
  split at hp
  · simp at hp
  · rename_i h1
    have h1 : hasPrefix [1] t = true := by simpa using h1
    cases t with
    | nil => simp at h1
    | cons c t =>
      have hc : c = 1 := by simpa [eq_comm] using h1
      subst hc
      refine ⟨rfl, ?_⟩
      -- the text without its leading delimiters
      have hmap : ∀ l : Str, l.map (fun c => if 97 ≤ c ∧ c ≤ 122 then c - 32 else c) = asciiUpper l := fun _ => rfl
      rw [hmap]
      have hdw : (1 :: t).dropWhile (· = 1) = trimLeft [1] (1 :: t) := by
        unfold trimLeft; congr 1; funext c; simp
      rw [hdw]
      generalize hu : trimLeft [1] (1 :: t) = u at hp
      have htb : trimBoth [1] (1 :: t) = trimRight [1] u := by unfold trimBoth; rw [hu]
      rw [htb] at hp
      -- u = (trimRight u) ++ ones
      have hsplit : ∃ ones, u = trimRight [1] u ++ ones ∧ ∀ c ∈ ones, c = 1 := by
        clear hp hu htb
        induction u using snocInd with
        | nil => exact ⟨[], rfl, by simp⟩
        | snoc u a ih =>
          by_cases ha : a = 1
          · subst ha
            obtain ⟨ones, h1, h2⟩ := ih
            refine ⟨ones ++ [1], ?_, ?_⟩
            · rw [trimRight_snoc _ _ _ (by simp), ← List.append_assoc, ← h1]
            · intro c hc
              rcases List.mem_append.1 hc with hc | hc
              · exact h2 c hc
              · simpa using hc
          · refine ⟨[], ?_, by simp⟩
            rw [trimRight_id]
            · simp
            · intro c hc; simp at hc; subst hc; simpa using ha
      obtain ⟨ones, hu1, hones⟩ := hsplit
      have tk : ∀ (w rest : Str), asciiUpper w = b!"ACTION" →
          (∀ c, rest.head? = some c → c = 32 ∨ c = 1) →
          (w ++ rest).takeWhile (fun c => decide (c ≠ 32 ∧ c ≠ 1)) = w := by
        intro w rest hw hr
        have hwc : ∀ c ∈ w, c ≠ 32 ∧ c ≠ 1 := by
          intro c hc
          have hm : upperByte c ∈ asciiUpper w := List.mem_map_of_mem hc
          rw [hw] at hm
          constructor
          · rintro rfl; revert hm; decide
          · rintro rfl; revert hm; decide
        rw [List.takeWhile_append_of_pos (by simpa using hwc)]
        cases rest with
        | nil => simp
        | cons c rest =>
          have := hr c rfl
          rw [List.takeWhile_cons, if_neg (by simp; omega), List.append_nil]
      cases hcut : cutStr b!" " (trimRight [1] u) with
      | none =>
        rw [hcut] at hp
        simp only [Option.some.injEq, Prod.mk.injEq] at hp
        rw [hu1, tk _ ones hp.1]
        · exact hp.1
        · intro c hc
          right
          exact hones c (List.mem_of_mem_head? hc)
      | some q =>
        obtain ⟨w, rest⟩ := q
        rw [hcut] at hp
        simp only [Option.some.injEq, Prod.mk.injEq] at hp
        have := cutStr_some hcut
        rw [hu1, this, List.append_assoc, List.append_assoc, tk _ _ hp.1]
        · exact hp.1
        · intro c hc; left; simpa using hc.symm

/-- C15: a logged message read back from the log of `entity` has the same command, the same sender and
the same time to the second, and the parameters of the same event in `entity` — except that the
recipient of a direct message from `entity` is the user's own nick.  Text messages are returned whether
or not events are asked for. -/
theorem C15_roundtrip (e : Event) (src : Source) (target entity own : Str) (events : Bool) (h mi s : Nat)
    (hwf : e.WF) (hname : 32 ∉ src.name) (huser : 32 ∉ src.user ∧ 64 ∉ src.user) (hhost : 32 ∉ src.host)
    (hkind : src.name ≠ b!"Joins:" ∧ src.name ≠ b!"Parts:" ∧ src.name ≠ b!"Quits:")
    (hev : e.isText = true ∨ events = true) (hh : h < 24) (hm : mi < 60) (hs : s < 60) :
    ∃ r, unmarshalLine (marshalLine ⟨src, e.command, e.params target⟩ h mi s) entity own events
        = some (some r, h, mi, s) ∧
      r.command = e.command ∧ r.source.name = src.name ∧
      r.params = e.params (if e.isText = true ∧ entity = src.name then own else entity) := by
  have hmar := fun hne => unmarshal_marshal ⟨src, e.command, e.params target⟩ h mi s (by omega) (by omega)
    (by omega) hne entity own events
  cases e with
  | text t =>
    have hfm : formatMessage ⟨src, b!"PRIVMSG", [target, t]⟩ = b!"<" ++ src.name ++ b!"> " ++ t := by
      unfold formatMessage
      simp only [show asciiUpper b!"PRIVMSG" = b!"PRIVMSG" from by decide]
      rw [if_neg (by decide), if_neg (by decide), if_neg (by decide), if_neg (by decide), if_neg (by decide),
        if_neg (by decide), if_neg (by decide), if_neg (by decide), if_pos trivial]
      have hna := fun p => not_action target t p hwf
      cases hc : parseCTCP b!"PRIVMSG" [target, t] with
      | none => rfl
      | some q =>
        obtain ⟨c, p⟩ := q
        simp only
        rw [if_neg]
        · rfl
        · rintro rfl; exact hna p hc
    refine ⟨⟨⟨src.name, [], []⟩, b!"PRIVMSG", [if entity = src.name then own else entity, t]⟩, ?_, rfl, rfl, ?_⟩
    · rw [Event.command, Event.params] at *
      rw [hmar (by rw [hfm]; simp), hfm]
      have h1 : (events && hasPrefix b!"*** " (b!"<" ++ src.name ++ b!"> " ++ t)) = false := by
        simp
      rw [h1]
      have hcut := cutStr_sp 62 (by decide) src.name t hname
      simp only [Bool.false_eq_true, if_false, parseText]
      rw [if_pos (by simp)]
      have : (b!"<" ++ src.name ++ b!"> " ++ t).drop 1 = src.name ++ 62 :: 32 :: t := by simp
      rw [this, hcut]; rfl
    · simp [Event.params, Event.isText]
  | notice t =>
    have hfm : formatMessage ⟨src, b!"NOTICE", [target, t]⟩ = b!"-" ++ src.name ++ b!"- " ++ t := rfl
    refine ⟨⟨⟨src.name, [], []⟩, b!"NOTICE", [if entity = src.name then own else entity, t]⟩, ?_, rfl, rfl, ?_⟩
    · rw [Event.command, Event.params] at *
      rw [hmar (by rw [hfm]; simp), hfm]
      have h1 : (events && hasPrefix b!"*** " (b!"-" ++ src.name ++ b!"- " ++ t)) = false := by
        simp
      rw [h1]
      have hcut := cutStr_sp 45 (by decide) src.name t hname
      simp only [Bool.false_eq_true, if_false, parseText]
      rw [if_neg (by simp), if_pos (by simp)]
      have : (b!"-" ++ src.name ++ b!"- " ++ t).drop 1 = src.name ++ 45 :: 32 :: t := by simp
      rw [this, hcut]; rfl
    · simp [Event.params, Event.isText]
  | action t =>
    have hct := (C49_ctcp_split b!"PRIVMSG" target b!"ACTION" t [] (by simp) (by decide) hwf).1
    have hfm : formatMessage ⟨src, b!"PRIVMSG", [target, 1 :: b!"ACTION " ++ t ++ [1]]⟩
        = b!"* " ++ src.name ++ b!" " ++ t := by
      unfold formatMessage
      simp only [show asciiUpper b!"PRIVMSG" = b!"PRIVMSG" from by decide]
      rw [if_neg (by decide), if_neg (by decide), if_neg (by decide), if_neg (by decide), if_neg (by decide),
        if_neg (by decide), if_neg (by decide), if_neg (by decide), if_pos trivial]
      have e1 : (1 :: b!"ACTION " ++ t ++ [1]) = (1 :: b!"ACTION" ++ 32 :: t ++ [1]) := by simp
      rw [e1, hct]
      rfl
    refine ⟨⟨⟨src.name, [], []⟩, b!"PRIVMSG",
      [if entity = src.name then own else entity, 1 :: b!"ACTION " ++ t ++ [1]]⟩, ?_, rfl, rfl, ?_⟩
    · rw [Event.command, Event.params] at *
      rw [hmar (by rw [hfm]; simp), hfm]
      have h1 : (events && hasPrefix b!"*** " (b!"* " ++ src.name ++ b!" " ++ t)) = false := by
        simp
      rw [h1]
      have hcut := cutStr_byte 32 src.name t hname
      simp only [Bool.false_eq_true, if_false, parseText]
      rw [if_neg (by simp), if_neg (by simp), if_pos (by simp)]
      have : (b!"* " ++ src.name ++ b!" " ++ t).drop 2 = src.name ++ 32 :: t := by simp
      rw [this, hcut]; rfl
    · simp [Event.params, Event.isText]
  | join =>
    have hfm : formatMessage ⟨src, b!"JOIN", [target]⟩
        = b!"*** " ++ (b!"Joins:" ++ 32 :: (src.name ++ 32 :: (b!"(" ++ (src.user ++ 64 :: src.host) ++ b!")"))) := by
      show b!"*** Joins: " ++ src.name ++ b!" (" ++ src.user ++ b!"@" ++ src.host ++ b!")" = _
      simp
    have hevt : events = true := by rcases hev with h | h; simp [Event.isText] at h; exact h
    refine ⟨⟨src, b!"JOIN", [entity]⟩, ?_, rfl, rfl, by simp [Event.params, Event.isText]⟩
    rw [Event.command, Event.params] at *
    rw [hmar (by rw [hfm]; simp), hfm, hevt]
    have h1 : (true && hasPrefix b!"*** " (b!"*** " ++ (b!"Joins:" ++ 32 :: (src.name ++ 32 :: (b!"(" ++ (src.user ++ 64 :: src.host) ++ b!")"))))) = true := by
      rw [Bool.true_and]; exact isPrefixOf_append _ _
    rw [h1, if_pos rfl]
    rw [List.drop_append, show List.drop 4 b!"*** " = [] from rfl, List.nil_append,
      show 4 - b!"*** ".length = 0 from rfl, List.drop_zero, cutStr_byte 32 b!"Joins:" _ (by decide)]
    simp only
    rw [if_pos (by decide)]
    unfold parseHostEvent
    rw [split3_two _ _ hname (by simp; exact ⟨huser.1, hhost⟩)]
    simp only [List.length_cons, List.length_nil, List.getD_cons_zero, List.getD_cons_succ]
    rw [unwrap_wrap, cutStr_byte 64 _ _ huser.2]
    rfl
  | part r =>
    have hfm : formatMessage ⟨src, b!"PART", withReason [target] r⟩
        = b!"*** " ++ (b!"Parts:" ++ 32 :: (src.name ++ 32 :: ((b!"(" ++ (src.user ++ 64 :: src.host) ++ b!")")
          ++ 32 :: (b!"(" ++ r ++ b!")")))) := by
      show b!"*** Parts: " ++ src.name ++ b!" (" ++ src.user ++ b!"@" ++ src.host ++ b!") ("
        ++ paramOr (withReason [target] r) 1 ++ b!")" = _
      rw [show (1 : Nat) = [target].length from rfl, getD_withReason]
      simp
    have hevt : events = true := by rcases hev with h | h; simp [Event.isText] at h; exact h
    refine ⟨⟨src, b!"PART", withReason [entity] r⟩, ?_, rfl, rfl, by simp [Event.params, Event.isText]⟩
    rw [Event.command, Event.params] at *
    rw [hmar (by rw [hfm]; simp), hfm, hevt]
    rw [Bool.true_and, show hasPrefix b!"*** " _ = true from isPrefixOf_append _ _, if_pos rfl]
    rw [List.drop_append, show List.drop 4 b!"*** " = [] from rfl, List.nil_append,
      show 4 - b!"*** ".length = 0 from rfl, List.drop_zero, cutStr_byte 32 b!"Parts:" _ (by decide)]
    simp only
    rw [if_pos (by decide)]
    unfold parseHostEvent
    rw [split3_three _ _ _ hname (by simp; exact ⟨huser.1, hhost⟩)]
    simp only [List.length_cons, List.length_nil, List.getD_cons_zero, List.getD_cons_succ]
    rw [unwrap_wrap, unwrap_wrap, cutStr_byte 64 _ _ huser.2]
    simp only [withReason]
    by_cases hr : r = []
    · subst hr; rfl
    · simp [hr]
  | quit r =>
    have hfm : formatMessage ⟨src, b!"QUIT", withReason [] r⟩
        = b!"*** " ++ (b!"Quits:" ++ 32 :: (src.name ++ 32 :: ((b!"(" ++ (src.user ++ 64 :: src.host) ++ b!")")
          ++ 32 :: (b!"(" ++ r ++ b!")")))) := by
      show b!"*** Quits: " ++ src.name ++ b!" (" ++ src.user ++ b!"@" ++ src.host ++ b!") ("
        ++ paramOr (withReason [] r) 0 ++ b!")" = _
      have := getD_withReason [] r
      rw [List.length_nil] at this
      rw [this]
      simp
    have hevt : events = true := by rcases hev with h | h; simp [Event.isText] at h; exact h
    refine ⟨⟨src, b!"QUIT", withReason [] r⟩, ?_, rfl, rfl, by simp [Event.params]⟩
    rw [Event.command, Event.params] at *
    rw [hmar (by rw [hfm]; simp), hfm, hevt]
    rw [Bool.true_and, show hasPrefix b!"*** " _ = true from isPrefixOf_append _ _, if_pos rfl]
    rw [List.drop_append, show List.drop 4 b!"*** " = [] from rfl, List.nil_append,
      show 4 - b!"*** ".length = 0 from rfl, List.drop_zero, cutStr_byte 32 b!"Quits:" _ (by decide)]
    simp only
    rw [if_pos (by decide)]
    unfold parseHostEvent
    rw [split3_three _ _ _ hname (by simp; exact ⟨huser.1, hhost⟩)]
    simp only [List.length_cons, List.length_nil, List.getD_cons_zero, List.getD_cons_succ]
    rw [unwrap_wrap, unwrap_wrap, cutStr_byte 64 _ _ huser.2]
    simp only [withReason]
    by_cases hr : r = []
    · subst hr; rfl
    · simp [hr]
  | nick new =>
    have hfm : formatMessage ⟨src, b!"NICK", [new]⟩
        = b!"*** " ++ (src.name ++ 32 :: (b!"is now known as " ++ new)) := by
      show b!"*** " ++ src.name ++ b!" is now known as " ++ new = _
      simp
    have hevt : events = true := by rcases hev with h | h; simp [Event.isText] at h; exact h
    refine ⟨⟨⟨src.name, [], []⟩, b!"NICK", [new]⟩, ?_, rfl, rfl, by simp [Event.params]⟩
    rw [Event.command, Event.params] at *
    rw [hmar (by rw [hfm]; simp), hfm, hevt]
    rw [Bool.true_and, show hasPrefix b!"*** " _ = true from isPrefixOf_append _ _, if_pos rfl]
    rw [List.drop_append, show List.drop 4 b!"*** " = [] from rfl, List.nil_append,
      show 4 - b!"*** ".length = 0 from rfl, List.drop_zero, cutStr_byte 32 _ _ hname]
    simp only
    rw [if_neg (by simp only [not_or]; exact hkind)]
    unfold parseNickEvent
    rw [stripped_append _ _ (by decide)]
  | kick who r =>
    have hfm : formatMessage ⟨src, b!"KICK", withReason [target, who] r⟩
        = b!"*** " ++ (who ++ 32 :: (b!"was kicked by " ++ (src.name ++ 32 :: (b!"(" ++ r ++ b!")")))) := by
      show b!"*** " ++ paramOr (withReason [target, who] r) 1 ++ b!" was kicked by " ++ src.name ++ b!" ("
        ++ paramOr (withReason [target, who] r) 2 ++ b!")" = _
      have := getD_withReason [target, who] r
      simp only [List.length_cons, List.length_nil] at this
      rw [this]
      have : paramOr (withReason [target, who] r) 1 = who := by
        unfold withReason paramOr; split <;> rfl
      rw [this]
      simp
    have hevt : events = true := by rcases hev with h | h; simp [Event.isText] at h; exact h
    refine ⟨⟨⟨src.name, [], []⟩, b!"KICK", withReason [entity, who] r⟩, ?_, rfl, rfl,
      by simp [Event.params, Event.isText]⟩
    rw [Event.command, Event.params] at *
    rw [hmar (by rw [hfm]; simp), hfm, hevt]
    rw [Bool.true_and, show hasPrefix b!"*** " _ = true from isPrefixOf_append _ _, if_pos rfl]
    rw [List.drop_append, show List.drop 4 b!"*** " = [] from rfl, List.nil_append,
      show 4 - b!"*** ".length = 0 from rfl, List.drop_zero, cutStr_byte 32 _ _ hwf.1]
    simp only
    rw [if_neg (by simp only [not_or]; exact hwf.2)]
    unfold parseNickEvent
    rw [stripped_none _ _ (by simp), stripped_append _ _ (by decide)]
    simp only
    rw [cutStr_byte 32 _ _ hname]
    simp only
    rw [unwrap_wrap]
    simp only [withReason]
    by_cases hr : r = []
    · subst hr; rfl
    · simp [hr]
  | topic t =>
    have hfm : formatMessage ⟨src, b!"TOPIC", [target, t]⟩
        = b!"*** " ++ (src.name ++ 32 :: (b!"changes topic to " ++ (b!"'" ++ t ++ b!"'"))) := by
      show b!"*** " ++ src.name ++ b!" changes topic to '" ++ t ++ b!"'" = _
      simp
    have hevt : events = true := by rcases hev with h | h; simp [Event.isText] at h; exact h
    refine ⟨⟨⟨src.name, [], []⟩, b!"TOPIC", [entity, t]⟩, ?_, rfl, rfl, by simp [Event.params, Event.isText]⟩
    rw [Event.command, Event.params] at *
    rw [hmar (by rw [hfm]; simp), hfm, hevt]
    rw [Bool.true_and, show hasPrefix b!"*** " _ = true from isPrefixOf_append _ _, if_pos rfl]
    rw [List.drop_append, show List.drop 4 b!"*** " = [] from rfl, List.nil_append,
      show 4 - b!"*** ".length = 0 from rfl, List.drop_zero, cutStr_byte 32 _ _ hname]
    simp only
    rw [if_neg (by simp only [not_or]; exact hkind)]
    unfold parseNickEvent
    rw [stripped_none _ _ (by simp), stripped_none _ _ (by simp), stripped_append _ _ (by decide)]
    simp only
    rw [unwrap_wrap]
  | mode args =>
    have hfm : formatMessage ⟨src, b!"MODE", target :: args⟩
        = b!"*** " ++ (src.name ++ 32 :: (b!"sets mode: " ++ joinStr b!" " args)) := by
      show b!"*** " ++ src.name ++ b!" sets mode: " ++ joinStr b!" " args = _
      simp
    have hevt : events = true := by rcases hev with h | h; simp [Event.isText] at h; exact h
    refine ⟨⟨⟨src.name, [], []⟩, b!"MODE", entity :: args⟩, ?_, rfl, rfl, by simp [Event.params, Event.isText]⟩
    rw [Event.command, Event.params] at *
    rw [hmar (by rw [hfm]; simp), hfm, hevt]
    rw [Bool.true_and, show hasPrefix b!"*** " _ = true from isPrefixOf_append _ _, if_pos rfl]
    rw [List.drop_append, show List.drop 4 b!"*** " = [] from rfl, List.nil_append,
      show 4 - b!"*** ".length = 0 from rfl, List.drop_zero, cutStr_byte 32 _ _ hname]
    simp only
    rw [if_neg (by simp only [not_or]; exact hkind)]
    unfold parseNickEvent
    rw [stripped_none _ _ (by simp), stripped_none _ _ (by simp), stripped_none _ _ (by simp),
      stripped_append _ _ (by decide)]
    simp only
    rw [splitByte_joinStr 32 args hwf.1 hwf.2]

/-- C15: events are not returned unless they are asked for. -/
theorem C15_events_hidden (e : Event) (src : Source) (target entity own : Str) (h mi s : Nat)
    (he : e.isText = false) (hh : h < 24) (hm : mi < 60) (hs : s < 60) :
    unmarshalLine (marshalLine ⟨src, e.command, e.params target⟩ h mi s) entity own false
      = some (none, h, mi, s) := by
  have hstar : ∃ rest, formatMessage ⟨src, e.command, e.params target⟩ = 42 :: 42 :: rest := by
    cases e <;> first | (simp [Event.isText] at he; done) | exact ⟨_, rfl⟩
  obtain ⟨rest, hr⟩ := hstar
  rw [unmarshal_marshal _ h mi s (by omega) (by omega) (by omega) (by rw [hr]; simp), hr]
  simp [parseText]

/-- C15: nothing is written for the other commands. -/
theorem C15_others_not_logged (m : LogMsg) (h mi s : Nat)
    (hc : asciiUpper m.command ∉ [b!"NICK", b!"JOIN", b!"PART", b!"KICK", b!"QUIT", b!"TOPIC", b!"MODE",
      b!"NOTICE", b!"PRIVMSG"]) : marshalLine m h mi s = [] := by
  simp only [List.mem_cons, List.not_mem_nil, or_false, not_or] at hc
  unfold marshalLine
  simp only
  rw [if_pos]
  unfold formatMessage
  simp [hc]

/-- C15 (disagreement): the log of a direct conversation is kept under the case-folded nick of the peer
(upstream.go:2150), so a message from `Alice` (log `alice`) reads back as addressed to `alice` instead of
to the user. -/
theorem C15_dm_target_violated :
    unmarshalLine (marshalLine ⟨⟨b!"Alice", [], []⟩, b!"PRIVMSG", [b!"me", b!"hi"]⟩ 1 2 3) b!"alice" b!"me" false
      = some (some ⟨⟨b!"Alice", [], []⟩, b!"PRIVMSG", [b!"alice", b!"hi"]⟩, 1, 2, 3) := by decide

/-- C15 (disagreement): an action without text gains a space, and a lower-case one changes case. -/
theorem C15_action_violated :
    (∃ r, unmarshalLine (marshalLine ⟨⟨b!"bob", [], []⟩, b!"PRIVMSG", [b!"#c", 1 :: b!"action" ++ [1]]⟩ 1 2 3)
        b!"#c" b!"me" false = some (some r, 1, 2, 3) ∧ r.params = [b!"#c", 1 :: b!"ACTION " ++ [1]]) :=
  ⟨_, rfl, rfl⟩

/-- C15 (disagreement): a mode change whose last parameter contains a space reads back as two. -/
theorem C15_mode_violated :
    unmarshalLine (marshalLine ⟨⟨b!"bob", [], []⟩, b!"MODE", [b!"#c", b!"+k", b!"a b"]⟩ 1 2 3) b!"#c" b!"me" true
      = some (some ⟨⟨b!"bob", [], []⟩, b!"MODE", [b!"#c", b!"+k", b!"a", b!"b"]⟩, 1, 2, 3) := by decide

example : (Event.kick b!"bob" b!"spam (again)").WF ∧ (Event.text (1 :: b!"VERSION" ++ [1])).WF ∧
    (Event.mode [b!"+o", b!"bob"]).WF := by
  simp only [Event.WF, isAction]; decide

example : marshalLine ⟨⟨b!"op", b!"u", b!"h"⟩, b!"KICK", [b!"#c", b!"bob", b!"spam"]⟩ 9 5 59
    = b!"[09:05:59] *** bob was kicked by op (spam)" := by decide

end Verif.Props
