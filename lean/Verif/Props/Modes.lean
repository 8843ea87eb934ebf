import Verif.Proof.Modes

/-! # C03, C04, C05: memberships, user modes, channel modes

`kindOf env` (the server's advertised classification of a letter: PREFIX first, then CHANMODES) and
`sameB` (name equality under the connection's case mapping) translate between model and
specification. -/

namespace Verif.Props
open Verif.Model Verif.Spec Verif.Proof

/-- C03: starting from no membership, after any sequence of grants (`true`) and revocations
(`false`) of advertised memberships, the list is exactly the advertised list restricted to the
memberships granted last. -/
theorem C03_membership_set (avail : List Model.Membership) (hnd : avail.Nodup)
    (cs : List (Model.Membership × Bool)) (hcs : ∀ c ∈ cs, c.1 ∈ avail) :
    cs.foldl (fun l c => if c.2 then MembershipSet.add avail l c.1 else MembershipSet.remove l c.1) []
      = avail.filter (fun m => heldAfter false m cs) := by
  have := applyStatus_run hnd cs hcs (fun _ => false)
  rw [show avail.filter (fun _ => false) = [] by simp] at this
  exact this

/-- C03: hence duplicate free, in rank order, and containing exactly what is held. -/
theorem C03_sorted_nodup_exact (avail : List Model.Membership) (hnd : avail.Nodup)
    (cs : List (Model.Membership × Bool)) (hcs : ∀ c ∈ cs, c.1 ∈ avail) :
    let l := cs.foldl (fun l c => if c.2 then MembershipSet.add avail l c.1 else MembershipSet.remove l c.1) []
    l.Nodup ∧ l.Sublist avail ∧ ∀ m, m ∈ l ↔ m ∈ avail ∧ heldAfter false m cs = true := by
  intro l
  have hl : l = avail.filter (fun m => heldAfter false m cs) := C03_membership_set avail hnd cs hcs
  rw [hl]
  exact ⟨hnd.sublist List.filter_sublist, List.filter_sublist, fun m => List.mem_filter⟩

/-- C03: without multi-prefix the one prefix shown is that of the highest rank held: every
advertised rank before it is not held. -/
theorem C03_highest_prefix (avail : List Model.Membership) (hnd : avail.Nodup)
    (cs : List (Model.Membership × Bool)) (hcs : ∀ c ∈ cs, c.1 ∈ avail)
    (pre suf : List Model.Membership) (m : Model.Membership) (havail : avail = pre ++ m :: suf)
    (hheld : heldAfter false m cs = true) (hnone : ∀ x ∈ pre, heldAfter false x cs = false) :
    formatMemberPrefix
      (cs.foldl (fun l c => if c.2 then MembershipSet.add avail l c.1 else MembershipSet.remove l c.1) [])
      false = [m.pfx] := by
  rw [C03_membership_set avail hnd cs hcs]
  have hpre : pre.filter (fun m => heldAfter false m cs) = [] := by
    rw [List.filter_eq_nil_iff]
    intro x hx
    simp [hnone x hx]
  rw [havail, List.filter_append, hpre]
  simp [formatMemberPrefix, hheld]

/-- C03: the prefixes shown to a multi-prefix client, followed by the nick, parse back to the same
memberships and nick. -/
theorem C03_prefix_roundtrip (avail ms : List Model.Membership) (nick : Str)
    (hnd : (avail.map (·.pfx)).Nodup) (hsub : ms.Sublist avail)
    (hnick : ∀ c, nick.head? = some c → c ∉ avail.map (·.pfx)) :
    parseMembershipPrefix avail (formatMemberPrefix ms true ++ nick) = (ms, nick) :=
  parsePrefix_format avail ms nick hnd hsub hnick

/-- C03: the advertised ranks are read from `PREFIX=(modes)prefixes` in order, for all mode and
prefix strings of equal length without a closing parenthesis among the modes. -/
theorem C03_prefix_token (l : List Model.Membership) (h : ∀ m ∈ l, m.mode ≠ 41) :
    handleMemberships (40 :: l.map (·.mode) ++ 41 :: l.map (·.pfx)) = some l := by
  have hidx : (40 :: l.map (·.mode) ++ 41 :: l.map (·.pfx)).findIdx? (fun b => decide (b = 41))
      = some (l.length + 1) := by
    rw [List.findIdx?_eq_some_iff_getElem]
    refine ⟨by simp, ?_, ?_⟩
    · simp
    · intro j hj
      simp only [decide_eq_true_eq]
      rcases j with _ | j
      · simp
      · have hj' : j < l.length := by omega
        simp only [List.cons_append, List.getElem_cons_succ]
        rw [List.getElem_append_left (by simpa using hj')]
        simp only [List.getElem_map]
        exact h _ (List.getElem_mem ..)
  have hlen : (40 :: l.map (·.mode) ++ 41 :: l.map (·.pfx)).length = (l.length + 1) * 2 := by
    simp; omega
  unfold handleMemberships
  simp only [List.cons_append] at hidx hlen ⊢
  simp only [hidx, hlen, ne_eq, not_true_eq_false, if_false, Option.some.injEq]
  apply List.ext_getElem
  · simp
  · intro i h1 h2
    simp only [List.getElem_map, List.getElem_range, List.getElem?_cons_succ]
    rw [List.getElem?_append_left (by simpa using h2),
      List.getElem?_append_right (by simp; omega)]
    have : l.length + i + 1 - (l.length) = i + 1 := by omega
    simp [h2, show l.length + 1 + i - l.length = i + 1 by omega]

example : stdMemberships.Nodup ∧ (stdMemberships.map (·.pfx)).Nodup ∧
    (let cs := [(⟨118, 43⟩, true), (⟨111, 64⟩, true), (⟨118, 43⟩, false), (⟨113, 126⟩, true),
        ((⟨111, 64⟩ : Model.Membership), true)]
     (∀ c ∈ cs, c.1 ∈ stdMemberships) ∧
      stdMemberships.filter (fun m => heldAfter false m cs) = [⟨113, 126⟩, ⟨111, 64⟩]) := by decide

example : parseMembershipPrefix stdMemberships b!"~@bob" = ([⟨113, 126⟩, ⟨111, 64⟩], b!"bob") ∧
    handleMemberships b!"(qaohv)~&@%+" = some stdMemberships := by decide

/-- C04: a well formed mode string (ASCII, every letter after a sign) applied to any duplicate-free mode
set succeeds, and leaves a duplicate-free set containing exactly the modes whose last change in the
string was a grant, plus those held before and not mentioned. -/
theorem C04_apply (ms : UserModes) (h : ms.Nodup) (s : Str) (l : List (Byte × Bool))
    (hascii : ∀ c ∈ s, c < 128) (hs : signedLetters none s = some l) :
    (UserModes.apply ms s).2 = true ∧ (UserModes.apply ms s).1.Nodup ∧
    ∀ x, (UserModes.apply ms s).1.has x = heldAfter (ms.has x) x l := by
  have hl := um_applyLoop s ms h none hascii
  rw [hs] at hl
  refine ⟨hl.2.1, hl.1, ?_⟩
  intro x
  have := hl.2.2 x
  unfold UserModes.has
  rw [Bool.eq_iff_iff]
  simp only [List.contains_iff_mem]
  rw [show ms.contains x = decide (x ∈ ms) by rw [Bool.eq_iff_iff]; simp]
  exact this

/-- C04: a string is malformed exactly when its first character is not a sign. -/
theorem C04_malformed_iff (s : Str) :
    signedLetters none s = none ↔ ∃ c t, s = c :: t ∧ c ≠ 43 ∧ c ≠ 45 := by
  constructor
  · intro hs
    unfold signedLetters at hs
    split at hs
    · simp at hs
    · exact absurd hs (signedLetters_some_ne_none _ _)
    · exact absurd hs (signedLetters_some_ne_none _ _)
    · rename_i c s h1 h2
      exact ⟨c, s, rfl, by simpa using h1, by simpa using h2⟩
  · rintro ⟨c, t, rfl, h1, h2⟩
    rw [signedLetters]
    · simpa using h1
    · simpa using h2

/-- C04: a string with a letter before any sign is rejected and changes nothing. -/
theorem C04_malformed (ms : UserModes) (s : Str) (hs : signedLetters none s = none) :
    UserModes.apply ms s = (ms, false) := by
  obtain ⟨c, t, rfl, h1, h2⟩ := (C04_malformed_iff s).1 hs
  unfold UserModes.apply UserModes.applyLoop
  rw [if_neg h1, if_neg h2]

/-- C04: a mode letter that is not ASCII is not held after it was granted: two other letters are. -/
theorem C04_not_ascii : signedLetters none [43, 233] = some [(233, true)] ∧
    UserModes.apply [] [43, 233] = ([195, 169], true) := by decide

example : signedLetters none b!"+iw-i+x" = some [(105, true), (119, true), (105, false), (120, true)] ∧
    UserModes.apply b!"i" b!"+iw-i+x" = (b!"wx", true) ∧
    UserModes.apply b!"i" b!"w" = (b!"i", false) := by decide

/-- C05: a MODE line succeeds exactly when every letter follows a sign and every membership letter
owns an argument, where the letter at position `i` owns argument number "number of argument-taking
letters before `i`". -/
theorem C05_accepts_iff (env : ModeEnv) (ch : ChanModeState) (s : Str) (args : List Str) :
    (applyChannelModes env ch s args).2 = true ↔
      ∃ letters, signedLetters none s = some letters ∧
        ∀ c ∈ attributed (kindOf env) letters args, kindOf env c.letter = .membership → c.arg ≠ none := by
  unfold applyChannelModes
  cases hs : signedLetters none s with
  | none => simp [applyLoop_malformed env args s ch 0 hs]
  | some l =>
    obtain ⟨h1, h2⟩ := applyLoop_ok env args s ch none 0 l hs
    rw [← attributed_eq] at h1 h2
    constructor
    · intro h
      refine ⟨l, rfl, ?_⟩
      apply Classical.byContradiction
      intro hn
      rw [h2 hn] at h
      simp at h
    · rintro ⟨l', hl', h⟩
      cases hl'
      rw [h1 h]

/-- C05: channel modes after an accepted line: each advertised non-list letter that is set has the
argument it owns, each unset one is absent, all other modes (and the modes when only unadvertised,
list or membership letters occur) are unchanged. -/
theorem C05_modes (env : ModeEnv) (ch : ChanModeState) (s : Str) (args : List Str)
    (hok : (applyChannelModes env ch s args).2 = true) (m : GoMap Byte Str) (hm : ch.modes = some m) :
    ∃ letters m', signedLetters none s = some letters ∧
      (applyChannelModes env ch s args).1.modes = some m' ∧
      ∀ x, GoMap.get m' x
        = modeAfter (kindOf env) x (GoMap.get m x) (attributed (kindOf env) letters args) := by
  obtain ⟨l, hs, hall⟩ := (C05_accepts_iff env ch s args).1 hok
  have h1 := (applyLoop_ok env args s ch none 0 l hs).1
  rw [← attributed_eq] at h1
  have h1 := h1 hall
  have hwf : ∀ c ∈ attributed (kindOf env) l args, kindOf env c.letter = .flag → c.arg = none := by
    rw [attributed_eq]; exact attrFrom_flag_none _ _ _ _
  obtain ⟨m', hm', hg⟩ := (modes_foldl env _ ch hwf).2 m hm
  refine ⟨l, m', hs, ?_, hg⟩
  unfold applyChannelModes
  rw [h1]
  exact hm'

/-- C05: statuses after an accepted line: each member's ranks are changed by exactly the membership
letters whose own argument names that member (up to case), and absent members stay absent. -/
theorem C05_members (env : ModeEnv) (hnd : (env.availableMemberships.map (·.mode)).Nodup)
    (ch : ChanModeState) (s : Str) (args : List Str)
    (hok : (applyChannelModes env ch s args).2 = true) (q : Str) :
    ∃ letters, signedLetters none s = some letters ∧
      (ch.members.get q = none → (applyChannelModes env ch s args).1.members.get q = none) ∧
      ∀ r, r.Sublist env.availableMemberships → ch.members.get q = some r →
        (applyChannelModes env ch s args).1.members.get q =
          some (env.availableMemberships.filter (fun m => heldAfter (decide (m ∈ r)) m.mode
            (statusChanges (kindOf env) (sameB ch.members.cm) q
              (attributed (kindOf env) letters args)))) := by
  obtain ⟨l, hs, hall⟩ := (C05_accepts_iff env ch s args).1 hok
  have h1 := (applyLoop_ok env args s ch none 0 l hs).1
  rw [← attributed_eq] at h1
  have h1 := h1 hall
  have hnd' : env.availableMemberships.Nodup := by
    have := hnd
    rw [List.Nodup, List.pairwise_map] at this
    exact this.imp (fun h e => h (by rw [e]))
  have hmf := members_foldl env hnd (attributed (kindOf env) l args) ch q
  refine ⟨l, hs, ?_, ?_⟩
  · intro hq
    unfold applyChannelModes
    rw [h1]
    exact hmf.2.1 hq
  · intro r hr hq
    unfold applyChannelModes
    rw [h1]
    exact hmf.2.2 _ (by rw [← sublist_eq_filter hnd' hr]; exact hq)

/-- C05: a line with a letter before any sign changes nothing. -/
theorem C05_malformed_unchanged (env : ModeEnv) (ch : ChanModeState) (s : Str) (args : List Str)
    (hs : signedLetters none s = none) : applyChannelModes env ch s args = (ch, false) :=
  applyLoop_malformed env args s ch 0 hs

/-- Example environment: PREFIX=(ov)@+ CHANMODES=b,k,l,imn. -/
def exampleEnv : ModeEnv :=
  { availableMemberships := [⟨111, 64⟩, ⟨118, 43⟩]
    availableChannelModes := [(98, .A), (107, .B), (108, .C), (105, .D), (109, .D), (110, .D)] }

example :
    let ch : ChanModeState :=
      { members := (CMMap.new .rfc1459).set b!"Alice" [], modes := some [(110, []), (108, b!"9")] }
    let r := applyChannelModes exampleEnv ch b!"+bkov-l+Xn" [b!"*!*@x", b!"key", b!"alice", b!"ALICE"]
    (exampleEnv.availableMemberships.map (·.mode)).Nodup ∧
    r.2 = true ∧ r.1.members.get b!"aLICE" = some [⟨111, 64⟩, ⟨118, 43⟩] ∧
    r.1.modes = some [(110, []), (107, b!"key")] := by decide

end Verif.Props
