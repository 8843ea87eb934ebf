import Verif.Proof.GenMsg

/-! # C07, C08, C09, C48: packing lists into lines -/

namespace Verif.Props
open Verif.Model Verif.Spec Verif.Proof

/-- A sorted arrangement of the channels to join, as `sort.Sort` produces it. -/
def IsJoinOrder (sorted input : List (Str × Str)) : Prop :=
  sorted.Perm input ∧ sorted.Pairwise (fun a b => joinLess b a = false)

/-- Channel names are not empty; neither names nor keys contain a comma. -/
def JoinWF (l : List (Str × Str)) : Prop := ∀ p ∈ l, p.1 ≠ [] ∧ 44 ∉ p.1 ∧ 44 ∉ p.2

private theorem keyedFirst_of_order {sorted : List (Str × Str)}
    (h : sorted.Pairwise (fun a b => joinLess b a = false)) : KeyedFirst sorted := by
  refine h.imp ?_
  intro a b hl hb ha
  unfold joinLess at hl
  simp [ha, hb] at hl

private theorem join_flat (input sorted : List (Str × Str)) (ho : IsJoinOrder sorted input)
    (hwf : JoinWF input) :
    (generateJoin sorted).flatMap (fun m => joinTargets m.params) = sorted := by
  have hk := keyedFirst_of_order ho.2
  have hwf' : JoinWF sorted := fun p hp => hwf p (ho.1.mem_iff.1 hp)
  have inv := joinFold_inv sorted [] ⟨[], [], []⟩
    ⟨⟨[], [], rfl, groupRep_nil, rfl, fun _ => rfl⟩, by simp⟩ (by simpa using hk) hwf'
  simp only [List.nil_append] at inv
  obtain ⟨⟨d, g, hdg, hrep, hd, hgd⟩, _⟩ := inv
  unfold generateJoin
  simp only
  by_cases hg : g = []
  · have hc := hrep.chans_nil hg
    rw [hc, if_neg (by simp), hd, hdg, hg, List.append_nil]
  · have hc : (sorted.foldl joinStep ⟨[], [], []⟩).chans.length > 0 :=
      List.length_pos_iff.2 (hrep.chans hg).1
    rw [if_pos hc]
    have hkg : KeyedFirst g := by
      have := hk
      rw [hdg] at this
      exact (List.pairwise_append.1 this).2.1
    simp only [List.flatMap_append, hd, List.flatMap_cons, List.flatMap_nil, List.append_nil,
      joinTargets_flush hrep hg hkg]
    exact hdg.symm

/-- C07: read as an IRC server reads them, the generated JOIN lines together ask for exactly the
given channels, each once and each with its own key (none for channels without a key). -/
theorem C07_join_covers (input sorted : List (Str × Str)) (ho : IsJoinOrder sorted input)
    (hwf : JoinWF input) :
    ((generateJoin sorted).flatMap (fun m => joinTargets m.params)).Perm input := by
  rw [join_flat input sorted ho hwf]; exact ho.1

/-- C07: over all lines, in the order the server reads them, no channel with a key comes after one
without. -/
theorem C07_keyed_first (input sorted : List (Str × Str)) (ho : IsJoinOrder sorted input)
    (hwf : JoinWF input) :
    ((generateJoin sorted).flatMap (fun m => joinTargets m.params)).Pairwise
      (fun earlier later => later.2 ≠ [] → earlier.2 ≠ []) := by
  rw [join_flat input sorted ho hwf]; exact keyedFirst_of_order ho.2

/-- C07 (length, partial): every line names at least one channel and, unless it names a single
channel, is at most 512 bytes long *without* its CR LF.  Missing: the IRC limit is 512 bytes
including CR LF, which the code does not reach — see `C07_length_violated`. -/
theorem C07_length_partial (input sorted : List (Str × Str)) (ho : IsJoinOrder sorted input)
    (hwf : JoinWF input) :
    ∀ m ∈ generateJoin sorted, m.command = b!"JOIN" ∧ joinTargets m.params ≠ [] ∧
      ((joinTargets m.params).length = 1 ∨ lineLength m.command m.params ≤ 512) := by
  have hk := keyedFirst_of_order ho.2
  have hwf' : JoinWF sorted := fun p hp => hwf p (ho.1.mem_iff.1 hp)
  have inv := joinFold_inv sorted [] ⟨[], [], []⟩
    ⟨⟨[], [], rfl, groupRep_nil, rfl, fun _ => rfl⟩, by simp⟩ (by simpa using hk) hwf'
  simp only [List.nil_append] at inv
  obtain ⟨⟨d, g, hdg, hrep, hd, hgd⟩, hmsgs⟩ := inv
  suffices ∀ m ∈ generateJoin sorted, m.command = b!"JOIN" ∧ joinTargets m.params ≠ [] ∧
      ((joinTargets m.params).length ≤ 1 ∨ lineLength m.command m.params ≤ 512) by
    intro m hm
    obtain ⟨h1, h2, h3⟩ := this m hm
    refine ⟨h1, h2, h3.imp_left ?_⟩
    intro h
    have := List.length_pos_iff.2 h2
    omega
  intro m hm
  unfold generateJoin at hm
  simp only at hm
  split at hm
  · rename_i hc
    have hg : g ≠ [] := by
      rintro rfl
      rw [hrep.chans_nil rfl] at hc
      simp at hc
    have hkg : KeyedFirst g := by
      have := hk
      rw [hdg] at this
      exact (List.pairwise_append.1 this).2.1
    have hfl := joinTargets_flush hrep hg hkg
    simp only [List.mem_append, List.mem_singleton] at hm
    rcases hm with hm | rfl
    · exact hmsgs m hm
    · refine ⟨rfl, by rw [hfl]; exact hg, ?_⟩
      rw [hfl]
      exact lineLength_flush hrep
  · exact hmsgs m hm

/-- C07 (disagreement): two channels whose JOIN line, with its CR LF, is longer than the 512 bytes
IRC allows. -/
theorem C07_length_violated :
    ∃ sorted, IsJoinOrder sorted sorted ∧ JoinWF sorted ∧ sorted.length = 2 ∧
      ∃ m ∈ generateJoin sorted, (joinTargets m.params).length = 2 ∧
        lineLength m.command m.params + 2 > 512 := by
  refine ⟨[(List.replicate 300 97, b!"k"), (List.replicate 202 98, b!"j")], ?_, ?_, rfl, ?_⟩
  · exact ⟨List.Perm.refl _, by decide +kernel⟩
  · unfold JoinWF; decide +kernel
  · decide +kernel

example : IsJoinOrder [(b!"#z", b!"key"), (b!"#a", []), (b!"#b", [])]
      [(b!"#b", []), (b!"#z", b!"key"), (b!"#a", [])] ∧
    JoinWF [(b!"#b", []), (b!"#z", b!"key"), (b!"#a", [])] ∧
    generateJoin [(b!"#z", b!"key"), (b!"#a", []), (b!"#b", [])]
      = [⟨b!"JOIN", [b!"#z,#a,#b", b!"key"]⟩] := by
  unfold IsJoinOrder JoinWF; decide

/-- C08: the MONITOR lines name exactly the given targets in order. -/
theorem C08_monitor_lossless (sub : Str) (targets : List Str) (hwf : ∀ t ∈ targets, t ≠ [] ∧ 44 ∉ t) :
    (generateMonitor sub targets).flatMap (fun m => (m.params.drop 1).flatMap (listParam 44))
      = targets := by
  have inv := monFold_inv sub targets [] ⟨[], [], 0⟩
    ⟨⟨[], rfl, rfl⟩, rfl, by simp, by simp⟩ (by simpa using hwf)
  simp only [List.nil_append] at inv
  obtain ⟨d, hd, hm⟩ := inv.split
  unfold generateMonitor
  simp only
  split
  · rename_i h
    obtain ⟨h1, -, -⟩ := monFlush inv hwf _ rfl
    simp only [List.flatMap_append, hm, List.flatMap_cons, List.flatMap_nil, List.append_nil]
    rw [h1]
    exact hd.symm
  · rename_i h
    have : (targets.foldl (monitorStep sub) ⟨[], [], 0⟩).buf = [] := by
      apply List.eq_nil_of_length_eq_zero; omega
    rw [hm]
    rw [this] at hd
    simpa using hd.symm

/-- C08: every MONITOR line is shorter than 512 bytes (without CR LF) unless it names at most one
target. -/
theorem C08_monitor_length (sub : Str) (targets : List Str) (hwf : ∀ t ∈ targets, t ≠ [] ∧ 44 ∉ t) :
    ∀ m ∈ generateMonitor sub targets, m.command = b!"MONITOR" ∧ ∃ l, m.params = [sub, l] ∧
      ((listParam 44 l).length ≤ 1 ∨ lineLength m.command m.params < 512) := by
  have inv := monFold_inv sub targets [] ⟨[], [], 0⟩
    ⟨⟨[], rfl, rfl⟩, rfl, by simp, by simp⟩ (by simpa using hwf)
  simp only [List.nil_append] at inv
  intro m hm
  unfold generateMonitor at hm
  simp only at hm
  split at hm
  · obtain ⟨-, h2, h3⟩ := monFlush inv hwf _ rfl
    simp only [List.mem_append, List.mem_singleton] at hm
    rcases hm with hm | rfl
    · exact inv.msgs m hm
    · exact ⟨h2, h3⟩
  · exact inv.msgs m hm

/-- C08 (disagreement): a MONITOR line naming two targets can exceed, with its CR LF, the 512 bytes
IRC allows; and an oversized first target produces a line naming no target at all. -/
theorem C08_monitor_violated :
    (∃ targets : List Str, (∀ t ∈ targets, t ≠ [] ∧ 44 ∉ t) ∧ ∃ m ∈ generateMonitor b!"+" targets,
      (m.params.flatMap (listParam 44)).length = 3 ∧ lineLength m.command m.params + 2 > 512) ∧
    (∃ targets : List Str, (∀ t ∈ targets, t ≠ [] ∧ 44 ∉ t) ∧
      ⟨b!"MONITOR", [b!"+", []]⟩ ∈ generateMonitor b!"+" targets) := by
  refine ⟨⟨[List.replicate 300 97, List.replicate 200 98], by decide +kernel, by decide +kernel⟩,
    ⟨[List.replicate 600 97], by decide +kernel, by decide +kernel⟩⟩

example : (∀ t ∈ [b!"alice", b!"bob"], t ≠ [] ∧ 44 ∉ t) ∧
    generateMonitor b!"+" [b!"alice", b!"bob"] = [⟨b!"MONITOR", [b!"+", b!"alice,bob"]⟩] := by decide

/-- C08: the RPL_NAMREPLY lines list exactly the given members in order, followed by exactly one end
marker. -/
theorem C08_names_lossless (ch : Str) (status : Byte) (members : List Str)
    (hwf : ∀ s ∈ members, s ≠ [] ∧ 32 ∉ s) :
    ∃ replies, generateNamesReply ch status members
        = replies ++ [⟨b!"366", [b!"*", ch, b!"End of /NAMES list"]⟩] ∧
      replies.flatMap (fun m => (m.params.drop 3).flatMap (listParam 32)) = members ∧
      ∀ m ∈ replies, ∃ l, m = ⟨b!"353", [b!"*", [status], ch, l]⟩ ∧
        ((listParam 32 l).length ≤ 1 ∨ (msgString m).length ≤ 512) := by
  have inv := namesFold_inv ch status members [] ([], [])
    ⟨⟨[], [], rfl, by simp, by simp, rfl, by simp⟩, by simp⟩ hwf
  simp only [List.nil_append] at inv
  obtain ⟨⟨d, g, hdg, hnil, hrep, hd, hfit⟩, hmsgs⟩ := inv
  unfold generateNamesReply
  simp only
  refine ⟨_, rfl, ?_⟩
  by_cases hg : g = []
  · have := hnil hg
    have hz : ¬ (members.foldl (namesStep ch status) ([], [])).2.length ≠ 0 := by rw [this]; simp
    rw [if_neg hz]
    refine ⟨by rw [hd, hdg, hg]; simp, ?_⟩
    intro m hm
    obtain ⟨l, h1, h2⟩ := hmsgs m hm
    exact ⟨l, h1, h2⟩
  · have hr := hrep hg
    have hl : (members.foldl (namesStep ch status) ([], [])).2.length ≠ 0 :=
      fun e => hr.1 (List.length_eq_zero_iff.1 e)
    rw [if_pos hl]
    obtain ⟨h1, h2⟩ := namesFlush (ch := ch) (status := status) hg hr hfit
    refine ⟨?_, ?_⟩
    · simp only [List.flatMap_append, hd, List.flatMap_cons, List.flatMap_nil, List.append_nil, h1]
      exact hdg.symm
    · intro m hm
      simp only [List.mem_append, List.mem_singleton] at hm
      rcases hm with hm | rfl
      · obtain ⟨l, h1, h2⟩ := hmsgs m hm
        exact ⟨l, h1, h2⟩
      · exact ⟨_, rfl, h2⟩

/-- C08 (disagreement): the RPL_NAMREPLY length computation leaves no room for the `:server` prefix,
the client's nick and CR LF that are added when the line is sent: the body alone can take 512
bytes. -/
theorem C08_names_violated :
    ∃ members : List Str, (∀ s ∈ members, s ≠ [] ∧ 32 ∉ s) ∧ 1 < members.length ∧
      ∃ m ∈ generateNamesReply b!"#c" 61 members, (msgString m).length = 512 := by
  refine ⟨[List.replicate 300 97, List.replicate 199 98], ?_, ?_, ?_⟩ <;> decide +kernel

example : (∀ s ∈ [b!"@alice", b!"bob"], s ≠ [] ∧ 32 ∉ s) ∧
    generateNamesReply b!"#c" 61 [b!"@alice", b!"bob"] =
      [⟨b!"353", [b!"*", b!"=", b!"#c", b!"@alice bob"]⟩,
       ⟨b!"366", [b!"*", b!"#c", b!"End of /NAMES list"]⟩] := by decide

/-- C08: the ISUPPORT lines carry exactly the given tokens in order, at most 13 per line (15
parameters with the nick and the trailing text), and never an empty line. -/
theorem C08_isupport_lossless (tokens : List Str) :
    ((generateIsupport tokens).flatMap (fun m => ((m.params.drop 1).dropLast).map isupportDecode)
        = tokens) ∧
    ∀ m ∈ generateIsupport tokens, m.command = b!"005" ∧ 3 ≤ m.params.length ∧ m.params.length ≤ 15 := by
  fun_induction generateIsupport tokens with
  | case1 => simp
  | case2 tokens maxTokens hne hgt ih =>
    obtain ⟨ih1, ih2⟩ := ih
    have hmt : maxTokens = 13 := rfl
    constructor
    · simp only [List.flatMap_cons, ih1, List.cons_append, List.drop_succ_cons, List.drop_zero,
        List.dropLast_concat, List.map_map]
      have : (tokens.take maxTokens).map (isupportDecode ∘ isupportEncode) = tokens.take maxTokens := by
        conv => rhs; rw [← List.map_id (tokens.take maxTokens)]
        apply List.map_congr_left
        intro s _
        exact isupportDecode_encode s
      rw [this, List.take_append_drop]
    · intro m hm
      rcases List.mem_cons.1 hm with rfl | hm
      · simp [hmt] at hgt ⊢
        omega
      · exact ih2 m hm
  | case3 tokens maxTokens hne hle =>
    have hmt : maxTokens = 13 := rfl
    have hpos : 0 < tokens.length := List.length_pos_iff.2 hne
    constructor
    · simp only [List.flatMap_cons, List.flatMap_nil, List.append_nil, List.cons_append,
        List.drop_succ_cons, List.drop_zero, List.dropLast_concat, List.map_map]
      conv => rhs; rw [← List.map_id tokens]
      apply List.map_congr_left
      intro s _
      exact isupportDecode_encode s
    · intro m hm
      simp only [List.mem_singleton] at hm
      subst hm
      simp [hmt] at hle ⊢
      omega

/-- C48: every ISUPPORT value is decoded by the client to the value intended, whatever bytes it
contains. -/
theorem C48_isupport_encoding (s : Str) : isupportDecode (isupportEncode s) = s :=
  isupportDecode_encode s

/-- C48: an encoded token never contains a space, so it stays one parameter. -/
theorem C48_isupport_no_space (s : Str) : 32 ∉ isupportEncode s := by
  induction s with
  | nil => simp [isupportEncode]
  | cons c s ih =>
    simp only [isupportEncode]
    split
    · simpa using ih
    · split
      · simpa using ih
      · rename_i h _
        simp only [List.mem_cons, not_or]
        exact ⟨fun e => h e.symm, ih⟩

example : isupportEncode b!"NETWORK=My \\ Net" = b!"NETWORK=My\\x20\\x5C\\x20Net" ∧
    (generateIsupport (List.replicate 14 b!"A=B")).length = 2 := by
  constructor
  · decide
  · simp [generateIsupport, maxMessageParams, List.replicate]

/-- C09: for every response whose base64 form is at most 10240 bytes, feeding the generated
AUTHENTICATE lines to the bouncer's own parser waits on every line but the last, and then hands over
exactly the response. -/
theorem C09_sasl_roundtrip (resp : List Byte) (hb : ∀ b ∈ resp, b < 256)
    (hlen : (resp.length + 2) / 3 * 4 ≤ 10240) :
    saslReceiveAll [] ((generateSASL resp).flatMap (·.params))
      = List.replicate ((resp.length + 2) / 3 * 4 / 400) .wait ++ [.response resp] := by
  have hl := encode_std_length resp
  have hp : (generateSASL resp).flatMap (·.params) = saslChunks (Base64.encode .std resp) := by
    unfold generateSASL
    rw [List.flatMap_map]
    simp
  rw [hp, saslReceiveAll_ok _ (by rw [hl]; omega) [] resp (by rw [hl]; simpa using hlen)
    (by simpa using decode_encode .std resp hb), hl]

/-- C09: each line is an AUTHENTICATE with one parameter of at most 400 bytes; all but the last are
exactly 400 bytes long and the last one is shorter (and not empty: "+" stands for nothing). -/
theorem C09_sasl_chunk_sizes (resp : List Byte) :
    ∃ (init : List Str) (last : Str), generateSASL resp =
        init.map (fun c => ⟨b!"AUTHENTICATE", [c]⟩) ++ [⟨b!"AUTHENTICATE", [last]⟩] ∧
      (∀ c ∈ init, c.length = 400) ∧ last.length < 400 ∧ last ≠ [] := by
  obtain ⟨init, last, h1, h2, h3, h4, _⟩ := saslChunks_shape (Base64.encode .std resp)
  exact ⟨init, last, by simp [generateSASL, h1], h2, h3, h4⟩

/-- C09: a response whose base64 form exceeds 10240 bytes is refused, and no response is ever handed
over. -/
theorem C09_sasl_too_long (resp : List Byte) (hlen : (resp.length + 2) / 3 * 4 > 10240) :
    ∃ k, saslReceiveAll [] ((generateSASL resp).flatMap (·.params))
      = List.replicate k .wait ++ [.tooLong] := by
  have hl := encode_std_length resp
  have hp : (generateSASL resp).flatMap (·.params) = saslChunks (Base64.encode .std resp) := by
    unfold generateSASL
    rw [List.flatMap_map]
    simp
  rw [hp]
  exact saslReceiveAll_long _ (by rw [hl]; omega) [] (by rw [hl]; simpa using hlen)

example : (∀ b ∈ [0, 97, 0, 255], b < 256) ∧ ([0, 97, 0, 255].length + 2) / 3 * 4 ≤ 10240 ∧
    generateSASL [0, 97, 0, 255] = [⟨b!"AUTHENTICATE", [b!"AGEA/w=="]⟩] ∧
    generateSASL [] = [⟨b!"AUTHENTICATE", [b!"+"]⟩] := by
  refine ⟨by decide, by decide, ?_, ?_⟩
  · simp [generateSASL, Base64.encode, Base64.encChar, Base64.pad, saslChunks, maxSASLLength]
  · simp [generateSASL, Base64.encode, saslChunks, maxSASLLength]

end Verif.Props
