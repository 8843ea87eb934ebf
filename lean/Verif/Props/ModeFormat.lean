import Verif.Props.Modes
import Verif.Proof.GoMap

/-! # C05: the modes told to a client that asks for them

`formatChannelModes cm` is the mode string and the arguments of the reply.  A Go map is iterated in
any order: the theorems hold for every list `cm` with the entries of the map. -/

namespace Verif.Props
open Verif.Model Verif.Spec Verif.Proof

/-- The modes kept for a channel: each letter once, no sign, only letters of the three kinds that have
a value or are flags, and flags have no value. -/
def ModesFit (kind : Byte → LetterKind) (cm : GoMap Byte Str) : Prop :=
  (cm.map (·.1)).Nodup ∧
  ∀ p ∈ cm, p.1 ≠ 43 ∧ p.1 ≠ 45 ∧
    (kind p.1 = .always ∨ kind p.1 = .onSet ∨ (kind p.1 = .flag ∧ p.2 = []))

instance (kind : Byte → LetterKind) (cm : GoMap Byte Str) : Decidable (ModesFit kind cm) := by
  unfold ModesFit; infer_instance

private theorem kindOf_step {env : ModeEnv} {c : Byte} {v : Str}
    (h : kindOf env c = .always ∨ kindOf env c = .onSet ∨ (kindOf env c = .flag ∧ v = []))
    (h43 : c ≠ 43) (h45 : c ≠ 45) (args : List Str) (ch : ChanModeState) (next : Nat)
    (harg : (v ≠ [] → args[next]? = some v) ∧ (v = [] → args.length ≤ next)) (rest : Str) :
    applyChannelModesLoop env args ch (some true) next (c :: rest) =
      applyChannelModesLoop env args (setMode ch c v) (some true) (if v = [] ∧ kindOf env c = .flag then next else next + 1) rest := by
  rw [applyChannelModesLoop, if_neg h43, if_neg h45]
  unfold kindOf at *
  dsimp only
  have hval : (if next < args.length then args[next]?.getD [] else []) = v := by
    by_cases hv : v = []
    · rw [if_neg (by have := harg.2 hv; omega), hv]
    · have := harg.1 hv
      have hlt : next < args.length := by
        rcases Nat.lt_or_ge next args.length with h | h
        · exact h
        · rw [List.getElem?_eq_none h] at this; cases this
      rw [if_pos hlt, this]; rfl
  cases hm : findMembership env c with
  | some ms =>
    unfold findMembership at hm
    have h1 := List.mem_of_find?_eq_some hm
    have h2 := List.find?_some hm
    rw [if_pos (List.mem_map.2 ⟨ms, h1, by simpa using h2⟩)] at h
    simp at h
  | none =>
    unfold findMembership at hm
    have hnm : c ∉ env.availableMemberships.map (·.mode) := by
      intro hc
      obtain ⟨ms, h1, h2⟩ := List.mem_map.1 hc
      exact absurd h2 (by simpa using List.find?_eq_none.1 hm ms h1)
    rw [if_neg hnm] at h ⊢
    cases hg : GoMap.get env.availableChannelModes c with
    | none => rw [hg] at h; simp at h
    | some mt =>
      rw [hg] at h
      cases mt with
      | A => simp at h
      | B => simp [hval]
      | C => simp [hval]
      | D => simp at h; simp [h]

private theorem letters_map (l : GoMap Byte Str) (h : ∀ p ∈ l, p.1 < 128) :
    l.flatMap (fun p => letterString p.1) = l.map (·.1) := by
  induction l with
  | nil => rfl
  | cons p l ih =>
    rw [List.flatMap_cons, ih (fun q hq => h q (List.mem_cons_of_mem _ hq))]
    unfold letterString
    rw [if_pos (h p List.mem_cons_self)]
    rfl

private theorem readback_with (env : ModeEnv) (args : List Str) (rest : Str) :
    ∀ (l : GoMap Byte Str) (ch : ChanModeState) (next : Nat),
      (∀ p ∈ l, p.1 ≠ 43 ∧ p.1 ≠ 45 ∧ p.2 ≠ [] ∧
        (kindOf env p.1 = .always ∨ kindOf env p.1 = .onSet ∨ (kindOf env p.1 = .flag ∧ p.2 = []))) →
      (∀ i, i < l.length → args[next + i]? = (l.map (·.2))[i]?) →
      applyChannelModesLoop env args ch (some true) next (l.map (·.1) ++ rest) =
        applyChannelModesLoop env args (l.foldl (fun ch p => setMode ch p.1 p.2) ch) (some true)
          (next + l.length) rest := by
  intro l
  induction l with
  | nil => intro ch next _ _; rfl
  | cons p l ih =>
    intro ch next h ha
    obtain ⟨h1, h2, h3, h4⟩ := h p List.mem_cons_self
    rw [List.map_cons, List.cons_append,
      kindOf_step h4 h1 h2 args ch next
        ⟨fun _ => by have := ha 0 (by simp); simpa using this, fun e => absurd e h3⟩,
      if_neg (fun e => h3 e.1), ih _ _ (fun q hq => h q (List.mem_cons_of_mem _ hq))]
    · rw [List.foldl_cons, List.length_cons, Nat.add_assoc, Nat.add_comm 1]
    · intro i hi
      have := ha (i + 1) (by simpa using hi)
      rw [List.map_cons, List.getElem?_cons_succ] at this
      rw [← this]; congr 1; omega

private theorem readback_without (env : ModeEnv) (args : List Str) :
    ∀ (l : GoMap Byte Str) (ch : ChanModeState) (next : Nat), args.length ≤ next →
      (∀ p ∈ l, p.1 ≠ 43 ∧ p.1 ≠ 45 ∧ p.2 = [] ∧
        (kindOf env p.1 = .always ∨ kindOf env p.1 = .onSet ∨ (kindOf env p.1 = .flag ∧ p.2 = []))) →
      applyChannelModesLoop env args ch (some true) next (l.map (·.1)) =
        (l.foldl (fun ch p => setMode ch p.1 p.2) ch, true) := by
  intro l
  induction l with
  | nil => intro ch next _ _; rfl
  | cons p l ih =>
    intro ch next hn h
    obtain ⟨h1, h2, h3, h4⟩ := h p List.mem_cons_self
    rw [List.map_cons, kindOf_step h4 h1 h2 args ch next ⟨fun e => absurd h3 e, fun _ => hn⟩,
      ih _ _ (by split <;> omega) (fun q hq => h q (List.mem_cons_of_mem _ hq))]
    rfl

private theorem foldl_setMode : ∀ (l : GoMap Byte Str) (ch : ChanModeState) (m : GoMap Byte Str),
    ch.modes = some m →
    (l.foldl (fun ch p => setMode ch p.1 p.2) ch).modes =
      some (l.foldl (fun m p => GoMap.set m p.1 p.2) m) := by
  intro l
  induction l with
  | nil => intro ch m h; exact h
  | cons p l ih =>
    intro ch m h
    rw [List.foldl_cons, List.foldl_cons]
    apply ih
    unfold setMode
    dsimp only
    rw [h]; rfl

private theorem foldl_set_get : ∀ (l : GoMap Byte Str), (l.map (·.1)).Nodup →
    ∀ (m : GoMap Byte Str) (x : Byte),
      GoMap.get (l.foldl (fun m p => GoMap.set m p.1 p.2) m) x =
        match GoMap.get l x with
        | some v => some v
        | none => GoMap.get m x := by
  intro l
  induction l with
  | nil => intro _ m x; rfl
  | cons p l ih =>
    intro hnd m x
    rw [List.map_cons, List.nodup_cons] at hnd
    rw [List.foldl_cons, ih hnd.2, mget_mset]
    by_cases hx : x = p.1
    · have hnone : GoMap.get l x = none := by
        rw [mget_none_iff, hx]; exact hnd.1
      rw [hnone]
      have : GoMap.get (p :: l) x = some p.2 := by
        apply mget_of_mem
        · rw [List.map_cons, List.nodup_cons]; exact hnd
        · rw [hx]; exact List.mem_cons_self
      rw [this]; simp [hx]
    · have : GoMap.get (p :: l) x = GoMap.get l x := by
        obtain ⟨a, c⟩ := p
        simp only [GoMap.get]
        rw [if_neg (fun e => hx e.symm)]
      rw [this]
      cases GoMap.get l x with
      | some v => rfl
      | none => simp [Ne.symm hx]

theorem perm_get {l l' : GoMap Byte Str} (hp : l.Perm l') (hnd : (l.map (·.1)).Nodup) (x : Byte) :
    GoMap.get l x = GoMap.get l' x := by
  have hnd' : (l'.map (·.1)).Nodup := (hp.map (·.1)).nodup_iff.1 hnd
  cases h : GoMap.get l x with
  | some v => exact (mget_of_mem hnd' (hp.mem_iff.1 (mget_some_mem h))).symm
  | none =>
    rw [mget_none_iff] at h
    symm
    rw [mget_none_iff]
    exact fun hx => h ((hp.map (·.1)).mem_iff.2 hx)

/-- C05: the reply to a client that asks for the modes of a channel says exactly which modes are set
and with which values: whoever reads it by the server's own table, starting from no modes, accepts it
and ends up with every mode the bouncer keeps, with its value, and with no other. -/
theorem C05_told (env : ModeEnv) (cm : GoMap Byte Str) (hfit : ModesFit (kindOf env) cm)
    (hascii : ∀ p ∈ cm, p.1 < 128) (reader : ChanModeState) (hr : reader.modes = some []) :
    ∃ seen,
      (applyChannelModes env reader (formatChannelModes cm).1 (formatChannelModes cm).2).2 = true ∧
      (applyChannelModes env reader (formatChannelModes cm).1 (formatChannelModes cm).2).1.modes = some seen ∧
      ∀ letter, GoMap.get seen letter = GoMap.get cm letter := by
  obtain ⟨hnd, hall⟩ := hfit
  have hA := letters_map (cm.filter (fun p => decide (p.2 ≠ []))) (fun p hp => hascii p (List.mem_filter.1 hp).1)
  have hB := letters_map (cm.filter (fun p => decide (p.2 = []))) (fun p hp => hascii p (List.mem_filter.1 hp).1)
  have hperm : (cm.filter (fun p => decide (p.2 ≠ [])) ++ cm.filter (fun p => decide (p.2 = []))).Perm cm := by
    have := List.filter_append_perm (fun p : Byte × Str => decide (p.2 ≠ [])) cm
    simpa using this
  have hndP := (hperm.map (·.1)).nodup_iff.2 hnd
  have key : applyChannelModes env reader (formatChannelModes cm).1 (formatChannelModes cm).2 =
      ((cm.filter (fun p => decide (p.2 ≠ [])) ++ cm.filter (fun p => decide (p.2 = []))).foldl
        (fun ch p => setMode ch p.1 p.2) reader, true) := by
    unfold applyChannelModes formatChannelModes
    dsimp only
    rw [applyChannelModesLoop, if_pos rfl, hA, hB, readback_with, readback_without, List.foldl_append]
    · simp
    · intro p hp
      have h := hall p (List.mem_filter.1 hp).1
      exact ⟨h.1, h.2.1, by simpa using (List.mem_filter.1 hp).2, h.2.2⟩
    · intro p hp
      have h := hall p (List.mem_filter.1 hp).1
      exact ⟨h.1, h.2.1, by simpa using (List.mem_filter.1 hp).2, h.2.2⟩
    · intro i _
      rw [Nat.zero_add]
  rw [key]
  refine ⟨_, rfl, foldl_setMode _ _ _ hr, fun x => ?_⟩
  rw [foldl_set_get _ hndP, perm_get hperm hndP]
  cases GoMap.get cm x <;> rfl

private theorem fit_set {kind : Byte → LetterKind} {m : GoMap Byte Str} (h : ModesFit kind m) {c : Byte}
    {v : Str} (h43 : c ≠ 43) (h45 : c ≠ 45)
    (hk : kind c = .always ∨ kind c = .onSet ∨ (kind c = .flag ∧ v = [])) :
    ModesFit kind (GoMap.set m c v) := by
  refine ⟨mset_nodup h.1 c v, fun p hp => ?_⟩
  rcases mem_mset hp with rfl | hp
  · exact ⟨h43, h45, hk⟩
  · exact h.2 p (by first | exact hp | exact hp.1)

private theorem fit_del {kind : Byte → LetterKind} {m : GoMap Byte Str} (h : ModesFit kind m) (c : Byte) :
    ModesFit kind (GoMap.del m c) := by
  refine ⟨mdel_nodup h.1 c, fun p hp => h.2 p ?_⟩
  unfold GoMap.del at hp
  exact (List.mem_filter.1 hp).1

theorem loop_fit (env : ModeEnv) (args : List Str) : ∀ (s : Str) (ch : ChanModeState)
    (pm : Option Bool) (next : Nat) (m : GoMap Byte Str), ch.modes = some m → ModesFit (kindOf env) m →
    ∃ m', (applyChannelModesLoop env args ch pm next s).1.modes = some m' ∧ ModesFit (kindOf env) m' := by
  intro s
  induction s with
  | nil => intro ch pm next m h hf; exact ⟨m, h, hf⟩
  | cons c s ih =>
    intro ch pm next m h hf
    rw [applyChannelModesLoop.eq_def]
    dsimp only
    by_cases h43 : c = 43
    · rw [if_pos h43]; exact ih _ _ _ m h hf
    rw [if_neg h43]
    by_cases h45 : c = 45
    · rw [if_pos h45]; exact ih _ _ _ m h hf
    rw [if_neg h45]
    cases pm with
    | none => exact ⟨m, h, hf⟩
    | some plus =>
      dsimp only
      cases hm : findMembership env c with
      | some ms =>
        dsimp only
        cases args[next]? with
        | none => exact ⟨m, h, hf⟩
        | some member =>
          dsimp only
          apply ih _ _ _ m _ hf
          unfold applyMembership
          split <;> exact h
      | none =>
        dsimp only
        unfold findMembership at hm
        have hnm : c ∉ env.availableMemberships.map (·.mode) := by
          intro hc
          obtain ⟨ms, h1, h2⟩ := List.mem_map.1 hc
          exact absurd h2 (by simpa using List.find?_eq_none.1 hm ms h1)
        have hset : ∀ v, (setMode ch c v).modes = some (GoMap.set m c v) := by
          intro v; unfold setMode; dsimp only; rw [h]; rfl
        have hdel : (delMode ch c).modes = some (GoMap.del m c) := by
          unfold delMode; dsimp only; rw [h]; rfl
        cases hg : GoMap.get env.availableChannelModes c with
        | none => exact ih _ _ _ m h hf
        | some mt =>
          have hk : ∀ k, (match some mt with
              | none => LetterKind.unknown
              | some .A => .list
              | some .B => .always
              | some .C => .onSet
              | some .D => .flag) = k → kindOf env c = k := by
            intro k e
            unfold kindOf
            rw [if_neg hnm, hg]
            exact e
          cases mt with
          | A => exact ih _ _ _ m h hf
          | B =>
            cases plus with
            | true => exact ih _ _ _ _ (hset _) (fit_set hf h43 h45 (Or.inl (hk _ rfl)))
            | false => exact ih _ _ _ _ hdel (fit_del hf c)
          | C =>
            cases plus with
            | true => exact ih _ _ _ _ (hset _) (fit_set hf h43 h45 (Or.inr (Or.inl (hk _ rfl))))
            | false => exact ih _ _ _ _ hdel (fit_del hf c)
          | D =>
            cases plus with
            | true => exact ih _ _ _ _ (hset _) (fit_set hf h43 h45 (Or.inr (Or.inr ⟨hk _ rfl, rfl⟩)))
            | false => exact ih _ _ _ _ hdel (fit_del hf c)

/-- C05: the same for every history: after any MODE lines (and the server's own listing of the modes),
accepted or not, whatever order the bouncer lists its modes in, the reply says exactly the modes it
keeps, if the server names its modes by ASCII characters. -/
theorem C05_told_after (env : ModeEnv) (ch : ChanModeState) (h0 : ch.modes = some [])
    (lines : List (Str × List Str)) (kept cm : GoMap Byte Str)
    (hkept : (lines.foldl (fun ch l => (applyChannelModes env ch l.1 l.2).1) ch).modes = some kept)
    (hcm : cm.Perm kept) (hascii : ∀ p ∈ kept, p.1 < 128)
    (reader : ChanModeState) (hr : reader.modes = some []) :
    ∃ seen,
      (applyChannelModes env reader (formatChannelModes cm).1 (formatChannelModes cm).2).2 = true ∧
      (applyChannelModes env reader (formatChannelModes cm).1 (formatChannelModes cm).2).1.modes = some seen ∧
      ∀ letter, GoMap.get seen letter = GoMap.get kept letter := by
  have hfit : ∀ (lines : List (Str × List Str)) (ch : ChanModeState) (m : GoMap Byte Str),
      ch.modes = some m → ModesFit (kindOf env) m →
      ∃ m', (lines.foldl (fun ch l => (applyChannelModes env ch l.1 l.2).1) ch).modes = some m' ∧
        ModesFit (kindOf env) m' := by
    intro lines
    induction lines with
    | nil => intro ch m h hf; exact ⟨m, h, hf⟩
    | cons l lines ih =>
      intro ch m h hf
      obtain ⟨m', h', hf'⟩ := loop_fit env l.2 l.1 ch none 0 m h hf
      exact ih _ m' h' hf'
  obtain ⟨m', h', hf⟩ := hfit lines ch [] h0 ⟨by simp, by simp⟩
  rw [hkept] at h'
  cases h'
  have hfc : ModesFit (kindOf env) cm :=
    ⟨(hcm.map (·.1)).nodup_iff.2 hf.1, fun p hp => hf.2 p (hcm.mem_iff.1 hp)⟩
  obtain ⟨seen, h1, h2, h3⟩ := C05_told env cm hfc (fun p hp => hascii p (hcm.mem_iff.1 hp)) reader hr
  exact ⟨seen, h1, h2, fun x => by rw [h3, perm_get hcm hfc.1]⟩

/-- C05: the shape of the reply: one `+`, then each letter once, those with a value first and the
values in the same order. -/
theorem C05_told_shape (cm : GoMap Byte Str) (hascii : ∀ p ∈ cm, p.1 < 128) :
    ∃ valued flags : GoMap Byte Str, (valued ++ flags).Perm cm ∧
      (∀ p ∈ valued, p.2 ≠ []) ∧ (∀ p ∈ flags, p.2 = []) ∧
      formatChannelModes cm = (43 :: (valued.map (·.1) ++ flags.map (·.1)), valued.map (·.2)) := by
  refine ⟨cm.filter (fun p => decide (p.2 ≠ [])), cm.filter (fun p => decide (p.2 = [])), ?_, ?_, ?_, ?_⟩
  · have := List.filter_append_perm (fun p : Byte × Str => decide (p.2 ≠ [])) cm
    simpa using this
  · intro p hp; simpa using (List.mem_filter.1 hp).2
  · intro p hp; simpa using (List.mem_filter.1 hp).2
  · unfold formatChannelModes
    dsimp only
    rw [letters_map _ (fun p hp => hascii p (List.mem_filter.1 hp).1),
      letters_map _ (fun p hp => hascii p (List.mem_filter.1 hp).1)]

/-- C05: a server that sends no CHANMODES has the standard modes: lists `beI`, a key `k`, a limit `l`
and the flags `imnst`, nothing else. -/
theorem C05_standard_modes (letter : Byte) :
    GoMap.get stdChannelModes letter =
      (if letter ∈ b!"beI" then some .A
       else if letter ∈ b!"k" then some .B
       else if letter ∈ b!"l" then some .C
       else if letter ∈ b!"imnst" then some .D
       else none) := by
  unfold stdChannelModes
  simp only [GoMap.get, List.mem_cons, List.not_mem_nil, or_false]
  by_cases h1 : letter = 98
  · subst h1; rfl
  by_cases h2 : letter = 101
  · subst h2; rfl
  by_cases h3 : letter = 73
  · subst h3; rfl
  by_cases h4 : letter = 107
  · subst h4; rfl
  by_cases h5 : letter = 108
  · subst h5; rfl
  by_cases h6 : letter = 105
  · subst h6; rfl
  by_cases h7 : letter = 109
  · subst h7; rfl
  by_cases h8 : letter = 110
  · subst h8; rfl
  by_cases h9 : letter = 115
  · subst h9; rfl
  by_cases h10 : letter = 116
  · subst h10; rfl
  simp [h1, h2, h3, h4, h5, h6, h7, h8, h9, h10, Ne.symm h1, Ne.symm h2, Ne.symm h3, Ne.symm h4,
    Ne.symm h5, Ne.symm h6, Ne.symm h7, Ne.symm h8, Ne.symm h9, Ne.symm h10]

/-- C05: the restriction to ASCII is needed: a mode whose letter is not ASCII is told as two other bytes, so the reader does not
learn of it. -/
theorem C05_told_not_ascii :
    ∃ (env : ModeEnv) (cm : GoMap Byte Str) (reader : ChanModeState), ModesFit (kindOf env) cm ∧
      reader.modes = some [] ∧ GoMap.get cm 233 = some [] ∧
      formatChannelModes cm = ([43, 195, 169], []) ∧
      (applyChannelModes env reader (formatChannelModes cm).1 (formatChannelModes cm).2).1.modes = some [] :=
  ⟨{ availableMemberships := [], availableChannelModes := [(233, .D)] }, [(233, [])],
    { members := CMMap.new .rfc1459, modes := some [] }, by decide, rfl, by decide, by decide, by decide⟩

/-- A channel with a limit, a key that the server did not tell, and two flags. -/
example :
    let cm : GoMap Byte Str := [(110, []), (107, []), (108, b!"25"), (105, [])]
    ModesFit (kindOf exampleEnv) cm ∧ (∀ p ∈ cm, p.1 < 128) ∧
    formatChannelModes cm = (b!"+lnki", [b!"25"]) ∧
    (applyChannelModes exampleEnv { members := CMMap.new .rfc1459, modes := some [] } b!"+nkil-i+i"
      [b!"", b!"25"]).1.modes = some [(110, []), (107, []), (108, b!"25"), (105, [])] := by decide

end Verif.Props
