import Verif.Model.GenMsg
import Verif.Spec.GenMsg
import Verif.Proof.Base64

namespace Verif.Proof
open Verif.Model Verif.Spec

theorem splitSep_ne_nil (sep : Byte) (s : Str) : splitSep sep s ≠ [] := by
  cases s with
  | nil => simp [splitSep]
  | cons c s => simp only [splitSep]; split <;> (try split) <;> simp

theorem splitSep_append (sep : Byte) (a b : Str) :
    splitSep sep (a ++ sep :: b) = splitSep sep a ++ splitSep sep b := by
  induction a with
  | nil => simp [splitSep]
  | cons c a ih =>
    simp only [List.cons_append, splitSep]
    by_cases h : c = sep
    · simp [h, ih]
    · simp only [h, if_false, ih]
      cases hs : splitSep sep a with
      | nil => exact absurd hs (splitSep_ne_nil _ _)
      | cons x xs => simp

theorem splitSep_free (sep : Byte) (a : Str) (h : sep ∉ a) : splitSep sep a = [a] := by
  induction a with
  | nil => rfl
  | cons c a ih =>
    simp only [List.mem_cons, not_or] at h
    simp only [splitSep]
    rw [if_neg (fun e => h.1 e.symm), ih h.2]

theorem joinSep_snoc (sep : Byte) (l : List Str) (x : Str) (h : l ≠ []) :
    joinSep sep (l ++ [x]) = joinSep sep l ++ sep :: x := by
  induction l with
  | nil => exact absurd rfl h
  | cons a l ih =>
    cases l with
    | nil => simp [joinSep]
    | cons b l => simp [joinSep] at ih ⊢; exact ih

theorem splitSep_joinSep (sep : Byte) (l : List Str) (hl : l ≠ []) (h : ∀ x ∈ l, sep ∉ x) :
    splitSep sep (joinSep sep l) = l := by
  induction l with
  | nil => exact absurd rfl hl
  | cons a l ih =>
    cases l with
    | nil => simpa [joinSep] using splitSep_free sep a (h a (by simp))
    | cons b l =>
      simp only [joinSep, splitSep_append, splitSep_free sep a (h a (by simp))]
      rw [ih (by simp) (fun x hx => h x (by simp [hx]))]
      simp

/-! ## JOIN -/

def keysOf (g : List (Str × Str)) : List Str := (g.map (·.2)).filter (fun k => decide (k ≠ []))

def KeyedFirst (g : List (Str × Str)) : Prop := g.Pairwise (fun a b => b.2 ≠ [] → a.2 ≠ [])

theorem padZip_nil (g : List (Str × Str)) (h : ∀ p ∈ g, p.2 = []) : padZip (g.map (·.1)) [] = g := by
  induction g with
  | nil => rfl
  | cons p g ih =>
    obtain ⟨c, k⟩ := p
    have hk : k = [] := h (c, k) (by simp)
    subst hk
    simp only [List.map_cons, padZip, ih (fun p hp => h p (by simp [hp]))]

theorem padZip_keyed (g : List (Str × Str)) (h : KeyedFirst g) :
    padZip (g.map (·.1)) (keysOf g) = g := by
  induction g with
  | nil => rfl
  | cons p g ih =>
    obtain ⟨c, k⟩ := p
    rw [KeyedFirst, List.pairwise_cons] at h
    by_cases hk : k = []
    · subst hk
      have hall : ∀ p ∈ ((c, []) :: g : List (Str × Str)), p.2 = [] := by
        intro p hp
        rcases List.mem_cons.1 hp with rfl | hp
        · rfl
        · apply Classical.byContradiction
          intro hne
          exact h.1 p hp hne rfl
      have hks : keysOf ((c, []) :: g) = [] := by
        unfold keysOf
        rw [List.filter_eq_nil_iff]
        intro x hx
        obtain ⟨p, hp, rfl⟩ := List.mem_map.1 hx
        simp [hall p hp]
      rw [hks]
      exact padZip_nil _ hall
    · have : keysOf ((c, k) :: g) = k :: keysOf g := by simp [keysOf, hk]
      rw [this]
      simp only [List.map_cons, padZip, ih h.2]

/-- The builder state represents the group `g` of channels of the message being built. -/
structure GroupRep (g : List (Str × Str)) (cb kb : Str) : Prop where
  chans_nil : g = [] → cb = []
  chans : g ≠ [] → cb ≠ [] ∧ splitSep 44 cb = g.map (·.1)
  keys_nil : keysOf g = [] → kb = []
  keys : keysOf g ≠ [] → kb ≠ [] ∧ splitSep 44 kb = keysOf g
  fits : 2 ≤ g.length → cb.length + kb.length ≤ 506

theorem joinTargets_flush {g : List (Str × Str)} {cb kb : Str} (h : GroupRep g cb kb) (hg : g ≠ [])
    (hk : KeyedFirst g) : joinTargets (joinFlush cb kb).params = g := by
  unfold joinFlush
  have hc := (h.chans hg).2
  by_cases hks : keysOf g = []
  · have := h.keys_nil hks
    subst this
    simp only [List.length_nil, Nat.lt_irrefl, gt_iff_lt, if_false, joinTargets, hc]
    rw [← hks]
    exact padZip_keyed g hk
  · obtain ⟨h1, h2⟩ := h.keys hks
    have : kb.length > 0 := List.length_pos_iff.2 h1
    simp only [this, if_true, joinTargets, hc, h2]
    exact padZip_keyed g hk

theorem lineLength_flush {g : List (Str × Str)} {cb kb : Str} (h : GroupRep g cb kb) :
    g.length ≤ 1 ∨ lineLength (joinFlush cb kb).command (joinFlush cb kb).params ≤ 512 := by
  by_cases hg : g.length ≤ 1
  · exact .inl hg
  · refine .inr ?_
    have := h.fits (by omega)
    unfold joinFlush
    split <;> simp [lineLength] <;> omega

theorem groupRep_nil : GroupRep [] [] [] := by
  constructor <;> simp [keysOf]

theorem keysOf_snoc (g : List (Str × Str)) (c k : Str) :
    keysOf (g ++ [(c, k)]) = keysOf g ++ (if k ≠ [] then [k] else []) := by
  unfold keysOf
  rw [List.map_append, List.filter_append]
  congr 1
  by_cases h : k = [] <;> simp [h]

theorem groupRep_snoc {g : List (Str × Str)} {cb kb : Str} (h : GroupRep g cb kb) (c k : Str)
    (hc : c ≠ []) (hcc : 44 ∉ c) (hkc : 44 ∉ k)
    (hfit : g ≠ [] → cb.length + kb.length + 1 + c.length + (if k ≠ [] then 1 + k.length else 0) ≤ 506) :
    GroupRep (g ++ [(c, k)])
      ((if cb.length > 0 then cb ++ [44] else cb) ++ c)
      (if k ≠ [] then (if kb.length > 0 then kb ++ [44] else kb) ++ k else kb) := by
  have hcb : g = [] ∨ (g ≠ [] ∧ cb.length > 0) := by
    by_cases hg : g = []
    · exact .inl hg
    · exact .inr ⟨hg, List.length_pos_iff.2 (h.chans hg).1⟩
  constructor
  · simp
  · intro _
    rcases hcb with rfl | ⟨hg, hlen⟩
    · have := h.chans_nil rfl
      subst this
      simp [hc, splitSep_free 44 c hcc]
    · simp only [hlen, if_true, List.append_assoc, List.singleton_append]
      refine ⟨by simp, ?_⟩
      rw [splitSep_append, (h.chans hg).2, splitSep_free 44 c hcc]
      simp
  · intro hks
    rw [keysOf_snoc] at hks
    by_cases hk : k = []
    · simp only [hk, ne_eq, not_true_eq_false, if_false, List.append_nil] at hks ⊢
      exact h.keys_nil hks
    · simp [hk] at hks
  · intro hks
    rw [keysOf_snoc] at hks ⊢
    by_cases hk : k = []
    · simp only [hk, ne_eq, not_true_eq_false, if_false, List.append_nil] at hks ⊢
      exact h.keys hks
    · simp only [ne_eq, hk, not_false_eq_true, if_true]
      by_cases hks' : keysOf g = []
      · have := h.keys_nil hks'
        subst this
        simp [hk, hks', splitSep_free 44 k hkc]
      · obtain ⟨h1, h2⟩ := h.keys hks'
        have hl : kb.length > 0 := List.length_pos_iff.2 h1
        simp only [hl, if_true, List.append_assoc, List.singleton_append]
        refine ⟨by simp, ?_⟩
        rw [splitSep_append, h2, splitSep_free 44 k hkc]
  · intro h2
    have hg : g ≠ [] := by rintro rfl; simp at h2
    have := hfit hg
    by_cases hk : k = []
    · simp only [hk, ne_eq, not_true_eq_false, if_false, Nat.add_zero] at this ⊢
      split <;> simp <;> omega
    · simp only [ne_eq, hk, not_false_eq_true, if_true] at this ⊢
      split <;> split <;> simp <;> omega

/-- Loop invariant of `GenerateJoin`. -/
structure JoinInv (done : List (Str × Str)) (st : JoinState) : Prop where
  split : ∃ d g, done = d ++ g ∧ GroupRep g st.chans st.keys ∧
    st.msgs.flatMap (fun m => joinTargets m.params) = d ∧ (g = [] → d = [])
  msgs : ∀ m ∈ st.msgs, m.command = b!"JOIN" ∧ joinTargets m.params ≠ [] ∧
    ((joinTargets m.params).length ≤ 1 ∨ lineLength m.command m.params ≤ 512)

theorem joinStep_inv {done : List (Str × Str)} {st : JoinState} (h : JoinInv done st)
    (hk : KeyedFirst done) (p : Str × Str) (hp : p.1 ≠ [] ∧ 44 ∉ p.1 ∧ 44 ∉ p.2) :
    JoinInv (done ++ [p]) (joinStep st p) := by
  obtain ⟨c, k⟩ := p
  obtain ⟨hc, hcc, hkc⟩ := hp
  obtain ⟨⟨d, g, rfl, hrep, hd, hgd⟩, hmsgs⟩ := h
  have hkg : KeyedFirst g := (List.pairwise_append.1 hk).2.1
  unfold joinStep
  simp only
  by_cases hfl : st.chans.length > 0 ∧ st.chans.length + st.keys.length + 1 + c.length +
      (if k ≠ [] then 1 + k.length else 0) > maxMessageLength - (b!"JOIN".length + 2)
  · rw [if_pos hfl]
    have hg : g ≠ [] := by
      rintro rfl
      have := hrep.chans_nil rfl
      rw [this] at hfl
      simp at hfl
    have hflush := joinTargets_flush hrep hg hkg
    constructor
    · refine ⟨d ++ g, [(c, k)], rfl, ?_, ?_, by simp⟩
      · have := groupRep_snoc groupRep_nil c k hc hcc hkc (by simp)
        simpa using this
      · simp [hd, hflush]
    · intro m hm
      simp only [List.mem_append, List.mem_singleton] at hm
      rcases hm with hm | rfl
      · exact hmsgs m hm
      · refine ⟨rfl, by rw [hflush]; exact hg, ?_⟩
        rw [hflush]
        exact lineLength_flush hrep
  · rw [if_neg hfl]
    constructor
    · refine ⟨d, g ++ [(c, k)], by simp, ?_, hd, by simp⟩
      apply groupRep_snoc hrep c k hc hcc hkc
      intro hg
      have hl : st.chans.length > 0 := List.length_pos_iff.2 (hrep.chans hg).1
      simp only [hl, true_and, maxMessageLength] at hfl
      simp at hfl ⊢
      omega
    · exact hmsgs

theorem joinFold_inv (l : List (Str × Str)) (done : List (Str × Str)) (st : JoinState)
    (h : JoinInv done st) (hk : KeyedFirst (done ++ l))
    (hl : ∀ p ∈ l, p.1 ≠ [] ∧ 44 ∉ p.1 ∧ 44 ∉ p.2) :
    JoinInv (done ++ l) (l.foldl joinStep st) := by
  induction l generalizing done st with
  | nil => simpa using h
  | cons p l ih =>
    have := ih (done ++ [p]) (joinStep st p)
      (joinStep_inv h ((List.pairwise_append.1 hk).1) p (hl p (by simp)))
      (by simpa using hk) (fun q hq => hl q (by simp [hq]))
    simpa using this

/-! ## MONITOR -/

structure MonInv (sub : Str) (done : List Str) (st : MonitorState) : Prop where
  split : ∃ d, done = d ++ st.buf ∧
    st.msgs.flatMap (fun m => (m.params.drop 1).flatMap (listParam 44)) = d
  n_eq : st.n = (st.buf.map (fun t => t.length + 1)).sum
  fits : 2 ≤ st.buf.length → st.n ≤ 512 - (9 + sub.length)
  msgs : ∀ m ∈ st.msgs, m.command = b!"MONITOR" ∧ ∃ l, m.params = [sub, l] ∧
    ((listParam 44 l).length ≤ 1 ∨ lineLength m.command m.params < 512)

theorem joinSep_length (l : List Str) (h : l ≠ []) :
    (joinSep 44 l).length + 1 = (l.map (fun t => t.length + 1)).sum := by
  induction l with
  | nil => exact absurd rfl h
  | cons a l ih =>
    cases l with
    | nil => simp [joinSep]
    | cons b l =>
      have := ih (by simp)
      simp [joinSep] at this ⊢
      omega

theorem joinSep_eq_nil (l : List Str) (h : ∀ t ∈ l, t ≠ []) : joinSep 44 l = [] ↔ l = [] := by
  cases l with
  | nil => simp [joinSep]
  | cons a l =>
    cases l with
    | nil => simpa [joinSep] using h a (by simp)
    | cons b l => simp [joinSep]

theorem listParam_joinSep (l : List Str) (h : ∀ t ∈ l, t ≠ [] ∧ 44 ∉ t) :
    listParam 44 (joinSep 44 l) = l := by
  unfold listParam
  by_cases hl : l = []
  · subst hl; simp [joinSep]
  · rw [if_neg, splitSep_joinSep 44 l hl (fun t ht => (h t ht).2)]
    rw [joinSep_eq_nil l (fun t ht => (h t ht).1)]
    exact hl

theorem monFlush {sub : Str} {done : List Str} {st : MonitorState} (h : MonInv sub done st)
    (hd : ∀ t ∈ done, t ≠ [] ∧ 44 ∉ t) (m : Msg)
    (hm : m = ⟨b!"MONITOR", [sub, joinSep 44 st.buf]⟩) :
    (m.params.drop 1).flatMap (listParam 44) = st.buf ∧ m.command = b!"MONITOR" ∧
    ∃ l, m.params = [sub, l] ∧
    ((listParam 44 l).length ≤ 1 ∨ lineLength m.command m.params < 512) := by
  subst hm
  obtain ⟨d, hdone, _⟩ := h.split
  have hb : ∀ t ∈ st.buf, t ≠ [] ∧ 44 ∉ t := fun t ht => hd t (by rw [hdone]; simp [ht])
  have hlp := listParam_joinSep st.buf hb
  refine ⟨by simp [hlp], rfl, _, rfl, ?_⟩
  rw [hlp]
  by_cases h2 : st.buf.length ≤ 1
  · exact .inl h2
  · right
    have hfit := h.fits (by omega)
    have hne : st.buf ≠ [] := by intro e; rw [e] at h2; simp at h2
    have hl := joinSep_length st.buf hne
    rw [← h.n_eq] at hl
    simp [lineLength]
    omega

theorem monStep_inv {sub : Str} {done : List Str} {st : MonitorState} (h : MonInv sub done st)
    (hd : ∀ t ∈ done, t ≠ [] ∧ 44 ∉ t) (t : Str) :
    MonInv sub (done ++ [t]) (monitorStep sub st t) := by
  unfold monitorStep
  simp only
  by_cases hfl : st.n + t.length + 1 > maxMessageLength - (b!"MONITOR " ++ sub ++ b!" ").length
  · rw [if_pos hfl]
    obtain ⟨d, hdone, hmd⟩ := h.split
    obtain ⟨h1, h2, h3⟩ := monFlush h hd _ rfl
    constructor
    · refine ⟨done, by simp, ?_⟩
      simp only [List.flatMap_append, hmd, List.flatMap_cons, List.flatMap_nil, List.append_nil]
      rw [h1, hdone]
    · simp
    · simp
    · intro m hm
      simp only [List.mem_append, List.mem_singleton] at hm
      rcases hm with hm | rfl
      · exact h.msgs m hm
      · exact ⟨h2, h3⟩
  · rw [if_neg hfl]
    obtain ⟨d, hdone, hmd⟩ := h.split
    constructor
    · exact ⟨d, by simp [hdone], hmd⟩
    · simp [h.n_eq]; omega
    · intro _
      simp [maxMessageLength] at hfl
      show st.n + t.length + 1 ≤ _
      omega
    · exact h.msgs

theorem monFold_inv (sub : Str) (l done : List Str) (st : MonitorState) (h : MonInv sub done st)
    (hd : ∀ t ∈ done ++ l, t ≠ [] ∧ 44 ∉ t) :
    MonInv sub (done ++ l) (l.foldl (monitorStep sub) st) := by
  induction l generalizing done st with
  | nil => simpa using h
  | cons p l ih =>
    have := ih (done ++ [p]) (monitorStep sub st p)
      (monStep_inv h (fun t ht => hd t (by simp at ht ⊢; exact .inl ht)) p) (by simpa using hd)
    simpa using this

/-! ## NAMES -/

structure NamesInv (ch : Str) (status : Byte) (done : List Str) (st : List Msg × Str) : Prop where
  split : ∃ d g, done = d ++ g ∧ (g = [] → st.2 = []) ∧
    (g ≠ [] → st.2 ≠ [] ∧ splitSep 32 st.2 = g) ∧
    st.1.flatMap (fun m => (m.params.drop 3).flatMap (listParam 32)) = d ∧
    (2 ≤ g.length → st.2.length ≤ 512 - (msgString (namesMsg ch status [])).length)
  msgs : ∀ m ∈ st.1, ∃ l, m = namesMsg ch status l ∧
    ((listParam 32 l).length ≤ 1 ∨ (msgString m).length ≤ 512)

theorem names_msgString_le (ch : Str) (status : Byte) (l : Str) :
    (msgString (namesMsg ch status l)).length ≤
      (msgString (namesMsg ch status [])).length + l.length := by
  simp [msgString, namesMsg, msgString.go]
  split <;> simp <;> omega

theorem listParam_of_ne {s : Str} (h : s ≠ []) : listParam 32 s = splitSep 32 s := by
  simp [listParam, h]

theorem namesFlush {ch : Str} {status : Byte} {g : List Str} {buf : Str} (_hg : g ≠ [])
    (h : buf ≠ [] ∧ splitSep 32 buf = g)
    (hfit : 2 ≤ g.length → buf.length ≤ 512 - (msgString (namesMsg ch status [])).length) :
    ((namesMsg ch status buf).params.drop 3).flatMap (listParam 32) = g ∧
    ((listParam 32 buf).length ≤ 1 ∨ (msgString (namesMsg ch status buf)).length ≤ 512) := by
  have hl := listParam_of_ne h.1
  refine ⟨by simp [namesMsg, hl, h.2], ?_⟩
  rw [hl, h.2]
  by_cases h2 : g.length ≤ 1
  · exact .inl h2
  · right
    have h1 := hfit (by omega)
    have hpos : 0 < buf.length := List.length_pos_iff.2 h.1
    have := names_msgString_le ch status buf
    omega

theorem namesStep_inv {ch : Str} {status : Byte} {done : List Str} {st : List Msg × Str}
    (h : NamesInv ch status done st) (s : Str) (hs : s ≠ [] ∧ 32 ∉ s) :
    NamesInv ch status (done ++ [s]) (namesStep ch status st s) := by
  obtain ⟨⟨d, g, rfl, hnil, hrep, hd, hfit⟩, hmsgs⟩ := h
  unfold namesStep
  simp only
  by_cases hfl : st.2.length ≠ 0 ∧ st.2.length + 1 + s.length >
      maxMessageLength - (msgString (namesMsg ch status [])).length
  · rw [if_pos hfl]
    have hg : g ≠ [] := by
      rintro rfl
      have := hnil rfl
      rw [this] at hfl
      simp at hfl
    obtain ⟨h1, h2⟩ := namesFlush (ch := ch) (status := status) hg (hrep hg) hfit
    constructor
    · refine ⟨d ++ g, [s], rfl, by simp, ?_, ?_, by simp⟩
      · intro _
        simp [hs.1, splitSep_free 32 s hs.2]
      · simp only [List.flatMap_append, hd, List.flatMap_cons, List.flatMap_nil, List.append_nil, h1]
    · intro m hm
      simp only [List.mem_append, List.mem_singleton] at hm
      rcases hm with hm | rfl
      · exact hmsgs m hm
      · exact ⟨_, rfl, h2⟩
  · rw [if_neg hfl]
    constructor
    · refine ⟨d, g ++ [s], by simp, by simp, ?_, hd, ?_⟩
      · intro _
        by_cases hg : g = []
        · have := hnil hg
          subst hg
          simp [this, hs.1, splitSep_free 32 s hs.2]
        · have hr := hrep hg
          have hl : st.2.length ≠ 0 := fun e => hr.1 (List.length_eq_zero_iff.1 e)
          simp only [hl, ne_eq, not_false_eq_true, if_true, List.append_assoc, List.singleton_append]
          refine ⟨by simp, ?_⟩
          rw [splitSep_append, hr.2, splitSep_free 32 s hs.2]
      · intro h2
        have hg : g ≠ [] := by rintro rfl; simp at h2
        have hr := hrep hg
        have hl : st.2.length ≠ 0 := fun e => hr.1 (List.length_eq_zero_iff.1 e)
        simp only [hl, ne_eq, not_false_eq_true, true_and, maxMessageLength] at hfl
        simp only [hl, ne_eq, not_false_eq_true, if_true, List.length_append, List.length_singleton]
        omega
    · exact hmsgs

theorem namesFold_inv (ch : Str) (status : Byte) (l done : List Str) (st : List Msg × Str)
    (h : NamesInv ch status done st) (hl : ∀ s ∈ l, s ≠ [] ∧ 32 ∉ s) :
    NamesInv ch status (done ++ l) (l.foldl (namesStep ch status) st) := by
  induction l generalizing done st with
  | nil => simpa using h
  | cons p l ih =>
    have := ih (done ++ [p]) (namesStep ch status st p) (namesStep_inv h p (hl p (by simp)))
      (fun s hs => hl s (by simp [hs]))
    simpa using this

/-! ## ISUPPORT -/

theorem isupportDecode_other (c : Byte) (s : Str) (h : c ≠ 92) :
    isupportDecode (c :: s) = c :: isupportDecode s := by
  rw [isupportDecode]
  intro h' l' s' h1
  exact absurd h1 h

theorem isupportDecode_encode (s : Str) : isupportDecode (isupportEncode s) = s := by
  induction s with
  | nil => simp [isupportEncode, isupportDecode]
  | cons c s ih =>
    simp only [isupportEncode]
    split
    · rename_i h
      subst h
      simp [isupportDecode, hexVal, ih]
    · split
      · rename_i h
        subst h
        simp [isupportDecode, hexVal, ih]
      · rename_i h
        rw [isupportDecode_other c _ h, ih]

/-! ## SASL -/

theorem saslChunks_shape (e : Str) :
    ∃ init last, saslChunks e = init ++ [last] ∧ (∀ c ∈ init, c.length = 400) ∧ last.length < 400 ∧
      last ≠ [] ∧ init.length = e.length / 400 := by
  fun_induction saslChunks e with
  | case1 e hlt =>
    simp only [maxSASLLength] at hlt
    refine ⟨[], _, rfl, by simp, ?_, ?_, by simp; omega⟩
    · split <;> (try simp) <;> omega
    · split <;> simp_all
  | case2 e hge ih =>
    obtain ⟨init, last, h1, h2, h3, h4, h5⟩ := ih
    simp only [maxSASLLength] at *
    refine ⟨e.take 400 :: init, last, by simp [h1], ?_, h3, h4, ?_⟩
    · intro c hc
      rcases List.mem_cons.1 hc with rfl | hc
      · simp; omega
      · exact h2 c hc
    · simp at h5 ⊢
      omega

theorem saslReceiveAll_ok (e : Str) (hmod : e.length % 4 = 0) (pending : Str) (r : List Byte)
    (hlen : pending.length + e.length ≤ 10240) (hdec : Base64.decode .std (pending ++ e) = some r) :
    saslReceiveAll pending (saslChunks e)
      = List.replicate (e.length / 400) .wait ++ [.response r] := by
  fun_induction saslChunks e generalizing pending with
  | case1 e hlt =>
    simp only [maxSASLLength] at hlt
    have h0 : e.length / 400 = 0 := by omega
    have hchunk : (if (if e = [] then b!"+" else e) = b!"+" then [] else
        (if e = [] then b!"+" else e)) = e := by
      by_cases he : e = []
      · simp [he]
      · have : e ≠ [43] := by rintro rfl; simp at hmod
        simp [he, this]
    have hne : ¬ e.length = 400 := by omega
    have hgt : ¬ pending.length + e.length > 10 * 1024 := by omega
    simp only [saslReceiveAll, saslReceive, hchunk, maxSASLLength, hne, hgt, if_false, hdec, h0]
    rfl
  | case2 e hge ih =>
    simp only [maxSASLLength] at *
    have hne : e.take 400 ≠ [43] := by
      intro h
      have := congrArg List.length h
      simp at this
      omega
    have hl : (e.take 400).length = 400 := by simp; omega
    have hgt : ¬ pending.length + 400 > 10 * 1024 := by omega
    have IH := ih (by simp; omega) (pending ++ e.take 400) (by simp; omega)
      (by simpa using hdec)
    have hk : e.length / 400 = (e.drop 400).length / 400 + 1 := by simp; omega
    simp only [saslReceiveAll, saslReceive, hne, if_false, hl, hgt, maxSASLLength, if_true, IH, hk]
    rfl

theorem saslReceiveAll_long (e : Str) (hmod : e.length % 4 = 0) (pending : Str)
    (hlen : pending.length + e.length > 10240) :
    ∃ k, saslReceiveAll pending (saslChunks e) = List.replicate k .wait ++ [.tooLong] := by
  fun_induction saslChunks e generalizing pending with
  | case1 e hlt =>
    simp only [maxSASLLength] at hlt
    have hchunk : (if (if e = [] then b!"+" else e) = b!"+" then [] else
        (if e = [] then b!"+" else e)) = e := by
      by_cases he : e = []
      · simp [he]
      · have : e ≠ [43] := by rintro rfl; simp at hmod
        simp [he, this]
    have hgt : pending.length + e.length > 10 * 1024 := by omega
    exact ⟨0, by simp only [saslReceiveAll, saslReceive, hchunk, hgt, if_true]; rfl⟩
  | case2 e hge ih =>
    simp only [maxSASLLength] at *
    have hne : e.take 400 ≠ [43] := by
      intro h
      have := congrArg List.length h
      simp at this
      omega
    have hl : (e.take 400).length = 400 := by simp; omega
    by_cases hgt : pending.length + 400 > 10 * 1024
    · exact ⟨0, by simp only [saslReceiveAll, saslReceive, hne, if_false, hl, hgt, if_true]; rfl⟩
    · obtain ⟨k, hk⟩ := ih (by simp; omega) (pending ++ e.take 400) (by simp; omega)
      refine ⟨k + 1, ?_⟩
      simp only [saslReceiveAll, saslReceive, hne, if_false, hl, hgt, maxSASLLength, if_true, hk]
      rfl

end Verif.Proof
