import Verif.Model.Filter
import Verif.Proof.GoMap
import Verif.Proof.Util

/-! # C26: clients never receive what they did not negotiate -/

namespace Verif.Props
open Verif.Model Verif.Proof

/-! ## Specification -/

/-- The capability a command needs, if any. -/
def cmdNeeds : Str → Option Str := fun c =>
  if c = b!"TAGMSG" then some b!"message-tags"
  else if c = b!"SETNAME" then some b!"setname"
  else if c = b!"CHGHOST" then some b!"chghost"
  else if c = b!"AWAY" then some b!"away-notify"
  else if c = b!"ACCOUNT" then some b!"account-notify"
  else if c = b!"MARKREAD" then some b!"draft/read-marker"
  else if c = b!"READ" then some b!"soju.im/read"
  else none

/-- May the client see the command? -/
def cmdAllowed (caps : Str → Bool) (c : Str) : Bool :=
  match cmdNeeds c with | some n => caps n | none => true

/-- May the client see the tag?  message-tags covers every tag except that batch references need the batch
capability (a tag named batch with no value refers to no batch); without message-tags, only the tags with a
capability of their own. -/
def tagAllowed (caps : Str → Bool) (t : Str × Str) : Bool :=
  if t.1 = b!"batch" then caps b!"batch" || (caps b!"message-tags" && t.2 == [])
  else caps b!"message-tags" || (t.1 == b!"time" && caps b!"server-time") ||
    (t.1 == b!"account" && caps b!"account-tag")

/-- A numeric reply: the command is made of three digits. -/
def threeDigits : Str → Bool
  | [a, b, c] => [a, b, c].all (fun d => decide (d ∈ b!"0123456789"))
  | _ => false

/-- The source shown to the client: "*" stands for none, and numerics always have one. -/
def sourceFor (srv : Prefix) (m : TMsg) : Option Prefix :=
  match m.source with
  | some p => if p.name = b!"*" then (if threeDigits m.command then some srv else none) else some p
  | none => if threeDigits m.command then some srv else none

/-- The message the client should see. -/
def visible (caps : Str → Bool) (srv : Prefix) (m : TMsg) : TMsg :=
  { tags := m.tags.filter (tagAllowed caps)
    source := sourceFor srv m
    command := m.command
    params := if m.command = b!"JOIN" ∧ caps b!"extended-join" = false then m.params.take 1 else m.params }

/-- Pointers that can exist: to cells that exist. -/
def Heap.Valid (h : Heap) (p : Nat) : Prop := p < h.msgs.length ∧ (h.msg p).tags < h.maps.length

/-- Nothing that existed before has been changed. -/
def Untouched (h h' : Heap) : Prop :=
  (∀ p < h.msgs.length, h'.msgs[p]? = h.msgs[p]?) ∧ (∀ p < h.maps.length, h'.maps[p]? = h.maps[p]?)

/-! ## Lemmas -/

private theorem digit_mem (d : Byte) : isDigit d = decide (d ∈ b!"0123456789") := by
  unfold isDigit
  by_cases h : d < 58
  · revert d; decide +kernel
  · have : d ∉ b!"0123456789" := by
      intro hm
      have : ∀ x ∈ b!"0123456789", x < 58 := by decide
      exact h (this d hm)
    simp [this]; omega

private theorem numeric_eq (c : Str) : isNumericCmd c = threeDigits c := by
  unfold isNumericCmd
  match c with
  | [] => rfl
  | [_] => rfl
  | [_, _] => rfl
  | [a, b, c] => simp only [List.all_cons, List.all_nil, digit_mem, threeDigits]; rfl
  | _ :: _ :: _ :: _ :: l => simp [threeDigits]

/-- A message made by this call: nobody else has a pointer to it or its tags. -/
private structure Own (h0 h : Heap) (p : Nat) : Prop where
  untouched : Untouched h0 h
  msgs : h0.msgs.length ≤ h.msgs.length
  maps : h0.maps.length ≤ h.maps.length
  valid : Heap.Valid h p

private theorem Own.refl {h : Heap} {p : Nat} (hv : Heap.Valid h p) : Own h h p :=
  ⟨⟨fun _ _ => rfl, fun _ _ => rfl⟩, Nat.le_refl _, Nat.le_refl _, hv⟩

private theorem copy_spec {h0 h : Heap} {p : Nat} (ho : Own h0 h p) :
    Own h0 (h.copy p).1 (h.copy p).2 ∧ (h.copy p).1.deref (h.copy p).2 = h.deref p ∧
    h0.msgs.length ≤ (h.copy p).2 ∧ h0.maps.length ≤ ((h.copy p).1.msg (h.copy p).2).tags := by
  obtain ⟨⟨u1, u2⟩, l1, l2, hv⟩ := ho
  have hm : (h.copy p).1.msg (h.copy p).2 = { h.msg p with tags := h.maps.length } := by
    simp [Heap.copy, Heap.msg]
  refine ⟨⟨⟨?_, ?_⟩, ?_, ?_, ?_⟩, ?_, ?_, ?_⟩
  · intro q hq
    rw [← u1 q hq]
    simp only [Heap.copy]
    rw [List.getElem?_append_left (by omega)]
  · intro q hq
    rw [← u2 q hq]
    simp only [Heap.copy]
    rw [List.getElem?_append_left (by omega)]
  · simp [Heap.copy]; omega
  · simp [Heap.copy]; omega
  · refine ⟨by simp [Heap.copy], ?_⟩
    rw [hm]; simp [Heap.copy]
  · unfold Heap.deref
    rw [hm]
    simp [Heap.copy, Heap.map]
  · simp [Heap.copy]; omega
  · rw [hm]; simpa using l2

private theorem deleteTag_spec {h0 h : Heap} {p : Nat} {name : Str} (ho : Own h0 h p)
    (hf : h0.maps.length ≤ (h.msg p).tags) :
    Own h0 (h.deleteTag p name) p ∧
    (h.deleteTag p name).deref p = { h.deref p with tags := GoMap.del (h.deref p).tags name } ∧
    (h.deleteTag p name).msg p = h.msg p := by
  obtain ⟨⟨u1, u2⟩, l1, l2, hv⟩ := ho
  refine ⟨⟨⟨u1, ?_⟩, l1, ?_, ?_⟩, ?_, rfl⟩
  · intro q hq
    rw [← u2 q hq]
    simp only [Heap.deleteTag]
    rw [List.getElem?_set_ne (by omega)]
  · simpa [Heap.deleteTag] using l2
  · refine ⟨hv.1, ?_⟩
    show (h.msg p).tags < (h.maps.set _ _).length
    simpa using hv.2
  · unfold Heap.deref
    have : (h.deleteTag p name).msg p = h.msg p := rfl
    rw [this]
    simp only [TMsg.mk.injEq, and_true]
    show ((h.maps.set (h.msg p).tags _)[(h.msg p).tags]?).getD [] = _
    rw [List.getElem?_set_self hv.2]
    rfl

private theorem deleteUnsupported_spec {h0 h : Heap} {p : Nat} {caps : Str → Bool} (ho : Own h0 h p)
    (hf : h0.maps.length ≤ (h.msg p).tags) :
    Own h0 (deleteUnsupported caps h p) p ∧
    (deleteUnsupported caps h p).deref p =
      { h.deref p with tags := (h.deref p).tags.filter (fun t => tagSupported caps t.1) } ∧
    (deleteUnsupported caps h p).msg p = h.msg p := by
  unfold deleteUnsupported
  have key : ∀ (ts : GoMap Str Str) (h : Heap), Own h0 h p → h0.maps.length ≤ (h.msg p).tags →
      let h' := ts.foldl (fun h t => if tagSupported caps t.1 then h else h.deleteTag p t.1) h
      Own h0 h' p ∧ h'.deref p = { h.deref p with tags := (h.deref p).tags.filter (fun t =>
        decide (∀ s ∈ ts, tagSupported caps s.1 = true ∨ s.1 ≠ t.1)) } ∧ h'.msg p = h.msg p := by
    intro ts
    induction ts with
    | nil =>
      intro h ho hf
      refine ⟨ho, ?_, rfl⟩
      have : (h.deref p).tags.filter (fun t =>
          decide (∀ s ∈ ([] : GoMap Str Str), tagSupported caps s.1 = true ∨ s.1 ≠ t.1)) = (h.deref p).tags := by
        rw [List.filter_eq_self]; intro t _; simp
      simp only [List.foldl_nil]
      rw [this]
    | cons t ts ih =>
      intro h ho hf
      simp only [List.foldl_cons]
      by_cases hs : tagSupported caps t.1 = true
      · simp only [hs, if_true]
        obtain ⟨i1, i2, i3⟩ := ih h ho hf
        refine ⟨i1, ?_, i3⟩
        rw [i2]
        simp only [TMsg.mk.injEq, and_true]
        apply List.filter_congr
        intro s _
        simp only [List.mem_cons, forall_eq_or_imp, hs, true_or, true_and]
      · rw [if_neg hs]
        obtain ⟨d1, d2, d3⟩ := deleteTag_spec (name := t.1) ho hf
        obtain ⟨i1, i2, i3⟩ := ih (h.deleteTag p t.1) d1 (by rw [d3]; exact hf)
        refine ⟨i1, ?_, i3.trans d3⟩
        rw [i2, d2]
        simp only [TMsg.mk.injEq, and_true, GoMap.del, List.filter_filter]
        apply List.filter_congr
        intro s _
        simp only [List.mem_cons, forall_eq_or_imp, hs]
        by_cases h1 : s.1 = t.1
        · simp [h1]
        · simp [h1, Ne.symm h1]
  obtain ⟨k1, k2, k3⟩ := key (h.map (h.msg p).tags) h ho hf
  refine ⟨k1, ?_, k3⟩
  rw [k2]
  simp only [TMsg.mk.injEq, and_true]
  apply List.filter_congr
  intro t ht
  by_cases hs : tagSupported caps t.1 = true
  · simp only [hs, decide_eq_true_eq]
    intro s _
    by_cases h1 : s.1 = t.1
    · left; rw [h1]; exact hs
    · exact Or.inr h1
  · have hs' : tagSupported caps t.1 = false := by simpa using hs
    rw [hs']
    rw [decide_eq_false_iff_not]
    intro hall
    rcases hall t ht with h | h
    · exact hs h
    · exact h rfl

private theorem write_spec {h0 h : Heap} {p : Nat} {m : HMsg} (ho : Own h0 h p)
    (hf : h0.msgs.length ≤ p) (ht : m.tags = (h.msg p).tags) :
    Own h0 (h.write p m) p ∧
    (h.write p m).deref p = ⟨(h.deref p).tags, m.source, m.command, m.params⟩ := by
  obtain ⟨⟨u1, u2⟩, l1, l2, hv⟩ := ho
  have hm : (h.write p m).msg p = m := by
    show ((h.msgs.set p m)[p]?).getD _ = m
    rw [List.getElem?_set_self hv.1]; rfl
  refine ⟨⟨⟨?_, u2⟩, ?_, l2, ?_⟩, ?_⟩
  · intro q hq
    rw [← u1 q hq]
    simp only [Heap.write]
    rw [List.getElem?_set_ne (by omega)]
  · simpa [Heap.write] using l1
  · refine ⟨by simpa [Heap.write] using hv.1, ?_⟩
    rw [hm, ht]; exact hv.2
  · unfold Heap.deref
    rw [hm, ht]
    rfl

private theorem shallow_spec {h0 h : Heap} {p : Nat} (ho : Own h0 h p) :
    Own h0 (h.shallow p).1 (h.shallow p).2 ∧ (h.shallow p).1.deref (h.shallow p).2 = h.deref p ∧
    h0.msgs.length ≤ (h.shallow p).2 := by
  obtain ⟨⟨u1, u2⟩, l1, l2, hv⟩ := ho
  have hm : (h.shallow p).1.msg (h.shallow p).2 = h.msg p := by
    simp [Heap.shallow, Heap.msg]
  refine ⟨⟨⟨?_, ?_⟩, ?_, ?_, ?_⟩, ?_, ?_⟩
  · intro q hq
    rw [← u1 q hq]
    simp only [Heap.shallow]
    rw [List.getElem?_append_left (by omega)]
  · intro q hq
    rw [← u2 q hq]
    rfl
  · simp [Heap.shallow]; omega
  · exact l2
  · refine ⟨by simp [Heap.shallow], ?_⟩
    rw [hm]; exact hv.2
  · unfold Heap.deref
    rw [hm]
    rfl
  · simpa [Heap.shallow] using l1

private theorem dropped_iff {caps : Str → Bool} {c : Str} (h : ¬ (caps b!"message-tags" = false ∧ c = b!"TAGMSG")) :
    cmdDropped caps c = !cmdAllowed caps c := by
  unfold cmdDropped cmdAllowed cmdNeeds
  by_cases h0 : c = b!"TAGMSG"
  · subst h0
    simp only [and_true] at h
    simp at h
    simp [h]
  · by_cases h1 : c = b!"SETNAME"
    · subst h1; simp
    · by_cases h2 : c = b!"CHGHOST"
      · subst h2; simp
      · by_cases h3 : c = b!"AWAY"
        · subst h3; simp
        · by_cases h4 : c = b!"ACCOUNT"
          · subst h4; simp
          · by_cases h5 : c = b!"MARKREAD"
            · subst h5; simp
            · by_cases h6 : c = b!"READ"
              · subst h6; simp
              · simp [h0, h1, h2, h3, h4, h5, h6]

private theorem TMsg.with_tags (m : TMsg) (t : GoMap Str Str) (h : m.tags = t) : { m with tags := t } = m := by
  cases m; simp_all

/-- The two steps on tags, as one filter.  A Go map has one value per key. -/
private theorem tags_spec {caps : Str → Bool} {tags : GoMap Str Str} (nd : (tags.map (·.1)).Nodup) :
    let t1 := if caps b!"message-tags" then tags else tags.filter (fun t => tagSupported caps t.1)
    (if !caps b!"batch" && ((GoMap.get t1 b!"batch").getD [] != []) then GoMap.del t1 b!"batch" else t1) =
      tags.filter (tagAllowed caps) := by
  intro t1
  have hmem : ∀ v, GoMap.get t1 b!"batch" = some v ↔ (b!"batch", v) ∈ t1 := by
    intro v
    have nd1 : (t1.map (·.1)).Nodup := by
      show ((if caps b!"message-tags" then tags else _ : GoMap Str Str).map (·.1)).Nodup
      split
      · exact nd
      · exact List.Nodup.sublist (List.Sublist.map _ List.filter_sublist) nd
    exact ⟨fun h => mget_some_mem h, fun h => mget_of_mem nd1 h⟩
  by_cases hmt : caps b!"message-tags" = true
  · have ht1 : t1 = tags := if_pos hmt
    rw [ht1] at hmem ⊢
    by_cases hb : caps b!"batch" = true
    · simp only [hb, Bool.not_true, Bool.false_and, Bool.false_eq_true, if_false]
      symm
      rw [List.filter_eq_self]
      intro t _
      unfold tagAllowed
      split <;> simp [hb, hmt]
    · have hb' : caps b!"batch" = false := by simpa using hb
      simp only [hb', Bool.not_false, Bool.true_and]
      cases hg : GoMap.get tags b!"batch" with
      | none =>
        simp only [Option.getD_none, bne_self_eq_false, Bool.false_eq_true, if_false]
        symm
        rw [List.filter_eq_self]
        intro t ht
        have : t.1 ≠ b!"batch" := by
          intro h
          exact mget_none_iff.1 hg (List.mem_map.2 ⟨t, ht, h⟩)
        unfold tagAllowed
        rw [if_neg this]; simp [hmt]
      | some v =>
        simp only [Option.getD_some]
        have hin := (hmem v).1 hg
        have huniq : ∀ t ∈ tags, t.1 = b!"batch" → t.2 = v := by
          intro t ht h1
          have : GoMap.get tags b!"batch" = some t.2 := mget_of_mem nd (by rw [← h1]; exact ht)
          rw [hg] at this; cases this; rfl
        by_cases hv : v = []
        · subst hv
          simp only [bne_self_eq_false, Bool.false_eq_true, if_false]
          symm
          rw [List.filter_eq_self]
          intro t ht
          unfold tagAllowed
          split
          · rename_i h1; simp [hmt, huniq t ht h1]
          · simp [hmt]
        · have : (v != []) = true := by simpa using hv
          simp only [this, if_true]
          unfold GoMap.del
          apply List.filter_congr
          intro t ht
          unfold tagAllowed
          by_cases h1 : t.1 = b!"batch"
          · have h2 := huniq t ht h1
            rw [if_pos h1, h2]
            have hve : (v == []) = false := by simpa using hv
            simp [h1, hb', hve]
          · rw [if_neg h1]; simp [h1, hmt]
  · have hmt' : caps b!"message-tags" = false := by simpa using hmt
    have ht1 : t1 = tags.filter (fun t => tagSupported caps t.1) := if_neg hmt
    have hno : (!caps b!"batch" && ((GoMap.get t1 b!"batch").getD [] != [])) = false := by
      cases hb : caps b!"batch" with
      | true => rfl
      | false =>
        cases hg : GoMap.get t1 b!"batch" with
        | none => rfl
        | some v =>
          have := (hmem v).1 hg
          rw [ht1] at this
          have := (List.mem_filter.1 this).2
          simp [tagSupported, hb] at this
    rw [hno, ht1]
    simp only [Bool.false_eq_true, if_false]
    apply List.filter_congr
    intro t _
    unfold tagSupported tagAllowed
    by_cases h1 : t.1 = b!"batch"
    · rw [if_pos h1, h1]; simp [hmt']
    · rw [if_neg h1]
      by_cases h2 : t.1 = b!"time"
      · rw [h2]; simp [hmt']
      · by_cases h3 : t.1 = b!"account"
        · rw [h3]; simp [hmt']
        · simp [h1, h2, h3, hmt']

/-! ## C26: theorems -/

theorem send_main (caps : Str → Bool) (srv : Prefix) (h : Heap) (p : Nat) (hv : Heap.Valid h p)
    (nd : ((h.deref p).tags.map (·.1)).Nodup) :
    let r := sendHeap caps srv h p
    Untouched h r.1 ∧
    (r.2.map r.1.deref) = (if cmdAllowed caps (h.deref p).command then
      some (visible caps srv (h.deref p)) else none) ∧
    (h.msgs.length ≤ r.1.msgs.length ∧ h.maps.length ≤ r.1.maps.length) ∧
    ∀ q ∈ r.2, Heap.Valid r.1 q := by
  unfold sendHeap
  by_cases htm : caps b!"message-tags" = false ∧ (h.msg p).command = b!"TAGMSG"
  · rw [if_pos (by simp [htm.1, htm.2])]
    refine ⟨⟨fun _ _ => rfl, fun _ _ => rfl⟩, ?_, ⟨Nat.le_refl _, Nat.le_refl _⟩, fun _ h => by cases h⟩
    have : cmdAllowed caps (h.deref p).command = false := by
      show cmdAllowed caps (h.msg p).command = false
      rw [htm.2]; simp [cmdAllowed, cmdNeeds, htm.1]
    rw [this]; rfl
  · rw [if_neg (by
      intro hc; apply htm
      simp only [Bool.and_eq_true, Bool.not_eq_true', beq_iff_eq] at hc
      exact hc)]
    -- tags, without message-tags
    have step1 : ∃ h1 p1, (if caps b!"message-tags" then (h, p)
        else ((deleteUnsupported caps (h.copy p).1 (h.copy p).2), (h.copy p).2)) = (h1, p1) ∧
        Own h h1 p1 ∧ h1.deref p1 = ⟨if caps b!"message-tags" then (h.deref p).tags
          else (h.deref p).tags.filter (fun t => tagSupported caps t.1), (h.deref p).source,
          (h.deref p).command, (h.deref p).params⟩ := by
      by_cases hmt : caps b!"message-tags" = true
      · exact ⟨h, p, if_pos hmt, Own.refl hv, by simp [hmt]⟩
      · obtain ⟨c1, c2, c3, c4⟩ := copy_spec (Own.refl hv)
        obtain ⟨d1, d2, d3⟩ := deleteUnsupported_spec (caps := caps) c1 c4
        exact ⟨_, _, if_neg hmt, d1, by rw [d2, c2]; simp [hmt]⟩
    obtain ⟨h1, p1, e1, o1, v1⟩ := step1
    rw [e1]
    simp only
    -- batch
    have step2 : ∃ h2 p2, (if !caps b!"batch" && ((GoMap.get (h1.map (h1.msg p1).tags) b!"batch").getD [] != []) then
        ((h1.copy p1).1.deleteTag (h1.copy p1).2 b!"batch", (h1.copy p1).2) else (h1, p1)) = (h2, p2) ∧
        Own h h2 p2 ∧ h2.deref p2 = { h.deref p with tags := (h.deref p).tags.filter (tagAllowed caps) } := by
      have ht := tags_spec (caps := caps) nd
      simp only at ht
      have hmap : h1.map (h1.msg p1).tags = (if caps b!"message-tags" then (h.deref p).tags
          else (h.deref p).tags.filter (fun t => tagSupported caps t.1)) := by
        have := congrArg TMsg.tags v1
        exact this
      rw [hmap]
      rw [← hmap] at v1
      by_cases hb : (!caps b!"batch" && ((GoMap.get (if caps b!"message-tags" then (h.deref p).tags
          else (h.deref p).tags.filter (fun t => tagSupported caps t.1) : GoMap Str Str) b!"batch").getD [] != [])) = true
      · rw [if_pos hb] at ht ⊢
        obtain ⟨c1, c2, c3, c4⟩ := copy_spec o1
        obtain ⟨d1, d2, d3⟩ := deleteTag_spec (name := b!"batch") c1 c4
        refine ⟨_, _, rfl, d1, ?_⟩
        rw [d2, c2, v1, ← ht, hmap]
      · rw [if_neg hb] at ht ⊢
        refine ⟨_, _, rfl, o1, ?_⟩
        rw [v1, ← ht, hmap]
    obtain ⟨h2, p2, e2, o2, v2⟩ := step2
    rw [e2]
    simp only
    -- JOIN
    have hcmd2 : (h2.msg p2).command = (h.deref p).command := congrArg TMsg.command v2
    have step3 : ∃ h3 p3, (if (h2.msg p2).command == b!"JOIN" && !caps b!"extended-join" then
        ((h2.copy p2).1.write (h2.copy p2).2
          { (h2.copy p2).1.msg (h2.copy p2).2 with
            params := ((h2.copy p2).1.msg (h2.copy p2).2).params.take 1 },
          (h2.copy p2).2) else (h2, p2)) = (h3, p3) ∧ Own h h3 p3 ∧
        h3.deref p3 = ⟨(h.deref p).tags.filter (tagAllowed caps), (h.deref p).source, (h.deref p).command,
          if (h.deref p).command = b!"JOIN" ∧ caps b!"extended-join" = false then (h.deref p).params.take 1
          else (h.deref p).params⟩ := by
      rw [hcmd2]
      by_cases hj : (h.deref p).command = b!"JOIN" ∧ caps b!"extended-join" = false
      · rw [if_pos (by simp [hj.1, hj.2]), if_pos hj]
        obtain ⟨c1, c2, c3, c4⟩ := copy_spec o2
        obtain ⟨w1, w2⟩ := write_spec (m := { (h2.copy p2).1.msg (h2.copy p2).2 with
            params := ((h2.copy p2).1.msg (h2.copy p2).2).params.take 1 }) c1 c3 rfl
        refine ⟨_, _, rfl, w1, ?_⟩
        rw [w2]
        have := c2.trans v2
        have ht := congrArg TMsg.tags this
        have hs := congrArg TMsg.source this
        have hc := congrArg TMsg.command this
        have hp := congrArg TMsg.params this
        simp only at ht hs hc hp ⊢
        rw [ht]
        have hs' : ((h2.copy p2).1.msg (h2.copy p2).2).source = (h.deref p).source := hs
        have hc' : ((h2.copy p2).1.msg (h2.copy p2).2).command = (h.deref p).command := hc
        have hp' : ((h2.copy p2).1.msg (h2.copy p2).2).params = (h.deref p).params := hp
        rw [hs', hc', hp']
      · rw [if_neg (by
          intro hc; apply hj
          simp only [Bool.and_eq_true, Bool.not_eq_true', beq_iff_eq] at hc
          exact hc), if_neg hj]
        exact ⟨_, _, rfl, o2, v2⟩
    obtain ⟨h3, p3, e3, o3, v3⟩ := step3
    rw [e3]
    simp only
    have hcmd3 : (h3.msg p3).command = (h.deref p).command := congrArg TMsg.command v3
    rw [hcmd3]
    have hda : cmdDropped caps (h.deref p).command = !cmdAllowed caps (h.deref p).command :=
      dropped_iff htm
    rw [hda]
    cases hal : cmdAllowed caps (h.deref p).command with
    | false => exact ⟨o3.untouched, rfl, ⟨o3.msgs, o3.maps⟩, fun _ h => by cases h⟩
    | true =>
      simp only [Bool.not_true, Bool.false_eq_true, if_false, if_true]
      -- source "*"
      have hsrc3 : (h3.msg p3).source = (h.deref p).source := congrArg TMsg.source v3
      have step4 : ∃ h4 p4, (if ((h3.msg p3).source.map Prefix.name) == some b!"*" then
          ((h3.shallow p3).1.write (h3.shallow p3).2
            { (h3.shallow p3).1.msg (h3.shallow p3).2 with source := none }, (h3.shallow p3).2)
            else (h3, p3)) = (h4, p4) ∧ Own h h4 p4 ∧
          h4.deref p4 = ⟨(h3.deref p3).tags,
            if (h.deref p).source.map Prefix.name = some b!"*" then none else (h.deref p).source,
            (h3.deref p3).command, (h3.deref p3).params⟩ := by
        rw [hsrc3]
        by_cases hs : (h.deref p).source.map Prefix.name = some b!"*"
        · rw [if_pos (by simp [hs]), if_pos hs]
          obtain ⟨c1, c2, c3⟩ := shallow_spec o3
          obtain ⟨w1, w2⟩ := write_spec (m := { (h3.shallow p3).1.msg (h3.shallow p3).2 with source := none })
            c1 c3 rfl
          refine ⟨_, _, rfl, w1, ?_⟩
          rw [w2, c2]
          have hc := congrArg TMsg.command c2
          have hp := congrArg TMsg.params c2
          have hc' : ((h3.shallow p3).1.msg (h3.shallow p3).2).command = (h3.deref p3).command := hc
          have hp' : ((h3.shallow p3).1.msg (h3.shallow p3).2).params = (h3.deref p3).params := hp
          simp only [hc', hp']
        · rw [if_neg (by simpa using hs), if_neg hs]
          refine ⟨_, _, rfl, o3, ?_⟩
          have : (h3.deref p3).source = (h.deref p).source := hsrc3
          rw [← this]
      obtain ⟨h4, p4, e4, o4, v4⟩ := step4
      rw [e4]
      simp only
      have hsrc4 : (h4.msg p4).source =
          if (h.deref p).source.map Prefix.name = some b!"*" then none else (h.deref p).source :=
        congrArg TMsg.source v4
      have hcmd4 : (h4.msg p4).command = (h.deref p).command := by
        have := congrArg TMsg.command v4
        exact this.trans hcmd3
      rw [hsrc4, hcmd4, numeric_eq]
      have hfin : ∀ (s : Option Prefix) (r : TMsg), s = sourceFor srv (h.deref p) →
          r = { h3.deref p3 with source := s } → r = visible caps srv (h.deref p) := by
        intro s r hs hr
        rw [hr, v3, hs]; rfl
      have hsf : sourceFor srv (h.deref p) =
          if ((if (h.deref p).source.map Prefix.name = some b!"*" then none else (h.deref p).source) == none &&
            threeDigits (h.deref p).command) = true then some srv
          else if (h.deref p).source.map Prefix.name = some b!"*" then none else (h.deref p).source := by
        unfold sourceFor
        cases hso : (h.deref p).source with
        | none => cases threeDigits (h.deref p).command <;> simp
        | some q =>
          by_cases hq : q.name = b!"*"
          · cases threeDigits (h.deref p).command <;> simp [hq]
          · simp [hq]
      generalize (if (h.deref p).source.map Prefix.name = some b!"*" then none else (h.deref p).source) = src
        at hsf v4 ⊢
      by_cases hc : (src == none && threeDigits (h.deref p).command) = true
      · rw [if_pos hc] at hsf ⊢
        obtain ⟨c1, c2, c3⟩ := shallow_spec o4
        obtain ⟨w1, w2⟩ := write_spec (m := { (h4.shallow p4).1.msg (h4.shallow p4).2 with source := some srv })
          c1 c3 rfl
        refine ⟨w1.untouched, ?_, ⟨w1.msgs, w1.maps⟩, fun q hq => by cases hq; exact w1.valid⟩
        simp only [Option.map_some, Option.some.injEq]
        apply hfin (some srv) _ hsf.symm
        rw [w2, c2]
        have hc' : ((h4.shallow p4).1.msg (h4.shallow p4).2).command = (h4.deref p4).command :=
          congrArg TMsg.command c2
        have hp' : ((h4.shallow p4).1.msg (h4.shallow p4).2).params = (h4.deref p4).params :=
          congrArg TMsg.params c2
        simp only [hc', hp', v4]
      · rw [if_neg hc] at hsf ⊢
        refine ⟨o4.untouched, ?_, ⟨o4.msgs, o4.maps⟩, fun q hq => by cases hq; exact o4.valid⟩
        simp only [Option.map_some, Option.some.injEq]
        exact hfin _ _ hsf.symm v4

/-- **C26**: the message given to the client's connection, if any, carries no tag and no command the client
did not negotiate; it is otherwise the message unchanged (JOIN without extended-join keeps its channel). -/
theorem C26_filtered (caps : Str → Bool) (srv : Prefix) (h : Heap) (p : Nat) (hv : Heap.Valid h p)
    (nd : ((h.deref p).tags.map (·.1)).Nodup) :
    let r := sendHeap caps srv h p
    (∀ q ∈ r.2,
      (∀ t ∈ (r.1.deref q).tags, tagAllowed caps t = true) ∧
      (∀ n, cmdNeeds (r.1.deref q).command = some n → caps n = true) ∧
      (∀ t, t ∈ (r.1.deref q).tags ↔ t ∈ (h.deref p).tags ∧ tagAllowed caps t = true) ∧
      (r.1.deref q).command = (h.deref p).command ∧
      ((r.1.deref q).params = (h.deref p).params ∨
        ((h.deref p).command = b!"JOIN" ∧ caps b!"extended-join" = false ∧
          (r.1.deref q).params = (h.deref p).params.take 1))) ∧
    (r.2 = none ↔ ∃ n, cmdNeeds (h.deref p).command = some n ∧ caps n = false) := by
  obtain ⟨_, hm, _⟩ := send_main caps srv h p hv nd
  simp only at hm ⊢
  generalize sendHeap caps srv h p = r at hm
  obtain ⟨h', q⟩ := r
  simp only at hm ⊢
  have hallow : cmdAllowed caps (h.deref p).command = false ↔
      ∃ n, cmdNeeds (h.deref p).command = some n ∧ caps n = false := by
    unfold cmdAllowed
    cases cmdNeeds (h.deref p).command <;> simp
  constructor
  · intro q' hq
    cases q with
    | none => simp at hq
    | some q =>
      simp only [Option.mem_some_iff] at hq
      subst hq
      cases hal : cmdAllowed caps (h.deref p).command with
      | false => rw [hal] at hm; simp at hm
      | true =>
        rw [hal] at hm
        simp only [Option.map_some, if_true, Option.some.injEq] at hm
        rw [hm]
        refine ⟨?_, ?_, ?_, rfl, ?_⟩
        · intro t ht; exact (List.mem_filter.1 ht).2
        · intro n hn
          have hn' : cmdNeeds (h.deref p).command = some n := hn
          unfold cmdAllowed at hal
          rw [hn'] at hal; exact hal
        · intro t; exact List.mem_filter
        · unfold visible
          simp only
          split
          · rename_i hj; exact Or.inr ⟨hj.1, hj.2, rfl⟩
          · exact Or.inl rfl
  · rw [← hallow]
    cases hal : cmdAllowed caps (h.deref p).command with
    | false =>
      rw [hal] at hm
      cases q with
      | none => simp
      | some q => simp at hm
    | true =>
      rw [hal] at hm
      cases q with
      | none => simp at hm
      | some q => simp

/-- **C26**: exactly what the client sees: the allowed tags in their order, the command and parameters, and
a source that is never the internal "*" and always there for numerics. -/
theorem C26_exact (caps : Str → Bool) (srv : Prefix) (h : Heap) (p : Nat) (hv : Heap.Valid h p)
    (nd : ((h.deref p).tags.map (·.1)).Nodup) :
    let r := sendHeap caps srv h p
    r.2.map r.1.deref = if cmdAllowed caps (h.deref p).command then
      some (visible caps srv (h.deref p)) else none :=
  (send_main caps srv h p hv nd).2.1

/-- **C26**: a client that negotiated everything the message needs receives it unchanged. -/
theorem C26_unchanged (caps : Str → Bool) (srv : Prefix) (h : Heap) (p : Nat) (hv : Heap.Valid h p)
    (nd : ((h.deref p).tags.map (·.1)).Nodup)
    (hmt : caps b!"message-tags" = true) (hb : caps b!"batch" = true) (hj : caps b!"extended-join" = true)
    (hc : ∀ n, cmdNeeds (h.deref p).command = some n → caps n = true)
    (hs : ∃ q, (h.deref p).source = some q ∧ q.name ≠ b!"*") :
    let r := sendHeap caps srv h p
    r.2.map r.1.deref = some (h.deref p) := by
  have hm := (send_main caps srv h p hv nd).2.1
  simp only at hm ⊢
  rw [hm]
  have hal : cmdAllowed caps (h.deref p).command = true := by
    unfold cmdAllowed
    cases hn : cmdNeeds (h.deref p).command with
    | none => rfl
    | some n => exact hc n hn
  rw [hal]
  simp only [if_true, Option.some.injEq]
  obtain ⟨q, hq, hqn⟩ := hs
  have h1 : (h.deref p).tags.filter (tagAllowed caps) = (h.deref p).tags := by
    rw [List.filter_eq_self]
    intro t _
    unfold tagAllowed
    split <;> simp [hmt, hb]
  have h2 : sourceFor srv (h.deref p) = (h.deref p).source := by
    unfold sourceFor; rw [hq]; simp [hqn]
  unfold visible
  rw [h1, h2, if_neg (by simp [hj])]

/-- **C26**: whatever is sent to one client, every message and every tag map that existed before is
unchanged, so the other clients (and the message store) see them as they were. -/
theorem C26_shared (caps : Str → Bool) (srv : Prefix) (h : Heap) (p : Nat) (hv : Heap.Valid h p)
    (nd : ((h.deref p).tags.map (·.1)).Nodup) :
    let h' := (sendHeap caps srv h p).1
    Untouched h h' ∧ ∀ q, Heap.Valid h q → h'.deref q = h.deref q := by
  have hu := (send_main caps srv h p hv nd).1
  simp only at hu ⊢
  refine ⟨hu, ?_⟩
  intro q hq
  have h1 : (sendHeap caps srv h p).1.msg q = h.msg q := by
    unfold Heap.msg; rw [hu.1 q hq.1]
  unfold Heap.deref
  rw [h1]
  unfold Heap.map
  rw [hu.2 _ hq.2]

/-- **C26**: sending one message to any number of clients: each sees it as if it were the only one. -/
theorem C26_fanout (srv : Prefix) (clients : List (Str → Bool)) (h : Heap) (p : Nat) (hv : Heap.Valid h p)
    (nd : ((h.deref p).tags.map (·.1)).Nodup) :
    let r := clients.foldl (fun (a : Heap × List (Option TMsg)) caps =>
      let s := sendHeap caps srv a.1 p
      (s.1, a.2 ++ [s.2.map s.1.deref])) (h, [])
    r.2 = clients.map (fun caps => if cmdAllowed caps (h.deref p).command then
      some (visible caps srv (h.deref p)) else none) ∧ r.1.deref p = h.deref p := by
  suffices hs : ∀ (clients : List (Str → Bool)) (g : Heap) (acc : List (Option TMsg)), Heap.Valid g p →
      g.deref p = h.deref p →
      let r := clients.foldl (fun (a : Heap × List (Option TMsg)) caps =>
        let s := sendHeap caps srv a.1 p
        (s.1, a.2 ++ [s.2.map s.1.deref])) (g, acc)
      r.2 = acc ++ clients.map (fun caps => if cmdAllowed caps (h.deref p).command then
        some (visible caps srv (h.deref p)) else none) ∧ r.1.deref p = h.deref p by
    simpa using hs clients h [] hv rfl
  intro clients
  induction clients with
  | nil => intro g acc _ hd; simpa using hd
  | cons c cs ih =>
    intro g acc hvg hd
    simp only [List.foldl_cons]
    have hnd : ((g.deref p).tags.map (·.1)).Nodup := by rw [hd]; exact nd
    obtain ⟨hu, hm, _⟩ := send_main c srv g p hvg hnd
    have hsh := C26_shared c srv g p hvg hnd
    simp only at hu hm hsh
    have hd' : (sendHeap c srv g p).1.deref p = h.deref p := (hsh.2 p hvg).trans hd
    have hv' : Heap.Valid (sendHeap c srv g p).1 p := by
      have h1 : (sendHeap c srv g p).1.msg p = g.msg p := by
        unfold Heap.msg; rw [hu.1 p hvg.1]
      refine ⟨?_, ?_⟩
      · have := hu.1 p hvg.1
        rw [List.getElem?_eq_getElem hvg.1] at this
        obtain ⟨hlt, _⟩ := List.getElem?_eq_some_iff.1 this
        exact hlt
      · rw [h1]
        have := hu.2 _ hvg.2
        rw [List.getElem?_eq_getElem hvg.2] at this
        obtain ⟨hlt, _⟩ := List.getElem?_eq_some_iff.1 this
        exact hlt
    obtain ⟨i1, i2⟩ := ih _ (acc ++ [(sendHeap c srv g p).2.map (sendHeap c srv g p).1.deref]) hv' hd'
    refine ⟨?_, i2⟩
    simp only at i1
    rw [i1, hm, hd]
    simp

/-- A JOIN with tags and account, in memory. -/
def exHeap : Heap :=
  ⟨[⟨0, some ⟨b!"nick", b!"u", b!"h"⟩, b!"JOIN", [b!"#a", b!"acct", b!"Real"]⟩],
   [[(b!"time", b!"t"), (b!"account", b!"acct"), (b!"batch", b!"1"), (b!"+x", b!"y")]]⟩

example : Heap.Valid exHeap 0 ∧ ((exHeap.deref 0).tags.map (·.1)).Nodup ∧
    (let r := sendHeap (fun c => c == b!"server-time") ⟨b!"srv", [], []⟩ exHeap 0
     r.2.map r.1.deref = some ⟨[(b!"time", b!"t")], some ⟨b!"nick", b!"u", b!"h"⟩, b!"JOIN", [b!"#a"]⟩) ∧
    (let r := sendHeap (fun c => c == b!"message-tags") ⟨b!"srv", [], []⟩ exHeap 0
     r.2.map r.1.deref = some ⟨[(b!"time", b!"t"), (b!"account", b!"acct"), (b!"+x", b!"y")],
       some ⟨b!"nick", b!"u", b!"h"⟩, b!"JOIN", [b!"#a"]⟩) := by
  unfold Heap.Valid; decide +kernel

/-- Somebody who negotiated everything. -/
example : (∀ n, cmdNeeds (exHeap.deref 0).command = some n → (fun _ : Str => true) n = true) ∧
    (∃ q, (exHeap.deref 0).source = some q ∧ q.name ≠ b!"*") :=
  ⟨fun _ _ => rfl, ⟨b!"nick", b!"u", b!"h"⟩, rfl, by decide⟩

end Verif.Props
