import Verif.Model.Batches
import Verif.Props.Filter
import Verif.Proof.GoStr

/-! # C97: batches are framed

A client that reads what it is sent keeps a list of the batches that are open. -/

namespace Verif.Props
open Verif.Model Verif.Proof

/-! ## Specification -/

/-- The bookkeeping of a client: which batches are open and which references it has seen.  `none`: it got a message of a
batch that is not open, a second batch with the same reference, or the end of a batch that is not open. -/
def batchReader (opened seen : List Str) : List TMsg → Option (List Str × List Str)
  | [] => some (opened, seen)
  | m :: l =>
    if (∃ ref ∈ GoMap.get m.tags b!"batch", ref ∉ opened) then none
    else if m.command = b!"BATCH" then
      match m.params with
      | (43 :: ref) :: _ => if ref ∈ seen then none else batchReader (ref :: opened) (ref :: seen) l
      | (45 :: ref) :: _ => if ref ∈ opened then batchReader (opened.erase ref) seen l else none
      | _ => none
    else batchReader opened seen l

/-- A message that is not part of a batch. -/
def NoBatch (m : TMsg) : Prop :=
  m.command ≠ b!"BATCH" ∧ b!"batch" ∉ m.tags.map (·.1) ∧ (m.tags.map (·.1)).Nodup

/-- A message of a store: each tag once. -/
def Storable (m : TMsg) : Prop := m.command ≠ b!"BATCH" ∧ (m.tags.map (·.1)).Nodup

instance (m : TMsg) : Decidable (NoBatch m) := by unfold NoBatch; infer_instance
instance (m : TMsg) : Decidable (Storable m) := by unfold Storable; infer_instance

/-- What a batch may be made of. -/
def BatPartOk : BatPart → Prop
  | .kept _ => True
  | .loaded m => Storable m
  | .aside m => NoBatch m

instance : DecidablePred BatPartOk := fun p => by cases p <;> unfold BatPartOk <;> infer_instance

/-- What the bouncer is given to send: messages that are not part of a batch (upstream.go:591-601 removes the references
of the server), and messages of a store. -/
def BatOpOk : BatOp → Prop
  | .message m _ _ => NoBatch m
  | .batch _ _ _ parts => ∀ part ∈ parts, BatPartOk part
  | _ => True

instance : DecidablePred BatOpOk := fun op => by cases op <;> unfold BatOpOk <;> infer_instance

/-- No message of the batch comes from the store in memory. -/
def NotKept : BatOp → Prop
  | .batch _ _ _ parts => ∀ part ∈ parts, ∀ i, part ≠ .kept i
  | _ => True

/-- Everything for a client, written or not. -/
def batFlow (st : BatSys) (cl : BatClient) : List TMsg :=
  cl.wire ++ (cl.writing.map (·.2)).toList ++ cl.queue.map st.heap.deref

/-! ## Lemmas: memory -/

private structure HExt (h h' : Heap) : Prop where
  valid : ∀ q, Heap.Valid h q → Heap.Valid h' q
  deref : ∀ q, Heap.Valid h q → h'.deref q = h.deref q
  tags : ∀ q, Heap.Valid h q → (h'.msg q).tags = (h.msg q).tags

private theorem HExt.trans {a b c : Heap} (h1 : HExt a b) (h2 : HExt b c) : HExt a c :=
  ⟨fun q h => h2.valid q (h1.valid q h), fun q h => by rw [h2.deref q (h1.valid q h), h1.deref q h],
   fun q h => by rw [h2.tags q (h1.valid q h), h1.tags q h]⟩

private theorem hext_of_untouched {h h' : Heap} (hu : Untouched h h') (h1 : h.msgs.length ≤ h'.msgs.length)
    (h2 : h.maps.length ≤ h'.maps.length) : HExt h h' := by
  have hm : ∀ q, Heap.Valid h q → h'.msg q = h.msg q := by
    intro q hq; unfold Heap.msg; rw [hu.1 q hq.1]
  refine ⟨fun q hq => ⟨Nat.lt_of_lt_of_le hq.1 h1, ?_⟩, fun q hq => ?_, fun q hq => by rw [hm q hq]⟩
  · rw [hm q hq]; exact Nat.lt_of_lt_of_le hq.2 h2
  · unfold Heap.deref
    rw [hm q hq]
    unfold Heap.map
    rw [hu.2 _ hq.2]

private theorem new_spec (h : Heap) (m : TMsg) :
    HExt h (h.new m).1 ∧ Heap.Valid (h.new m).1 (h.new m).2 ∧ (h.new m).1.deref (h.new m).2 = m ∧
    ((h.new m).1.msg (h.new m).2).tags = h.maps.length := by
  have hm : (h.new m).1.msg (h.new m).2 = ⟨h.maps.length, m.source, m.command, m.params⟩ := by
    simp [Heap.new, Heap.msg]
  refine ⟨hext_of_untouched ⟨fun p hp => ?_, fun p hp => ?_⟩ (by simp [Heap.new]) (by simp [Heap.new]), ⟨?_, ?_⟩, ?_, ?_⟩
  · simp only [Heap.new]; rw [List.getElem?_append_left hp]
  · simp only [Heap.new]; rw [List.getElem?_append_left hp]
  · simp [Heap.new]
  · rw [hm]; simp [Heap.new]
  · unfold Heap.deref; rw [hm]; simp [Heap.new, Heap.map]
  · rw [hm]

private theorem setTag_spec {h : Heap} {p : Nat} (hv : Heap.Valid h p) (name value : Str) :
    (∀ q, Heap.Valid h q → Heap.Valid (h.setTag p name value) q) ∧
    (∀ q, (h.setTag p name value).msg q = h.msg q) ∧
    (∀ q, (h.msg q).tags = (h.msg p).tags →
      (h.setTag p name value).deref q = { h.deref q with tags := GoMap.set (h.deref q).tags name value }) ∧
    (∀ q, (h.msg q).tags ≠ (h.msg p).tags → (h.setTag p name value).deref q = h.deref q) := by
  refine ⟨fun q hq => ⟨hq.1, ?_⟩, fun q => rfl, fun q hq => ?_, fun q hq => ?_⟩
  · show (h.msg q).tags < (h.maps.set _ _).length
    simpa using hq.2
  · show TMsg.mk (((h.maps.set (h.msg p).tags _)[(h.msg q).tags]?).getD []) _ _ _ = _
    rw [hq, List.getElem?_set_self hv.2]
    unfold Heap.deref
    rw [hq]
    rfl
  · show TMsg.mk (((h.maps.set (h.msg p).tags _)[(h.msg q).tags]?).getD []) _ _ _ = _
    rw [List.getElem?_set_ne (Ne.symm hq)]
    rfl

/-! ## Lemmas: what a client is sent, without memory -/

private structure View where
  caps : List Str
  lastRef : Nat
  flow : List TMsg

private def vOf (st : BatSys) (cl : BatClient) : View := ⟨cl.caps, cl.lastRef, batFlow st cl⟩

private def view (st : BatSys) : List View := st.clients.map (vOf st)

/-- What a client with these capabilities is sent of a message. -/
def batSent (srv : Prefix) (caps : List Str) (m : TMsg) : List TMsg :=
  if cmdAllowed (fun n => decide (n ∈ caps)) m.command then [visible (fun n => decide (n ∈ caps)) srv m] else []

private def vSend (srv : Prefix) (V : List View) (c : Nat) (m : TMsg) : List View :=
  V.modify c (fun v => { v with flow := v.flow ++ batSent srv v.caps m })

private structure BInv (st : BatSys) : Prop where
  queue : ∀ cl ∈ st.clients, ∀ p ∈ cl.queue, Heap.Valid st.heap p
  writing : ∀ cl ∈ st.clients, ∀ w ∈ cl.writing, Heap.Valid st.heap w.1
  store : ∀ p ∈ st.store, Heap.Valid st.heap p ∧ Storable (st.heap.deref p)

private theorem flow_ext {st st' : BatSys} (he : HExt st.heap st'.heap) {cl : BatClient}
    (hq : ∀ p ∈ cl.queue, Heap.Valid st.heap p) : batFlow st' cl = batFlow st cl := by
  unfold batFlow
  congr 1
  apply List.map_congr_left
  intro p hp
  exact he.deref p (hq p hp)

private theorem binv_new {st : BatSys} (hi : BInv st) (m : TMsg) :
    BInv { st with heap := (st.heap.new m).1 } ∧ view { st with heap := (st.heap.new m).1 } = view st := by
  have he := (new_spec st.heap m).1
  refine ⟨⟨fun cl hc p hp => he.valid p (hi.queue cl hc p hp), fun cl hc w hw => he.valid _ (hi.writing cl hc w hw),
    fun p hp => ⟨he.valid p (hi.store p hp).1, ?_⟩⟩, ?_⟩
  · show Storable ((st.heap.new m).1.deref p)
    rw [he.deref p (hi.store p hp).1]; exact (hi.store p hp).2
  · unfold view
    apply List.map_congr_left
    intro cl hc
    unfold vOf
    rw [flow_ext (st := st) (st' := { st with heap := (st.heap.new m).1 }) he (hi.queue cl hc)]

private theorem send_spec (srv : Prefix) {st : BatSys} (hi : BInv st) (c : Nat) {p : Nat}
    (hv : Heap.Valid st.heap p) (nd : ((st.heap.deref p).tags.map (·.1)).Nodup) :
    BInv (batSend srv st c p) ∧ view (batSend srv st c p) = vSend srv (view st) c (st.heap.deref p) ∧
    (batSend srv st c p).clash = st.clash ∧ (batSend srv st c p).raced = st.raced ∧
    (batSend srv st c p).store = st.store ∧ HExt st.heap (batSend srv st c p).heap := by
  unfold batSend
  cases hc : st.clients[c]? with
  | none =>
    refine ⟨hi, ?_, rfl, rfl, rfl, ⟨fun _ h => h, fun _ _ => rfl, fun _ _ => rfl⟩⟩
    unfold vSend view
    rw [List.modify_eq_self]
    rw [List.length_map]
    exact List.getElem?_eq_none_iff.1 hc
  | some cl =>
    dsimp only
    obtain ⟨hu, hd, ⟨hl1, hl2⟩, hq⟩ := send_main (fun n => decide (n ∈ cl.caps)) srv st.heap p hv nd
    generalize hr : sendHeap (fun n => decide (n ∈ cl.caps)) srv st.heap p = r at hu hd hl1 hl2 hq
    have he := hext_of_untouched hu hl1 hl2
    have hcm : cl ∈ st.clients := List.mem_of_getElem? hc
    have hmem : ∀ x ∈ st.clients.set c { cl with queue := cl.queue ++ r.2.toList },
        x ∈ st.clients ∨ x = { cl with queue := cl.queue ++ r.2.toList } := fun x hx =>
      (List.mem_or_eq_of_mem_set hx)
    refine ⟨⟨?_, ?_, ?_⟩, ?_, rfl, rfl, rfl, he⟩
    · intro x hx q hxq
      rcases hmem x hx with h | h
      · exact he.valid q (hi.queue x h q hxq)
      · subst h
        rcases List.mem_append.1 hxq with h | h
        · exact he.valid q (hi.queue cl hcm q h)
        · exact hq q (by simpa using h)
    · intro x hx w hw
      rcases hmem x hx with h | h
      · exact he.valid _ (hi.writing x h w hw)
      · subst h; exact he.valid _ (hi.writing cl hcm w hw)
    · intro q hqs
      refine ⟨he.valid q (hi.store q hqs).1, ?_⟩
      show Storable (r.1.deref q)
      rw [he.deref q (hi.store q hqs).1]; exact (hi.store q hqs).2
    · have hlt : c < st.clients.length := by
        rcases Nat.lt_or_ge c st.clients.length with h | h
        · exact h
        · rw [List.getElem?_eq_none h] at hc; cases hc
      unfold view vSend
      apply List.ext_getElem?
      intro j
      rw [List.getElem?_modify, List.getElem?_map, List.getElem?_map]
      by_cases hj : c = j
      · subst hj
        rw [List.getElem?_set_self hlt, hc]
        simp only [if_true, Option.map_some, Option.map_eq_map, Option.some.injEq]
        unfold vOf
        dsimp only
        congr 1
        unfold batFlow batSent
        dsimp only
        rw [List.map_append, ← List.append_assoc]
        congr 1
        · congr 1
          apply List.map_congr_left
          intro q hqq
          exact he.deref q (hi.queue cl hcm q hqq)
        · have : r.2.toList.map r.1.deref = (r.2.map r.1.deref).toList := by cases r.2 <;> rfl
          rw [this, hd]
          split <;> rfl
      · rw [List.getElem?_set_ne hj]
        cases hjj : st.clients[j]? with
        | none => rfl
        | some x =>
          simp only [Option.map_some, hj, if_false, Option.map_eq_map, id]
          unfold vOf
          rw [flow_ext (st := st) (st' := { st with heap := r.1, clients := st.clients.set c { cl with queue := cl.queue ++ r.2.toList } }) he
            (hi.queue x (List.mem_of_getElem? hjj))]

private theorem storable_set {m : TMsg} (h : Storable m) (ref : Str) :
    Storable { m with tags := GoMap.set m.tags b!"batch" ref } :=
  ⟨h.1, mset_nodup h.2 _ _⟩

private theorem tag_spec {st : BatSys} (hi : BInv st) {p : Nat} (hv : Heap.Valid st.heap p)
    (hs : Storable (st.heap.deref p)) (ref : Str) :
    BInv (batTag st p ref) ∧ Heap.Valid (batTag st p ref).heap p ∧
    (batTag st p ref).heap.deref p =
      { st.heap.deref p with tags := GoMap.set (st.heap.deref p).tags b!"batch" ref } ∧
    (st.clash = true → (batTag st p ref).clash = true) ∧
    ((batTag st p ref).clash = false → view (batTag st p ref) = view st) := by
  obtain ⟨s1, s2, s3, s4⟩ := setTag_spec hv b!"batch" ref
  refine ⟨⟨fun cl hc q hq => s1 q (hi.queue cl hc q hq), fun cl hc w hw => s1 _ (hi.writing cl hc w hw), ?_⟩,
    s1 p hv, s3 p rfl, ?_, ?_⟩
  · intro q hq
    refine ⟨s1 q (hi.store q hq).1, ?_⟩
    show Storable ((st.heap.setTag p b!"batch" ref).deref q)
    by_cases he : (st.heap.msg q).tags = (st.heap.msg p).tags
    · rw [s3 q he]; exact storable_set (hi.store q hq).2 ref
    · rw [s4 q he]; exact (hi.store q hq).2
  · intro h; unfold batTag; dsimp only; rw [h]; rfl
  · intro h
    unfold batTag at h
    dsimp only at h
    rw [Bool.or_eq_false_iff] at h
    have h2 := h.2
    rw [List.any_eq_false] at h2
    unfold view
    apply List.map_congr_left
    intro cl hc
    unfold vOf
    congr 1
    unfold batFlow
    congr 1
    apply List.map_congr_left
    intro q hq
    have := h2 cl hc
    rw [List.any_eq_true] at this
    exact s4 q (fun e => this ⟨q, hq, by simpa using e⟩)

/-- A message of the batch with this reference. -/
private def Inside (ref : Str) (m : TMsg) : Prop := Storable m ∧ GoMap.get m.tags b!"batch" = some ref

private theorem send_clash (srv : Prefix) (st : BatSys) (c p : Nat) :
    (batSend srv st c p).clash = st.clash ∧ (batSend srv st c p).raced = st.raced := by
  unfold batSend; split <;> exact ⟨rfl, rfl⟩

private theorem sendNew_spec (srv : Prefix) {st : BatSys} (hi : BInv st) (c : Nat) {m : TMsg}
    (nd : (m.tags.map (·.1)).Nodup) :
    BInv (batSendNew srv st c m) ∧ view (batSendNew srv st c m) = vSend srv (view st) c m ∧
    (batSendNew srv st c m).clash = st.clash ∧ (batSendNew srv st c m).raced = st.raced := by
  obtain ⟨n1, n2, n3, n4⟩ := new_spec st.heap m
  obtain ⟨b1, b2⟩ := binv_new hi m
  obtain ⟨i1, i2, i3, i4, _, _⟩ := send_spec srv b1 c (p := (st.heap.new m).2) n2 (by
    show (((st.heap.new m).1.deref (st.heap.new m).2).tags.map (·.1)).Nodup
    rw [n3]; exact nd)
  refine ⟨i1, ?_, i3, i4⟩
  unfold batSendNew
  rw [i2, b2]
  show vSend srv (view st) c ((st.heap.new m).1.deref (st.heap.new m).2) = _
  rw [n3]

private theorem part_spec (srv : Prefix) (c : Nat) (ref : Str) {st : BatSys} (hi : BInv st) {part : BatPart}
    (hp : BatPartOk part) :
    BInv (batPart srv c ref st part) ∧ (st.clash = true → (batPart srv c ref st part).clash = true) ∧
    ((batPart srv c ref st part).clash = false →
      ∃ ms : List TMsg, (∀ m ∈ ms, Inside ref m ∨ NoBatch m) ∧
        view (batPart srv c ref st part) = ms.foldl (fun V m => vSend srv V c m) (view st)) := by
  cases part with
  | kept i =>
    unfold batPart
    dsimp only
    cases hs : st.store[i]? with
    | none => exact ⟨hi, id, fun _ => ⟨[], by simp, rfl⟩⟩
    | some p =>
      dsimp only
      obtain ⟨v, sto⟩ := hi.store p (List.mem_of_getElem? hs)
      obtain ⟨t1, t2, t3, t4, t5⟩ := tag_spec hi v sto ref
      have hsto := storable_set sto ref
      rw [← t3] at hsto
      obtain ⟨i1, i2, i3, i4, _, _⟩ := send_spec srv t1 c t2 hsto.2
      refine ⟨i1, fun h => by rw [i3]; exact t4 h, fun h => ?_⟩
      rw [i3] at h
      refine ⟨[(batTag st p ref).heap.deref p], ?_, ?_⟩
      · intro m hm
        rw [List.mem_singleton] at hm
        subst hm
        refine Or.inl ⟨hsto, ?_⟩
        rw [t3]
        show GoMap.get (GoMap.set _ _ _) _ = _
        rw [mget_mset, if_pos rfl]
      · rw [i2, t5 h]; rfl
  | loaded m =>
    unfold batPart
    dsimp only
    obtain ⟨n1, n2, n3, n4⟩ := new_spec st.heap m
    obtain ⟨b1, b2⟩ := binv_new hi m
    have sto : Storable ((st.heap.new m).1.deref (st.heap.new m).2) := by rw [n3]; exact hp
    obtain ⟨t1, t2, t3, t4, t5⟩ := tag_spec b1 (p := (st.heap.new m).2) n2 sto ref
    have hsto := storable_set sto ref
    have t3' : (batTag { st with heap := (st.heap.new m).1 } (st.heap.new m).2 ref).heap.deref (st.heap.new m).2 =
      { (st.heap.new m).1.deref (st.heap.new m).2 with
        tags := GoMap.set ((st.heap.new m).1.deref (st.heap.new m).2).tags b!"batch" ref } := t3
    rw [← t3'] at hsto
    obtain ⟨i1, i2, i3, i4, _, _⟩ := send_spec srv t1 c t2 hsto.2
    refine ⟨i1, fun h => by rw [i3]; exact t4 h, fun h => ?_⟩
    rw [i3] at h
    refine ⟨[(batTag { st with heap := (st.heap.new m).1 } (st.heap.new m).2 ref).heap.deref (st.heap.new m).2], ?_, ?_⟩
    · intro x hx
      rw [List.mem_singleton] at hx
      subst hx
      refine Or.inl ⟨hsto, ?_⟩
      rw [t3']
      show GoMap.get (GoMap.set _ _ _) _ = _
      rw [mget_mset, if_pos rfl]
    · rw [i2, t5 h, b2]; rfl
  | aside m =>
    obtain ⟨i1, i2, i3, i4⟩ := sendNew_spec srv hi c hp.2.2
    exact ⟨i1, fun h => by show (batSendNew srv st c m).clash = true; rw [i3]; exact h,
      fun _ => ⟨[m], by intro x hx; rw [List.mem_singleton] at hx; subst hx; exact Or.inr hp, i2⟩⟩

private theorem parts_spec (srv : Prefix) (c : Nat) (ref : Str) : ∀ (parts : List BatPart) (st : BatSys), BInv st →
    (∀ part ∈ parts, BatPartOk part) →
    BInv (parts.foldl (batPart srv c ref) st) ∧
    (st.clash = true → (parts.foldl (batPart srv c ref) st).clash = true) ∧
    ((parts.foldl (batPart srv c ref) st).clash = false →
      ∃ ms : List TMsg, (∀ m ∈ ms, Inside ref m ∨ NoBatch m) ∧
        view (parts.foldl (batPart srv c ref) st) = ms.foldl (fun V m => vSend srv V c m) (view st)) := by
  intro parts
  induction parts with
  | nil => intro st hi _; exact ⟨hi, id, fun _ => ⟨[], by simp, rfl⟩⟩
  | cons part parts ih =>
    intro st hi hp
    obtain ⟨a1, a2, a3⟩ := part_spec srv c ref hi (hp part List.mem_cons_self)
    obtain ⟨b1, b2, b3⟩ := ih _ a1 (fun q hq => hp q (List.mem_cons_of_mem _ hq))
    refine ⟨b1, fun h => b2 (a2 h), fun h => ?_⟩
    have h1 : (batPart srv c ref st part).clash = false := by
      cases he : (batPart srv c ref st part).clash with
      | false => rfl
      | true => rw [List.foldl_cons, b2 he] at h; cases h
    obtain ⟨ms1, x1, x2⟩ := a3 h1
    obtain ⟨ms2, y1, y2⟩ := b3 h
    refine ⟨ms1 ++ ms2, ?_, ?_⟩
    · intro m hm
      rcases List.mem_append.1 hm with h | h
      · exact x1 m h
      · exact y1 m h
    · rw [List.foldl_cons, y2, x2, List.foldl_append]

/-! ## Lemmas: the reader -/

private theorem reader_append (a b : List TMsg) : ∀ (opened seen : List Str),
    batchReader opened seen (a ++ b) = (batchReader opened seen a).bind (fun r => batchReader r.1 r.2 b) := by
  induction a with
  | nil => intro o s; rfl
  | cons m a ih =>
    intro o s
    rw [List.cons_append, batchReader, batchReader]
    split
    · rfl
    · split
      · split
        · split
          · rfl
          · exact ih _ _
        · split
          · exact ih _ _
          · rfl
        · rfl
      · exact ih _ _

private theorem reader_prefix {a b : List TMsg} {o s : List Str} (h : batchReader o s (a ++ b) ≠ none) :
    batchReader o s a ≠ none := by
  intro hn; rw [reader_append, hn] at h; exact h rfl

private theorem get_filter {f : Str × Str → Bool} {t : GoMap Str Str} (nd : (t.map (·.1)).Nodup) {k v : Str}
    (h : GoMap.get (t.filter f : GoMap Str Str) k = some v) : GoMap.get t k = some v ∧ f (k, v) = true := by
  have hm := List.mem_filter.1 (mget_some_mem h)
  exact ⟨mget_of_mem nd hm.1, hm.2⟩

/-- A message outside of batches, or of an open batch, does not disturb the reader. -/
private theorem reader_sent (srv : Prefix) (caps : List Str) {ref : Str} {m : TMsg} (hm : Inside ref m ∨ NoBatch m)
    (opened seen : List Str) (hr : ref ≠ []) (ho : b!"batch" ∈ caps → Inside ref m → ref ∈ opened) :
    batchReader opened seen (batSent srv caps m) = some (opened, seen) := by
  unfold batSent
  split
  · have hcmd : m.command ≠ b!"BATCH" := by
      rcases hm with h | h
      · exact h.1.1
      · exact h.1
    have hnd : (m.tags.map (·.1)).Nodup := by
      rcases hm with h | h
      · exact h.1.2
      · exact h.2.2
    rw [batchReader, if_neg, if_neg (show (visible _ srv m).command ≠ _ from hcmd), batchReader]
    rintro ⟨r, hr1, hr2⟩
    obtain ⟨g1, g2⟩ := get_filter hnd hr1
    rcases hm with h | h
    · have : r = ref := by rw [h.2] at g1; exact (Option.some.inj g1).symm
      subst this
      unfold tagAllowed at g2
      rw [if_pos rfl] at g2
      simp [hr] at g2
      exact hr2 (ho g2 h)
    · exact h.2.1 (List.mem_map.2 ⟨_, mget_some_mem g1, rfl⟩)
  · rfl

private theorem reader_sents (srv : Prefix) (caps : List Str) {ref : Str} (opened seen : List Str) (hr : ref ≠ [])
    (ho : b!"batch" ∈ caps → ref ∈ opened) : ∀ (ms : List TMsg), (∀ m ∈ ms, Inside ref m ∨ NoBatch m) →
    batchReader opened seen (ms.flatMap (batSent srv caps)) = some (opened, seen) := by
  intro ms
  induction ms with
  | nil => intro _; rfl
  | cons m ms ih =>
    intro h
    rw [List.flatMap_cons, reader_append,
      reader_sent srv caps (h m List.mem_cons_self) opened seen hr (fun h _ => ho h)]
    exact ih (fun q hq => h q (List.mem_cons_of_mem _ hq))

private theorem vSends (srv : Prefix) (c : Nat) : ∀ (ms : List TMsg) (V : List View),
    ms.foldl (fun V m => vSend srv V c m) V =
      V.modify c (fun v => { v with flow := v.flow ++ ms.flatMap (batSent srv v.caps) }) := by
  intro ms
  induction ms with
  | nil =>
    intro V
    simp only [List.foldl_nil, List.flatMap_nil, List.append_nil]
    symm
    exact List.modify_id c V
  | cons m ms ih =>
    intro V
    rw [List.foldl_cons, ih]
    unfold vSend
    rw [List.modify_modify_eq]
    congr 1
    funext v
    simp [List.append_assoc]

private theorem tag_fresh {st : BatSys} (hi : BInv st) (m : TMsg) (ref : Str) :
    (batTag { st with heap := (st.heap.new m).1 } (st.heap.new m).2 ref).clash = st.clash ∧
    (batTag { st with heap := (st.heap.new m).1 } (st.heap.new m).2 ref).raced = st.raced := by
  obtain ⟨n1, n2, n3, n4⟩ := new_spec st.heap m
  have hne : ∀ q, Heap.Valid st.heap q →
      (((st.heap.new m).1.msg q).tags == ((st.heap.new m).1.msg (st.heap.new m).2).tags) = false := by
    intro q hq
    rw [n1.tags q hq, n4]
    have := hq.2
    rw [beq_eq_false_iff_ne]
    omega
  unfold batTag
  dsimp only
  constructor
  · have : (st.clients.any fun cl => cl.queue.any fun q =>
        ((st.heap.new m).1.msg q).tags == ((st.heap.new m).1.msg (st.heap.new m).2).tags) = false := by
      rw [List.any_eq_false]
      intro cl hc
      rw [List.any_eq_true]
      rintro ⟨q, hq, he⟩
      rw [hne q (hi.queue cl hc q hq)] at he
      cases he
    rw [this, Bool.or_false]
  · rw [List.any_eq_false.2, Bool.or_false]
    intro cl hc
    cases hw : cl.writing with
    | none => simp
    | some w =>
      dsimp only
      rw [hne w.1 (hi.writing cl hc w hw)]
      simp

/-- The message a part of a batch is, and whether it is one of the batch. -/
def batPartMsg (ref : Str) : BatPart → TMsg
  | .kept _ => ⟨[], none, [], []⟩
  | .loaded m => { m with tags := GoMap.set m.tags b!"batch" ref }
  | .aside m => m

private theorem part_fresh (srv : Prefix) (c : Nat) (ref : Str) {st : BatSys} (hi : BInv st) {part : BatPart}
    (hp : BatPartOk part) (hk : ∀ i, part ≠ .kept i) :
    BInv (batPart srv c ref st part) ∧
    view (batPart srv c ref st part) = vSend srv (view st) c (batPartMsg ref part) ∧
    (batPart srv c ref st part).clash = st.clash ∧ (batPart srv c ref st part).raced = st.raced := by
  cases part with
  | kept i => exact absurd rfl (hk i)
  | loaded m =>
    refine ⟨(part_spec srv c ref hi hp).1, ?_, ?_⟩
    · unfold batPart
      dsimp only
      obtain ⟨n1, n2, n3, n4⟩ := new_spec st.heap m
      obtain ⟨b1, b2⟩ := binv_new hi m
      have sto : Storable ((st.heap.new m).1.deref (st.heap.new m).2) := by rw [n3]; exact hp
      obtain ⟨t1, t2, t3, t4, t5⟩ := tag_spec b1 (p := (st.heap.new m).2) n2 sto ref
      have t3' : (batTag { st with heap := (st.heap.new m).1 } (st.heap.new m).2 ref).heap.deref (st.heap.new m).2 =
        { m with tags := GoMap.set m.tags b!"batch" ref } := by
        have t3'' := t3
        dsimp only at t3''
        rw [n3] at t3''
        exact t3''
      have hsto := storable_set (show Storable m from hp) ref
      rw [← t3'] at hsto
      have i2 := (send_spec srv t1 c t2 hsto.2).2.1
      rw [i2, t3']
      have hview : view (batTag { st with heap := (st.heap.new m).1 } (st.heap.new m).2 ref) = view st := by
        have hinv := setTag_spec (h := (st.heap.new m).1) n2 b!"batch" ref
        rw [← b2]
        unfold view
        apply List.map_congr_left
        intro cl hc
        unfold vOf
        congr 1
        unfold batFlow
        congr 1
        apply List.map_congr_left
        intro q hq
        apply hinv.2.2.2 q
        have := hi.queue cl hc q hq
        rw [n1.tags q this, n4]
        have := this.2
        omega
      rw [hview]
      rfl
    · unfold batPart
      dsimp only
      rw [(send_clash _ _ _ _).1, (send_clash _ _ _ _).2]
      exact tag_fresh hi m ref
  | aside m =>
    obtain ⟨i1, i2, i3, i4⟩ := sendNew_spec srv hi c hp.2.2
    exact ⟨i1, i2, i3, i4⟩

private theorem parts_fresh (srv : Prefix) (c : Nat) (ref : Str) : ∀ (parts : List BatPart) (st : BatSys), BInv st →
    (∀ part ∈ parts, BatPartOk part) → (∀ part ∈ parts, ∀ i, part ≠ .kept i) →
    BInv (parts.foldl (batPart srv c ref) st) ∧
    view (parts.foldl (batPart srv c ref) st) =
      (parts.map (batPartMsg ref)).foldl (fun V m => vSend srv V c m) (view st) ∧
    (parts.foldl (batPart srv c ref) st).clash = st.clash ∧ (parts.foldl (batPart srv c ref) st).raced = st.raced := by
  intro parts
  induction parts with
  | nil => intro st hi _ _; exact ⟨hi, rfl, rfl, rfl⟩
  | cons part parts ih =>
    intro st hi hp hk
    obtain ⟨a1, a2, a3, a4⟩ := part_fresh srv c ref hi (hp part List.mem_cons_self) (hk part List.mem_cons_self)
    obtain ⟨b1, b2, b3, b4⟩ := ih _ a1 (fun q hq => hp q (List.mem_cons_of_mem _ hq))
      (fun q hq => hk q (List.mem_cons_of_mem _ hq))
    exact ⟨b1, by rw [List.foldl_cons, b2, a2, List.map_cons, List.foldl_cons], by rw [List.foldl_cons, b3, a3],
      by rw [List.foldl_cons, b4, a4]⟩

private theorem sent_batch (srv : Prefix) (caps : List Str) (params : List Str) :
    batSent srv caps ⟨[], none, b!"BATCH", params⟩ = [⟨[], none, b!"BATCH", params⟩] := by
  unfold batSent
  rw [if_pos (show cmdAllowed _ b!"BATCH" = true from rfl)]
  unfold visible
  simp [sourceFor, threeDigits]

/-- What `SendBatch` adds for the client. -/
def batFrame (caps : List Str) (ref typ : Str) (params : List Str) (inner : List TMsg) : List TMsg :=
  if b!"batch" ∈ caps then
    ⟨[], none, b!"BATCH", [b!"+" ++ ref, typ] ++ params⟩ :: (inner ++ [⟨[], none, b!"BATCH", [b!"-" ++ ref]⟩])
  else inner

private theorem batch_core (srv : Prefix) {st : BatSys} (hi : BInv st) {c : Nat} {cl : BatClient}
    (hc : st.clients[c]? = some cl) (typ : Str) (params : List Str) (parts : List BatPart)
    (P : BatSys → BatSys → Prop)
    (hparts : ∀ s : BatSys, BInv s → BInv (parts.foldl (batPart srv c (itoa (cl.lastRef + 1))) s) ∧
      P s (parts.foldl (batPart srv c (itoa (cl.lastRef + 1))) s)) :
    ∃ s1 s2, BInv s1 ∧ BInv s2 ∧ P s1 s2 ∧ BInv (batSendBatch srv st c typ params parts) ∧
      s1.clash = st.clash ∧ s1.raced = st.raced ∧
      (batSendBatch srv st c typ params parts).clash = s2.clash ∧
      (batSendBatch srv st c typ params parts).raced = s2.raced ∧
      ∀ ms : List TMsg, view s2 = ms.foldl (fun V m => vSend srv V c m) (view s1) →
        view (batSendBatch srv st c typ params parts) =
          (view st).modify c (fun v => ⟨v.caps, v.lastRef + 1,
            v.flow ++ batFrame v.caps (itoa (cl.lastRef + 1)) typ params (ms.flatMap (batSent srv v.caps))⟩) := by
  have hlt : c < st.clients.length := by
    rcases Nat.lt_or_ge c st.clients.length with h | h
    · exact h
    · rw [List.getElem?_eq_none h] at hc; cases hc
  have hcm : cl ∈ st.clients := List.mem_of_getElem? hc
  -- the counter
  generalize hs0 : ({ st with clients := st.clients.set c { cl with lastRef := cl.lastRef + 1 } } : BatSys) = s0
  have hi0 : BInv s0 := by
    subst hs0
    refine ⟨fun x hx q hq => ?_, fun x hx w hw => ?_, hi.store⟩
    · rcases List.mem_or_eq_of_mem_set hx with h | h
      · exact hi.queue x h q hq
      · subst h; exact hi.queue cl hcm q hq
    · rcases List.mem_or_eq_of_mem_set hx with h | h
      · exact hi.writing x h w hw
      · subst h; exact hi.writing cl hcm w hw
  have hv0 : view s0 = (view st).modify c (fun v => { v with lastRef := v.lastRef + 1 }) := by
    subst hs0
    unfold view
    apply List.ext_getElem?
    intro j
    rw [List.getElem?_modify, List.getElem?_map, List.getElem?_map]
    by_cases hj : c = j
    · subst hj
      rw [List.getElem?_set_self hlt, hc]
      simp only [if_true, Option.map_some, Option.map_eq_map]
      rfl
    · rw [List.getElem?_set_ne hj]
      cases st.clients[j]? with
      | none => rfl
      | some x => simp only [Option.map_some, hj, if_false, Option.map_eq_map, id]; rfl
  have hcaps : ∀ v, (view st)[c]? = some v → v.caps = cl.caps := by
    intro v hv
    unfold view at hv
    rw [List.getElem?_map, hc] at hv
    cases hv
    rfl
  have hs0c : s0.clash = st.clash ∧ s0.raced = st.raced := by subst hs0; exact ⟨rfl, rfl⟩
  have hmod : ∀ f g : View → View, (∀ v, v.caps = cl.caps → f v = g v) → (view st).modify c f = (view st).modify c g := by
    intro f g hfg
    apply List.ext_getElem?
    intro j
    rw [List.getElem?_modify, List.getElem?_modify]
    by_cases hj : c = j
    · subst hj
      cases hv : (view st)[c]? with
      | none => rfl
      | some v => simp [hfg v (hcaps v hv)]
    · simp [hj]
  unfold batSendBatch
  rw [hc]
  dsimp only
  rw [hs0]
  by_cases hb : b!"batch" ∈ cl.caps
  · simp only [if_pos hb]
    obtain ⟨a1, a2, a3, a4⟩ := sendNew_spec srv hi0 c
      (m := ⟨[], none, b!"BATCH", [b!"+" ++ itoa (cl.lastRef + 1), typ] ++ params⟩) (by simp)
    generalize batSendNew srv s0 c ⟨[], none, b!"BATCH", [b!"+" ++ itoa (cl.lastRef + 1), typ] ++ params⟩ = s1 at *
    obtain ⟨p1, p2⟩ := hparts s1 a1
    generalize parts.foldl (batPart srv c (itoa (cl.lastRef + 1))) s1 = s2 at *
    obtain ⟨e1, e2, e3, e4⟩ := sendNew_spec srv p1 c
      (m := ⟨[], none, b!"BATCH", [b!"-" ++ itoa (cl.lastRef + 1)]⟩) (by simp)
    refine ⟨s1, s2, a1, p1, p2, e1, by rw [a3, hs0c.1], by rw [a4, hs0c.2], e3, e4, fun ms hms => ?_⟩
    rw [e2, hms, a2, hv0, vSends]
    unfold vSend
    rw [List.modify_modify_eq, List.modify_modify_eq, List.modify_modify_eq]
    apply hmod
    intro v hv
    simp only [Function.comp]
    rw [sent_batch, sent_batch]
    unfold batFrame
    rw [if_pos (by rw [hv]; exact hb)]
    simp [List.append_assoc]
  · simp only [if_neg hb]
    obtain ⟨p1, p2⟩ := hparts s0 hi0
    refine ⟨s0, _, hi0, p1, p2, p1, hs0c.1, hs0c.2, rfl, rfl, fun ms hms => ?_⟩
    rw [hms, hv0, vSends, List.modify_modify_eq]
    apply hmod
    intro v hv
    simp only [Function.comp]
    unfold batFrame
    rw [if_neg (by rw [hv]; exact hb)]

/-- The reader has read everything, and no batch is open. -/
private def Good (v : View) : Prop :=
  ∃ seen, batchReader [] [] v.flow = some ([], seen) ∧ ∀ r ∈ seen, ∃ n, n ≤ v.lastRef ∧ r = itoa n

private theorem good_frame (srv : Prefix) {v : View} (h : Good v) (typ : Str) (params : List Str) {ms : List TMsg}
    (hms : ∀ m ∈ ms, Inside (itoa (v.lastRef + 1)) m ∨ NoBatch m) :
    Good ⟨v.caps, v.lastRef + 1,
      v.flow ++ batFrame v.caps (itoa (v.lastRef + 1)) typ params (ms.flatMap (batSent srv v.caps))⟩ := by
  obtain ⟨seen, h1, h2⟩ := h
  unfold Good
  dsimp only
  rw [reader_append, h1]
  simp only [Option.bind_some]
  unfold batFrame
  by_cases hb : b!"batch" ∈ v.caps
  · rw [if_pos hb]
    have hns : itoa (v.lastRef + 1) ∉ seen := by
      intro hm
      obtain ⟨n, hn, e⟩ := h2 _ hm
      have := itoa_inj e
      omega
    refine ⟨itoa (v.lastRef + 1) :: seen, ?_, ?_⟩
    · rw [batchReader, if_neg (by simp [GoMap.get]), if_pos rfl]
      simp only [List.cons_append, List.nil_append]
      rw [if_neg hns, reader_append,
        reader_sents srv v.caps [itoa (v.lastRef + 1)] _ (itoa_ne_nil _) (fun _ => List.mem_singleton.2 rfl) ms hms]
      simp only [Option.bind_some]
      rw [batchReader, if_neg (by simp [GoMap.get]), if_pos rfl]
      simp only
      rw [if_pos (List.mem_singleton.2 rfl), batchReader]
      simp
    · intro r hr
      rcases List.mem_cons.1 hr with h | h
      · exact ⟨_, Nat.le_refl _, h⟩
      · obtain ⟨n, hn, e⟩ := h2 r h
        exact ⟨n, by omega, e⟩
  · rw [if_neg hb]
    refine ⟨seen, reader_sents srv v.caps [] seen (itoa_ne_nil (v.lastRef + 1)) (fun h => absurd h hb) ms hms, ?_⟩
    intro r hr
    obtain ⟨n, hn, e⟩ := h2 r hr
    exact ⟨n, by omega, e⟩

/-! ## Lemmas: the steps -/

private theorem modify_congr {V : List View} {c : Nat} {f g : View → View} (h : ∀ v, V[c]? = some v → f v = g v) :
    V.modify c f = V.modify c g := by
  apply List.ext_getElem?
  intro j
  rw [List.getElem?_modify, List.getElem?_modify]
  by_cases hj : c = j
  · subst hj
    cases hv : V[c]? with
    | none => rfl
    | some v => simp [h v hv]
  · simp [hj]

private theorem modify_none {V : List View} {c : Nat} {f : View → View} (h : V[c]? = none) : V.modify c f = V :=
  List.modify_eq_self (List.getElem?_eq_none_iff.1 h)

/-- What a step does for the clients. -/
private def VStep (srv : Prefix) (V V' : List View) : BatOp → Prop
  | .connect => V' = V ++ [⟨[], 0, []⟩]
  | .caps c caps => V' = V.modify c (fun v => { v with caps := caps })
  | .message m _ to => V' = to.foldl (fun V c => vSend srv V c m) V
  | .batch c typ params _ => ∃ ms : List TMsg,
      (∀ v, V[c]? = some v → ∀ m ∈ ms, Inside (itoa (v.lastRef + 1)) m ∨ NoBatch m) ∧
      V' = V.modify c (fun v => ⟨v.caps, v.lastRef + 1,
        v.flow ++ batFrame v.caps (itoa (v.lastRef + 1)) typ params (ms.flatMap (batSent srv v.caps))⟩)
  | .take _ => V' = V
  | .written _ => V' = V

private theorem sends_spec (srv : Prefix) (p : Nat) : ∀ (to : List Nat) (st : BatSys), BInv st → Heap.Valid st.heap p →
    ((st.heap.deref p).tags.map (·.1)).Nodup →
    BInv (to.foldl (fun st c => batSend srv st c p) st) ∧
    view (to.foldl (fun st c => batSend srv st c p) st) =
      to.foldl (fun V c => vSend srv V c (st.heap.deref p)) (view st) ∧
    (to.foldl (fun st c => batSend srv st c p) st).clash = st.clash ∧
    (to.foldl (fun st c => batSend srv st c p) st).raced = st.raced := by
  intro to
  induction to with
  | nil => intro st hi _ _; exact ⟨hi, rfl, rfl, rfl⟩
  | cons c to ih =>
    intro st hi hv nd
    obtain ⟨a1, a2, a3, a4, a5, a6⟩ := send_spec srv hi c hv nd
    have hd := a6.deref p hv
    obtain ⟨b1, b2, b3, b4⟩ := ih _ a1 (a6.valid p hv) (by rw [hd]; exact nd)
    refine ⟨b1, ?_, ?_, ?_⟩
    · rw [List.foldl_cons, b2, a2, hd, List.foldl_cons]
    · rw [List.foldl_cons, b3, a3]
    · rw [List.foldl_cons, b4, a4]

private theorem view_set {st : BatSys} {c : Nat} {cl cl' : BatClient} (hc : st.clients[c]? = some cl) (f : View → View)
    (h : vOf st cl' = f (vOf st cl)) :
    view { st with clients := st.clients.set c cl' } = (view st).modify c f := by
  have hlt : c < st.clients.length := by
    rcases Nat.lt_or_ge c st.clients.length with h | h
    · exact h
    · rw [List.getElem?_eq_none h] at hc; cases hc
  unfold view
  apply List.ext_getElem?
  intro j
  rw [List.getElem?_modify, List.getElem?_map, List.getElem?_map]
  by_cases hj : c = j
  · subst hj
    rw [List.getElem?_set_self hlt, hc]
    simp only [if_true, Option.map_some, Option.map_eq_map, Option.some.injEq]
    exact h
  · rw [List.getElem?_set_ne hj]
    cases st.clients[j]? with
    | none => rfl
    | some x => simp only [Option.map_some, hj, if_false, Option.map_eq_map, id]; rfl

private theorem binv_set {st : BatSys} (hi : BInv st) {c : Nat} {cl' : BatClient}
    (h1 : ∀ p ∈ cl'.queue, Heap.Valid st.heap p) (h2 : ∀ w ∈ cl'.writing, Heap.Valid st.heap w.1) :
    BInv { st with clients := st.clients.set c cl' } := by
  refine ⟨fun x hx q hq => ?_, fun x hx w hw => ?_, hi.store⟩
  · rcases List.mem_or_eq_of_mem_set hx with h | h
    · exact hi.queue x h q hq
    · subst h; exact h1 q hq
  · rcases List.mem_or_eq_of_mem_set hx with h | h
    · exact hi.writing x h w hw
    · subst h; exact h2 w hw

private theorem modify_id' (V : List View) (c : Nat) : V.modify c (fun v => v) = V := List.modify_id c V

private theorem step_spec (srv : Prefix) {st st' : BatSys} (hi : BInv st) {op : BatOp} (hop : BatOpOk op)
    (h : batStep srv st op = some st') :
    BInv st' ∧ (st.clash = true → st'.clash = true) ∧ (st'.clash = false → VStep srv (view st) (view st') op) ∧
    (NotKept op → st'.clash = st.clash ∧ st'.raced = st.raced) := by
  cases op with
  | connect =>
    cases h
    refine ⟨⟨fun cl hc p hp => ?_, fun cl hc w hw => ?_, hi.store⟩, id, fun _ => ?_, fun _ => ⟨rfl, rfl⟩⟩
    · rcases List.mem_append.1 hc with h | h
      · exact hi.queue cl h p hp
      · rw [List.mem_singleton] at h; subst h; cases hp
    · rcases List.mem_append.1 hc with h | h
      · exact hi.writing cl h w hw
      · rw [List.mem_singleton] at h; subst h; cases hw
    · show (st.clients ++ [_]).map _ = _
      rw [List.map_append]; rfl
  | caps c caps =>
    unfold batStep at h
    dsimp only at h
    cases hc : st.clients[c]? with
    | none => rw [hc] at h; cases h
    | some cl =>
      rw [hc] at h
      cases h
      have hcm := List.mem_of_getElem? hc
      exact ⟨binv_set hi (hi.queue cl hcm) (hi.writing cl hcm), id, fun _ => view_set hc _ rfl, fun _ => ⟨rfl, rfl⟩⟩
  | message m keep to =>
    cases h
    obtain ⟨n1, n2, n3, n4⟩ := new_spec st.heap m
    obtain ⟨b1, b2⟩ := binv_new hi m
    have b1' : BInv { st with heap := (st.heap.new m).1, store := st.store ++ (if keep then [(st.heap.new m).2] else []) } := by
      refine ⟨b1.queue, b1.writing, fun p hp => ?_⟩
      rcases List.mem_append.1 hp with h | h
      · exact b1.store p h
      · have : p = (st.heap.new m).2 := by
          cases keep with
          | true => simpa using h
          | false => simp at h
        subst this
        refine ⟨n2, ?_⟩
        show Storable ((st.heap.new m).1.deref (st.heap.new m).2)
        rw [n3]
        exact ⟨hop.1, hop.2.2⟩
    obtain ⟨s1, s2, s3, s4⟩ := sends_spec srv (st.heap.new m).2 to _ b1' n2 (by
      show (((st.heap.new m).1.deref (st.heap.new m).2).tags.map (·.1)).Nodup
      rw [n3]; exact hop.2.2)
    refine ⟨s1, fun h => by rw [s3]; exact h, fun _ => ?_, fun _ => ⟨s3, s4⟩⟩
    show _ = _
    rw [s2]
    show List.foldl (fun V c => vSend srv V c ((st.heap.new m).1.deref (st.heap.new m).2))
      (view { st with heap := (st.heap.new m).1 }) to = _
    rw [n3, b2]
  | batch c typ params parts =>
    have h := (Option.some.inj h).symm
    have hparts : ∀ part ∈ parts, BatPartOk part := hop
    cases hc : st.clients[c]? with
    | none =>
      have : st' = st := by rw [h]; unfold batSendBatch; rw [hc]
      subst this
      refine ⟨hi, id, fun _ => ⟨[], fun _ _ m hm => by (cases hm), ?_⟩, fun _ => ⟨rfl, rfl⟩⟩
      rw [modify_none]
      unfold view
      rw [List.getElem?_map, hc]; rfl
    | some cl =>
      have hlast : ∀ v, (view st)[c]? = some v → v.lastRef = cl.lastRef := by
        intro v hv
        unfold view at hv
        rw [List.getElem?_map, hc] at hv
        cases hv; rfl
      obtain ⟨s1, s2, i1, i2, hP, i3, c1, r1, c2, r2, hview⟩ := batch_core srv hi hc typ params parts
        (fun s s' => (s.clash = true → s'.clash = true) ∧
          (s'.clash = false → ∃ ms : List TMsg, (∀ m ∈ ms, Inside (itoa (cl.lastRef + 1)) m ∨ NoBatch m) ∧
            view s' = ms.foldl (fun V m => vSend srv V c m) (view s)) ∧
          ((∀ part ∈ parts, ∀ i, part ≠ .kept i) → s'.clash = s.clash ∧ s'.raced = s.raced))
        (fun s hs => by
          obtain ⟨x1, x2, x3⟩ := parts_spec srv c (itoa (cl.lastRef + 1)) parts s hs hparts
          refine ⟨x1, x2, x3, fun hk => ?_⟩
          obtain ⟨_, _, y3, y4⟩ := parts_fresh srv c (itoa (cl.lastRef + 1)) parts s hs hparts hk
          exact ⟨y3, y4⟩)
      rw [← h] at i3 c2 r2 hview
      refine ⟨i3, fun hcl => by rw [c2]; exact hP.1 (by rw [c1]; exact hcl), fun hcl => ?_, fun hk => ?_⟩
      · rw [c2] at hcl
        obtain ⟨ms, m1, m2⟩ := hP.2.1 hcl
        refine ⟨ms, fun v hv => by rw [hlast v hv]; exact m1, ?_⟩
        rw [hview ms m2]
        apply modify_congr
        intro v hv
        rw [hlast v hv]
      · obtain ⟨k1, k2⟩ := hP.2.2 hk
        exact ⟨by rw [c2, k1, c1], by rw [r2, k2, r1]⟩
  | take c =>
    unfold batStep at h
    dsimp only at h
    cases hc : st.clients[c]? with
    | none => rw [hc] at h; cases h
    | some cl =>
      rw [hc] at h
      dsimp only at h
      have hcm := List.mem_of_getElem? hc
      cases hw : cl.writing with
      | some w => rw [hw] at h; cases h
      | none =>
        cases hq : cl.queue with
        | nil => rw [hw, hq] at h; cases h
        | cons p rest =>
          rw [hw, hq] at h
          cases h
          refine ⟨binv_set hi (fun q hqq => hi.queue cl hcm q (by rw [hq]; exact List.mem_cons_of_mem _ hqq))
            (fun w hww => by cases hww; exact hi.queue cl hcm p (by rw [hq]; exact List.mem_cons_self)), id, fun _ => ?_,
            fun _ => ⟨rfl, rfl⟩⟩
          show _ = _
          rw [view_set hc (fun v => v) ?_, modify_id']
          unfold vOf batFlow
          rw [hw, hq]
          simp
  | written c =>
    unfold batStep at h
    dsimp only at h
    cases hc : st.clients[c]? with
    | none => rw [hc] at h; cases h
    | some cl =>
      rw [hc] at h
      dsimp only at h
      have hcm := List.mem_of_getElem? hc
      cases hw : cl.writing with
      | none => rw [hw] at h; cases h
      | some w =>
        rw [hw] at h
        cases h
        refine ⟨binv_set hi (hi.queue cl hcm) (fun w hww => by cases hww), id, fun _ => ?_, fun _ => ⟨rfl, rfl⟩⟩
        show _ = _
        rw [view_set hc (fun v => v) ?_, modify_id']
        unfold vOf batFlow
        rw [hw]
        simp

private theorem run_spec (srv : Prefix) (R : List View → Prop) (ok : BatOp → Prop)
    (hR : ∀ V V' op, ok op → BatOpOk op → R V → VStep srv V V' op → R V') :
    ∀ (ops : List BatOp) (st st' : BatSys), BInv st → (∀ op ∈ ops, BatOpOk op ∧ ok op) → batRun srv st ops = some st' →
      BInv st' ∧ (st.clash = true → st'.clash = true) ∧ (st'.clash = false → R (view st) → R (view st')) ∧
      ((∀ op ∈ ops, NotKept op) → st'.clash = st.clash ∧ st'.raced = st.raced) := by
  intro ops
  induction ops with
  | nil => intro st st' hi _ h; cases h; exact ⟨hi, id, fun _ h => h, fun _ => ⟨rfl, rfl⟩⟩
  | cons op ops ih =>
    intro st st' hi hok h
    unfold batRun at h
    cases hs : batStep srv st op with
    | none => rw [hs] at h; cases h
    | some s1 =>
      rw [hs] at h
      obtain ⟨a1, a2, a3, a4⟩ := step_spec srv hi (hok op List.mem_cons_self).1 hs
      obtain ⟨b1, b2, b3, b4⟩ := ih s1 st' a1 (fun o ho => hok o (List.mem_cons_of_mem _ ho)) h
      refine ⟨b1, fun h => b2 (a2 h), fun hc hr => ?_, fun hk => ?_⟩
      · have : s1.clash = false := by
          cases he : s1.clash with
          | false => rfl
          | true => rw [b2 he] at hc; cases hc
        exact b3 hc (hR _ _ op (hok op List.mem_cons_self).2 (hok op List.mem_cons_self).1 hr (a3 this))
      · obtain ⟨x1, x2⟩ := a4 (hk op List.mem_cons_self)
        obtain ⟨y1, y2⟩ := b4 (fun o ho => hk o (List.mem_cons_of_mem _ ho))
        exact ⟨by rw [y1, x1], by rw [y2, x2]⟩

private theorem binv_init : BInv BatSys.init :=
  ⟨fun _ h => (by cases h), fun _ h => (by cases h), fun _ h => (by cases h)⟩

private theorem good_modify {V : List View} {c : Nat} {f : View → View} (h : ∀ v ∈ V, Good v)
    (hf : ∀ v, V[c]? = some v → Good (f v)) : ∀ v ∈ V.modify c f, Good v := by
  intro v hv
  obtain ⟨j, hj⟩ := List.mem_iff_getElem?.1 hv
  rw [List.getElem?_modify] at hj
  by_cases hjc : c = j
  · subst hjc
    cases hx : V[c]? with
    | none => rw [hx] at hj; cases hj
    | some x => rw [hx] at hj; simp at hj; rw [← hj]; exact hf x hx
  · simp only [hjc, if_false, Option.map_eq_map, id, Option.map_id_fun'] at hj
    exact h v (List.mem_of_getElem? (by simpa using hj))

private theorem good_plain (srv : Prefix) {v : View} (h : Good v) {m : TMsg} (hm : NoBatch m) :
    Good { v with flow := v.flow ++ batSent srv v.caps m } := by
  obtain ⟨seen, h1, h2⟩ := h
  refine ⟨seen, ?_, h2⟩
  show batchReader [] [] (v.flow ++ _) = _
  rw [reader_append, h1]
  exact reader_sent srv v.caps (ref := b!"1") (Or.inr hm) [] seen (by decide)
    (fun _ hin => absurd (List.mem_map.2 ⟨_, mget_some_mem hin.2, rfl⟩) hm.2.1)

private theorem good_step (srv : Prefix) (V V' : List View) (op : BatOp) (_ : True) (hop : BatOpOk op)
    (h : ∀ v ∈ V, Good v) (hs : VStep srv V V' op) : ∀ v ∈ V', Good v := by
  cases op with
  | connect =>
    cases hs
    intro v hv
    rcases List.mem_append.1 hv with hv | hv
    · exact h v hv
    · rw [List.mem_singleton] at hv
      subst hv
      exact ⟨[], rfl, fun _ h => by cases h⟩
  | caps c caps =>
    cases hs
    exact good_modify h (fun v hv => h v (List.mem_of_getElem? hv))
  | message m keep to =>
    cases hs
    have : ∀ (to : List Nat) (V : List View), (∀ v ∈ V, Good v) →
        ∀ v ∈ to.foldl (fun V c => vSend srv V c m) V, Good v := by
      intro to
      induction to with
      | nil => intro V h; exact h
      | cons c to ih =>
        intro V h
        exact ih _ (good_modify h (fun v hv => good_plain srv (h v (List.mem_of_getElem? hv)) hop))
    exact this to V h
  | batch c typ params parts =>
    obtain ⟨ms, h1, h2⟩ := hs
    subst h2
    exact good_modify h (fun v hv => good_frame srv (h v (List.mem_of_getElem? hv)) typ params (h1 v hv))
  | take c => cases hs; exact h
  | written c => cases hs; exact h

/-! ## C97: theorems -/

/-- C97: if no tag of a message is changed before all clients have got it, then whatever happens, in whatever order,
everything a client has been sent is framed: each batch has a reference of its own, is ended once, and every message with
a reference comes between the start and the end of its batch.  When a client has got everything, no batch is open. -/
theorem C97_framed_partial (srv : Prefix) (ops : List BatOp) (hops : ∀ op ∈ ops, BatOpOk op) (st : BatSys)
    (h : batRun srv BatSys.init ops = some st) (hclash : st.clash = false) (cl : BatClient) (hcl : cl ∈ st.clients) :
    batchReader [] [] cl.wire ≠ none ∧
    (cl.queue = [] → cl.writing = none → ∃ seen, batchReader [] [] cl.wire = some ([], seen)) := by
  obtain ⟨_, _, h3, _⟩ := run_spec srv (fun V => ∀ v ∈ V, Good v) (fun _ => True) (good_step srv) ops _ st binv_init
    (fun op ho => ⟨hops op ho, trivial⟩) h
  have hg := h3 hclash (fun v hv => by cases hv) (vOf st cl) (List.mem_map.2 ⟨cl, hcl, rfl⟩)
  obtain ⟨seen, h1, _⟩ := hg
  have h1' : batchReader [] [] (batFlow st cl) = some ([], seen) := h1
  constructor
  · unfold batFlow at h1'
    rw [List.append_assoc] at h1'
    exact reader_prefix (b := (cl.writing.map (·.2)).toList ++ cl.queue.map st.heap.deref) (by rw [h1']; simp)
  · intro hq hw
    unfold batFlow at h1'
    rw [hq, hw] at h1'
    exact ⟨seen, by simpa using h1'⟩

/-- C97: with the stores that make new messages (in files and in the database) no tag is changed of a message that a client
has not got, and no goroutine reads a message that is changed: so everything is framed. -/
theorem C97_framed (srv : Prefix) (ops : List BatOp) (hops : ∀ op ∈ ops, BatOpOk op) (hk : ∀ op ∈ ops, NotKept op)
    (st : BatSys) (h : batRun srv BatSys.init ops = some st) :
    st.clash = false ∧ st.raced = false ∧ ∀ cl ∈ st.clients,
      batchReader [] [] cl.wire ≠ none ∧
      (cl.queue = [] → cl.writing = none → ∃ seen, batchReader [] [] cl.wire = some ([], seen)) := by
  obtain ⟨_, _, _, h4⟩ := run_spec srv (fun V => ∀ v ∈ V, Good v) (fun _ => True) (good_step srv) ops _ st binv_init
    (fun op ho => ⟨hops op ho, trivial⟩) h
  obtain ⟨k1, k2⟩ := h4 hk
  exact ⟨k1, k2, fun cl hcl => C97_framed_partial srv ops hops st h k1 cl hcl⟩

/-- C97: a batch of messages made for it, whatever else is on the way: the client is sent the start, the messages it may
see (C26) in their order, each with the reference of the batch, and the end; without the capability for batches only the
messages, without a reference.  No other client is sent anything. -/
theorem C97_batch (srv : Prefix) (ops : List BatOp) (hops : ∀ op ∈ ops, BatOpOk op) (st : BatSys)
    (h : batRun srv BatSys.init ops = some st) (c : Nat) (typ : Str) (params : List Str) (parts : List BatPart)
    (hparts : BatOpOk (.batch c typ params parts)) (hk : NotKept (.batch c typ params parts))
    (j : Nat) (cl : BatClient) (hcl : st.clients[j]? = some cl) :
    ∃ st' cl', batStep srv st (.batch c typ params parts) = some st' ∧ st'.clients[j]? = some cl' ∧
      batFlow st' cl' = batFlow st cl ++
        (if j = c then
          batFrame cl.caps (itoa (cl.lastRef + 1)) typ params
            ((parts.map (batPartMsg (itoa (cl.lastRef + 1)))).flatMap (batSent srv cl.caps))
         else []) := by
  obtain ⟨hi, _, _, _⟩ := run_spec srv (fun V => ∀ v ∈ V, Good v) (fun _ => True) (good_step srv) ops _ st binv_init
    (fun op ho => ⟨hops op ho, trivial⟩) h
  have hp : ∀ part ∈ parts, BatPartOk part := hparts
  refine ⟨batSendBatch srv st c typ params parts, ?_⟩
  have key : ∀ (st' : BatSys) (f : View → View), view st' = (view st).modify c f →
      ∃ cl', st'.clients[j]? = some cl' ∧ vOf st' cl' = if c = j then f (vOf st cl) else vOf st cl := by
    intro st' f hv
    have hj : (view st')[j]? = ((view st).modify c f)[j]? := by rw [hv]
    unfold view at hj
    rw [List.getElem?_modify, List.getElem?_map, List.getElem?_map, hcl] at hj
    cases hc' : st'.clients[j]? with
    | none => rw [hc'] at hj; simp at hj
    | some cl' =>
      rw [hc'] at hj
      refine ⟨cl', rfl, ?_⟩
      have := Option.some.inj hj
      rw [this]
  cases hc : st.clients[c]? with
  | none =>
    refine ⟨cl, rfl, ?_, ?_⟩
    · show (batSendBatch srv st c typ params parts).clients[j]? = _
      unfold batSendBatch; rw [hc]; exact hcl
    · have hjc : j ≠ c := by intro e; rw [e, hc] at hcl; cases hcl
      rw [if_neg hjc, List.append_nil]
      unfold batSendBatch; rw [hc]
  | some clc =>
    obtain ⟨s1, s2, i1, i2, hP, i3, c1, r1, c2, r2, hview⟩ := batch_core srv hi hc typ params parts
      (fun s s' => view s' = (parts.map (batPartMsg (itoa (clc.lastRef + 1)))).foldl (fun V m => vSend srv V c m) (view s))
      (fun s hs => by
        obtain ⟨x1, x2, _, _⟩ := parts_fresh srv c (itoa (clc.lastRef + 1)) parts s hs hp hk
        exact ⟨x1, x2⟩)
    obtain ⟨cl', k1, k2⟩ := key _ _ (hview _ hP)
    refine ⟨cl', rfl, k1, ?_⟩
    have hf : batFlow (batSendBatch srv st c typ params parts) cl' = (vOf (batSendBatch srv st c typ params parts) cl').flow := rfl
    rw [hf, k2]
    by_cases hjc : j = c
    · subst hjc
      rw [hcl] at hc
      cases hc
      rw [if_pos rfl, if_pos rfl]
      rfl
    · rw [if_neg hjc, if_neg (Ne.symm hjc), List.append_nil]
      rfl

/-- No BATCH, and no reference to one. -/
private def Quiet (c : Nat) (V : List View) : Prop :=
  ∀ v, V[c]? = some v → b!"batch" ∉ v.caps ∧ ∀ m ∈ v.flow, m.command ≠ b!"BATCH" ∧ GoMap.get m.tags b!"batch" = none

private theorem quiet_sent (srv : Prefix) {caps : List Str} (hb : b!"batch" ∉ caps) {ref : Str} (hr : ref ≠ []) {m : TMsg}
    (hm : Inside ref m ∨ NoBatch m) : ∀ x ∈ batSent srv caps m, x.command ≠ b!"BATCH" ∧ GoMap.get x.tags b!"batch" = none := by
  intro x hx
  unfold batSent at hx
  split at hx
  · rw [List.mem_singleton] at hx
    subst hx
    refine ⟨by rcases hm with h | h; exact h.1.1; exact h.1, ?_⟩
    cases hg : GoMap.get (visible (fun n => decide (n ∈ caps)) srv m).tags b!"batch" with
    | none => rfl
    | some v =>
      have hnd : (m.tags.map (·.1)).Nodup := by
        rcases hm with h | h
        · exact h.1.2
        · exact h.2.2
      obtain ⟨g1, g2⟩ := get_filter hnd hg
      rcases hm with h | h
      · have : v = ref := by rw [h.2] at g1; exact (Option.some.inj g1).symm
        subst this
        unfold tagAllowed at g2
        rw [if_pos rfl] at g2
        simp [hr, hb] at g2
      · exact absurd (List.mem_map.2 ⟨_, mget_some_mem g1, rfl⟩) h.2.1
  · cases hx

private theorem quiet_modify {V : List View} {c j : Nat} {f : View → View} (h : Quiet c V)
    (hf : c = j → ∀ v, V[c]? = some v → b!"batch" ∉ (f v).caps ∧
      ∀ m ∈ (f v).flow, m.command ≠ b!"BATCH" ∧ GoMap.get m.tags b!"batch" = none) : Quiet c (V.modify j f) := by
  intro v hv
  rw [List.getElem?_modify] at hv
  by_cases hj : j = c
  · subst hj
    cases hx : V[j]? with
    | none => rw [hx] at hv; cases hv
    | some x =>
      rw [hx] at hv
      simp at hv
      rw [← hv]
      exact hf rfl x hx
  · simp only [hj, if_false, Option.map_eq_map, id, Option.map_id_fun'] at hv
    exact h v (by simpa using hv)

private theorem quiet_step (srv : Prefix) (c : Nat) (V V' : List View) (op : BatOp)
    (hok : ∀ caps, op = .caps c caps → b!"batch" ∉ caps) (hop : BatOpOk op)
    (h : Quiet c V) (hs : VStep srv V V' op) : Quiet c V' := by
  cases op with
  | connect =>
    cases hs
    intro v hv
    rcases Nat.lt_trichotomy c V.length with hl | hl | hl
    · rw [List.getElem?_append_left hl] at hv; exact h v hv
    · rw [List.getElem?_append_right (by omega), hl] at hv
      simp at hv
      subst hv
      exact ⟨by simp, fun _ h => by cases h⟩
    · rw [List.getElem?_append_right (by omega), List.getElem?_eq_none (by simp; omega)] at hv; cases hv
  | caps j caps =>
    cases hs
    apply quiet_modify h
    intro e v hv
    subst e
    exact ⟨hok caps rfl, (h v hv).2⟩
  | message m keep to =>
    cases hs
    have : ∀ (to : List Nat) (V : List View), Quiet c V → Quiet c (to.foldl (fun V c => vSend srv V c m) V) := by
      intro to
      induction to with
      | nil => intro V h; exact h
      | cons j to ih =>
        intro V h
        apply ih
        apply quiet_modify h
        intro _ v hv
        refine ⟨(h v hv).1, fun x hx => ?_⟩
        rcases List.mem_append.1 hx with hx | hx
        · exact (h v hv).2 x hx
        · exact quiet_sent srv (h v hv).1 (ref := b!"1") (by decide) (Or.inr hop) x hx
    exact this to V h
  | batch j typ params parts =>
    obtain ⟨ms, h1, h2⟩ := hs
    subst h2
    apply quiet_modify h
    intro e v hv
    subst e
    refine ⟨(h v hv).1, fun x hx => ?_⟩
    rcases List.mem_append.1 hx with hx | hx
    · exact (h v hv).2 x hx
    · unfold batFrame at hx
      rw [if_neg (h v hv).1] at hx
      obtain ⟨m, hm, hxm⟩ := List.mem_flatMap.1 hx
      exact quiet_sent srv (h v hv).1 (itoa_ne_nil _) (h1 v hv m hm) x hxm
  | take j => cases hs; exact h
  | written j => cases hs; exact h

/-- C97: a client that has never enabled batches gets neither batches nor references to them. -/
theorem C97_not_asked (srv : Prefix) (ops : List BatOp) (hops : ∀ op ∈ ops, BatOpOk op) (hk : ∀ op ∈ ops, NotKept op)
    (c : Nat) (hcaps : ∀ caps, BatOp.caps c caps ∈ ops → b!"batch" ∉ caps)
    (st : BatSys) (h : batRun srv BatSys.init ops = some st) (cl : BatClient) (hcl : st.clients[c]? = some cl)
    (m : TMsg) (hm : m ∈ cl.wire) : m.command ≠ b!"BATCH" ∧ GoMap.get m.tags b!"batch" = none := by
  obtain ⟨_, _, h3, h4⟩ := run_spec srv (Quiet c) (fun op => ∀ caps, op = .caps c caps → b!"batch" ∉ caps)
    (quiet_step srv c) ops _ st binv_init (fun op ho => ⟨hops op ho, fun caps e => hcaps caps (e ▸ ho)⟩) h
  have hq := h3 (h4 hk).1 (fun v hv => by cases hv) (vOf st cl) (by unfold view; rw [List.getElem?_map, hcl]; rfl)
  apply hq.2 m
  show m ∈ batFlow st cl
  unfold batFlow
  rw [List.append_assoc]
  exact List.mem_append_left _ hm

/-! ## C97: the store in memory -/

/-- A message, and the capabilities of two clients. -/
def batMsg : TMsg := ⟨[(b!"time", b!"2026-01-01T00:00:00.000Z")], some ⟨b!"bob", b!"b", b!"h"⟩, b!"PRIVMSG", [b!"#c", b!"hello"]⟩
def batCaps : List Str := [b!"message-tags", b!"batch"]
def batSrv : Prefix := ⟨b!"bouncer", [], []⟩

/-- C97, violated with the store in memory: a message is on its way to the first client when the second one connects
and is sent the messages it missed.  The first client gets the message with a reference to a batch it knows nothing of;
so does a client that has not asked for batches. -/
theorem C97_memory_violated :
    ∃ (ops : List BatOp) (st : BatSys), (∀ op ∈ ops, BatOpOk op) ∧ batRun batSrv BatSys.init ops = some st ∧
      (∃ cl, st.clients[0]? = some cl ∧ cl.wire = [{ batMsg with tags := batMsg.tags ++ [(b!"batch", b!"1")] }] ∧
        batchReader [] [] cl.wire = none) ∧
      (∃ cl, st.clients[2]? = some cl ∧ b!"batch" ∉ cl.caps ∧
        cl.wire = [{ batMsg with tags := batMsg.tags ++ [(b!"batch", b!"1")] }]) :=
  ⟨[.connect, .caps 0 batCaps, .connect, .caps 1 batCaps, .connect, .caps 2 [b!"message-tags"],
      .message batMsg true [0, 2], .batch 1 b!"chathistory" [b!"#c"] [.kept 0], .take 0, .written 0, .take 2, .written 2],
    _, by decide, rfl, ⟨_, rfl, by decide, by decide⟩, ⟨_, rfl, by decide, by decide⟩⟩

/-- C97, violated with the store in memory: two clients are sent the same messages at the same time.  The goroutine of the
first one is reading the tags of a message while the user goroutine writes to them for the second one: the Go runtime
stops the whole bouncer when it sees this. -/
theorem C97_race_violated :
    ∃ (ops : List BatOp) (st : BatSys), (∀ op ∈ ops, BatOpOk op) ∧ batRun batSrv BatSys.init ops = some st ∧
      st.raced = true :=
  ⟨[.connect, .caps 0 batCaps, .connect, .caps 1 batCaps, .message batMsg true [],
      .batch 0 b!"chathistory" [b!"#c"] [.kept 0], .take 0, .written 0, .take 0, .batch 1 b!"chathistory" [b!"#c"] [.kept 0]],
    _, by decide, rfl, by decide⟩

/-- A client with batches gets two, another one without does not, and everything is written. -/
example :
    let ops : List BatOp :=
      [.connect, .caps 0 batCaps, .connect, .message batMsg true [0, 1], .batch 0 b!"chathistory" [b!"#c"] [.loaded batMsg, .aside batMsg],
        .batch 1 b!"chathistory" [b!"#c"] [.loaded batMsg], .take 0, .written 0, .take 0, .written 0, .batch 0 b!"soju.im/search" [] [],
        .take 0, .written 0, .take 0, .written 0, .take 0, .written 0, .take 0, .written 0, .take 0, .written 0, .take 1, .written 1,
        .take 1, .written 1]
    (∀ op ∈ ops, BatOpOk op) ∧ (∀ op ∈ ops, NotKept op) ∧
    ((batRun batSrv BatSys.init ops).map (fun st => st.clients.map (fun cl => (cl.queue, cl.wire.map (fun m => (m.params, GoMap.get m.tags b!"batch")))))) =
      some [([], [([b!"#c", b!"hello"], none), ([b!"+1", b!"chathistory", b!"#c"], none), ([b!"#c", b!"hello"], some b!"1"),
          ([b!"#c", b!"hello"], none), ([b!"-1"], none), ([b!"+2", b!"soju.im/search"], none), ([b!"-2"], none)]),
        ([], [([b!"#c", b!"hello"], none), ([b!"#c", b!"hello"], none)])] := by
  refine ⟨by decide, by simp [NotKept], rfl⟩

end Verif.Props
