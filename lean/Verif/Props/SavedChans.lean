import Verif.Proof.SavedChans
import Verif.Proof.GoStr
import Verif.Spec.SavedChans
import Verif.Props.GenMsg

/-! # Properties of the saved channels (C58) -/

namespace Verif.Props
open Verif.Model Verif.Spec Verif.Proof

/-- The requests an event makes, most recent first.  A client's JOIN and PART are only taken while connected to
the server; names that cannot be the name of a channel are refused. -/
def requestsOf (isChan : Str → Bool) (conn : Bool) : ScOp → List ChanRequest
  | .join names keys =>
    if conn then
      (((joinTargets (names :: keys.toList)).filter (fun p => ChanNameOK p.1 ∧ isChan p.1)).map
        (fun p => ChanRequest.join p.1 p.2)).reverse
    else []
  | .part names reason _ =>
    if conn ∧ ¬ SameName .ascii reason b!"detach" then ((splitSep 44 names).map ChanRequest.leave).reverse else []
  | .create name _ => if ChanNameOK name ∧ (conn → isChan name) then [.join name []] else []
  | .delete name => [.leave name]
  | _ => []

/-- Whether the network is connected after an event. -/
def connAfter (conn : Bool) : ScOp → Bool
  | .connected => true
  | .disconnected | .networkUpdated | .restarted => false
  | _ => conn

/-- Whether the bouncer knows the case mapping of the server after an event. -/
def knownAfter (known : Bool) : ScOp → Bool
  | .casemapping _ => true
  | .networkUpdated | .restarted => false
  | _ => known

/-- The requests of a history, most recent first. -/
def requests (isChan : Str → Bool) (conn : Bool) : List ScOp → List ChanRequest
  | [] => []
  | op :: ops => requests isChan (connAfter conn op) ops ++ requestsOf isChan conn op

/-- Whether an event adds or removes channels by name. -/
def namesChannels : ScOp → Bool
  | .join .. | .part .. | .create .. | .delete .. => true
  | _ => false

/-- A timer of a connection of a network that has been replaced. -/
def isLate : ScOp → Bool
  | .lateDetach .. => true
  | _ => false

/-- Histories of a server whose case mapping is `cm`: channels are added and removed only while the bouncer
knows the mapping, only channels the user is in are detached, and no timer of a connection is handled after a change
of the settings of the network. -/
def Orderly (cm : CaseMapping) (isChan : Str → Bool) (conn known : Bool) (past : List ChanRequest) :
    List ScOp → Prop
  | [] => True
  | op :: ops =>
    isLate op = false ∧
    (namesChannels op = true → known = true) ∧
    (∀ c, op = .casemapping c → c = cm) ∧
    (∀ names reason id, op = .part names reason id → SameName .ascii reason b!"detach" →
      ∀ n ∈ splitSep 44 names, askedKey (sysOf cm) n past ≠ none) ∧
    Orderly cm isChan (connAfter conn op) (knownAfter known op) (requestsOf isChan conn op ++ past) ops

private theorem split_same (sep : Byte) (s : Str) : splitByte sep s = splitSep sep s := by
  induction s with
  | nil => rfl
  | cons c s ih =>
    simp only [splitByte, splitSep, ih]
    cases splitSep sep s <;> rfl

private theorem pairs_pad (ns ks : List Str) : scPairs ns ks = padZip ns ks := by
  induction ns generalizing ks with
  | nil => rfl
  | cons n ns ih =>
    cases ks with
    | nil => simp [scPairs, padZip, ih]
    | cons k ks => simp [scPairs, padZip, ih]

private theorem detach_iff (reason : Str) : isDetachReason reason = true ↔ SameName .ascii reason b!"detach" := by
  unfold isDetachReason
  rw [beq_iff_eq]
  have e : casemap .ascii b!"detach" = b!"detach" := by decide
  have := casemap_eq_iff .ascii reason b!"detach"
  rw [e] at this
  exact this

private theorem nameOK_iff (name : Str) :
    (decide (name = []) || hasIllegalChanChar name) = false ↔ ChanNameOK name := by
  unfold hasIllegalChanChar ChanNameOK
  rw [Bool.or_eq_false_iff, decide_eq_false_iff_not, List.any_eq_false]
  refine and_congr_right (fun _ => ?_)
  constructor
  · intro h
    refine ⟨fun h32 => ?_, fun h44 => ?_, fun h7 => ?_⟩
    · exact h 32 h32 (by decide)
    · exact h 44 h44 (by decide)
    · exact h 7 h7 (by decide)
  · rintro ⟨h1, h2, h3⟩ x hx
    simp only [Bool.or_eq_true, beq_iff_eq, not_or]
    exact ⟨⟨fun e => h1 (e ▸ hx), fun e => h2 (e ▸ hx)⟩, fun e => h3 (e ▸ hx)⟩

/-- The names, as the server compares them, with their keys. -/
private def nm (cm : CaseMapping) (m : GoMap Str ChanRec) : GoMap Str Str :=
  m.map (fun p => (casemap cm p.2.name, p.2.key))

private structure ScRel (cm : CaseMapping) (net : Nat) (st : ScState) (evs : List ChanRequest) : Prop where
  inv : ScInv cm net st
  keys : ∀ q, GoMap.get (nm cm st.mem) (casemap cm q) = askedKey (sysOf cm) q evs
  wf : JoinWF (scRejoin st)

private theorem get_map_val {V W : Type} (m : GoMap Str V) (f : V → W) (k : Str) :
    GoMap.get (m.map (fun p => (p.1, f p.2))) k = (GoMap.get m k).map f := by
  induction m with
  | nil => rfl
  | cons p m ih =>
    simp only [List.map_cons, GoMap.get]
    split
    · rfl
    · exact ih

private theorem nm_known {cm net st} (h : ScInv cm net st) (hk : st.cm = cm) (k : Str) :
    GoMap.get (nm cm st.mem) k = (GoMap.get st.mem k).map (·.key) := by
  have e : nm cm st.mem = st.mem.map (fun p => (p.1, p.2.key)) := by
    apply List.map_congr_left
    intro p hp
    rw [h.keys p hp, hk]
  rw [e, get_map_val]

private theorem wf_set {m : GoMap Str ChanRec} {k : Str} {c : ChanRec}
    (h : ∀ p ∈ m, p.2.name ≠ [] ∧ 44 ∉ p.2.name ∧ 44 ∉ p.2.key)
    (hc : c.name ≠ [] ∧ 44 ∉ c.name ∧ 44 ∉ c.key) :
    ∀ p ∈ GoMap.set m k c, p.2.name ≠ [] ∧ 44 ∉ p.2.name ∧ 44 ∉ p.2.key := by
  intro p hp
  rcases mem_mset hp with rfl | hp
  · exact hc
  · exact h p hp

private theorem wf_iff (st : ScState) :
    JoinWF (scRejoin st) ↔ ∀ p ∈ st.mem, p.2.name ≠ [] ∧ 44 ∉ p.2.name ∧ 44 ∉ p.2.key := by
  unfold JoinWF scRejoin
  constructor
  · intro h p hp
    exact h _ (List.mem_map.2 ⟨p, hp, rfl⟩)
  · intro h q hq
    obtain ⟨p, hp, rfl⟩ := List.mem_map.1 hq
    exact h p hp

/-- Saving again a record of the memory, under a known mapping. -/
private theorem put_known {cm net st evs} (h : ScRel cm net st evs) (hk : st.cm = cm) {name : Str}
    {old c : ChanRec} (hg : GoMap.get st.mem (casemap st.cm name) = some old) (hid : c.id = old.id)
    (hn : c.name = old.name) (hkey : 44 ∉ c.key) :
    ScInv cm net (scPut net st (casemap st.cm name) c) ∧ (scPut net st (casemap st.cm name) c).cm = st.cm ∧
    (scPut net st (casemap st.cm name) c).conn = st.conn ∧
    JoinWF (scRejoin (scPut net st (casemap st.cm name) c)) ∧
    ∀ q, GoMap.get (nm cm (scPut net st (casemap st.cm name) c).mem) (casemap cm q) =
      if SameName (sysOf cm) name q then some c.key else askedKey (sysOf cm) q evs := by
  obtain ⟨h1, h2, h3, h4⟩ := scPut_old h.inv hg hid hn
  have hwf := (wf_iff st).1 h.wf
  refine ⟨h1, h3, h4, ?_, ?_⟩
  · rw [wf_iff, h2]
    refine wf_set hwf ?_
    have := hwf _ (mget_some_mem hg)
    rw [hn]
    exact ⟨this.1, this.2.1, hkey⟩
  · intro q
    rw [nm_known h1 (h3.trans hk), h2, mget_mset, hk]
    by_cases hs : casemap cm name = casemap cm q
    · rw [if_pos hs, if_pos ((casemap_eq_iff cm name q).1 hs)]
      rfl
    · rw [if_neg hs, if_neg (fun e => hs ((casemap_eq_iff cm name q).2 e)), ← h.keys q, nm_known h.inv hk]

/-- Saving a new record, under a known mapping. -/
private theorem put_fresh0 {cm net st evs} (h : ScRel cm net st evs) (hk : st.cm = cm) {c : ChanRec}
    (hg : GoMap.get st.mem (casemap st.cm c.name) = none) (h0 : c.id = 0)
    (hw : c.name ≠ [] ∧ 44 ∉ c.name ∧ 44 ∉ c.key) :
    ScInv cm net (scPut net st (casemap st.cm c.name) c) ∧ (scPut net st (casemap st.cm c.name) c).cm = st.cm ∧
    (scPut net st (casemap st.cm c.name) c).conn = st.conn ∧
    JoinWF (scRejoin (scPut net st (casemap st.cm c.name) c)) ∧
    ∀ q, GoMap.get (nm cm (scPut net st (casemap st.cm c.name) c).mem) (casemap cm q) =
      if SameName (sysOf cm) c.name q then some c.key else askedKey (sysOf cm) q evs := by
  obtain ⟨h1, ⟨id, h2⟩, h3, h4⟩ := scPut_new h.inv hk hg h0
  refine ⟨h1, h3, h4, ?_, ?_⟩
  · rw [wf_iff, h2]
    exact wf_set ((wf_iff st).1 h.wf) hw
  · intro q
    rw [nm_known h1 (h3.trans hk), h2, mget_mset, hk]
    by_cases hs : casemap cm c.name = casemap cm q
    · rw [if_pos hs, if_pos ((casemap_eq_iff cm c.name q).1 hs)]
      rfl
    · rw [if_neg hs, if_neg (fun e => hs ((casemap_eq_iff cm c.name q).2 e)), ← h.keys q, nm_known h.inv hk]

private theorem put_fresh {cm net st evs} (h : ScRel cm net st evs) (hk : st.cm = cm) {c : ChanRec} {name key : Str}
    (hname : c.name = name) (hkey : c.key = key)
    (hg : GoMap.get st.mem (casemap st.cm name) = none) (h0 : c.id = 0)
    (hw : name ≠ [] ∧ 44 ∉ name ∧ 44 ∉ key) :
    ScInv cm net (scPut net st (casemap st.cm name) c) ∧ (scPut net st (casemap st.cm name) c).cm = st.cm ∧
    (scPut net st (casemap st.cm name) c).conn = st.conn ∧
    JoinWF (scRejoin (scPut net st (casemap st.cm name) c)) ∧
    ∀ q, GoMap.get (nm cm (scPut net st (casemap st.cm name) c).mem) (casemap cm q) =
      if SameName (sysOf cm) name q then some key else askedKey (sysOf cm) q evs := by
  subst hname hkey
  exact put_fresh0 h hk hg h0 hw

private theorem attach_fields (c : ChanRec) : (scAttachRec c).id = c.id ∧ (scAttachRec c).name = c.name ∧
    (scAttachRec c).key = c.key := by
  unfold scAttachRec; split <;> exact ⟨rfl, rfl, rfl⟩

private theorem detach_fields (l : Str) (c : ChanRec) : (scDetachRec l c).id = c.id ∧
    (scDetachRec l c).name = c.name ∧ (scDetachRec l c).key = c.key := by
  unfold scDetachRec; split <;> exact ⟨rfl, rfl, rfl⟩

/-- What a known entry says about the requests. -/
private theorem known_key {cm net st evs} (h : ScRel cm net st evs) (hk : st.cm = cm) (name q : Str)
    (hs : SameName (sysOf cm) name q) :
    (GoMap.get st.mem (casemap st.cm name)).map (·.key) = askedKey (sysOf cm) q evs := by
  rw [← h.keys q, ← (casemap_eq_iff cm name q).2 hs, nm_known h.inv hk, hk]

private theorem join1_step {cm net st evs isChan} (h : ScRel cm net st evs) (hk : st.cm = cm) (p : Str × Str)
    (hp : 44 ∉ p.2) :
    ScRel cm net (scJoin1 isChan net st p)
      ((([p].filter (fun p => ChanNameOK p.1 ∧ isChan p.1)).map (fun p => ChanRequest.join p.1 p.2)).reverse ++ evs) ∧
    (scJoin1 isChan net st p).cm = st.cm ∧ (scJoin1 isChan net st p).conn = st.conn := by
  obtain ⟨name, key⟩ := p
  unfold scJoin1
  dsimp only
  by_cases h1 : (decide (name = []) || hasIllegalChanChar name) = true
  · rw [if_pos h1]
    have : ¬ ChanNameOK name := fun e => by
      have := (nameOK_iff name).2 e
      rw [h1] at this; cases this
    rw [List.filter_cons, if_neg (by simp [this])]
    exact ⟨h, rfl, rfl⟩
  · rw [if_neg h1]
    have hok : ChanNameOK name := (nameOK_iff name).1 (Bool.eq_false_iff.2 h1)
    by_cases h2 : isChan name = true
    · rw [h2]
      simp only [Bool.not_true, Bool.false_eq_true, if_false]
      rw [List.filter_cons, if_pos (by simp [hok, h2])]
      simp only [List.filter_nil, List.map_cons, List.map_nil, List.reverse_cons, List.reverse_nil, List.nil_append,
        List.cons_append]
      cases hg : GoMap.get st.mem (casemap st.cm name) with
      | some ch =>
        dsimp only
        obtain ⟨a1, a2, a3⟩ := attach_fields { ch with key := if key ≠ [] then key else ch.key }
        have hchk : 44 ∉ ch.key := ((wf_iff st).1 h.wf _ (mget_some_mem hg)).2.2
        have hkk : 44 ∉ (scAttachRec { ch with key := if key ≠ [] then key else ch.key }).key := by
          rw [a3]
          show 44 ∉ (if key ≠ [] then key else ch.key)
          split
          · exact hp
          · exact hchk
        obtain ⟨b1, b2, b3, b4, b5⟩ := put_known h hk hg (c := scAttachRec { ch with
          key := if key ≠ [] then key else ch.key }) a1 a2 hkk
        refine ⟨⟨b1, ?_, b4⟩, b2, b3⟩
        intro q
        rw [b5 q]
        simp only [askedKey]
        by_cases hs : SameName (sysOf cm) name q
        · rw [if_pos hs, if_pos hs, a3]
          have := known_key h hk name q hs
          rw [hg] at this
          rw [← this]
          by_cases hke : key = []
          · simp [hke]
          · simp [hke]
        · rw [if_neg hs, if_neg hs]
      | none =>
        dsimp only
        obtain ⟨b1, b2, b3, b4, b5⟩ := put_fresh h hk (c := newChanRec name key) (name := name) (key := key) rfl rfl hg rfl
          ⟨hok.1, hok.2.2.1, hp⟩
        refine ⟨⟨b1, ?_, b4⟩, b2, b3⟩
        intro q
        rw [b5 q]
        simp only [askedKey]
        by_cases hs : SameName (sysOf cm) name q
        · rw [if_pos hs, if_pos hs]
          have := known_key h hk name q hs
          rw [hg] at this
          rw [← this]
          by_cases hke : key = []
          · simp [hke]
          · simp [hke]
        · rw [if_neg hs, if_neg hs]
    · have h2 : isChan name = false := Bool.eq_false_iff.2 h2
      rw [h2]
      simp only [Bool.not_false, if_true]
      rw [List.filter_cons, if_neg (by simp [h2])]
      exact ⟨h, trivial, trivial⟩

private theorem join_fold {cm net isChan} (ps : List (Str × Str)) :
    ∀ {st evs}, ScRel cm net st evs → st.cm = cm → (∀ p ∈ ps, 44 ∉ p.2) →
    ScRel cm net (ps.foldl (scJoin1 isChan net) st)
      (((ps.filter (fun p => ChanNameOK p.1 ∧ isChan p.1)).map (fun p => ChanRequest.join p.1 p.2)).reverse ++ evs) ∧
    (ps.foldl (scJoin1 isChan net) st).cm = st.cm ∧ (ps.foldl (scJoin1 isChan net) st).conn = st.conn := by
  induction ps with
  | nil => intro st evs h _ _; exact ⟨h, rfl, rfl⟩
  | cons p ps ih =>
    intro st evs h hk hp
    obtain ⟨a1, a2, a3⟩ := join1_step (isChan := isChan) h hk p (hp p (List.mem_cons_self ..))
    obtain ⟨b1, b2, b3⟩ := ih a1 (a2.trans hk) (fun x hx => hp x (List.mem_cons_of_mem _ hx))
    rw [List.foldl_cons]
    refine ⟨?_, b2.trans a2, b3.trans a3⟩
    rw [← List.append_assoc, ← List.reverse_append, ← List.map_append, ← List.filter_append] at b1
    exact b1

private theorem delete_step {cm net st evs} (h : ScRel cm net st evs) (hk : st.cm = cm) (name : Str) :
    ScRel cm net (scDelete st name) (.leave name :: evs) ∧ (scDelete st name).cm = st.cm ∧
    (scDelete st name).conn = st.conn := by
  obtain ⟨h1, h2, h3, h4⟩ := scDelete_inv h.inv name
  refine ⟨⟨h1, ?_, ?_⟩, h3, h4⟩
  · intro q
    rw [nm_known h1 (h3.trans hk), h2, mget_mdel, hk]
    simp only [askedKey]
    by_cases hs : casemap cm name = casemap cm q
    · rw [if_pos hs, if_pos ((casemap_eq_iff cm name q).1 hs)]; rfl
    · rw [if_neg hs, if_neg (fun e => hs ((casemap_eq_iff cm name q).2 e)), ← h.keys q, nm_known h.inv hk]
  · rw [wf_iff, h2]
    intro p hp
    exact (wf_iff st).1 h.wf p (List.mem_filter.1 hp).1

private theorem delete_fold {cm net} (ns : List Str) : ∀ {st evs}, ScRel cm net st evs → st.cm = cm →
    ScRel cm net (ns.foldl scDelete st) ((ns.map ChanRequest.leave).reverse ++ evs) ∧
    (ns.foldl scDelete st).cm = st.cm ∧ (ns.foldl scDelete st).conn = st.conn := by
  induction ns with
  | nil => intro st evs h _; exact ⟨h, rfl, rfl⟩
  | cons n ns ih =>
    intro st evs h hk
    obtain ⟨a1, a2, a3⟩ := delete_step h hk n
    obtain ⟨b1, b2, b3⟩ := ih a1 (a2.trans hk)
    refine ⟨?_, b2.trans a2, b3.trans a3⟩
    rw [List.foldl_cons, List.map_cons, List.reverse_cons, List.append_assoc]
    exact b1

/-- Saving again a record of the memory with its name and key, under any mapping. -/
private theorem put_same {cm net st evs} (h : ScRel cm net st evs) {k : Str} {old c : ChanRec}
    (hg : GoMap.get st.mem k = some old) (hid : c.id = old.id) (hn : c.name = old.name) (hkey : c.key = old.key) :
    ScRel cm net (scPut net st k c) evs ∧ (scPut net st k c).cm = st.cm ∧ (scPut net st k c).conn = st.conn := by
  obtain ⟨h1, h2, h3, h4⟩ := scPut_old h.inv hg hid hn
  have emap : ∀ {β : Type} (f : Str → Str → β), (scPut net st k c).mem.map (fun p => f p.2.name p.2.key) =
      st.mem.map (fun p => f p.2.name p.2.key) := by
    intro β f
    rw [h2, mset_map_snd h.inv.keysNodup hg c (fun v => f v.name v.key)]
    apply List.map_congr_left
    intro p hp
    split
    · rename_i he
      have : p = (k, old) := eq_of_nodup_map h.inv.keysNodup hp (mget_some_mem hg) he
      rw [this, hn, hkey]
    · rfl
  refine ⟨⟨h1, ?_, ?_⟩, h3, h4⟩
  · intro q
    have : nm cm (scPut net st k c).mem = nm cm st.mem := emap (fun n k => (casemap cm n, k))
    rw [this]
    exact h.keys q
  · have : scRejoin (scPut net st k c) = scRejoin st := emap (fun n k => (n, k))
    rw [this]
    exact h.wf

private theorem detach_fold {cm net lastID evs} (ns : List Str) : ∀ {st}, ScRel cm net st evs → st.cm = cm →
    (∀ n ∈ ns, askedKey (sysOf cm) n evs ≠ none) →
    ScRel cm net (ns.foldl (scDetach1 net lastID) st) evs ∧
    (ns.foldl (scDetach1 net lastID) st).cm = st.cm ∧ (ns.foldl (scDetach1 net lastID) st).conn = st.conn := by
  induction ns with
  | nil => intro st h _ _; exact ⟨h, rfl, rfl⟩
  | cons n ns ih =>
    intro st h hk hn
    have h1 : ScRel cm net (scDetach1 net lastID st n) evs ∧ (scDetach1 net lastID st n).cm = st.cm ∧
        (scDetach1 net lastID st n).conn = st.conn := by
      unfold scDetach1
      have hne := hn n (List.mem_cons_self ..)
      rw [← h.keys n, nm_known h.inv hk] at hne
      rw [hk]
      cases hg : GoMap.get st.mem (casemap cm n) with
      | none => rw [hg] at hne; exact absurd rfl hne
      | some ch =>
        obtain ⟨a1, a2, a3⟩ := detach_fields lastID ch
        have := put_same h hg a1 a2 a3
        rw [hk] at this
        exact this
    obtain ⟨b1, b2, b3⟩ := ih h1.1 (h1.2.1.trans hk) (fun x hx => hn x (List.mem_cons_of_mem _ hx))
    exact ⟨b1, b2.trans h1.2.1, b3.trans h1.2.2⟩

private theorem splitSep_clean (s : Str) : ∀ x ∈ splitSep 44 s, 44 ∉ x := by
  induction s with
  | nil => intro x hx; simp only [splitSep, List.mem_singleton] at hx; subst hx; simp
  | cons c s ih =>
    intro x hx
    simp only [splitSep] at hx
    split at hx
    · rcases List.mem_cons.1 hx with rfl | hx
      · simp
      · exact ih x hx
    · rename_i hc
      cases hs : splitSep 44 s with
      | nil => exact absurd hs (splitSep_ne_nil _ _)
      | cons y ys =>
        rw [hs] at hx ih
        simp only at hx
        rcases List.mem_cons.1 hx with rfl | hx
        · intro hm
          rcases List.mem_cons.1 hm with e | e
          · exact hc e.symm
          · exact ih y (List.mem_cons_self ..) e
        · exact ih x (List.mem_cons_of_mem _ hx)

private theorem padZip_keys (ns ks : List Str) (h : ∀ k ∈ ks, 44 ∉ k) : ∀ p ∈ padZip ns ks, 44 ∉ p.2 := by
  induction ns generalizing ks with
  | nil => intro p hp; simp [padZip] at hp
  | cons n ns ih =>
    intro p hp
    cases ks with
    | nil =>
      simp only [padZip, List.mem_cons] at hp
      rcases hp with rfl | hp
      · simp
      · exact ih [] (by simp) p hp
    | cons k ks =>
      simp only [padZip, List.mem_cons] at hp
      rcases hp with rfl | hp
      · exact h k (List.mem_cons_self ..)
      · exact ih ks (fun x hx => h x (List.mem_cons_of_mem _ hx)) p hp

private theorem rel_of_maps {cm net st st' evs} (h : ScRel cm net st evs) (hi : ScInv cm net st')
    (he : st'.mem.map (fun p => scView p.2) = st.mem.map (fun p => scView p.2)) : ScRel cm net st' evs := by
  have emap : ∀ {β : Type} (f : Str → Str → β), st'.mem.map (fun p => f p.2.name p.2.key) =
      st.mem.map (fun p => f p.2.name p.2.key) := by
    intro β f
    have := congrArg (List.map (fun v => f v.2.1 v.2.2.1)) he
    rw [List.map_map, List.map_map] at this
    exact this
  refine ⟨hi, ?_, ?_⟩
  · intro q
    have : nm cm st'.mem = nm cm st.mem := emap (fun n k => (casemap cm n, k))
    rw [this]
    exact h.keys q
  · have : scRejoin st' = scRejoin st := emap (fun n k => (n, k))
    rw [this]
    exact h.wf

/-- The bouncer's state while a history goes on. -/
private structure ScNow (cm : CaseMapping) (net : Nat) (st : ScState) (evs : List ChanRequest) (conn known : Bool) :
    Prop where
  rel : ScRel cm net st evs
  conn : st.conn = conn
  known : known = true → st.cm = cm

private theorem now_step {cm net st evs conn known isChan} (op : ScOp) (h : ScNow cm net st evs conn known)
    (ho0 : isLate op = false) (ho1 : namesChannels op = true → known = true) (ho2 : ∀ c, op = .casemapping c → c = cm)
    (ho3 : ∀ names reason id, op = .part names reason id → SameName .ascii reason b!"detach" →
      ∀ n ∈ splitSep 44 names, askedKey (sysOf cm) n evs ≠ none) :
    ScNow cm net (scStep isChan net st op) (requestsOf isChan conn op ++ evs) (connAfter conn op)
      (knownAfter known op) := by
  cases op with
  | join names keys =>
    have hk := h.known (ho1 rfl)
    simp only [scStep, scJoin, requestsOf, connAfter, knownAfter]
    rw [h.conn]
    cases conn with
    | false => exact h
    | true =>
      simp only [if_true]
      have e : scPairs (splitByte 44 names) (scKeyList keys) =
          joinTargets (names :: keys.toList) := by
        rw [pairs_pad, split_same]
        cases keys with
        | none => rfl
        | some s => simp only [scKeyList, split_same]; rfl
      rw [e]
      have hp : ∀ p ∈ joinTargets (names :: keys.toList), 44 ∉ p.2 := by
        cases keys with
        | none => exact padZip_keys _ _ (by simp)
        | some s => exact padZip_keys _ _ (splitSep_clean s)
      obtain ⟨b1, b2, b3⟩ := join_fold (isChan := isChan) _ h.rel hk hp
      exact ⟨b1, b3.trans h.conn, fun _ => b2.trans hk⟩
  | part names reason lastID =>
    have hk := h.known (ho1 rfl)
    simp only [scStep, scPart, requestsOf, connAfter, knownAfter]
    rw [h.conn]
    cases conn with
    | false => simp only [Bool.false_eq_true, if_false, false_and]; exact h
    | true =>
      simp only [if_true, true_and]
      by_cases hd : SameName .ascii reason b!"detach"
      · rw [if_pos ((detach_iff reason).2 hd), if_neg (fun e => e hd), split_same]
        obtain ⟨b1, b2, b3⟩ := detach_fold (lastID := lastID) _ h.rel hk (ho3 _ _ _ rfl hd)
        exact ⟨b1, b3.trans h.conn, fun _ => b2.trans hk⟩
      · rw [if_neg (fun e => hd ((detach_iff reason).1 e)), if_pos hd, split_same]
        obtain ⟨b1, b2, b3⟩ := delete_fold (splitSep 44 names) h.rel hk
        exact ⟨b1, b3.trans h.conn, fun _ => b2.trans hk⟩
  | create name conf =>
    have hk := h.known (ho1 rfl)
    simp only [scStep, scCreate, requestsOf, connAfter, knownAfter]
    by_cases h1 : (decide (name = []) || hasIllegalChanChar name) = true
    · rw [if_pos h1]
      have : ¬ ChanNameOK name := fun e => by
        have := (nameOK_iff name).2 e
        rw [h1] at this; cases this
      rw [if_neg (fun e => this e.1)]
      exact h
    · rw [if_neg h1]
      have hok : ChanNameOK name := (nameOK_iff name).1 (Bool.eq_false_iff.2 h1)
      by_cases h2 : (st.conn && !isChan name) = true
      · rw [if_pos h2]
        rw [h.conn] at h2
        rw [if_neg]
        · exact h
        · intro e
          simp only [Bool.and_eq_true, Bool.not_eq_true'] at h2
          have := e.2 h2.1
          rw [h2.2] at this
          cases this
      · rw [if_neg h2]
        rw [h.conn] at h2
        have hcond : ChanNameOK name ∧ (conn = true → isChan name = true) := by
          refine ⟨hok, fun hc => ?_⟩
          simp only [Bool.and_eq_true, Bool.not_eq_true', not_and, Bool.not_eq_false] at h2
          exact h2 hc
        rw [if_pos hcond]
        cases hg : GoMap.get st.mem (casemap st.cm name) with
        | some ch =>
          refine ⟨⟨h.rel.inv, ?_, h.rel.wf⟩, h.conn, h.known⟩
          intro q
          simp only [List.cons_append, List.nil_append, askedKey, if_true]
          rw [h.rel.keys q]
          by_cases hs : SameName (sysOf cm) name q
          · rw [if_pos hs]
            have := known_key h.rel hk name q hs
            rw [hg] at this
            rw [← this]
            rfl
          · rw [if_neg hs]
        | none =>
          dsimp only
          obtain ⟨b1, b2, b3, b4, b5⟩ := put_fresh h.rel hk (c := scConfigure conf (newChanRec name [])) (name := name) (key := [])
            rfl rfl hg rfl ⟨hok.1, hok.2.2.1, by simp⟩
          refine ⟨⟨b1, ?_, b4⟩, b3.trans h.conn, fun _ => b2.trans hk⟩
          intro q
          rw [b5 q]
          simp only [List.cons_append, List.nil_append, askedKey, if_true]
          by_cases hs : SameName (sysOf cm) name q
          · rw [if_pos hs, if_pos hs]
            have := known_key h.rel hk name q hs
            rw [hg] at this
            rw [← this]
            rfl
          · rw [if_neg hs, if_neg hs]
  | delete name =>
    have hk := h.known (ho1 rfl)
    obtain ⟨b1, b2, b3⟩ := delete_step h.rel hk name
    exact ⟨b1, b3.trans h.conn, fun _ => b2.trans hk⟩
  | update name conf detached lastID =>
    simp only [scStep, scUpdate, requestsOf, connAfter, knownAfter, List.nil_append]
    cases hg : GoMap.get st.mem (casemap st.cm name) with
    | none => exact h
    | some ch =>
      dsimp only
      have hf : ∀ ch2 : ChanRec, ch2.id = ch.id → ch2.name = ch.name → ch2.key = ch.key →
          ScNow cm net (scPut net st (casemap st.cm name) ch2) evs conn known := by
        intro ch2 e1 e2 e3
        obtain ⟨b1, b2, b3⟩ := put_same h.rel hg e1 e2 e3
        exact ⟨b1, b3.trans h.conn, fun e => b2.trans (h.known e)⟩
      cases detached with
      | none => exact hf _ rfl rfl rfl
      | some b =>
        cases b with
        | true =>
          obtain ⟨a1, a2, a3⟩ := detach_fields lastID (scConfigure conf ch)
          exact hf _ a1 a2 a3
        | false =>
          obtain ⟨a1, a2, a3⟩ := attach_fields (scConfigure conf ch)
          exact hf _ a1 a2 a3
  | autoDetach name lastID =>
    simp only [scStep, scAutoDetach, requestsOf, connAfter, knownAfter, List.nil_append]
    cases hg : GoMap.get st.mem (casemap st.cm name) with
    | none => exact h
    | some ch =>
      dsimp only
      split
      · exact h
      · obtain ⟨a1, a2, a3⟩ := detach_fields lastID ch
        obtain ⟨b1, b2, b3⟩ := put_same h.rel hg a1 a2 a3
        exact ⟨b1, b3.trans h.conn, fun e => b2.trans (h.known e)⟩
  | reattach name =>
    simp only [scStep, scReattach, requestsOf, connAfter, knownAfter, List.nil_append]
    cases hg : GoMap.get st.mem (casemap st.cm name) with
    | none => exact h
    | some ch =>
      dsimp only
      split
      · obtain ⟨a1, a2, a3⟩ := attach_fields ch
        obtain ⟨b1, b2, b3⟩ := put_same h.rel hg a1 a2 a3
        exact ⟨b1, b3.trans h.conn, fun e => b2.trans (h.known e)⟩
      · exact h
  | lateDetach i name lastID => exact absurd ho0 (by simp [isLate])
  | serverJoin name => exact h
  | serverPart name => exact h
  | serverKick name => exact h
  | connected =>
    exact ⟨⟨⟨h.rel.inv.keys, h.rel.inv.mapping, h.rel.inv.dist, h.rel.inv.same, h.rel.inv.ids, h.rel.inv.nz,
      h.rel.inv.uniq⟩, h.rel.keys, h.rel.wf⟩, rfl, h.known⟩
  | disconnected =>
    exact ⟨⟨⟨h.rel.inv.keys, h.rel.inv.mapping, h.rel.inv.dist, h.rel.inv.same, h.rel.inv.ids, h.rel.inv.nz,
      h.rel.inv.uniq⟩, h.rel.keys, h.rel.wf⟩, rfl, h.known⟩
  | casemapping c =>
    have hc := ho2 c rfl
    subst hc
    obtain ⟨a1, a2⟩ := scFill_inv h.rel.inv c (.inr rfl) st.conn
    refine ⟨rel_of_maps h.rel a1 ?_, h.conn, fun _ => rfl⟩
    have := congrArg (List.map scView) a2
    rw [List.map_map, List.map_map] at this
    exact this
  | networkUpdated =>
    obtain ⟨a1, a2⟩ := scFill_inv h.rel.inv .ascii (.inl rfl) false
    refine ⟨rel_of_maps h.rel ⟨a1.keys, a1.mapping, a1.dist, a1.same, a1.ids, a1.nz, a1.uniq⟩ ?_, rfl,
      fun e => nomatch e⟩
    have := congrArg (List.map scView) a2
    rw [List.map_map, List.map_map] at this
    exact this
  | restarted =>
    obtain ⟨a1, a2⟩ := scLoad_inv h.rel.inv
    exact ⟨rel_of_maps h.rel a1 a2, rfl, fun e => nomatch e⟩

private theorem now_run {cm net isChan} (ops : List ScOp) : ∀ {st evs conn known},
    ScNow cm net st evs conn known → Orderly cm isChan conn known evs ops →
    ScRel cm net (scRun isChan net st ops) (requests isChan conn ops ++ evs) := by
  induction ops with
  | nil => intro st evs conn known h _; exact h.rel
  | cons op ops ih =>
    intro st evs conn known h ho
    obtain ⟨h0, h1, h2, h3, h4⟩ := ho
    have := ih (now_step (isChan := isChan) op h h0 h1 h2 h3) h4
    rw [← List.append_assoc] at this
    exact this

/-- The table of the channels before the network has any. -/
def FreshTable (net : Nat) (rows : List ChannelRow) : Prop :=
  (∀ r ∈ rows, r.network ≠ net) ∧ (rows.map (·.id)).Nodup ∧ (∀ r ∈ rows, r.id ≠ 0) ∧ channelUnique rows = true

private theorem now_start (cm : CaseMapping) (net : Nat) (rows : List ChannelRow) (hr : FreshTable net rows) :
    ScNow cm net (scLoad net rows) [] false false := by
  have hl : dbListChannels rows net = [] := by
    unfold dbListChannels
    rw [List.map_eq_nil_iff, List.filter_eq_nil_iff]
    intro r hrr
    simp only [decide_eq_true_eq]
    exact hr.1 r hrr
  have h0 : scLoad net rows = ⟨.ascii, [], rows, false, []⟩ := by
    unfold scLoad
    rw [hl]
    rfl
  rw [h0]
  refine ⟨⟨⟨?_, .inl rfl, List.nodup_nil, ?_, hr.2.1, hr.2.2.1, hr.2.2.2⟩, fun q => rfl, ?_⟩, rfl,
    fun e => nomatch e⟩
  · intro p hp; exact absurd hp List.not_mem_nil
  · show (dbListChannels rows net).map scView = []
    rw [hl]; rfl
  · intro p hp; exact absurd hp List.not_mem_nil

private theorem saved_rel (cm : CaseMapping) (isChan : Str → Bool) (net : Nat) (rows : List ChannelRow)
    (hr : FreshTable net rows) (ops : List ScOp) (ho : Orderly cm isChan false false [] ops) :
    ScRel cm net (scRun isChan net (scLoad net rows) ops) (requests isChan false ops) := by
  have hn := now_start cm net rows hr
  have := now_run (isChan := isChan) ops hn ho
  rw [List.append_nil] at this
  exact this

/-- C58, partial: for every orderly history of a network — joins, parts, kicks, detaching, attaching, commands to
the service, reconnections, changes of the settings and restarts — the bouncer asks for a channel when it
reconnects exactly when the user asked for it and did not leave it since, with the last key they gave; and it
asks for it once.  Missing: histories in which channels are named before the bouncer knows the case mapping of
the server, see `C58_mapping_violated`, detaching a channel the user is not in, see `C58_detach_violated`, and timers
that are handled after a change of the settings, see `C58_late_violated`. -/
theorem C58_saved_partial (cm : CaseMapping) (isChan : Str → Bool) (net : Nat) (rows : List ChannelRow)
    (hr : FreshTable net rows) (ops : List ScOp) (ho : Orderly cm isChan false false [] ops) :
    let st := scRun isChan net (scLoad net rows) ops
    (∀ q key, (∃ n, SameName (sysOf cm) n q ∧ (n, key) ∈ scRejoin st) ↔
      askedKey (sysOf cm) q (requests isChan false ops) = some key) ∧
    (scRejoin st).Pairwise (fun a b => ¬ SameName (sysOf cm) a.1 b.1) := by
  intro st
  have h := saved_rel cm isChan net rows hr ops ho
  have hd : ((nm cm st.mem).map (·.1)).Nodup := by
    unfold nm
    rw [List.map_map]
    exact h.inv.dist
  constructor
  · intro q key
    rw [← h.keys q]
    constructor
    · rintro ⟨n, hs, hm⟩
      obtain ⟨p, hp, he⟩ := List.mem_map.1 hm
      simp only [Prod.mk.injEq] at he
      apply mget_of_mem hd
      refine List.mem_map.2 ⟨p, hp, ?_⟩
      rw [he.1, he.2, (casemap_eq_iff cm n q).2 hs]
    · intro hg
      obtain ⟨p, hp, he⟩ := List.mem_map.1 (mget_some_mem hg)
      simp only [Prod.mk.injEq] at he
      exact ⟨p.2.name, (casemap_eq_iff cm _ q).1 he.1, List.mem_map.2 ⟨p, hp, by rw [he.2]⟩⟩
  · have := h.inv.dist
    unfold List.Nodup at this
    rw [List.pairwise_map] at this
    unfold scRejoin
    rw [List.pairwise_map]
    refine this.imp ?_
    intro a b hne hs
    exact hne ((casemap_eq_iff cm _ _).2 hs)

/-- C58, partial (the lines): read as a server reads them, the JOIN lines sent on reconnection ask for exactly
those channels with exactly those keys. -/
theorem C58_rejoin_partial (cm : CaseMapping) (isChan : Str → Bool) (net : Nat) (rows : List ChannelRow)
    (hr : FreshTable net rows) (ops : List ScOp) (ho : Orderly cm isChan false false [] ops)
    (sorted : List (Str × Str)) (hs : IsJoinOrder sorted (scRejoin (scRun isChan net (scLoad net rows) ops)))
    (q key : Str) :
    (∃ n, SameName (sysOf cm) n q ∧ (n, key) ∈ (generateJoin sorted).flatMap (fun m => joinTargets m.params)) ↔
      askedKey (sysOf cm) q (requests isChan false ops) = some key := by
  have h := saved_rel cm isChan net rows hr ops ho
  have hp := C07_join_covers _ sorted hs h.wf
  have := (C58_saved_partial cm isChan net rows hr ops ho).1 q key
  rw [← this]
  constructor
  · rintro ⟨n, h1, h2⟩; exact ⟨n, h1, hp.mem_iff.1 h2⟩
  · rintro ⟨n, h1, h2⟩; exact ⟨n, h1, hp.mem_iff.2 h2⟩

/-- The events that attach or detach the one channel `name`: a JOIN, a PART with the reason "detach", the flag of
`channel update`, a timer, a message. -/
inductive SetsDetached (isChan : Str → Bool) (conn : Bool) (name : Str) : ScOp → Bool → Prop
  | join (keys) (hc : conn = true) (ok : ChanNameOK name) (hn : isChan name = true) :
      SetsDetached isChan conn name (.join name keys) false
  | part (reason id) (hc : conn = true) (hr : SameName .ascii reason b!"detach") (hn : 44 ∉ name) :
      SetsDetached isChan conn name (.part name reason id) true
  | update (conf b id) : SetsDetached isChan conn name (.update name conf (some b) id) b
  | timer (id) : SetsDetached isChan conn name (.autoDetach name id) true
  | message : SetsDetached isChan conn name (.reattach name) false

private structure FlagSet (cm : CaseMapping) (st st' : ScState) (name : Str) (b : Bool) : Prop where
  same : ∀ p ∈ st'.mem, casemap cm p.2.name = casemap cm name → p.2.detached = b
  other : ∀ p ∈ st'.mem, casemap cm p.2.name ≠ casemap cm name → p ∈ st.mem

private theorem flag_put {cm net st} (hk : st.cm = cm) {name : Str} {st' : ScState}
    (h' : ScInv cm net st') (hk' : st'.cm = cm) {c : ChanRec} (hm : st'.mem = GoMap.set st.mem (casemap st.cm name) c) :
    FlagSet cm st st' name c.detached := by
  have hg : GoMap.get st'.mem (casemap cm name) = some c := by rw [hm, mget_mset, if_pos (by rw [hk])]
  constructor
  · intro p hp he
    have := mget_of_mem h'.keysNodup hp
    rw [h'.keys p hp, hk', he, hg] at this
    rw [Option.some.inj this]
  · intro p hp he
    have hkey := h'.keys p hp
    rw [hm] at hp
    rcases mem_mset hp with rfl | hp
    · exact absurd (by rw [← hk', ← hkey, hk', hk]) he
    · exact hp

private theorem flag_same {cm net st} (h : ScInv cm net st) (hk : st.cm = cm) {name : Str} {b : Bool}
    (hg : ∀ c, GoMap.get st.mem (casemap st.cm name) = some c → c.detached = b) : FlagSet cm st st name b := by
  refine ⟨?_, fun p hp _ => hp⟩
  intro p hp he
  have := mget_of_mem h.keysNodup hp
  rw [h.keys p hp, hk, he, ← hk] at this
  exact hg _ this

private theorem split_one (sep : Byte) (s : Str) (h : sep ∉ s) : splitByte sep s = [s] := by
  induction s with
  | nil => rfl
  | cons c s ih =>
    have hc : ¬ (c = sep) := fun e => h (e ▸ List.mem_cons_self ..)
    simp [splitByte, ih (fun e => h (List.mem_cons_of_mem _ e)), hc]

private theorem attach_flag (c : ChanRec) : (scAttachRec c).detached = false := by
  unfold scAttachRec; split <;> simp_all

private theorem detach_flag (l : Str) (c : ChanRec) : (scDetachRec l c).detached = true := by
  unfold scDetachRec; split <;> simp_all

private theorem flag_step {cm net st isChan} (h : ScInv cm net st) (hk : st.cm = cm) {name : Str} {op : ScOp} {b : Bool}
    (hs : SetsDetached isChan st.conn name op b) : FlagSet cm st (scStep isChan net st op) name b := by
  have old : ∀ {ch c : ChanRec}, GoMap.get st.mem (casemap st.cm name) = some ch → c.id = ch.id → c.name = ch.name →
      FlagSet cm st (scPut net st (casemap st.cm name) c) name c.detached := by
    intro ch c hg hid hn
    obtain ⟨a1, a2, a3, _⟩ := scPut_old h hg hid hn
    exact flag_put hk a1 (a3.trans hk) a2
  have new : ∀ {c : ChanRec}, c.name = name → GoMap.get st.mem (casemap st.cm name) = none → c.id = 0 →
      FlagSet cm st (scPut net st (casemap st.cm name) c) name c.detached := by
    intro c hn hg h0
    subst hn
    obtain ⟨a1, ⟨id, a2⟩, a3, _⟩ := scPut_new h hk hg h0
    exact flag_put hk (c := { c with id := id }) a1 (a3.trans hk) a2
  cases hs with
  | join keys hc ok hn =>
    have h44 : 44 ∉ name := ok.2.2.1
    simp only [scStep, scJoin, hc, if_true, split_one 44 name h44, scPairs, List.foldl_cons, List.foldl_nil, scJoin1]
    rw [(nameOK_iff name).2 ok, hn]
    simp only [Bool.false_eq_true, if_false, Bool.not_true]
    cases hg : GoMap.get st.mem (casemap st.cm name) with
    | some ch =>
      dsimp only
      obtain ⟨e1, e2, _⟩ := attach_fields { ch with key := if (scKeyList keys).head?.getD [] ≠ [] then (scKeyList keys).head?.getD [] else ch.key }
      have := old hg e1 e2
      rw [attach_flag] at this
      exact this
    | none => exact new rfl hg rfl
  | part reason id hc hr hn =>
    simp only [scStep, scPart, hc, if_true, (detach_iff reason).2 hr, split_one 44 name hn, List.foldl_cons,
      List.foldl_nil, scDetach1]
    cases hg : GoMap.get st.mem (casemap st.cm name) with
    | some ch =>
      dsimp only
      obtain ⟨e1, e2, _⟩ := detach_fields id ch
      have := old hg e1 e2
      rw [detach_flag] at this
      exact this
    | none => exact new (c := { newChanRec name [] with detached := true }) rfl hg rfl
  | update conf b id =>
    simp only [scStep, scUpdate]
    cases hg : GoMap.get st.mem (casemap st.cm name) with
    | none => exact flag_same h hk (fun c e => by rw [hg] at e; cases e)
    | some ch =>
      cases b with
      | true =>
        dsimp only
        obtain ⟨e1, e2, _⟩ := detach_fields id (scConfigure conf ch)
        have := old hg e1 e2
        rw [detach_flag] at this
        exact this
      | false =>
        dsimp only
        obtain ⟨e1, e2, _⟩ := attach_fields (scConfigure conf ch)
        have := old hg e1 e2
        rw [attach_flag] at this
        exact this
  | timer id =>
    simp only [scStep, scAutoDetach]
    cases hg : GoMap.get st.mem (casemap st.cm name) with
    | none => exact flag_same h hk (fun c e => by rw [hg] at e; cases e)
    | some ch =>
      dsimp only
      split
      · rename_i hd
        exact flag_same h hk (fun c e => by rw [hg] at e; cases e; exact hd)
      · obtain ⟨e1, e2, _⟩ := detach_fields id ch
        have := old hg e1 e2
        rw [detach_flag] at this
        exact this
  | message =>
    simp only [scStep, scReattach]
    cases hg : GoMap.get st.mem (casemap st.cm name) with
    | none => exact flag_same h hk (fun c e => by rw [hg] at e; cases e)
    | some ch =>
      dsimp only
      split
      · obtain ⟨e1, e2, _⟩ := attach_fields ch
        have := old hg e1 e2
        rw [attach_flag] at this
        exact this
      · rename_i hd
        exact flag_same h hk (fun c e => by rw [hg] at e; cases e; exact Bool.eq_false_iff.2 hd)

private theorem orderly_append {cm isChan} (ops ops' : List ScOp) : ∀ {conn known past},
    Orderly cm isChan conn known past (ops ++ ops') → Orderly cm isChan conn known past ops := by
  induction ops with
  | nil => intros; trivial
  | cons op ops ih =>
    intro conn known past h
    exact ⟨h.1, h.2.1, h.2.2.1, h.2.2.2.1, ih h.2.2.2.2⟩

private theorem now_end {cm net isChan} (ops : List ScOp) : ∀ {st evs conn known},
    ScNow cm net st evs conn known → Orderly cm isChan conn known evs ops →
    (scRun isChan net st ops).conn = ops.foldl connAfter conn ∧
    (ops.foldl knownAfter known = true → (scRun isChan net st ops).cm = cm) := by
  induction ops with
  | nil => intro st evs conn known h _; exact ⟨h.conn, h.known⟩
  | cons op ops ih =>
    intro st evs conn known h ho
    obtain ⟨h0, h1, h2, h3, h4⟩ := ho
    exact ih (now_step (isChan := isChan) op h h0 h1 h2 h3) h4

/-- The flag of an entry of the memory is the flag of its row. -/
private theorem row_flag {cm net st} (h : ScInv cm net st) {r} (hr : r ∈ st.rows) (hn : r.network = net) :
    ∃ p ∈ st.mem, p.2.name = r.name ∧ p.2.detached = r.detached := by
  have : scView (channelOfRow r) ∈ st.mem.map (fun p => scView p.2) := by
    rw [← h.same]
    refine List.mem_map.2 ⟨_, ?_, rfl⟩
    exact List.mem_map.2 ⟨r, List.mem_filter.2 ⟨hr, decide_eq_true hn⟩, rfl⟩
  obtain ⟨p, hp, he⟩ := List.mem_map.1 this
  simp only [scView, channelOfRow, Prod.mk.injEq] at he
  exact ⟨p, hp, he.2.1, he.2.2.2⟩

private theorem flag_row {cm net st} (h : ScInv cm net st) {p} (hp : p ∈ st.mem) :
    ∃ r ∈ st.rows, r.network = net ∧ r.name = p.2.name ∧ r.detached = p.2.detached := by
  have : scView p.2 ∈ (dbListChannels st.rows net).map scView := by
    rw [h.same]; exact List.mem_map.2 ⟨p, hp, rfl⟩
  obtain ⟨c, hc, he⟩ := List.mem_map.1 this
  unfold dbListChannels at hc
  obtain ⟨r, hr, rfl⟩ := List.mem_map.1 hc
  obtain ⟨hr1, hr2⟩ := List.mem_filter.1 hr
  simp only [scView, channelOfRow, Prod.mk.injEq] at he
  exact ⟨r, hr1, of_decide_eq_true hr2, he.2.1, he.2.2.2⟩

/-- C58, partial (attached or detached): whatever attaches or detaches a channel is saved for it at once, and for
no other channel of the network.  Missing: events before the bouncer knows the case mapping of the server. -/
theorem C58_detached_partial (cm : CaseMapping) (isChan : Str → Bool) (net : Nat) (rows : List ChannelRow)
    (hr : FreshTable net rows) (ops : List ScOp) (op : ScOp) (ho : Orderly cm isChan false false [] (ops ++ [op]))
    (hk : ops.foldl knownAfter false = true) (name : Str) (b : Bool)
    (hs : SetsDetached isChan (ops.foldl connAfter false) name op b) :
    let before := scRun isChan net (scLoad net rows) ops
    let after := scRun isChan net (scLoad net rows) (ops ++ [op])
    ∀ r ∈ after.rows, r.network = net →
      (SameName (sysOf cm) r.name name → r.detached = b) ∧
      (¬ SameName (sysOf cm) r.name name →
        ∃ r' ∈ before.rows, r'.network = net ∧ r'.name = r.name ∧ r'.detached = r.detached) := by
  intro before after r hrr hn
  have hi := (saved_rel cm isChan net rows hr ops (orderly_append _ _ ho)).inv
  have hi' := (saved_rel cm isChan net rows hr (ops ++ [op]) ho).inv
  obtain ⟨hc, hkn⟩ := now_end ops (now_start cm net rows hr) (orderly_append _ _ ho)
  have hst : after = scStep isChan net before op := by
    show scRun isChan net _ (ops ++ [op]) = _
    unfold scRun
    rw [List.foldl_append]
    rfl
  rw [← hc] at hs
  have hf : FlagSet cm before after name b := by
    rw [hst]
    exact flag_step hi (hkn hk) hs
  obtain ⟨p, hp, hpn, hpd⟩ := row_flag hi' hrr hn
  rw [← hpn, ← hpd]
  constructor
  · intro e
    exact hf.same p hp ((casemap_eq_iff cm _ _).2 e)
  · intro e
    exact flag_row hi (hf.other p hp (fun e' => e ((casemap_eq_iff cm _ _).1 e')))

/-- C58: what the server says about the user — joined, parted, kicked — changes nothing. -/
theorem C58_kick (isChan : Str → Bool) (net : Nat) (st : ScState) (name : Str) :
    scRejoin (scRun isChan net st [.serverKick name, .serverPart name, .serverJoin name]) = scRejoin st := rfl

/-- A server whose channels start with "#". -/
private def hashChan (s : Str) : Bool := s.head? == some 35

/-- A history: the mapping is learnt, channels are joined with and without keys, under several spellings, parted,
detached; the user is kicked, the bouncer restarted. -/
private def sampleHistory : List ScOp :=
  [.connected, .casemapping .rfc1459, .join b!"#a[,bad,#b,#c" (some b!"k1,,k2"), .serverKick b!"#b",
   .join b!"#A{" none, .part b!"#C" b!"bye" [], .part b!"#b" b!"DETACH" b!"id", .create b!"#d" ⟨1, 2, 3, 4⟩,
   .restarted, .connected, .casemapping .rfc1459, .join b!"#B" (some b!"k3"), .disconnected]

example : FreshTable 1 [⟨7, 2, b!"#a[", none, false, none, 0, 0, 0, 0⟩] ∧
    Orderly .rfc1459 hashChan false false [] sampleHistory ∧
    scRejoin (scRun hashChan 1 (scLoad 1 [⟨7, 2, b!"#a[", none, false, none, 0, 0, 0, 0⟩]) sampleHistory) =
      [(b!"#a[", b!"k1"), (b!"#b", b!"k3"), (b!"#d", [])] := by
  refine ⟨by unfold FreshTable; decide +kernel, ?_, by decide +kernel⟩
  simp only [sampleHistory, Orderly]
  repeat' apply And.intro
  all_goals try (first | trivial | (simp [isLate, namesChannels, knownAfter]; done))
  · intro names reason id e hd
    cases e
    exact absurd hd (by decide)
  · intro names reason id e hd
    cases e
    decide +kernel

example : (scRun hashChan 1 (scLoad 1 []) (sampleHistory.take 7)).rows.map (fun r => (r.name, r.detached)) =
      [(b!"#a[", false), (b!"#b", true)] ∧
    (sampleHistory.take 6).foldl knownAfter false = true ∧
    SetsDetached hashChan ((sampleHistory.take 6).foldl connAfter false) b!"#b" (.part b!"#b" b!"DETACH" b!"id") true :=
  ⟨by decide +kernel, by decide, .part _ _ (by decide) (by decide) (by decide)⟩

/-- C58, disagreement: `PART name :detach` saves a channel the user never joined, even one whose name no channel
can have, and the bouncer asks for it when it reconnects. -/
theorem C58_detach_violated : ∃ ops : List ScOp,
    requests hashChan false ops = [] ∧
    scRejoin (scRun hashChan 1 (scLoad 1 []) ops) = [(b!"nick", [])] :=
  ⟨[.connected, .casemapping .rfc1459, .part b!"nick" b!"detach" [], .restarted], by decide +kernel, by decide +kernel⟩

/-- C58, disagreement: between the moment the server accepts the connection and the moment it announces its case
mapping, `#a{` is taken for another channel than `#a[`; both are saved, and which key is kept depends on the
order of a Go map.  Leaving the channel then removes only one of them from the table, and the channel is joined
again after a restart. -/
theorem C58_mapping_violated : ∃ ops : List ScOp,
    askedKey .rfc1459 b!"#a[" (requests hashChan false ops) = none ∧
    scRejoin (scRun hashChan 1 (scLoad 1 []) ops) = [(b!"#a[", b!"k")] :=
  ⟨[.connected, .casemapping .rfc1459, .join b!"#a[" (some b!"k"), .restarted, .connected, .join b!"#a{" none,
    .casemapping .rfc1459, .part b!"#a[" [] [], .restarted], by decide +kernel, by decide +kernel⟩

/-- C58, disagreement: a timer of a connection that is handled after the settings of the network were changed stores
the record the channel had before: the key the user has given since is lost, and after a restart the channel is
detached, of which the clients are told nothing. -/
theorem C58_late_violated : ∃ ops : List ScOp,
    askedKey .rfc1459 b!"#a" (requests hashChan false ops) = some b!"new" ∧
    scRejoin (scRun hashChan 1 (scLoad 1 []) ops) = [(b!"#a", b!"new")] ∧
    (scRun hashChan 1 (scLoad 1 []) ops).mem.map (·.2.detached) = [false] ∧
    scRejoin (scRun hashChan 1 (scLoad 1 []) (ops ++ [.restarted])) = [(b!"#a", b!"old")] ∧
    (scRun hashChan 1 (scLoad 1 []) (ops ++ [.restarted])).mem.map (·.2.detached) = [true] :=
  ⟨[.connected, .casemapping .rfc1459, .join b!"#a" (some b!"old"), .networkUpdated, .connected, .casemapping .rfc1459,
    .join b!"#a" (some b!"new"), .lateDetach 0 b!"#a" b!"id"], by decide +kernel, by decide +kernel, by decide +kernel,
    by decide +kernel, by decide +kernel⟩

end Verif.Props
