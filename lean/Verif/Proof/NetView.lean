import Verif.Spec.NetView
import Verif.Proof.Util

namespace Verif.Proof
open Verif.Model Verif.Spec

/-! ### Reading attributes -/

theorem overwrite_not_mem {k : Str} : ∀ (l : List (Str × Str)) (f : Str → Str), k ∉ l.map (·.1) →
    overwrite f l k = f k
  | [], _, _ => rfl
  | (a, v) :: l, f, h => by
    simp only [List.map_cons, List.mem_cons, not_or] at h
    rw [overwrite, overwrite_not_mem l _ h.2, if_neg h.1]

theorem overwrite_mem {k v : Str} : ∀ (l : List (Str × Str)) (f : Str → Str), (l.map (·.1)).Nodup →
    (k, v) ∈ l → overwrite f l k = v
  | (a, w) :: l, f, hn, h => by
    simp only [List.map_cons, List.nodup_cons] at hn
    rw [overwrite]
    rcases List.mem_cons.mp h with h | h
    · cases h
      rw [overwrite_not_mem l _ hn.1, if_pos rfl]
    · exact overwrite_mem l _ hn.2 h

theorem netsView_snoc (out : List NvMsg) (m : NvMsg) : netsView (out ++ [m]) = readNet (netsView out) m := by
  simp [netsView]

/-- The attributes other than the state and the error. -/
def baseAttrs (lib : UrlLib) (u : NvUser) (r : NetRec) : List (Str × Str) :=
  [(b!"name", r.getName), (b!"nickname", nvNick u r)] ++
  (if r.username ≠ [] then [(b!"username", r.username)] else []) ++
  (if nvRealname u r ≠ [] then [(b!"realname", nvRealname u r)] else []) ++
  (fillNetworkAddrAttrs lib r.addr).tls.toList.map (fun v => (b!"tls", v)) ++
  (fillNetworkAddrAttrs lib r.addr).host.toList.map (fun v => (b!"host", v)) ++
  (fillNetworkAddrAttrs lib r.addr).port.toList.map (fun v => (b!"port", v))

def stateWord (c : Bool) : Str := if c then b!"connected" else b!"disconnected"

theorem attrs_mem {lib : UrlLib} {u : NvUser} {n : NvNet} {k v : Str} :
    (k, v) ∈ getNetworkAttrs lib u n ↔
      (k = b!"state" ∧ v = stateWord n.conn) ∨ (k = b!"error" ∧ n.err = some v) ∨
      (k, v) ∈ baseAttrs lib u n.rec' := by
  have he : (k, v) ∈ n.err.toList.map (fun v => (b!"error", v)) ↔ k = b!"error" ∧ n.err = some v := by
    constructor
    · intro h
      obtain ⟨a, ha, h⟩ := List.mem_map.mp h
      cases h
      exact ⟨rfl, Option.mem_toList.mp ha⟩
    · rintro ⟨rfl, h⟩
      exact List.mem_map.mpr ⟨v, Option.mem_toList.mpr h, rfl⟩
  unfold getNetworkAttrs baseAttrs stateWord
  simp only [List.mem_append, List.mem_cons, List.not_mem_nil, or_false, Prod.mk.injEq, he]
  generalize ((k, v) ∈ (if n.rec'.username ≠ [] then _ else _ : List (Str × Str))) = p1
  generalize ((k, v) ∈ (if nvRealname u n.rec' ≠ [] then _ else _ : List (Str × Str))) = p2
  generalize ((k, v) ∈ List.map (fun v => (b!"tls", v)) _) = p3
  generalize ((k, v) ∈ List.map (fun v => (b!"host", v)) _) = p4
  generalize ((k, v) ∈ List.map (fun v => (b!"port", v)) _) = p5
  generalize (k = b!"name" ∧ _) = p6
  generalize (k = b!"nickname" ∧ _) = p7
  generalize (k = b!"error" ∧ _) = p8
  generalize (k = b!"state" ∧ _) = p9
  constructor <;> grind

theorem base_keys {lib : UrlLib} {u : NvUser} {r : NetRec} {k v : Str} (h : (k, v) ∈ baseAttrs lib u r) :
    k ≠ b!"state" ∧ k ≠ b!"error" := by
  unfold baseAttrs at h
  simp only [List.mem_append, List.mem_cons, List.not_mem_nil, or_false, Prod.mk.injEq, List.mem_map,
    Option.mem_toList] at h
  rcases h with ((((h | h) | h) | ⟨_, _, h⟩) | ⟨_, _, h⟩) | ⟨_, _, h⟩
  · rcases h with ⟨rfl, -⟩ | ⟨rfl, -⟩ <;> decide
  · split at h
    · simp only [List.mem_singleton, Prod.mk.injEq] at h
      rw [h.1]; decide
    · simp at h
  · split at h
    · simp only [List.mem_singleton, Prod.mk.injEq] at h
      rw [h.1]; decide
    · simp at h
  all_goals
    rw [← h.1]; decide

theorem attrs_nodup (lib : UrlLib) (u : NvUser) (n : NvNet) :
    ((getNetworkAttrs lib u n).map (·.1)).Nodup := by
  unfold getNetworkAttrs
  dsimp only
  generalize fillNetworkAddrAttrs lib n.rec'.addr = a
  obtain ⟨host, port, tls, -⟩ := a
  simp only [List.map_append, List.map_map]
  cases n.err <;> cases host <;> cases port <;> cases tls <;> by_cases h1 : n.rec'.username = [] <;>
    by_cases h2 : nvRealname u n.rec' = [] <;> simp only [h1, h2, ne_eq, not_true_eq_false, not_false_eq_true,
      if_true, if_false, Option.toList, List.map_cons, List.map_nil, List.append_nil, List.cons_append,
      List.nil_append, Function.comp] <;> decide

/-! ### The invariant -/

/-- The networks and their objects are told apart by their numbers. -/
structure NvWf (st : NvState) : Prop where
  ids : (st.networks.map (·.rec'.id)).Nodup
  objs : (st.networks.map (·.obj)).Nodup
  idlt : ∀ n ∈ st.networks, n.rec'.id < st.nextId
  objlt : ∀ n ∈ st.networks, n.obj < st.nextObj

/-- From these messages a client knows the networks `N` and their attribute `k`. -/
def KnowsOut (lib : UrlLib) (k : Str) (u : NvUser) (N : List NvNet) (out : List NvMsg) : Prop :=
  (∀ id, (netsView out id).isSome = N.any (fun n => n.rec'.id = id)) ∧
  ∀ n ∈ N, ∀ v, (k, v) ∈ getNetworkAttrs lib u n → ((netsView out n.rec'.id).getD (fun _ => [])) k = v

theorem any_id {N : List NvNet} {id : Nat} :
    N.any (fun n => n.rec'.id = id) = true ↔ id ∈ N.map (·.rec'.id) := by
  simp [List.any_eq_true]

theorem knows_msg {lib : UrlLib} {k : Str} {u : NvUser} {N : List NvNet} {out : List NvMsg} {id : Nat}
    {a : List (Str × Str)} (hid : id ∈ N.map (·.rec'.id))
    (h1 : ∀ i, i ≠ id → (netsView out i).isSome = N.any (fun n => n.rec'.id = i))
    (h2 : ∀ n ∈ N, n.rec'.id ≠ id → ∀ v, (k, v) ∈ getNetworkAttrs lib u n →
      ((netsView out n.rec'.id).getD (fun _ => [])) k = v)
    (h3 : ∀ n ∈ N, n.rec'.id = id → ∀ v, (k, v) ∈ getNetworkAttrs lib u n →
      overwrite ((netsView out id).getD (fun _ => [])) a k = v) :
    KnowsOut lib k u N (out ++ [⟨id, some a⟩]) := by
  have hv : ∀ i, netsView (out ++ [⟨id, some a⟩]) i =
      if i = id then some (overwrite ((netsView out id).getD (fun _ => [])) a) else netsView out i := by
    intro i
    rw [netsView_snoc, readNet]
    by_cases hi : i = id
    · subst hi; rw [if_pos rfl]
    · rw [if_neg hi, if_neg hi]
  refine ⟨fun i => ?_, fun n hn v hm => ?_⟩
  · rw [hv]
    by_cases hi : i = id
    · subst hi
      rw [if_pos rfl, any_id.mpr hid]; rfl
    · rw [if_neg hi]; exact h1 i hi
  · rw [hv]
    by_cases hi : n.rec'.id = id
    · rw [if_pos hi]; exact h3 n hn hi v hm
    · rw [if_neg hi]; exact h2 n hn hi v hm

/-- The invariant for the clients `good` is true of. -/
def NvInv (lib : UrlLib) (k : Str) (good : Nat → Prop) (st : NvState) : Prop :=
  NvWf st ∧ ∀ c ∈ st.clients, good c.num → c.notify = true → KnowsOut lib k st.user st.networks c.out

/-- A message about a current network. -/
theorem inv_notify {lib : UrlLib} {k : Str} {good : Nat → Prop} {st : NvState} {id : Nat} {a : List (Str × Str)}
    (hw : NvWf st)
    (h0 : id ∉ st.networks.map (·.rec'.id) → ∀ c ∈ st.clients, good c.num → c.notify = true →
      KnowsOut lib k st.user st.networks c.out)
    (h : id ∈ st.networks.map (·.rec'.id) → ∀ c ∈ st.clients, good c.num → c.notify = true →
      KnowsOut lib k st.user st.networks (c.out ++ [⟨id, some a⟩])) :
    NvInv lib k good (nvNotify st id a) := by
  unfold nvNotify
  split
  · rename_i hi
    refine ⟨⟨hw.ids, hw.objs, hw.idlt, hw.objlt⟩, fun c hc hg hn => ?_⟩
    obtain ⟨c0, hc0, rfl⟩ := List.mem_map.mp hc
    unfold nvSend at hg hn ⊢
    by_cases hb : c0.notify = true
    · rw [if_pos hb] at hg hn ⊢
      exact h (any_id.mp hi) c0 hc0 hg hb
    · rw [if_neg hb] at hn
      exact absurd hn hb
  · rename_i hi
    exact ⟨hw, h0 (fun hm => hi (any_id.mpr hm))⟩

theorem find_obj {N : List NvNet} (hn : (N.map (·.obj)).Nodup) {m : NvNet} (hm : m ∈ N) :
    N.find? (fun n => n.obj = m.obj) = some m := by
  cases h : N.find? (fun n => n.obj = m.obj) with
  | none =>
    have := List.find?_eq_none.mp h m hm
    simp at this
  | some x =>
    have h1 := List.mem_of_find?_eq_some h
    have h2 := List.find?_some h
    simp only [decide_eq_true_eq] at h2
    rw [eq_of_nodup_map hn h1 hm h2]

theorem modify_map {α : Type} (N : List NvNet) (obj : Nat) (f : NvNet → NvNet) (g : NvNet → α)
    (h : ∀ n, g (f n) = g n) : (N.map (fun n => if n.obj = obj then f n else n)).map g = N.map g := by
  rw [List.map_map]
  apply List.map_congr_left
  intro n _
  dsimp only [Function.comp]
  split
  · exact h n
  · rfl

theorem modify_absent {N : List NvNet} {obj : Nat} {f : NvNet → NvNet} (h : ∀ n ∈ N, n.obj ≠ obj) :
    N.map (fun n => if n.obj = obj then f n else n) = N := by
  conv => rhs; rw [← List.map_id N]
  apply List.map_congr_left
  intro n hn
  rw [if_neg (h n hn)]; rfl

/-- An event of a current network: its connection and error change, and the message says so. -/
theorem inv_event {lib : UrlLib} {k : Str} {good : Nat → Prop} {st : NvState} (h : NvInv lib k good st)
    {m : NvNet} (hm : m ∈ st.networks) {f : NvNet → NvNet} {a : List (Str × Str)}
    (hf : ∀ n, (f n).obj = n.obj ∧ (f n).rec' = n.rec')
    (ha : ∀ g v, k = b!"state" → v = stateWord (f m).conn → (v = stateWord m.conn → g k = v) → overwrite g a k = v)
    (he : ∀ g v, k = b!"error" → (f m).err = some v → (m.err = some v → g k = v) → overwrite g a k = v)
    (hk : k ≠ b!"state" → k ≠ b!"error" → k ∉ a.map (·.1)) :
    NvInv lib k good (nvNotify (nvModify st m.obj f) m.rec'.id a) := by
  obtain ⟨hw, hc⟩ := h
  have hids := modify_map st.networks m.obj f (·.rec'.id) (fun n => by rw [(hf n).2])
  have hobjs := modify_map st.networks m.obj f (·.obj) (fun n => (hf n).1)
  have hmem : m.rec'.id ∈ st.networks.map (·.rec'.id) := List.mem_map.mpr ⟨m, hm, rfl⟩
  have hw' : NvWf (nvModify st m.obj f) := by
    refine ⟨?_, ?_, ?_, ?_⟩
    · show List.Nodup (List.map _ (List.map _ _)); rw [hids]; exact hw.ids
    · show List.Nodup (List.map _ (List.map _ _)); rw [hobjs]; exact hw.objs
    · intro n hn
      have : n.rec'.id ∈ st.networks.map (·.rec'.id) := by rw [← hids]; exact List.mem_map.mpr ⟨n, hn, rfl⟩
      obtain ⟨n0, hn0, e⟩ := List.mem_map.mp this
      rw [← e]; exact hw.idlt n0 hn0
    · intro n hn
      have : n.obj ∈ st.networks.map (·.obj) := by rw [← hobjs]; exact List.mem_map.mpr ⟨n, hn, rfl⟩
      obtain ⟨n0, hn0, e⟩ := List.mem_map.mp this
      rw [← e]; exact hw.objlt n0 hn0
  refine inv_notify hw' (fun hno => absurd ?_ hno) (fun _ c hcc hg hn => ?_)
  · show _ ∈ List.map _ (List.map _ _); rw [hids]; exact hmem
  have hkn := hc c hcc hg hn
  refine knows_msg ?_ ?_ ?_ ?_
  · show _ ∈ List.map _ (List.map _ _); rw [hids]; exact hmem
  · intro i _
    rw [hkn.1, Bool.eq_iff_iff, any_id, any_id]
    show _ ↔ _ ∈ List.map _ (List.map _ _)
    rw [hids]
  · intro n hn hne v hv
    obtain ⟨n0, hn0, e⟩ := List.mem_map.mp hn
    by_cases ho : n0.obj = m.obj
    · rw [if_pos ho] at e
      have := eq_of_nodup_map hw.objs hn0 hm ho
      subst this e
      exact absurd (by rw [(hf n0).2]) hne
    · rw [if_neg ho] at e
      subst e
      exact hkn.2 n0 hn0 v hv
  · intro n hn heq v hv
    obtain ⟨n0, hn0, e⟩ := List.mem_map.mp hn
    have h0 : n0 = m := by
      refine eq_of_nodup_map hw.ids hn0 hm ?_
      rw [← heq, ← e]
      split
      · rw [(hf n0).2]
      · rfl
    subst h0
    rw [if_pos rfl] at e
    subst e
    rw [attrs_mem] at hv
    rcases hv with ⟨h1, h2⟩ | ⟨h1, h2⟩ | h1
    · exact ha _ v h1 h2 (fun e => hkn.2 n0 hn0 v (attrs_mem.mpr (.inl ⟨h1, e⟩)))
    · exact he _ v h1 h2 (fun e => hkn.2 n0 hn0 v (attrs_mem.mpr (.inr (.inl ⟨h1, e⟩))))
    · rw [overwrite_not_mem _ _ (hk (base_keys h1).1 (base_keys h1).2)]
      exact hkn.2 n0 hn0 v (attrs_mem.mpr (.inr (.inr (by rw [← (hf n0).2]; exact h1))))

/-- An event of an object that is no longer current. -/
theorem inv_stale {lib : UrlLib} {k : Str} {good : Nat → Prop} {st : NvState} (h : NvInv lib k good st)
    {obj id : Nat} (hno : ∀ n ∈ st.networks, n.obj ≠ obj) {f : NvNet → NvNet} {a : List (Str × Str)}
    (hk : k ∉ a.map (·.1)) : NvInv lib k good (nvNotify (nvModify st obj f) id a) := by
  obtain ⟨hw, hc⟩ := h
  have hN : (nvModify st obj f).networks = st.networks := modify_absent hno
  have hw' : NvWf (nvModify st obj f) :=
    ⟨by rw [hN]; exact hw.ids, by rw [hN]; exact hw.objs, by rw [hN]; exact hw.idlt, by rw [hN]; exact hw.objlt⟩
  refine inv_notify hw' (fun _ c hcc hg hn => ?_) (fun hid c hcc hg hn => ?_)
  · rw [hN]; exact hc c hcc hg hn
  · have hkn := hc c hcc hg hn
    rw [hN] at hid ⊢
    refine knows_msg hid (fun i _ => hkn.1 i) (fun n hn _ v hv => hkn.2 n hn v hv) (fun n hn e v hv => ?_)
    rw [overwrite_not_mem _ _ hk, ← e]
    exact hkn.2 n hn v hv

theorem inv_modify_absent {lib : UrlLib} {k : Str} {good : Nat → Prop} {st : NvState} (h : NvInv lib k good st)
    {obj : Nat} (hno : ∀ n ∈ st.networks, n.obj ≠ obj) (f : NvNet → NvNet) :
    NvInv lib k good (nvModify st obj f) := by
  obtain ⟨hw, hc⟩ := h
  have hN : (nvModify st obj f).networks = st.networks := modify_absent hno
  exact ⟨⟨by rw [hN]; exact hw.ids, by rw [hN]; exact hw.objs, by rw [hN]; exact hw.idlt, by rw [hN]; exact hw.objlt⟩,
    by rw [hN]; exact hc⟩

theorem disc_inv {lib : UrlLib} {k : Str} {good : Nat → Prop} {st : NvState} (h : NvInv lib k good st) (obj : Nat) :
    NvInv lib k good (nvDisconnected st obj) := by
  unfold nvDisconnected
  dsimp only
  by_cases hcur : ∃ m ∈ st.networks, m.obj = obj
  · obtain ⟨m, hm, rfl⟩ := hcur
    have hobjs := modify_map st.networks m.obj (fun n => { n with conn := false }) (·.obj) (fun n => rfl)
    have hf : (nvModify st m.obj (fun n => { n with conn := false })).networks.find? (fun n => n.obj = m.obj) =
        some { m with conn := false } := by
      refine find_obj (m := { m with conn := false }) ?_ ?_
      · show List.Nodup (List.map _ (List.map _ _)); rw [hobjs]; exact h.1.objs
      · exact List.mem_map.mpr ⟨m, hm, by rw [if_pos rfl]⟩
    rw [hf]
    refine inv_event h hm (fun n => ⟨rfl, rfl⟩) ?_ ?_ ?_
    · rintro g v rfl rfl _
      simp [overwrite, stateWord]
    · rintro g v rfl he hg
      rw [overwrite_not_mem _ _ (by decide)]
      exact hg he
    · intro h1 h2 h3
      simp only [List.map_cons, List.map_nil, List.mem_singleton] at h3
      exact h1 h3
  · have hno : ∀ n ∈ st.networks, n.obj ≠ obj := fun n hn e => hcur ⟨n, hn, e⟩
    have hf : (nvModify st obj (fun n => { n with conn := false })).networks.find? (fun n => n.obj = obj) = none := by
      have hN : (nvModify st obj (fun n => { n with conn := false })).networks = st.networks := modify_absent hno
      rw [hN, List.find?_eq_none]
      intro n hn
      simpa using hno n hn
    rw [hf]
    exact inv_modify_absent h hno _

/-! ### The batch of all networks -/

theorem batch_view (lib : UrlLib) (u : NvUser) : ∀ (N : List NvNet) (V : NetsView), (N.map (·.rec'.id)).Nodup →
    (∀ id, id ∉ N.map (·.rec'.id) →
      (N.map (fun n => (⟨n.rec'.id, some (getNetworkAttrs lib u n)⟩ : NvMsg))).foldl readNet V id = V id) ∧
    ∀ n ∈ N, (N.map (fun n => (⟨n.rec'.id, some (getNetworkAttrs lib u n)⟩ : NvMsg))).foldl readNet V n.rec'.id =
      some (overwrite ((V n.rec'.id).getD (fun _ => [])) (getNetworkAttrs lib u n))
  | [], V, _ => ⟨fun _ _ => rfl, fun _ h => nomatch h⟩
  | m :: N, V, hn => by
    simp only [List.map_cons, List.nodup_cons] at hn
    obtain ⟨h1, h2⟩ := batch_view lib u N (readNet V ⟨m.rec'.id, some (getNetworkAttrs lib u m)⟩) hn.2
    have hr : ∀ i, i ≠ m.rec'.id → readNet V ⟨m.rec'.id, some (getNetworkAttrs lib u m)⟩ i = V i :=
      fun i hi => by unfold readNet; rw [if_neg hi]
    refine ⟨fun id hid => ?_, fun n hm => ?_⟩
    · simp only [List.map_cons, List.mem_cons, not_or] at hid
      simp only [List.map_cons, List.foldl_cons]
      rw [h1 id hid.2, hr id hid.1]
    · simp only [List.map_cons, List.foldl_cons]
      rcases List.mem_cons.mp hm with rfl | hm
      · rw [h1 _ hn.1]
        unfold readNet
        rw [if_pos rfl]
      · rw [h2 n hm, hr _ (fun e => hn.1 (by rw [← e]; exact List.mem_map.mpr ⟨n, hm, rfl⟩))]

theorem batch_knows {lib : UrlLib} {k : Str} {st : NvState} (hw : NvWf st) {out : List NvMsg}
    (h : ∀ id, id ∉ st.networks.map (·.rec'.id) → netsView out id = none) :
    KnowsOut lib k st.user st.networks (out ++ nvBatch lib st) := by
  obtain ⟨h1, h2⟩ := batch_view lib st.user st.networks (netsView out) hw.ids
  have hv : netsView (out ++ nvBatch lib st) = (nvBatch lib st).foldl readNet (netsView out) := by
    unfold netsView; rw [List.foldl_append]
  refine ⟨fun id => ?_, fun n hn v hv' => ?_⟩
  · rw [hv, Bool.eq_iff_iff, any_id]
    by_cases hid : id ∈ st.networks.map (·.rec'.id)
    · obtain ⟨n, hn, rfl⟩ := List.mem_map.mp hid
      have := h2 n hn
      unfold nvBatch
      rw [this]
      exact ⟨fun _ => hid, fun _ => rfl⟩
    · have := h1 id hid
      unfold nvBatch
      rw [this, h id hid]
      exact ⟨(fun e => nomatch e), fun e => absurd e hid⟩
  · rw [hv]
    have := h2 n hn
    unfold nvBatch
    rw [this]
    exact overwrite_mem _ _ (attrs_nodup lib st.user n) hv'

/-! ### Silent changes -/

theorem base_nick {lib : UrlLib} {u u' : NvUser} {r r' : NetRec} {k v : Str}
    (h : (k, v) ∈ baseAttrs lib u' r') (h1 : k = b!"nickname" → nvNick u' r' = nvNick u r)
    (h2 : k = b!"realname" → nvRealname u' r' = nvRealname u r)
    (hn : r'.getName = r.getName) (hu : r'.username = r.username) (ha : r'.addr = r.addr) :
    (k, v) ∈ baseAttrs lib u r := by
  unfold baseAttrs at h ⊢
  rw [hn, hu, ha] at h
  simp only [List.mem_append, List.mem_cons, List.not_mem_nil, or_false, Prod.mk.injEq] at h ⊢
  rcases h with ((((h | h) | h) | h) | h) | h
  · refine .inl (.inl (.inl (.inl (.inl ?_))))
    rcases h with h | ⟨h, h'⟩
    · exact .inl h
    · exact .inr ⟨h, by rw [h', h1 h]⟩
  · exact .inl (.inl (.inl (.inl (.inr h))))
  · refine .inl (.inl (.inl (.inr ?_)))
    split at h
    · simp only [List.mem_singleton, Prod.mk.injEq] at h
      rename_i hne
      rw [h2 h.1] at h hne
      rw [if_pos hne]
      simp [h.1, h.2]
    · simp at h
  · exact .inl (.inl (.inr h))
  · exact .inl (.inr h)
  · exact .inr h

/-- The networks change in a way that cannot be seen in the attribute. -/
theorem inv_silent {lib : UrlLib} {k : Str} {good : Nat → Prop} {st : NvState} (h : NvInv lib k good st)
    {u : NvUser} {g : NvNet → NvNet} (hg : ∀ n, (g n).obj = n.obj ∧ (g n).rec'.id = n.rec'.id)
    (hk : ∀ n v, (k, v) ∈ getNetworkAttrs lib u (g n) → (k, v) ∈ getNetworkAttrs lib st.user n) :
    NvInv lib k good { st with user := u, networks := st.networks.map g } := by
  obtain ⟨hw, hc⟩ := h
  have hids : (st.networks.map g).map (·.rec'.id) = st.networks.map (·.rec'.id) := by
    rw [List.map_map]; exact List.map_congr_left (fun n _ => (hg n).2)
  have hobjs : (st.networks.map g).map (·.obj) = st.networks.map (·.obj) := by
    rw [List.map_map]; exact List.map_congr_left (fun n _ => (hg n).1)
  refine ⟨⟨by rw [hids]; exact hw.ids, by rw [hobjs]; exact hw.objs, ?_, ?_⟩, fun c hcc hgd hn => ?_⟩
  · intro n hn
    obtain ⟨n0, hn0, rfl⟩ := List.mem_map.mp hn
    rw [(hg n0).2]; exact hw.idlt n0 hn0
  · intro n hn
    obtain ⟨n0, hn0, rfl⟩ := List.mem_map.mp hn
    rw [(hg n0).1]; exact hw.objlt n0 hn0
  · obtain ⟨h1, h2⟩ := hc c hcc hgd hn
    refine ⟨fun id => ?_, fun n hn v hv => ?_⟩
    · rw [h1, Bool.eq_iff_iff, any_id, any_id, hids]
    · obtain ⟨n0, hn0, rfl⟩ := List.mem_map.mp hn
      rw [(hg n0).2]
      exact h2 n0 hn0 v (hk n0 v hv)

/-! ### All events -/

/-- What is assumed of an event. -/
structure NvOk (k : Str) (good : Nat → Prop) (st : NvState) (op : NvOp) : Prop where
  silent : ¬ Silent k op
  stale : k = b!"state" ∨ k = b!"error" → ¬ Stale st op
  caps : ∀ num on, op = .capReq num on → ¬ good num

theorem find_cur_or_old {N O : List NvNet} {obj : Nat} (h : ∀ n ∈ N, n.obj ≠ obj) :
    (N ++ O).find? (fun n => n.obj = obj) = O.find? (fun n => n.obj = obj) := by
  rw [List.find?_append]
  have : N.find? (fun n => n.obj = obj) = none := by
    rw [List.find?_eq_none]; intro n hn; simpa using h n hn
  rw [this]; rfl

theorem find_cur {N O : List NvNet} {m : NvNet} (hn : (N.map (·.obj)).Nodup) (hm : m ∈ N) :
    (N ++ O).find? (fun n => n.obj = m.obj) = some m := by
  rw [List.find?_append, find_obj hn hm]; rfl

theorem nvStep_inv {lib : UrlLib} {k : Str} {good : Nat → Prop} {st : NvState} (h : NvInv lib k good st)
    (op : NvOp) (hok : NvOk k good st op) : NvInv lib k good (nvStep lib st op) := by
  cases op with
  | create r =>
    obtain ⟨hw, hc⟩ := h
    let n : NvNet := ⟨st.nextObj, { r with id := st.nextId }, false, none⟩
    show NvInv lib k good (nvNotify { st with
      networks := st.networks ++ [n], nextObj := st.nextObj + 1, nextId := st.nextId + 1 } n.rec'.id (getNetworkAttrs lib st.user n))
    have hnew : ∀ m ∈ st.networks, m.rec'.id ≠ st.nextId := fun m hm => Nat.ne_of_lt (hw.idlt m hm)
    have hwf : NvWf { st with networks := st.networks ++ [n], nextObj := st.nextObj + 1, nextId := st.nextId + 1 } := by
      refine ⟨?_, ?_, ?_, ?_⟩
      · simp only [List.map_append, List.map_cons, List.map_nil]
        rw [List.nodup_append]
        refine ⟨hw.ids, by simp, ?_⟩
        intro a ha b hb
        simp only [List.mem_singleton] at hb
        obtain ⟨m, hm, rfl⟩ := List.mem_map.mp ha
        rw [hb]; exact hnew m hm
      · simp only [List.map_append, List.map_cons, List.map_nil]
        rw [List.nodup_append]
        refine ⟨hw.objs, by simp, ?_⟩
        intro a ha b hb
        simp only [List.mem_singleton] at hb
        obtain ⟨m, hm, rfl⟩ := List.mem_map.mp ha
        rw [hb]; exact Nat.ne_of_lt (hw.objlt m hm)
      · intro m hm
        rcases List.mem_append.mp hm with hm | hm
        · exact Nat.lt_succ_of_lt (hw.idlt m hm)
        · rw [List.mem_singleton.mp hm]; exact Nat.lt_succ_self _
      · intro m hm
        rcases List.mem_append.mp hm with hm | hm
        · exact Nat.lt_succ_of_lt (hw.objlt m hm)
        · rw [List.mem_singleton.mp hm]; exact Nat.lt_succ_self _
    have hin : n.rec'.id ∈ (st.networks ++ [n]).map (·.rec'.id) := List.mem_map.mpr ⟨n, by simp, rfl⟩
    refine inv_notify hwf (fun hno => absurd hin hno) (fun _ c hcc hg hn => ?_)
    have hkn := hc c hcc hg hn
    refine knows_msg hin (fun i hi => ?_) (fun m hm hne v hv => ?_) (fun m hm he v hv => ?_)
    · rw [hkn.1, List.any_append]
      have : ¬ n.rec'.id = i := fun e => hi e.symm
      simp [this]
    · rcases List.mem_append.mp hm with hm | hm
      · exact hkn.2 m hm v hv
      · rw [List.mem_singleton.mp hm] at hne; exact absurd rfl hne
    · rcases List.mem_append.mp hm with hm | hm
      · exact absurd he (hnew m hm)
      · rw [List.mem_singleton.mp hm] at hv
        exact overwrite_mem _ _ (attrs_nodup lib st.user n) hv
  | update r =>
    rw [nvStep]
    cases hf : st.networks.find? (fun n => n.rec'.id = r.id) with
    | none => exact h
    | some net =>
      dsimp only
      have hnet := List.mem_of_find?_eq_some hf
      have hid : net.rec'.id = r.id := by simpa using List.find?_some hf
      generalize hs1 : (if net.conn then nvDisconnected st net.obj else st) = s1
      have h1 : NvInv lib k good s1 := by
        rw [← hs1]; split
        · exact disc_inv h _
        · exact h
      have hs : s1.user = st.user ∧ s1.nextObj = st.nextObj ∧ s1.nextId = st.nextId ∧
          ∃ m ∈ s1.networks, m.obj = net.obj ∧ m.rec' = net.rec' := by
        rw [← hs1]
        split
        · have hN : ∀ id a s, (nvNotify s id a).networks = s.networks := by
            intro id a s; unfold nvNotify; split <;> rfl
          have hU : ∀ id a s, (nvNotify s id a).user = s.user ∧ (nvNotify s id a).nextObj = s.nextObj ∧
              (nvNotify s id a).nextId = s.nextId := by
            intro id a s; unfold nvNotify; split <;> exact ⟨rfl, rfl, rfl⟩
          have hD : (nvDisconnected st net.obj).networks =
              st.networks.map (fun n => if n.obj = net.obj then { n with conn := false } else n) ∧
              (nvDisconnected st net.obj).user = st.user ∧ (nvDisconnected st net.obj).nextObj = st.nextObj ∧
              (nvDisconnected st net.obj).nextId = st.nextId := by
            unfold nvDisconnected
            dsimp only
            split
            · exact ⟨rfl, rfl, rfl, rfl⟩
            · exact ⟨hN _ _ _, (hU _ _ _).1, (hU _ _ _).2.1, (hU _ _ _).2.2⟩
          rw [hD.1]
          exact ⟨hD.2.1, hD.2.2.1, hD.2.2.2, { net with conn := false },
            List.mem_map.mpr ⟨net, hnet, by rw [if_pos rfl]⟩, rfl, rfl⟩
        · exact ⟨rfl, rfl, rfl, net, hnet, rfl, rfl⟩
      clear hs1
      obtain ⟨hsu, hso, hsi, m, hm, hmo, hmr⟩ := hs
      obtain ⟨hw, hc⟩ := h1
      let new : NvNet := ⟨st.nextObj, nvWipe st.user r, false, none⟩
      have hnid : new.rec'.id = net.rec'.id := hid.symm
      have hids : (s1.networks.map (fun n => if n.obj = net.obj then new else n)).map (·.rec'.id) =
          s1.networks.map (·.rec'.id) := by
        rw [List.map_map]
        refine List.map_congr_left (fun n hn => ?_)
        dsimp only [Function.comp]
        split
        · rename_i ho
          have := eq_of_nodup_map hw.objs hn hm (ho.trans hmo.symm)
          rw [this, hmr]; exact hnid
        · rfl
      have hin : new.rec'.id ∈ s1.networks.map (·.rec'.id) :=
        List.mem_map.mpr ⟨m, hm, by rw [hmr]; exact hnid.symm⟩
      show NvInv lib k good (nvNotify { s1 with
        networks := s1.networks.map (fun n => if n.obj = net.obj then new else n)
        old := { net with conn := false } :: s1.old
        nextObj := s1.nextObj + 1 } new.rec'.id (getNetworkAttrs lib s1.user new))
      have hwf : NvWf { s1 with
          networks := s1.networks.map (fun n => if n.obj = net.obj then new else n)
          old := { net with conn := false } :: s1.old
          nextObj := s1.nextObj + 1 } := by
        refine ⟨?_, ?_, ?_, ?_⟩
        · dsimp only; rw [hids]; exact hw.ids
        · dsimp only
          rw [List.map_map, List.nodup_iff_pairwise_ne, List.pairwise_map]
          have hp : s1.networks.Pairwise (fun a b => a.obj ≠ b.obj) := by
            rw [← List.pairwise_map (f := fun n : NvNet => n.obj) (R := (· ≠ ·)), ← List.nodup_iff_pairwise_ne]
            exact hw.objs
          refine hp.imp_of_mem (fun {a b} ha hb hab => ?_)
          dsimp only [Function.comp]
          have hla := hw.objlt a ha
          have hlb := hw.objlt b hb
          rw [hso] at hla hlb
          split <;> split
          · rename_i e1 e2; exact absurd (e1.trans e2.symm) hab
          · exact Ne.symm (Nat.ne_of_lt hlb)
          · exact Nat.ne_of_lt hla
          · exact hab
        · intro n hn
          have : n.rec'.id ∈ s1.networks.map (·.rec'.id) := by
            rw [← hids]; exact List.mem_map.mpr ⟨n, hn, rfl⟩
          obtain ⟨n0, hn0, e⟩ := List.mem_map.mp this
          dsimp only
          rw [← e]; exact hw.idlt n0 hn0
        · intro n hn
          obtain ⟨n0, hn0, rfl⟩ := List.mem_map.mp hn
          dsimp only
          split
          · rw [hso]; exact Nat.lt_succ_self _
          · exact Nat.lt_succ_of_lt (hw.objlt n0 hn0)
      refine inv_notify hwf (fun hno => absurd (by dsimp only; rw [hids]; exact hin) hno) (fun _ c hcc hg hn => ?_)
      have hkn := hc c hcc hg hn
      refine knows_msg (by dsimp only; rw [hids]; exact hin) (fun i _ => ?_) (fun x hx hne v hv => ?_)
        (fun x hx he v hv => ?_)
      · dsimp only
        rw [hkn.1, Bool.eq_iff_iff, any_id, any_id, hids]
      · obtain ⟨n0, hn0, e⟩ := List.mem_map.mp hx
        by_cases ho : n0.obj = net.obj
        · rw [if_pos ho] at e; rw [← e] at hne; exact absurd rfl hne
        · rw [if_neg ho] at e; subst e; exact hkn.2 n0 hn0 v hv
      · obtain ⟨n0, hn0, e⟩ := List.mem_map.mp hx
        by_cases ho : n0.obj = net.obj
        · rw [if_pos ho] at e; subst e
          exact overwrite_mem _ _ (attrs_nodup lib s1.user new) hv
        · rw [if_neg ho] at e; subst e
          have := eq_of_nodup_map hw.ids hn0 hm (by rw [he, hmr]; exact hnid)
          rw [this] at ho
          exact absurd hmo ho
  | delete id =>
    rw [nvStep]
    cases hf : st.networks.find? (fun n => n.rec'.id = id) with
    | none => exact h
    | some net =>
      dsimp only
      have hnet := List.mem_of_find?_eq_some hf
      have hid : net.rec'.id = id := by simpa using List.find?_some hf
      obtain ⟨hw, hc⟩ := h
      have hsub : (st.networks.filter (fun n => n.obj ≠ net.obj)).Sublist st.networks := List.filter_sublist
      refine ⟨⟨(hsub.map _).nodup hw.ids, (hsub.map _).nodup hw.objs,
        fun n hn => hw.idlt n (hsub.subset hn), fun n hn => hw.objlt n (hsub.subset hn)⟩, fun c hcc hg hn => ?_⟩
      obtain ⟨c0, hc0, rfl⟩ := List.mem_map.mp hcc
      unfold nvSend at hg hn ⊢
      by_cases hb : c0.notify = true
      · rw [if_pos hb] at hg hn ⊢
        dsimp only at hg hn ⊢
        obtain ⟨k1, k2⟩ := hc c0 hc0 hg hb
        have hne : ∀ n ∈ st.networks, n.obj ≠ net.obj ↔ n.rec'.id ≠ id := by
          intro n hn
          refine not_congr ⟨fun e => ?_, fun e => ?_⟩
          · rw [eq_of_nodup_map hw.objs hn hnet e]; exact hid
          · rw [eq_of_nodup_map hw.ids hn hnet (e.trans hid.symm)]
        refine ⟨fun i => ?_, fun n hn v hv => ?_⟩
        · rw [netsView_snoc, readNet]
          dsimp only
          rw [Bool.eq_iff_iff, any_id]
          by_cases hi : i = id
          · rw [if_pos hi]
            refine ⟨(fun e => nomatch e), fun e => ?_⟩
            obtain ⟨n, hn, e⟩ := List.mem_map.mp e
            have hn := List.mem_filter.mp hn
            exact absurd (e.trans hi) ((hne n hn.1).mp (by simpa using hn.2))
          · rw [if_neg hi, k1, any_id]
            constructor
            · intro hm
              obtain ⟨n, hn, e⟩ := List.mem_map.mp hm
              refine List.mem_map.mpr ⟨n, List.mem_filter.mpr ⟨hn, ?_⟩, e⟩
              simpa using (hne n hn).mpr (by rw [e]; exact hi)
            · intro hm
              obtain ⟨n, hn, e⟩ := List.mem_map.mp hm
              exact List.mem_map.mpr ⟨n, hsub.subset hn, e⟩
        · have hn' := List.mem_filter.mp hn
          have hi : n.rec'.id ≠ id := (hne n hn'.1).mp (by simpa using hn'.2)
          rw [netsView_snoc, readNet, if_neg hi]
          exact k2 n hn'.1 v hv
      · rw [if_neg hb] at hn
        exact absurd hn hb
  | connected obj =>
    rw [nvStep]
    by_cases hcur : ∃ m ∈ st.networks, m.obj = obj
    · obtain ⟨m, hm, rfl⟩ := hcur
      have hobjs := modify_map st.networks m.obj (fun n => { n with conn := true, err := none }) (·.obj) (fun n => rfl)
      have hf : ((nvModify st m.obj (fun n => { n with conn := true, err := none })).networks ++
          (nvModify st m.obj (fun n => { n with conn := true, err := none })).old).find? (fun n => n.obj = m.obj) =
          some { m with conn := true, err := none } := by
        refine find_cur (m := { m with conn := true, err := none }) ?_ (List.mem_map.mpr ⟨m, hm, by rw [if_pos rfl]⟩)
        show List.Nodup (List.map _ (List.map _ _)); rw [hobjs]; exact h.1.objs
      rw [hf]
      refine inv_event h hm (fun n => ⟨rfl, rfl⟩) ?_ ?_ ?_
      · rintro g v rfl rfl _
        simp [overwrite, stateWord]
      · intro g v _ he
        cases he
      · intro h1 h2 h3
        simp only [List.map_cons, List.map_nil, List.mem_cons, List.not_mem_nil, or_false] at h3
        exact h3.elim h1 h2
    · have hno : ∀ n ∈ st.networks, n.obj ≠ obj := fun n hn e => hcur ⟨n, hn, e⟩
      have hN : (nvModify st obj (fun n => { n with conn := true, err := none })).networks = st.networks :=
        modify_absent hno
      have hk : k ≠ b!"state" ∧ k ≠ b!"error" :=
        ⟨fun e => hok.stale (.inl e) hno, fun e => hok.stale (.inr e) hno⟩
      rw [find_cur_or_old (by rw [hN]; exact hno)]
      split
      · exact inv_modify_absent h hno _
      · exact inv_stale h hno (by simpa using hk)
  | disconnected obj => exact disc_inv h obj
  | error obj text =>
    rw [nvStep]
    by_cases hcur : ∃ m ∈ st.networks, m.obj = obj
    · obtain ⟨m, hm, rfl⟩ := hcur
      have hobjs := modify_map st.networks m.obj (fun n => { n with err := some text }) (·.obj) (fun n => rfl)
      have hf : ((nvModify st m.obj (fun n => { n with err := some text })).networks ++
          (nvModify st m.obj (fun n => { n with err := some text })).old).find? (fun n => n.obj = m.obj) =
          some { m with err := some text } := by
        refine find_cur (m := { m with err := some text }) ?_ (List.mem_map.mpr ⟨m, hm, by rw [if_pos rfl]⟩)
        show List.Nodup (List.map _ (List.map _ _)); rw [hobjs]; exact h.1.objs
      rw [hf]
      refine inv_event h hm (fun n => ⟨rfl, rfl⟩) ?_ ?_ ?_
      · rintro g v rfl he hg
        rw [overwrite_not_mem _ _ (by simp)]
        exact hg he
      · rintro g v rfl he _
        cases he
        simp [overwrite]
      · intro h1 h2 h3
        simp only [List.map_cons, List.map_nil, List.mem_cons, List.not_mem_nil, or_false] at h3
        exact h2 h3
    · have hno : ∀ n ∈ st.networks, n.obj ≠ obj := fun n hn e => hcur ⟨n, hn, e⟩
      have hN : (nvModify st obj (fun n => { n with err := some text })).networks = st.networks :=
        modify_absent hno
      have hk : k ≠ b!"error" := fun e => hok.stale (.inr e) hno
      rw [find_cur_or_old (by rw [hN]; exact hno)]
      split
      · exact inv_modify_absent h hno _
      · exact inv_stale h hno (by simpa using hk)
  | userNick nick =>
    have hs := hok.silent
    simp only [Silent, not_or] at hs
    have := inv_silent (u := { st.user with nick := nick }) (g := fun n => n) h (fun _ => ⟨rfl, rfl⟩)
      (fun n v hv => by
        rw [attrs_mem] at hv ⊢
        rcases hv with hv | hv | hb
        · exact .inl hv
        · exact .inr (.inl hv)
        · exact .inr (.inr (base_nick hb (fun e => absurd e hs.1) (fun e => absurd e hs.2) rfl rfl rfl)))
    rw [show st.networks.map (fun n => n) = st.networks from List.map_id _] at this
    exact this
  | userRealname realname =>
    have hs := hok.silent
    simp only [Silent] at hs
    have := inv_silent (u := { st.user with realname := realname }) (g := fun n => n) h (fun _ => ⟨rfl, rfl⟩)
      (fun n v hv => by
        rw [attrs_mem] at hv ⊢
        rcases hv with hv | hv | hb
        · exact .inl hv
        · exact .inr (.inl hv)
        · exact .inr (.inr (base_nick hb (fun _ => rfl) (fun e => absurd e hs) rfl rfl rfl)))
    rw [show st.networks.map (fun n => n) = st.networks from List.map_id _] at this
    exact this
  | netNick id nick =>
    have hs := hok.silent
    simp only [Silent, not_or] at hs
    refine inv_silent (u := st.user) (g := fun n =>
      if n.rec'.id = id then { n with rec' := { n.rec' with nick := nick } } else n) h
      (fun n => by split <;> exact ⟨rfl, rfl⟩) (fun n v hv => ?_)
    rw [attrs_mem] at hv ⊢
    split at hv
    · rcases hv with hv | hv | hb
      · exact .inl hv
      · exact .inr (.inl hv)
      · exact .inr (.inr (base_nick hb (fun e => absurd e hs.1) (fun e => absurd e hs.2) rfl rfl rfl))
    · exact hv
  | login num notify =>
    obtain ⟨hw, hc⟩ := h
    refine ⟨⟨hw.ids, hw.objs, hw.idlt, hw.objlt⟩, fun c hcc hg hn => ?_⟩
    rcases List.mem_append.mp hcc with hcc | hcc
    · exact hc c hcc hg hn
    · rw [List.mem_singleton] at hcc
      subst hcc
      dsimp only at hn ⊢
      rw [if_pos hn]
      exact batch_knows (out := []) hw (fun _ _ => rfl)
  | logout num =>
    obtain ⟨hw, hc⟩ := h
    exact ⟨⟨hw.ids, hw.objs, hw.idlt, hw.objlt⟩, fun c hcc hg hn => hc c (List.mem_filter.mp hcc).1 hg hn⟩
  | capReq num on =>
    obtain ⟨hw, hc⟩ := h
    refine ⟨⟨hw.ids, hw.objs, hw.idlt, hw.objlt⟩, fun c hcc hg hn => ?_⟩
    obtain ⟨c0, hc0, rfl⟩ := List.mem_map.mp hcc
    by_cases hnum : c0.num = num
    · rw [if_pos hnum] at hg
      exact absurd (hnum ▸ hg) (hok.caps num on rfl)
    · rw [if_neg hnum] at hg hn ⊢
      exact hc c0 hc0 hg hn
  | list num =>
    obtain ⟨hw, hc⟩ := h
    refine ⟨⟨hw.ids, hw.objs, hw.idlt, hw.objlt⟩, fun c hcc hg hn => ?_⟩
    obtain ⟨c0, hc0, rfl⟩ := List.mem_map.mp hcc
    by_cases hnum : c0.num = num
    · rw [if_pos hnum] at hg hn ⊢
      refine batch_knows hw (fun id hid => ?_)
      have := (hc c0 hc0 hg hn).1 id
      rw [← Option.not_isSome_iff_eq_none, this, any_id]
      exact hid
    · rw [if_neg hnum] at hg hn ⊢
      exact hc c0 hc0 hg hn

theorem nvRun_snoc (lib : UrlLib) (st : NvState) (ops : List NvOp) (op : NvOp) :
    nvRun lib st (ops ++ [op]) = nvStep lib (nvRun lib st ops) op := by
  simp [nvRun]

theorem nvRun_inv {lib : UrlLib} {k : Str} {good : Nat → Prop} {st : NvState} (h : NvInv lib k good st)
    (ops : List NvOp)
    (hok : ∀ pre op post, ops = pre ++ op :: post → NvOk k good (nvRun lib st pre) op) :
    NvInv lib k good (nvRun lib st ops) := by
  induction ops using snocInd with
  | nil => exact h
  | snoc ops op ih =>
    rw [nvRun_snoc]
    refine nvStep_inv (ih fun pre op' post e => hok pre op' (post ++ [op]) (by rw [e]; simp)) op ?_
    exact hok ops op [] rfl

theorem nvInit_inv (lib : UrlLib) (k : Str) (good : Nat → Prop) (u : NvUser) (recs : List NetRec) (next : Nat)
    (hn : (recs.map (·.id)).Nodup) (hlt : ∀ r ∈ recs, r.id < next) : NvInv lib k good (nvInit u recs next) := by
  have hids : (nvInit u recs next).networks.map (·.rec'.id) = recs.map (·.id) := by
    unfold nvInit
    dsimp only
    rw [List.map_map]
    show List.map (fun p : NetRec × Nat => p.1.id) _ = _
    rw [show (fun p : NetRec × Nat => p.1.id) = (·.id) ∘ Prod.fst from rfl, ← List.map_map, List.zipIdx_map_fst]
  have hobjs : (nvInit u recs next).networks.map (·.obj) = List.range' 0 recs.length := by
    unfold nvInit
    dsimp only
    rw [List.map_map]
    show List.map Prod.snd _ = _
    rw [List.zipIdx_map_snd]
  refine ⟨⟨by rw [hids]; exact hn, by rw [hobjs]; exact List.nodup_range', ?_, ?_⟩, fun c hc => nomatch hc⟩
  · intro n hm
    have : n.rec'.id ∈ recs.map (·.id) := by rw [← hids]; exact List.mem_map.mpr ⟨n, hm, rfl⟩
    obtain ⟨r, hr, e⟩ := List.mem_map.mp this
    rw [← e]; exact hlt r hr
  · intro n hm
    have : n.obj ∈ List.range' 0 recs.length := by rw [← hobjs]; exact List.mem_map.mpr ⟨n, hm, rfl⟩
    rw [List.mem_range'] at this
    obtain ⟨i, hi, e⟩ := this
    rw [e]
    show 0 + 1 * i < recs.length
    omega

end Verif.Proof
