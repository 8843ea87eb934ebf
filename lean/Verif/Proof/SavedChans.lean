import Verif.Model.SavedChans
import Verif.Proof.GoMap
import Verif.Proof.Casemap
import Verif.Proof.MsgDb
import Verif.Proof.Util
import Verif.Props.DbRows

/-! # Lemmas about the saved channels -/

namespace Verif.Proof
open Verif.Model Verif.Spec Verif.Props

/-- The fields of a record that matter here. -/
def scView (c : ChanRec) : Nat × Str × Str × Bool := (c.id, c.name, c.key, c.detached)

theorem kept_eq (c : ChanRec) : ∃ d, keptChannel c = { c with detachAfter := d } := ⟨_, rfl⟩

theorem scView_kept (c : ChanRec) : scView (keptChannel c) = scView c := by
  obtain ⟨d, h⟩ := kept_eq c
  rw [h]
  unfold scView
  simp only

/-- Invariant: the memory and the table hold the same records, under names that differ for the mapping `cm` of
the server. -/
structure ScInv (cm : CaseMapping) (net : Nat) (st : ScState) : Prop where
  keys : ∀ p ∈ st.mem, p.1 = casemap st.cm p.2.name
  mapping : st.cm = .ascii ∨ st.cm = cm
  dist : (st.mem.map (fun p => casemap cm p.2.name)).Nodup
  same : (dbListChannels st.rows net).map scView = st.mem.map (fun p => scView p.2)
  ids : (st.rows.map (·.id)).Nodup
  nz : ∀ r ∈ st.rows, r.id ≠ 0
  uniq : channelUnique st.rows = true

theorem foldByte_ascii (cm : CaseMapping) (x : Byte) : foldByte cm (foldByte .ascii x) = foldByte cm x := by
  have e : foldByte .ascii x = if 65 ≤ x ∧ x ≤ 90 then x + 97 - 65 else x := rfl
  rw [e]
  by_cases h : 65 ≤ x ∧ x ≤ 90
  · rw [if_pos h]
    cases cm <;> simp only [foldByte, casemapASCIIByte, casemapRFC1459Byte, casemapRFC1459StrictByte] <;>
      rw [if_neg (by omega), if_pos h] <;>
      (repeat rw [if_neg (by omega)])
  · rw [if_neg h]

/-- Every mapping identifies the names the ASCII mapping identifies. -/
theorem casemap_ascii_refines (cm : CaseMapping) (a b : Str) (h : casemap .ascii a = casemap .ascii b) :
    casemap cm a = casemap cm b := by
  have key : ∀ s, casemap cm s = casemap cm (casemap .ascii s) := by
    intro s
    rw [casemap_eq_map, casemap_eq_map, casemap_eq_map, List.map_map]
    apply List.map_congr_left
    intro x _
    exact (foldByte_ascii cm x).symm
  rw [key a, key b, h]

theorem ScInv.refines {cm net st} (h : ScInv cm net st) (a b : Str) (he : casemap st.cm a = casemap st.cm b) :
    casemap cm a = casemap cm b := by
  rcases h.mapping with hm | hm
  · rw [hm] at he; exact casemap_ascii_refines cm a b he
  · rw [hm] at he; exact he

theorem nodup_map_of_imp {α β γ : Type} {l : List α} {f : α → β} {g : α → γ} (nd : (l.map f).Nodup)
    (h : ∀ a ∈ l, ∀ b ∈ l, g a = g b → f a = f b) : (l.map g).Nodup := by
  induction l with
  | nil => exact List.nodup_nil
  | cons a l ih =>
    rw [List.map_cons, List.nodup_cons] at nd ⊢
    refine ⟨?_, ih nd.2 (fun x hx y hy => h x (List.mem_cons_of_mem _ hx) y (List.mem_cons_of_mem _ hy))⟩
    intro hm
    obtain ⟨x, hx, he⟩ := List.mem_map.1 hm
    exact nd.1 (List.mem_map.2 ⟨x, hx, h x (List.mem_cons_of_mem _ hx) a (List.mem_cons_self ..) he⟩)

theorem ScInv.keysNodup {cm net st} (h : ScInv cm net st) : (st.mem.map (·.1)).Nodup := by
  refine nodup_map_of_imp h.dist ?_
  intro a ha b hb he
  rw [h.keys a ha, h.keys b hb] at he
  exact h.refines _ _ he

theorem ScInv.memIds {cm net st} (h : ScInv cm net st) : (st.mem.map (fun p => p.2.id)).Nodup := by
  have e : st.mem.map (fun p => p.2.id) = (st.rows.filter (fun r => decide (r.network = net))).map (·.id) := by
    have := congrArg (List.map Prod.fst) h.same
    rw [List.map_map, List.map_map] at this
    have e2 : st.mem.map (fun p => p.2.id) = st.mem.map (Prod.fst ∘ fun p => scView p.2) := rfl
    rw [e2, ← this]
    unfold dbListChannels
    rw [List.map_map]
    rfl
  rw [e]
  exact List.Nodup.sublist (List.Sublist.map _ List.filter_sublist) h.ids

/-- A record in memory has a row in the table. -/
theorem ScInv.row {cm net st} (h : ScInv cm net st) {p} (hp : p ∈ st.mem) :
    ∃ r ∈ st.rows, r.network = net ∧ r.id = p.2.id ∧ r.name = p.2.name := by
  have : scView p.2 ∈ (dbListChannels st.rows net).map scView := by
    rw [h.same]; exact List.mem_map.2 ⟨p, hp, rfl⟩
  obtain ⟨c, hc, he⟩ := List.mem_map.1 this
  unfold dbListChannels at hc
  obtain ⟨r, hr, rfl⟩ := List.mem_map.1 hc
  obtain ⟨hr1, hr2⟩ := List.mem_filter.1 hr
  simp only [scView, channelOfRow, Prod.mk.injEq] at he
  exact ⟨r, hr1, of_decide_eq_true hr2, he.1, he.2.1⟩

/-- A row of the network is in memory. -/
theorem ScInv.entry {cm net st} (h : ScInv cm net st) {r} (hr : r ∈ st.rows) (hn : r.network = net) :
    ∃ p ∈ st.mem, p.2.id = r.id ∧ p.2.name = r.name := by
  have : scView (channelOfRow r) ∈ st.mem.map (fun p => scView p.2) := by
    rw [← h.same]
    refine List.mem_map.2 ⟨_, ?_, rfl⟩
    exact List.mem_map.2 ⟨r, List.mem_filter.2 ⟨hr, decide_eq_true hn⟩, rfl⟩
  obtain ⟨p, hp, he⟩ := List.mem_map.1 this
  simp only [scView, channelOfRow, Prod.mk.injEq] at he
  exact ⟨p, hp, he.1, he.2.1⟩

theorem mset_map_snd {V β : Type} {m : GoMap Str V} (nd : (m.map (·.1)).Nodup) {k : Str} {old : V}
    (hg : GoMap.get m k = some old) (c : V) (f : V → β) :
    (GoMap.set m k c).map (fun p => f p.2) = m.map (fun p => if p.1 = k then f c else f p.2) := by
  induction m with
  | nil => cases hg
  | cons p m ih =>
    obtain ⟨k', v⟩ := p
    simp only [GoMap.get] at hg
    simp only [GoMap.set, List.map_cons]
    rw [List.map_cons, List.nodup_cons] at nd
    by_cases hk : k' = k
    · subst hk
      rw [if_pos rfl, if_pos rfl]
      simp only [List.map_cons]
      congr 1
      apply List.map_congr_left
      intro q hq
      rw [if_neg]
      intro he
      exact nd.1 (List.mem_map.2 ⟨q, hq, he⟩)
    · rw [if_neg hk] at hg
      rw [if_neg hk, if_neg hk]
      simp only [List.map_cons]
      rw [ih nd.2 hg]

theorem channelUnique_iff (rows : List ChannelRow) :
    channelUnique rows = true ↔
      ∀ a ∈ rows, ∀ b ∈ rows, a.network = b.network → a.name = b.name → a.id = b.id := by
  unfold channelUnique
  rw [List.all_eq_true]
  constructor
  · intro h a ha b hb h1 h2
    have := h a ha
    rw [List.all_eq_true] at this
    have := this b hb
    simp only [Bool.or_eq_true, decide_eq_true_eq] at this
    rcases this with (h3 | h3) | h3
    · exact h3
    · exact absurd h1 h3
    · exact absurd h2 h3
  · intro h a ha
    rw [List.all_eq_true]
    intro b hb
    have := h a ha b hb
    simp only [Bool.or_eq_true, decide_eq_true_eq]
    by_cases h1 : a.network = b.network
    · by_cases h2 : a.name = b.name
      · exact .inl (.inl (this h1 h2))
      · exact .inr h2
    · exact .inl (.inr h1)

/-- Saving a record that is in memory again. -/
theorem scPut_old {cm net st} (h : ScInv cm net st) {k : Str} {old c : ChanRec}
    (hg : GoMap.get st.mem k = some old) (hid : c.id = old.id) (hn : c.name = old.name) :
    ScInv cm net (scPut net st k c) ∧ (scPut net st k c).mem = GoMap.set st.mem k c ∧
      (scPut net st k c).cm = st.cm ∧ (scPut net st k c).conn = st.conn := by
  have hmem := mget_some_mem hg
  have hk : k = casemap st.cm old.name := h.keys _ hmem
  obtain ⟨r, hr, hr1, hr2, hr3⟩ := h.row hmem
  have hc0 : c.id ≠ 0 := by rw [hid]; intro e; exact h.nz r hr (hr2.trans e)
  have hrow : ∀ row ∈ st.rows, row.id = c.id → row = r := by
    intro row hrow he
    exact eq_of_nodup_map h.ids hrow hr (by rw [he, hr2, hid])
  have hu : channelUnique (st.rows.map (fun o => if o.id = c.id then channelColumns net c else o)) = true := by
    rw [channelUnique_iff]
    have hu0 := (channelUnique_iff _).1 h.uniq
    have key : ∀ o ∈ st.rows, (if o.id = c.id then channelColumns net c else o).id = o.id ∧
        (if o.id = c.id then channelColumns net c else o).network = o.network ∧
        (if o.id = c.id then channelColumns net c else o).name = o.name := by
      intro o ho
      split
      · rename_i he
        have := hrow o ho he
        subst this
        exact ⟨he.symm, hr1.symm, by rw [hr3]; exact hn⟩
      · exact ⟨rfl, rfl, rfl⟩
    intro a ha b hb h1 h2
    obtain ⟨a', ha', rfl⟩ := List.mem_map.1 ha
    obtain ⟨b', hb', rfl⟩ := List.mem_map.1 hb
    obtain ⟨ka1, ka2, ka3⟩ := key a' ha'
    obtain ⟨kb1, kb2, kb3⟩ := key b' hb'
    rw [ka2, kb2] at h1
    rw [ka3, kb3] at h2
    rw [ka1, kb1]
    exact hu0 a' ha' b' hb' h1 h2
  have hs : dbStoreChannel st.rows net c =
      some (st.rows.map (fun o => if o.id = c.id then channelColumns net c else o), c.id) := by
    unfold dbStoreChannel
    rw [if_pos hc0]
    simp only
    rw [if_pos hu]
  have hp : scPut net st k c = { st with
      mem := GoMap.set st.mem k c
      rows := st.rows.map (fun o => if o.id = c.id then channelColumns net c else o) } := by
    unfold scPut
    rw [hs]
  have hlist := (C63_update st.rows _ net c.id c hc0
    (fun row hrw he => by rw [hrow row hrw he]; exact hr1) hs).2 net
  rw [hp]
  refine ⟨⟨?_, h.mapping, ?_, ?_, ?_, ?_, hu⟩, rfl, rfl, rfl⟩
  · intro p hp
    rcases mem_mset hp with rfl | hp
    · show k = casemap st.cm c.name
      rw [hk, hn]
    · exact h.keys p hp
  · show ((GoMap.set st.mem k c).map (fun p => casemap cm p.2.name)).Nodup
    rw [mset_map_snd h.keysNodup hg c (fun v => casemap cm v.name)]
    have : st.mem.map (fun p => if p.1 = k then casemap cm c.name else casemap cm p.2.name) =
        st.mem.map (fun p => casemap cm p.2.name) := by
      apply List.map_congr_left
      intro p hp
      split
      · rename_i he
        have : p = (k, old) := eq_of_nodup_map h.keysNodup hp hmem he
        rw [this, hn]
      · rfl
    rw [this]
    exact h.dist
  · show (dbListChannels (st.rows.map (fun o => if o.id = c.id then channelColumns net c else o)) net).map scView =
      (GoMap.set st.mem k c).map (fun p => scView p.2)
    rw [hlist, List.map_map, mset_map_snd h.keysNodup hg c scView]
    have e1 : (dbListChannels st.rows net).map (scView ∘ fun x => if x.id = c.id then keptChannel c else x) =
        ((dbListChannels st.rows net).map scView).map (fun v => if v.1 = c.id then scView c else v) := by
      rw [List.map_map]
      apply List.map_congr_left
      intro x _
      simp only [Function.comp]
      by_cases hx : x.id = c.id
      · rw [if_pos hx]
        show _ = if x.id = c.id then scView c else scView x
        rw [if_pos hx]; exact scView_kept c
      · rw [if_neg hx]
        show _ = if x.id = c.id then scView c else scView x
        rw [if_neg hx]
    rw [e1, h.same, List.map_map]
    apply List.map_congr_left
    intro p hp
    simp only [Function.comp]
    by_cases he : p.1 = k
    · have : p = (k, old) := eq_of_nodup_map h.keysNodup hp hmem he
      rw [if_pos he, if_pos]
      rw [this]
      exact hid.symm
    · rw [if_neg he, if_neg]
      intro he2
      have : p = (k, old) := eq_of_nodup_map h.memIds hp hmem (he2.trans hid)
      rw [this] at he
      exact he rfl
  · show ((st.rows.map (fun o => if o.id = c.id then channelColumns net c else o)).map (·.id)).Nodup
    rw [List.map_map]
    have : st.rows.map ((·.id) ∘ fun o => if o.id = c.id then channelColumns net c else o) = st.rows.map (·.id) := by
      apply List.map_congr_left
      intro o _
      simp only [Function.comp]
      split
      · rename_i he; exact he.symm
      · rfl
    rw [this]
    exact h.ids
  · intro r' hr'
    obtain ⟨o, ho, rfl⟩ := List.mem_map.1 hr'
    split
    · exact hc0
    · exact h.nz o ho

/-- Saving a record that is new. -/
theorem scPut_new {cm net st} (h : ScInv cm net st) (hcm : st.cm = cm) {c : ChanRec}
    (hg : GoMap.get st.mem (casemap st.cm c.name) = none) (h0 : c.id = 0) :
    ScInv cm net (scPut net st (casemap st.cm c.name) c) ∧
      (∃ id, (scPut net st (casemap st.cm c.name) c).mem =
        GoMap.set st.mem (casemap st.cm c.name) { c with id := id }) ∧
      (scPut net st (casemap st.cm c.name) c).cm = st.cm ∧
      (scPut net st (casemap st.cm c.name) c).conn = st.conn := by
  have habs := mget_none_iff.1 hg
  obtain ⟨id, hidE⟩ : ∃ id, id = nextRowId (st.rows.map (·.id)) := ⟨_, rfl⟩
  obtain ⟨row, hrowE⟩ : ∃ row : ChannelRow, row = { channelColumns net c with id := id } := ⟨_, rfl⟩
  have hrow1 : row.network = net := by rw [hrowE]; rfl
  have hrow2 : row.name = c.name := by rw [hrowE]; rfl
  have hrow3 : row.id = id := by rw [hrowE]
  have hu : channelUnique (st.rows ++ [row]) = true := by
    rw [channelUnique_iff]
    have hu0 := (channelUnique_iff _).1 h.uniq
    have key : ∀ a ∈ st.rows, a.network = net → a.name = c.name → False := by
      intro a ha h1 h2
      obtain ⟨p, hp, _, hp2⟩ := h.entry ha h1
      refine habs (List.mem_map.2 ⟨p, hp, ?_⟩)
      show p.1 = _
      rw [h.keys p hp, hp2, h2]
    intro a ha b hb h1 h2
    rcases List.mem_append.1 ha with ha | ha <;> rcases List.mem_append.1 hb with hb | hb
    · exact hu0 a ha b hb h1 h2
    · rw [List.mem_singleton] at hb
      rw [hb] at h1 h2
      exact (key a ha (h1.trans hrow1) (h2.trans hrow2)).elim
    · rw [List.mem_singleton] at ha
      rw [ha] at h1 h2
      exact (key b hb (h1.symm.trans hrow1) (h2.symm.trans hrow2)).elim
    · rw [List.mem_singleton] at ha hb
      rw [ha, hb]
  have hs : dbStoreChannel st.rows net c = some (st.rows ++ [row], id) := by
    unfold dbStoreChannel
    rw [if_neg (fun hne => hne h0)]
    simp only
    rw [← hidE, ← hrowE, if_pos hu]
  have hp : scPut net st (casemap st.cm c.name) c = { st with
      mem := GoMap.set st.mem (casemap st.cm c.name) { c with id := id }
      rows := st.rows ++ [row] } := by
    unfold scPut
    rw [hs]
  obtain ⟨hl1, hl2, hl3, _⟩ := C63_insert st.rows _ net id c h0 hs
  rw [hp]
  refine ⟨⟨?_, h.mapping, ?_, ?_, ?_, ?_, hu⟩, ⟨id, rfl⟩, rfl, rfl⟩
  · intro p hp
    rcases mem_mset hp with rfl | hp
    · rfl
    · exact h.keys p hp
  · show ((GoMap.set st.mem (casemap st.cm c.name) { c with id := id }).map (fun p => casemap cm p.2.name)).Nodup
    rw [mset_of_absent habs, List.map_append, List.nodup_append]
    refine ⟨h.dist, by simp, ?_⟩
    intro a ha b hb hab
    obtain ⟨p, hp, rfl⟩ := List.mem_map.1 ha
    simp only [List.map_cons, List.map_nil, List.mem_singleton] at hb
    refine habs (List.mem_map.2 ⟨p, hp, ?_⟩)
    show p.1 = _
    rw [h.keys p hp, hcm, hab, hb]
  · show (dbListChannels (st.rows ++ [row]) net).map scView =
      (GoMap.set st.mem (casemap st.cm c.name) { c with id := id }).map (fun p => scView p.2)
    rw [hl3, mset_of_absent habs, List.map_append, List.map_append, h.same]
    simp only [List.map_cons, List.map_nil, scView_kept]
  · show ((st.rows ++ [row]).map (·.id)).Nodup
    rw [List.map_append, List.nodup_append]
    refine ⟨h.ids, by simp, ?_⟩
    intro a ha b hb hab
    obtain ⟨o, ho, rfl⟩ := List.mem_map.1 ha
    simp only [List.map_cons, List.map_nil, List.mem_singleton] at hb
    exact hl2 o ho (hab.trans (hb.trans hrow3))
  · intro r hr
    rcases List.mem_append.1 hr with hr | hr
    · exact h.nz r hr
    · rw [List.mem_singleton] at hr
      rw [hr, hrow3]
      exact hl1

theorem scFill_eq (cm : CaseMapping) (l : List ChanRec) (nd : (l.map (fun c => casemap cm c.name)).Nodup) :
    scFill cm l = l.map (fun c => (casemap cm c.name, c)) := by
  unfold scFill
  have gen : ∀ (l : List ChanRec) (acc : GoMap Str ChanRec),
      (acc.map (·.1) ++ l.map (fun c => casemap cm c.name)).Nodup →
      l.foldl (fun m c => GoMap.set m (casemap cm c.name) c) acc = acc ++ l.map (fun c => (casemap cm c.name, c)) := by
    intro l
    induction l with
    | nil => intro acc _; simp
    | cons c l ih =>
      intro acc hnd
      rw [List.foldl_cons, mset_of_absent]
      · rw [ih]
        · simp
        · rw [List.map_append]
          simpa using hnd
      · intro hm
        rw [List.nodup_append] at hnd
        exact hnd.2.2 _ hm _ (List.mem_cons_self ..) rfl
  have := gen l [] (by simpa using nd)
  simpa using this

/-- Deleting. -/
theorem scDelete_inv {cm net st} (h : ScInv cm net st) (name : Str) :
    ScInv cm net (scDelete st name) ∧ (scDelete st name).mem = GoMap.del st.mem (casemap st.cm name) ∧
      (scDelete st name).cm = st.cm ∧ (scDelete st name).conn = st.conn := by
  unfold scDelete
  cases hg : GoMap.get st.mem (casemap st.cm name) with
  | none =>
    refine ⟨h, ?_, rfl, rfl⟩
    show st.mem = _
    unfold GoMap.del
    symm
    rw [List.filter_eq_self]
    intro p hp
    apply decide_eq_true
    intro he
    exact mget_none_iff.1 hg (List.mem_map.2 ⟨p, hp, he⟩)
  | some ch =>
    have hmem := mget_some_mem hg
    dsimp only
    refine ⟨⟨?_, h.mapping, ?_, ?_, ?_, ?_, ?_⟩, rfl, rfl, rfl⟩
    · intro p hp
      exact h.keys p (List.mem_filter.1 hp).1
    · exact List.Nodup.sublist (List.Sublist.map _ List.filter_sublist) h.dist
    · show (dbListChannels (dbDeleteChannel st.rows ch.id) net).map scView =
        (GoMap.del st.mem (casemap st.cm name)).map (fun p => scView p.2)
      rw [C63_delete]
      have e1 : ((dbListChannels st.rows net).filter (fun c => decide (c.id ≠ ch.id))).map scView =
          ((dbListChannels st.rows net).map scView).filter (fun v => decide (v.1 ≠ ch.id)) := by
        rw [List.filter_map]; rfl
      rw [e1, h.same, List.filter_map]
      unfold GoMap.del
      congr 1
      apply List.filter_congr
      intro p hp
      simp only [Function.comp, scView]
      congr 1
      apply propext
      constructor
      · intro hne he
        have : p = (casemap st.cm name, ch) := eq_of_nodup_map h.keysNodup hp hmem he
        rw [this] at hne
        exact hne rfl
      · intro hne he
        have : p = (casemap st.cm name, ch) := eq_of_nodup_map h.memIds hp hmem he
        rw [this] at hne
        exact hne rfl
    · exact List.Nodup.sublist (List.Sublist.map _ List.filter_sublist) h.ids
    · intro r hr
      exact h.nz r (List.mem_filter.1 hr).1
    · rw [channelUnique_iff]
      intro a ha b hb
      exact (channelUnique_iff _).1 h.uniq a (List.mem_filter.1 ha).1 b (List.mem_filter.1 hb).1

/-- Filling the map again with the records of the memory. -/
theorem scFill_inv {cm net st} (h : ScInv cm net st) (cm' : CaseMapping) (hcm : cm' = .ascii ∨ cm' = cm) (b : Bool) :
    ScInv cm net { st with cm := cm', mem := scFill cm' (st.mem.map (·.2)), conn := b } ∧
    (scFill cm' (st.mem.map (·.2))).map (·.2) = st.mem.map (·.2) := by
  have hnd : ((st.mem.map (·.2)).map (fun c => casemap cm' c.name)).Nodup := by
    rw [List.map_map]
    refine nodup_map_of_imp h.dist ?_
    intro a _ b _ he
    rcases hcm with rfl | rfl
    · exact casemap_ascii_refines cm _ _ he
    · exact he
  have e := scFill_eq cm' (st.mem.map (·.2)) hnd
  have e2 : (scFill cm' (st.mem.map (·.2))).map (·.2) = st.mem.map (·.2) := by
    rw [e, List.map_map]
    exact List.map_id _
  have emap : ∀ {β : Type} (f : ChanRec → β), (scFill cm' (st.mem.map (·.2))).map (fun p => f p.2) =
      st.mem.map (fun p => f p.2) := by
    intro β f
    have := congrArg (List.map f) e2
    rw [List.map_map, List.map_map] at this
    exact this
  refine ⟨⟨?_, hcm, ?_, ?_, h.ids, h.nz, h.uniq⟩, e2⟩
  · intro p hp
    have hp : p ∈ scFill cm' (st.mem.map (·.2)) := hp
    rw [e] at hp
    obtain ⟨c, _, rfl⟩ := List.mem_map.1 hp
    rfl
  · show ((scFill cm' (st.mem.map (·.2))).map (fun p => casemap cm p.2.name)).Nodup
    rw [emap (fun c => casemap cm c.name)]
    exact h.dist
  · show _ = (scFill cm' (st.mem.map (·.2))).map (fun p => scView p.2)
    rw [emap scView]
    exact h.same

/-- Reading the table again. -/
theorem scLoad_inv {cm net st} (h : ScInv cm net st) :
    ScInv cm net (scLoad net st.rows) ∧
    (scLoad net st.rows).mem.map (fun p => scView p.2) = st.mem.map (fun p => scView p.2) := by
  have names : ∀ {β : Type} (f : Str → β),
      (dbListChannels st.rows net).map (fun c => f c.name) = st.mem.map (fun p => f p.2.name) := by
    intro β f
    have := congrArg (List.map (fun v => f v.2.1)) h.same
    rw [List.map_map, List.map_map] at this
    exact this
  have hd : ((dbListChannels st.rows net).map (fun c => casemap cm c.name)).Nodup := by
    rw [names (casemap cm)]; exact h.dist
  have hnd : ((dbListChannels st.rows net).map (fun c => casemap .ascii c.name)).Nodup := by
    refine nodup_map_of_imp hd ?_
    intro a _ b _ he
    exact casemap_ascii_refines cm _ _ he
  have e := scFill_eq .ascii _ hnd
  have e2 : (scFill .ascii (dbListChannels st.rows net)).map (fun p => scView p.2) =
      (dbListChannels st.rows net).map scView := by
    rw [e, List.map_map]; rfl
  refine ⟨⟨?_, .inl rfl, ?_, ?_, h.ids, h.nz, h.uniq⟩, ?_⟩
  · intro p hp
    have hp : p ∈ scFill .ascii (dbListChannels st.rows net) := hp
    rw [e] at hp
    obtain ⟨c, _, rfl⟩ := List.mem_map.1 hp
    rfl
  · show ((scFill .ascii (dbListChannels st.rows net)).map (fun p => casemap cm p.2.name)).Nodup
    rw [e, List.map_map]
    exact hd
  · exact e2.symm
  · show (scFill .ascii (dbListChannels st.rows net)).map (fun p => scView p.2) = _
    rw [e2]
    exact h.same

end Verif.Proof
