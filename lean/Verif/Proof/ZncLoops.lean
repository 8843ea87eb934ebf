import Verif.Proof.ZncImport

/-! # Lemmas about the loops of the import of ZNC configurations -/

namespace Verif.Proof
open Verif.Model Verif.Spec Verif.Props

/-- The channels of a network after the import of its section. -/
def ChansDone (t : ZncSection) (before after : Str → Option ChanRec) : Prop :=
  (∀ s ∈ zncEach t b!"Chan", zncGet s.values b!"Disabled" ≠ b!"true" → ChanMerged s (before s.name) (after s.name)) ∧
  ∀ z, (∀ s ∈ zncEach t b!"Chan", zncGet s.values b!"Disabled" ≠ b!"true" → s.name ≠ z) → after z = before z

theorem vC_some {k : PdKept} {db : SqDb} (h : SqRel k db) {n : Nat} {z : Str} {o : ChanRec} (ho : vC db n z = some o) :
    o.name = z ∧ o.detachAfter % 1000000000 = 0 := by
  have h1 : o.name = z := by
    have := List.find?_some (p := fun c : ChanRec => decide (c.name = z)) ho
    exact of_decide_eq_true this
  refine ⟨h1, ?_⟩
  rw [vC_find h] at ho
  obtain ⟨p, -, rfl⟩ := Option.map_eq_some_iff.1 ho
  exact keptChannel_whole p.2

theorem chan_names {k : PdKept} {db : SqDb} (h : SqRel k db) (n : Nat) : ((sqListChannels db n).map (·.name)).Nodup := by
  rw [list_channels h, List.map_map]
  have hk := keys_of_chans h
  generalize k.channels = l at hk
  induction l with
  | nil => exact List.nodup_nil
  | cons a l ih =>
    rw [List.map_cons, List.nodup_cons] at hk
    by_cases ha : a.1 = n
    · rw [List.filter_cons_of_pos (by simp [ha]), List.map_cons, List.nodup_cons]
      refine ⟨?_, ih hk.2⟩
      intro hm
      obtain ⟨b, hb, e⟩ := List.mem_map.1 hm
      have hb1 := (List.mem_filter.1 hb)
      refine hk.1 (List.mem_map.2 ⟨b, hb1.1, ?_⟩)
      rw [Function.comp_apply, Function.comp_apply, keptChannel_name, keptChannel_name] at e
      simp only [Prod.mk.injEq]
      exact ⟨(of_decide_eq_true hb1.2).trans ha.symm, e⟩
    · rw [List.filter_cons_of_neg (by simpa using ha)]
      exact ih hk.2

theorem chans_loop (n : Nat) (existing : List ChanRec) (l : List ZncSection) : ∀ (k : PdKept) (db : SqDb), ZGood k db →
    PdNet k n → (l.map (·.name)).Nodup → (∀ s ∈ l, zncLookup (·.name) existing s.name = vC db n s.name) →
    ∃ k', ZGood k' (zncChannels n existing l db) ∧ k'.users = k.users ∧ k'.networks = k.networks ∧
      (∀ s ∈ l, zncGet s.values b!"Disabled" ≠ b!"true" →
        ChanMerged s (vC db n s.name) (vC (zncChannels n existing l db) n s.name)) ∧
      ∀ n' z', (n' = n → ∀ s ∈ l, zncGet s.values b!"Disabled" ≠ b!"true" → s.name ≠ z') →
        vC (zncChannels n existing l db) n' z' = vC db n' z' := by
  induction l with
  | nil =>
    intro k db g _ _ _
    exact ⟨k, g, rfl, rfl, fun s hs => (nomatch hs), fun _ _ _ => rfl⟩
  | cons s l ih =>
    intro k db g hn hnd hlook
    rw [List.map_cons, List.nodup_cons] at hnd
    have hne : ∀ s' ∈ l, s'.name ≠ s.name := fun s' hs' e => hnd.1 (by rw [← e]; exact List.mem_map_of_mem hs')
    rw [zncChannels]
    by_cases hd : zncGet s.values b!"Disabled" = b!"true"
    · rw [if_pos hd]
      obtain ⟨k', g', hu, hnn, h1, h2⟩ := ih k db g hn hnd.2 (fun s' hs' => hlook s' (by simp [hs']))
      refine ⟨k', g', hu, hnn, ?_, ?_⟩
      · intro s' hs' hd'
        rcases List.mem_cons.1 hs' with rfl | hs'
        · exact absurd hd hd'
        · exact h1 s' hs' hd'
      · intro n' z' h
        exact h2 n' z' (fun e s' hs' => h e s' (by simp [hs']))
    · rw [if_neg hd]
      have hl := hlook s (by simp)
      have hcn : (zncChanRec existing s).name = s.name := by
        unfold zncChanRec
        rw [hl]
        cases ho : vC db n s.name with
        | none => rfl
        | some o => exact (vC_some g.rel ho).1
      have hcid : (zncChanRec existing s).id = ((vC db n s.name).map (·.id)).getD 0 := by
        unfold zncChanRec
        rw [hl]
        cases vC db n s.name <;> rfl
      have hcd : (zncChanRec existing s).detachAfter = ((vC db n s.name).map (·.detachAfter)).getD 0 := by
        unfold zncChanRec
        rw [hl]
        cases vC db n s.name <;> rfl
      obtain ⟨k1, g1, hu1, hn1, ⟨i, hi, hio⟩, hf⟩ := chan_store g n hn (zncChanRec existing s)
        (by rw [hcn]; intro o ho; rw [hcid, ho]; rfl) (by rw [hcn]; intro ho; rw [hcid, ho]; rfl)
      rw [hcn] at hi hio hf
      obtain ⟨k', g', hu, hnn, h1, h2⟩ := ih k1 _ g1 (by unfold PdNet at hn ⊢; rw [hn1]; exact hn) hnd.2 (by
        intro s' hs'
        rw [hlook s' (by simp [hs']), hf n s'.name]
        simpa using hne s' hs')
      refine ⟨k', g', hu.trans hu1, hnn.trans hn1, ?_, ?_⟩
      · intro s' hs' hd'
        rcases List.mem_cons.1 hs' with rfl | hs'
        · rw [h2 n s'.name (fun _ t ht _ => hne t ht), hi]
          refine ⟨i, ?_, hio⟩
          rw [keptChannel_fixed]
          · unfold zncChanRec
            rw [hl]
            cases ho : vC db n s'.name with
            | none => rfl
            | some o => simp only [Option.getD_some, (vC_some g.rel ho).1]
          · change (zncChanRec existing s').detachAfter % 1000000000 = 0
            rw [hcd]
            cases ho : vC db n s'.name with
            | none => rfl
            | some o => exact (vC_some g.rel ho).2
        · rw [← hf n s'.name (by simpa using hne s' hs')]
          exact h1 s' hs' hd'
      · intro n' z' h
        rw [h2 n' z' (fun e s' hs' => h e s' (by simp [hs'])), hf n' z']
        intro e
        simp only [Prod.mk.injEq] at e
        exact h e.1 s (by simp) hd e.2.symm

/-! ## Networks -/

theorem vN_some {k : PdKept} {db : SqDb} (g : ZGood k db) {u : Nat} {y : Str} {o : NetRec} (ho : vN db u y = some o) :
    o.getName = y ∧ keptNetwork o = o ∧ CommandsOK o.connectCommands ∧ ∃ p ∈ k.networks, p.1 = u ∧ p.2.id = o.id := by
  have h1 : o.getName = y := by
    have := List.find?_some (p := fun n : NetRec => decide (n.getName = y)) ho
    exact of_decide_eq_true this
  rw [vN_find g] at ho
  obtain ⟨p, hp, rfl⟩ := Option.map_eq_some_iff.1 ho
  have hm := List.mem_of_find?_eq_some hp
  have hk := of_decide_eq_true (List.find?_some (p := fun p : Nat × NetRec => decide ((p.1, p.2.getName) = (u, y))) hp)
  simp only [Prod.mk.injEq] at hk
  refine ⟨h1, ?_, g.cmds p hm, p, hm, hk.1, rfl⟩
  unfold keptNetwork
  by_cases h : p.2.sasl.mechanism = b!"PLAIN" <;> simp [h]

theorem net_names {k : PdKept} {db : SqDb} (g : ZGood k db) (u : Nat) : ((sqListNetworks db u).map NetRec.getName).Nodup := by
  rw [list_networks g, List.map_map]
  have hk := g.keys
  generalize k.networks = l at hk
  induction l with
  | nil => exact List.nodup_nil
  | cons a l ih =>
    rw [List.map_cons, List.nodup_cons] at hk
    by_cases ha : a.1 = u
    · rw [List.filter_cons_of_pos (by simp [ha]), List.map_cons, List.nodup_cons]
      refine ⟨?_, ih hk.2⟩
      intro hm
      obtain ⟨b, hb, e⟩ := List.mem_map.1 hm
      have hb1 := (List.mem_filter.1 hb)
      refine hk.1 (List.mem_map.2 ⟨b, hb1.1, ?_⟩)
      rw [Function.comp_apply, Function.comp_apply, keptNetwork_name, keptNetwork_name] at e
      simp only [Prod.mk.injEq]
      exact ⟨(of_decide_eq_true hb1.2).trans ha.symm, e⟩
    · rw [List.filter_cons_of_neg (by simpa using ha)]
      exact ih hk.2

theorem store_net_id {db : SqDb} {u : Nat} {r : NetRec} {i : Nat} (h0 : r.id ≠ 0) (h : (sqStoreNetwork db u r).2 = some i) :
    i = r.id := by
  unfold sqStoreNetwork dbStoreNetwork at h
  cases hc : networkColumns u r with
  | none => rw [hc] at h; cases h
  | some row =>
    rw [hc] at h
    dsimp only at h
    rw [if_pos h0] at h
    split at h
    · cases h
    · rename_i rows id he
      split at he
      · simp only [Option.some.injEq, Prod.mk.injEq] at he
        rw [← he.2] at h
        unfold sqCommit at h
        split at h
        · simpa using h.symm
        · cases h
      · cases he

theorem keys_unique {k : PdKept} (h : (k.networks.map (fun p => (p.1, p.2.getName))).Nodup) :
    ∀ p ∈ k.networks, ∀ q ∈ k.networks, p.1 = q.1 → p.2.getName = q.2.getName → p = q := by
  intro p hp q hq h1 h2
  exact eq_of_nodup_map h hp hq (by simp [h1, h2])

/-- Storing a network that was found by its name, or was not found. -/
theorem net_store {k : PdKept} {db : SqDb} (g : ZGood k db) (u : Nat) (r : NetRec) (y : Str)
    (hy : r.getName = y) (hc : CommandsOK r.connectCommands)
    (hsome : ∀ o, vN db u y = some o → r.id = o.id) (hnone : vN db u y = none → r.id = 0) (i : Nat)
    (hres : (sqStoreNetwork db u r).2 = some i) :
    ∃ k', ZGood k' (sqStoreNetwork db u r).1 ∧ k'.users = k.users ∧ k'.channels = k.channels ∧ PdNet k' i ∧
      vN (sqStoreNetwork db u r).1 u y = some (keptNetwork { r with id := i }) ∧
      (∀ o, vN db u y = some o → i = o.id) ∧ (vN db u y = none → ∀ z, vC db i z = none) ∧
      (∀ u' y', (u', y') ≠ (u, y) → vN (sqStoreNetwork db u r).1 u' y' = vN db u' y') ∧
      ∀ u' y' n, (u', y') ≠ (u, y) → vN (sqStoreNetwork db u r).1 u' y' = some n → n.id ≠ i := by
  have hs := sq_step k db g.rel (.storeNetwork u r)
  unfold SqGood at hs
  obtain ⟨hrel, -⟩ := hs
  change SqRel (sqKeep k (.storeNetwork u r, (sqStoreNetwork db u r).2)) (sqStoreNetwork db u r).1 at hrel
  rw [hres] at hrel
  have hsplit := vN_find g u y
  -- the identifiers of other networks
  have other : ∀ (k' : PdKept), ZGood k' (sqStoreNetwork db u r).1 → (∃ p ∈ k'.networks, p.2.id = i ∧ p.1 = u ∧ p.2.getName = y) →
      ∀ u' y' n, (u', y') ≠ (u, y) → vN (sqStoreNetwork db u r).1 u' y' = some n → n.id ≠ i := by
    rintro k' g' ⟨p, hp, hpi, hpu, hpy⟩ u' y' n hne hv he
    rw [vN_find g'] at hv
    obtain ⟨q, hq, rfl⟩ := Option.map_eq_some_iff.1 hv
    have hqm := List.mem_of_find?_eq_some hq
    have hqk := of_decide_eq_true (List.find?_some (p := fun p : Nat × NetRec => decide ((p.1, p.2.getName) = (u', y'))) hq)
    have : q = p := eq_of_nodup_map g'.rel.idN hqm hp (by rw [hpi]; exact he)
    rw [this, hpu, hpy] at hqk
    exact hne hqk.symm
  cases hf : k.networks.find? (fun p => decide ((p.1, p.2.getName) = (u, y))) with
  | none =>
    rw [hf] at hsplit
    have h0 : r.id = 0 := hnone hsplit
    have hno : ∀ p ∈ k.networks, p.1 = u → p.2.getName ≠ y := by
      intro p hp h1 h2
      have := List.find?_eq_none.1 hf p hp
      simp [h1, h2] at this
    simp only [sqKeep, pdKeep, if_pos h0] at hrel
    have gn : ({ r with id := i } : NetRec).getName = y := hy
    have g' : ZGood { k with networks := k.networks ++ [(u, { r with id := i })] } (sqStoreNetwork db u r).1 := by
      refine ⟨hrel, g.times, ?_, ?_⟩
      · intro p hp
        rcases List.mem_append.1 hp with hp | hp
        · exact g.cmds p hp
        · rw [List.mem_singleton.1 hp]; exact hc
      · rw [List.map_append, List.nodup_append]
        refine ⟨g.keys, by simp, ?_⟩
        rintro a ha b hb rfl
        obtain ⟨p, hp, he⟩ := List.mem_map.1 ha
        simp only [List.map_cons, List.map_nil, List.mem_singleton] at hb
        rw [hb] at he
        simp only [Prod.mk.injEq] at he
        exact hno p hp he.1 (he.2.trans gn)
    refine ⟨_, g', rfl, rfl, ⟨(u, { r with id := i }), by simp, rfl⟩, ?_, ?_, ?_, ?_, ?_⟩
    · rw [vN_find g']
      simp only
      rw [find_none_append, hf, if_pos (by simpa using gn)]
      rfl
    · rw [hsplit]; exact nofun
    · intro _ z
      rw [vC_find g.rel, Option.map_eq_none_iff, List.find?_eq_none]
      intro p hp hk
      have hk := of_decide_eq_true hk
      simp only [Prod.mk.injEq] at hk
      obtain ⟨q, hq, hqi⟩ := g.rel.base.fkC p hp
      have hnd := hrel.idN
      simp only at hnd
      rw [List.map_append, List.nodup_append] at hnd
      exact hnd.2.2 q.2.id (List.mem_map_of_mem hq) i (by simp) (hqi.trans hk.1)
    · intro u' y' hne
      rw [vN_find g', vN_find g]
      simp only
      rw [find_none_append, if_neg]
      · cases k.networks.find? _ <;> rfl
      · rw [gn]
        simpa using fun h1 h2 => hne (by rw [h1, h2])
    · exact other _ g' ⟨(u, { r with id := i }), by simp, rfl, rfl, gn⟩
  | some p =>
    rw [hf] at hsplit
    simp only [Option.map_some] at hsplit
    have hid : r.id = p.2.id := (hsome _ hsplit).trans (keptNetwork_id p.2)
    have hp : p ∈ k.networks := List.mem_of_find?_eq_some hf
    have hpk := of_decide_eq_true (List.find?_some (p := fun p : Nat × NetRec => decide ((p.1, p.2.getName) = (u, y))) hf)
    simp only [Prod.mk.injEq] at hpk
    have hpos : r.id ≠ 0 := by rw [hid]; exact Nat.ne_of_gt (g.rel.base.nPos p hp).1
    have hi : i = r.id := store_net_id hpos hres
    simp only [sqKeep, pdKeep, if_neg hpos] at hrel
    have hmap : k.networks.map (fun q => if q.2.id = r.id then (q.1, r) else q) =
        k.networks.map (fun q => if q.2.id = p.2.id then (u, r) else q) := by
      apply List.map_congr_left
      intro q hq
      rw [hid]
      by_cases h : q.2.id = p.2.id
      · rw [if_pos h, if_pos h]
        have : q = p := eq_of_nodup_map g.rel.idN hq hp h
        rw [this, hpk.1]
      · rw [if_neg h, if_neg h]
    rw [hmap] at hrel
    have hr := find_replace (fun p : Nat × NetRec => (p.1, p.2.getName)) (fun p => p.2.id) k.networks g.rel.idN p (u, r) hp g.keys
      (by simp [hpk.1, hpk.2, hy])
    have hmem : (u, r) ∈ k.networks.map (fun q => if q.2.id = p.2.id then (u, r) else q) :=
      List.mem_map.2 ⟨p, hp, by rw [if_pos rfl]⟩
    have g' : ZGood { k with networks := k.networks.map (fun q => if q.2.id = p.2.id then (u, r) else q) }
        (sqStoreNetwork db u r).1 := by
      refine ⟨hrel, g.times, ?_, ?_⟩
      · intro q hq
        obtain ⟨q0, hq0, rfl⟩ := List.mem_map.1 hq
        by_cases h : q0.2.id = p.2.id
        · rw [if_pos h]; exact hc
        · rw [if_neg h]; exact g.cmds q0 hq0
      · have : (k.networks.map (fun q => if q.2.id = p.2.id then (u, r) else q)).map (fun p => (p.1, p.2.getName)) =
            k.networks.map (fun p => (p.1, p.2.getName)) := by
          rw [List.map_map]
          apply List.map_congr_left
          intro q hq
          simp only [Function.comp_apply]
          by_cases h : q.2.id = p.2.id
          · rw [if_pos h]
            have : q = p := eq_of_nodup_map g.rel.idN hq hp h
            rw [this, hpk.1, hpk.2, hy]
          · rw [if_neg h]
        simp only
        rw [this]
        exact g.keys
    refine ⟨_, g', rfl, rfl, ⟨(u, r), hmem, hi.symm⟩, ?_, ?_, ?_, ?_, ?_⟩
    · rw [vN_find g']
      simp only
      rw [hr, if_pos (by simp [hpk.1, hpk.2]), Option.map_some, hi]
    · intro o ho; rw [hi]; exact hsome o ho
    · rw [hsplit]; exact nofun
    · intro u' y' hne
      rw [vN_find g', vN_find g]
      simp only
      rw [hr, if_neg (by rw [hpk.1, hpk.2]; exact hne)]
    · exact other _ g' ⟨(u, r), hmem, hi.symm, rfl, hy⟩

theorem vC_same {k k' : PdKept} {db db' : SqDb} (h : SqRel k db) (h' : SqRel k' db') (e : k'.channels = k.channels) (n : Nat)
    (z : Str) : vC db' n z = vC db n z := by
  rw [vC_find h, vC_find h', e]

/-- The import of one network. -/
theorem net_step {k : PdKept} {db : SqDb} (g : ZGood k db) (esc : Str → Str) (user t : ZncSection) (u : Nat)
    (existing : List NetRec) (addr pass : Str) (i : Nat)
    (hlook : zncLookup NetRec.getName existing t.name = vN db u t.name)
    (hname : t.name ≠ []) (hold : ∀ o, vN db u t.name = some o → o.name ≠ [])
    (hch : ((zncEach t b!"Chan").map (·.name)).Nodup)
    (hsrv : zncServer esc (zncGet t.values b!"Server") = some (addr, pass)) (db1 : SqDb)
    (hst : sqStoreNetwork db u (zncNetRec existing user t addr pass) = (db1, some i)) :
    ∃ k', ZGood k' (zncChannels i (sqListChannels db1 i) (zncEach t b!"Chan") db1) ∧ k'.users = k.users ∧
      NetMerged esc user t (vN db u t.name) (vN (zncChannels i (sqListChannels db1 i) (zncEach t b!"Chan") db1) u t.name) ∧
      ChansDone t (vCn db u t.name) (vCn (zncChannels i (sqListChannels db1 i) (zncEach t b!"Chan") db1) u t.name) ∧
      ∀ u' y', (u', y') ≠ (u, t.name) →
        vN (zncChannels i (sqListChannels db1 i) (zncEach t b!"Chan") db1) u' y' = vN db u' y' ∧
        ∀ z, vCn (zncChannels i (sqListChannels db1 i) (zncEach t b!"Chan") db1) u' y' z = vCn db u' y' z := by
  have hrn : (zncNetRec existing user t addr pass).getName = t.name := by
    unfold zncNetRec
    rw [hlook]
    cases ho : vN db u t.name with
    | none => simp [NetRec.getName, hname]
    | some o =>
      have h1 := (vN_some g ho).1
      have h2 := hold o ho
      unfold NetRec.getName at h1 ⊢
      rw [if_pos h2] at h1
      simp only [Option.getD_some]
      rw [if_pos h2]
      exact h1
  have hrid : (zncNetRec existing user t addr pass).id = ((vN db u t.name).map (·.id)).getD 0 := by
    unfold zncNetRec
    rw [hlook]
    cases vN db u t.name <;> rfl
  have hrc : CommandsOK (zncNetRec existing user t addr pass).connectCommands := by
    unfold zncNetRec
    rw [hlook]
    cases ho : vN db u t.name with
    | none => exact ⟨by simp, fun s hs => (nomatch hs)⟩
    | some o => exact (vN_some g ho).2.2.1
  obtain ⟨k1, g1, hu1, hc1, hn1, hv1, hi1, hfresh, hoth, hids⟩ := net_store g u (zncNetRec existing user t addr pass) t.name hrn hrc
    (by intro o ho; rw [hrid, ho]; rfl) (by intro ho; rw [hrid, ho]; rfl) i (by rw [hst])
  rw [hst] at g1 hv1 hoth hids
  simp only at g1 hv1 hoth hids
  obtain ⟨k2, g2, hu2, hnn2, hm2, hf2⟩ := chans_loop i (sqListChannels db1 i) (zncEach t b!"Chan") k1 db1 g1 hn1 hch
    (fun s _ => lookup_find _ _ (chan_names g1.rel i) _)
  have hvn : ∀ u' y', vN (zncChannels i (sqListChannels db1 i) (zncEach t b!"Chan") db1) u' y' = vN db1 u' y' := by
    intro u' y'
    rw [vN_find g2, vN_find g1, hnn2]
  have hvc : ∀ n z, vC db1 n z = vC db n z := fun n z => vC_same g.rel g1.rel hc1 n z
  have hbefore : ∀ z, vC db i z = vCn db u t.name z := by
    intro z
    unfold vCn
    cases ho : vN db u t.name with
    | none => exact hfresh ho z
    | some o => rw [hi1 o ho]; rfl
  have hafter : ∀ z, vCn (zncChannels i (sqListChannels db1 i) (zncEach t b!"Chan") db1) u t.name z =
      vC (zncChannels i (sqListChannels db1 i) (zncEach t b!"Chan") db1) i z := by
    intro z
    unfold vCn
    rw [hvn, hv1]
    rfl
  refine ⟨k2, g2, hu2.trans hu1, ?_, ⟨?_, ?_⟩, ?_⟩
  · refine ⟨addr, pass, hsrv, i, ?_, hi1⟩
    rw [hvn, hv1]
    unfold zncNetRec zncSetting
    rw [hlook]
    cases ho : vN db u t.name with
    | none => rfl
    | some o =>
      have h2 := congrArg NetRec.sasl (vN_some g ho).2.1
      unfold keptNetwork at h2 ⊢
      simp only [Option.getD_some] at h2 ⊢
      rw [h2]
  · intro s hs hd
    rw [hafter, ← hbefore, ← hvc]
    exact hm2 s hs hd
  · intro z hz
    rw [hafter, ← hbefore, ← hvc]
    exact hf2 i z (fun _ => hz)
  · intro u' y' hne
    refine ⟨by rw [hvn, hoth u' y' hne], fun z => ?_⟩
    unfold vCn
    rw [hvn, ← hoth u' y' hne]
    cases ho : vN db1 u' y' with
    | none => rfl
    | some n =>
      simp only [Option.bind_some]
      rw [hf2 n.id z (fun e => absurd e (hids u' y' n hne ho)), hvc]

theorem net_store_fails {db db' : SqDb} {u : Nat} {r : NetRec} (h : sqStoreNetwork db u r = (db', none)) : db' = db := by
  unfold sqStoreNetwork at h
  split at h
  · exact (Prod.mk.inj h).1.symm
  · unfold sqCommit at h
    split at h
    · exact absurd (Prod.mk.inj h).2 nofun
    · exact (Prod.mk.inj h).1.symm

/-- What is asked of a section of a network that is imported. -/
def NetReady (t : ZncSection) (before : Option NetRec) : Prop :=
  t.name ≠ [] ∧ ((zncEach t b!"Chan").map (·.name)).Nodup ∧ ∀ o, before = some o → o.name ≠ []

theorem nets_loop (esc : Str → Str) (only : Str → Bool) (user : ZncSection) (u : Nat) (existing : List NetRec)
    (l : List ZncSection) : ∀ (k : PdKept) (db db' : SqDb) (done : Bool), ZGood k db → (l.map (·.name)).Nodup →
    (∀ t ∈ l, only t.name = true → NetReady t (vN db u t.name) ∧ zncLookup NetRec.getName existing t.name = vN db u t.name) →
    zncNetworks esc only user u existing l db = (db', done) →
    ∃ k', ZGood k' db' ∧ k'.users = k.users ∧
      (done = true → ∀ t ∈ l, only t.name = true → NetMerged esc user t (vN db u t.name) (vN db' u t.name) ∧
        ChansDone t (vCn db u t.name) (vCn db' u t.name)) ∧
      ∀ u' y', (u' = u → ∀ t ∈ l, only t.name = true → t.name ≠ y') →
        vN db' u' y' = vN db u' y' ∧ ∀ z, vCn db' u' y' z = vCn db u' y' z := by
  induction l with
  | nil =>
    intro k db db' done g _ _ h
    simp only [zncNetworks, Prod.mk.injEq] at h
    rw [← h.1]
    exact ⟨k, g, rfl, fun _ t ht => (nomatch ht), fun _ _ _ => ⟨rfl, fun _ => rfl⟩⟩
  | cons t l ih =>
    intro k db db' done g hnd hready h
    rw [List.map_cons, List.nodup_cons] at hnd
    have hne : ∀ t' ∈ l, t'.name ≠ t.name := fun t' ht' e => hnd.1 (by rw [← e]; exact List.mem_map_of_mem ht')
    rw [zncNetworks] at h
    by_cases ho : only t.name = true
    · rw [if_pos ho] at h
      obtain ⟨⟨hname, hch, hold⟩, hlook⟩ := hready t (by simp) ho
      split at h
      · rw [← (Prod.mk.inj h).1, ← (Prod.mk.inj h).2]
        exact ⟨k, g, rfl, nofun, fun _ _ _ => ⟨rfl, fun _ => rfl⟩⟩
      · rename_i addr pass hsrv
        split at h
        · rename_i db1 hst
          rw [← (Prod.mk.inj h).1, ← (Prod.mk.inj h).2, net_store_fails hst]
          exact ⟨k, g, rfl, nofun, fun _ _ _ => ⟨rfl, fun _ => rfl⟩⟩
        · rename_i db1 i hst
          obtain ⟨k1, g1, hu1, hm, hcs, hf⟩ := net_step g esc user t u existing addr pass i hlook hname hold hch hsrv db1 hst
          generalize zncChannels i (sqListChannels db1 i) (zncEach t b!"Chan") db1 = db2 at h g1 hm hcs hf
          have hsame : ∀ t' ∈ l, vN db2 u t'.name = vN db u t'.name ∧ ∀ z, vCn db2 u t'.name z = vCn db u t'.name z :=
            fun t' ht' => hf u t'.name (by simpa using hne t' ht')
          obtain ⟨k2, g2, hu2, hm2, hf2⟩ := ih k1 db2 db' done g1 hnd.2 (by
            intro t' ht' ho'
            rw [(hsame t' ht').1]
            exact hready t' (by simp [ht']) ho') h
          have hfirst := hf2 u t.name (fun _ t' ht' _ => hne t' ht')
          refine ⟨k2, g2, hu2.trans hu1, ?_, ?_⟩
          · intro hd t' ht' ho'
            rcases List.mem_cons.1 ht' with rfl | ht'
            · rw [hfirst.1, show vCn db' u t'.name = vCn db2 u t'.name from funext hfirst.2]
              exact ⟨hm, hcs⟩
            · rw [← (hsame t' ht').1, ← show vCn db2 u t'.name = vCn db u t'.name from funext (hsame t' ht').2]
              exact hm2 hd t' ht' ho'
          · intro u' y' hy
            have h1 := hf2 u' y' (fun e t' ht' => hy e t' (by simp [ht']))
            have h2 := hf u' y' (by
              intro e
              simp only [Prod.mk.injEq] at e
              exact hy e.1 t (by simp) ho e.2.symm)
            exact ⟨h1.1.trans h2.1, fun z => (h1.2 z).trans (h2.2 z)⟩
    · rw [if_neg ho] at h
      obtain ⟨k2, g2, hu2, hm2, hf2⟩ := ih k db db' done g hnd.2 (fun t' ht' => hready t' (by simp [ht'])) h
      refine ⟨k2, g2, hu2, ?_, ?_⟩
      · intro hd t' ht' ho'
        rcases List.mem_cons.1 ht' with rfl | ht'
        · exact absurd ho' ho
        · exact hm2 hd t' ht' ho'
      · intro u' y' hy
        exact hf2 u' y' (fun e t' ht' => hy e t' (by simp [ht']))

/-! ## Users -/

theorem toMillis_twice (t : Int) : toMillis (toMillis t) = toMillis t := by
  unfold toMillis
  omega

theorem inYears_millis {t : Int} (h : InYears t) : InYears (toMillis t) := by
  unfold InYears toMillis dayNanos at *
  omega

theorem keptUser_fixed (r : PdUserRec) (h : toMillis r.interactedAt = r.interactedAt) : keptUser r = r := by
  unfold keptUser
  rw [h]

theorem bookUser_some {k : PdKept} {db : SqDb} (g : ZGood k db) {x : Str} {o : PdUserRec} (ho : bookUser db x = some o) :
    o.username = x ∧ toMillis o.interactedAt = o.interactedAt ∧ InYears o.interactedAt := by
  rw [bookUser_find g] at ho
  obtain ⟨p, hp, rfl⟩ := Option.map_eq_some_iff.1 ho
  have hk := of_decide_eq_true (List.find?_some (p := fun p : PdUserRec × Int => decide (p.1.username = x)) hp)
  refine ⟨(keptUser_name p.1).trans hk, ?_, ?_⟩
  · exact toMillis_twice _
  · exact inYears_millis (g.times p (List.mem_of_find?_eq_some hp))

theorem user_names {k : PdKept} {db : SqDb} (g : ZGood k db) (l : List PdUserRec) (hl : sqListUsers db = some l) :
    (l.map (·.username)).Nodup := by
  rw [list_users g] at hl
  rw [← Option.some.inj hl, List.map_map]
  exact g.rel.base.uName

theorem find_by_key {α κ : Type} [DecidableEq κ] (key : α → κ) (f : α → α) (hf : ∀ a, key (f a) = key a) (l : List α) (q0 q : κ) :
    (l.map (fun p => if key p = q0 then f p else p)).find? (fun p => decide (key p = q)) =
      if q = q0 then (l.find? (fun p => decide (key p = q))).map f else l.find? (fun p => decide (key p = q)) := by
  induction l with
  | nil => simp
  | cons a l ih =>
    rw [List.map_cons]
    have hka : key (if key a = q0 then f a else a) = key a := by split <;> simp [hf]
    by_cases h : key a = q
    · rw [List.find?_cons_of_pos (by rw [hka]; simpa using h), List.find?_cons_of_pos (by simpa using h)]
      by_cases hq : q = q0
      · rw [if_pos hq, if_pos (h.trans hq)]; rfl
      · rw [if_neg hq, if_neg (fun e => hq (h.symm.trans e))]
    · rw [List.find?_cons_of_neg (by rw [hka]; simpa using h), List.find?_cons_of_neg (by simpa using h), ih]

theorem store_user_id {db : SqDb} {now : Int} {r : PdUserRec} {i : Nat} (h0 : r.id ≠ 0) (h : (sqStoreUser db now r).2 = some i) :
    i = r.id := by
  unfold sqStoreUser at h
  rw [if_pos h0] at h
  unfold sqCommit at h
  split at h
  · simpa using h.symm
  · cases h

theorem user_store_fails {db db' : SqDb} {now : Int} {r : PdUserRec} (h : sqStoreUser db now r = (db', none)) : db' = db := by
  unfold sqStoreUser sqCommit at h
  dsimp only at h
  split at h
  · split at h
    · exact absurd (Prod.mk.inj h).2 nofun
    · exact (Prod.mk.inj h).1.symm
  · split at h
    · exact (Prod.mk.inj h).1.symm
    · split at h
      · exact absurd (Prod.mk.inj h).2 nofun
      · exact (Prod.mk.inj h).1.symm

/-- Storing a user that was found by its name, or was not found. -/
theorem user_store {k : PdKept} {db : SqDb} (g : ZGood k db) (now : Int) (r : PdUserRec) (x : Str) (hx : r.username = x)
    (hy : InYears r.interactedAt)
    (hsome : ∀ o, bookUser db x = some o → r.id = o.id) (hnone : bookUser db x = none → r.id = 0) (i : Nat)
    (hres : (sqStoreUser db now r).2 = some i) :
    ∃ k', ZGood k' (sqStoreUser db now r).1 ∧ k'.networks = k.networks ∧ k'.channels = k.channels ∧
      bookUser (sqStoreUser db now r).1 x = some (keptUser { r with id := i }) ∧
      (∀ o, bookUser db x = some o → i = o.id) ∧ (bookUser db x = none → ∀ y, vN db i y = none) ∧
      (∀ x', x' ≠ x → bookUser (sqStoreUser db now r).1 x' = bookUser db x') ∧
      ∀ x' w, x' ≠ x → bookUser (sqStoreUser db now r).1 x' = some w → w.id ≠ i := by
  have hs := sq_step k db g.rel (.storeUser now r)
  unfold SqGood at hs
  obtain ⟨hrel, -⟩ := hs
  change SqRel (sqKeep k (.storeUser now r, (sqStoreUser db now r).2)) (sqStoreUser db now r).1 at hrel
  rw [hres] at hrel
  have hsplit := bookUser_find g x
  have other : ∀ (k' : PdKept), ZGood k' (sqStoreUser db now r).1 → (∃ p ∈ k'.users, p.1.id = i ∧ p.1.username = x) →
      ∀ x' w, x' ≠ x → bookUser (sqStoreUser db now r).1 x' = some w → w.id ≠ i := by
    rintro k' g' ⟨p, hp, hpi, hpx⟩ x' w hne hv he
    rw [bookUser_find g'] at hv
    obtain ⟨q, hq, rfl⟩ := Option.map_eq_some_iff.1 hv
    have hqm := List.mem_of_find?_eq_some hq
    have hqk := of_decide_eq_true (List.find?_some (p := fun p : PdUserRec × Int => decide (p.1.username = x')) hq)
    rw [keptUser_id] at he
    have : q = p := eq_of_nodup_map g'.rel.idU hqm hp (by rw [hpi]; exact he)
    rw [this, hpx] at hqk
    exact hne hqk.symm
  cases hf : k.users.find? (fun p => decide (p.1.username = x)) with
  | none =>
    rw [hf] at hsplit
    have h0 : r.id = 0 := hnone hsplit
    simp only [sqKeep, if_pos h0] at hrel
    have g' : ZGood { k with users := k.users ++ [({ r with id := i }, toMillis now)] } (sqStoreUser db now r).1 := by
      refine ⟨hrel, ?_, g.cmds, g.keys⟩
      intro p hp
      rcases List.mem_append.1 hp with hp | hp
      · exact g.times p hp
      · rw [List.mem_singleton.1 hp]; exact hy
    refine ⟨_, g', rfl, rfl, ?_, ?_, ?_, ?_, ?_⟩
    · rw [bookUser_find g']
      simp only
      rw [find_none_append, hf, if_pos (by simpa using hx)]
      rfl
    · rw [hsplit]; exact nofun
    · intro _ y
      rw [vN_find g, Option.map_eq_none_iff, List.find?_eq_none]
      intro p hp hk
      have hk := of_decide_eq_true hk
      simp only [Prod.mk.injEq] at hk
      obtain ⟨q, hq, hqi⟩ := g.rel.base.fkN p hp
      have hnd := hrel.idU
      simp only at hnd
      rw [List.map_append, List.nodup_append] at hnd
      exact hnd.2.2 q.1.id (List.mem_map_of_mem hq) i (by simp) (hqi.trans hk.1)
    · intro x' hne
      rw [bookUser_find g', bookUser_find g]
      simp only
      rw [find_none_append, if_neg (by rw [hx]; simpa using Ne.symm hne)]
      cases k.users.find? _ <;> rfl
    · exact other _ g' ⟨({ r with id := i }, toMillis now), by simp, rfl, hx⟩
  | some p =>
    rw [hf] at hsplit
    simp only [Option.map_some] at hsplit
    have hid : r.id = p.1.id := (hsome _ hsplit).trans (keptUser_id p.1)
    have hp : p ∈ k.users := List.mem_of_find?_eq_some hf
    have hpk := of_decide_eq_true (List.find?_some (p := fun p : PdUserRec × Int => decide (p.1.username = x)) hf)
    have hpos : r.id ≠ 0 := by rw [hid]; exact Nat.ne_of_gt (g.rel.base.uPos p hp).1
    have hi : i = r.id := store_user_id hpos hres
    simp only [sqKeep, if_neg hpos] at hrel
    rw [hx] at hrel
    have hmap : k.users.map (fun q => if q.1.username = x then (({ r with username := x, id := q.1.id } : PdUserRec), q.2) else q) =
        k.users.map (fun q => if q.1.username = x then
          (({ r with username := q.1.username, id := q.1.id } : PdUserRec), q.2) else q) := by
      apply List.map_congr_left
      intro q _
      by_cases h : q.1.username = x
      · rw [if_pos h, if_pos h, h]
      · rw [if_neg h, if_neg h]
    have hmem : (r, p.2) ∈ k.users.map (fun q => if q.1.username = x then (({ r with username := x, id := q.1.id } : PdUserRec), q.2) else q) := by
      refine List.mem_map.2 ⟨p, hp, ?_⟩
      rw [if_pos hpk, ← hid, ← hx]
    have g' : ZGood { k with users := k.users.map (fun q => if q.1.username = x then
        (({ r with username := x, id := q.1.id } : PdUserRec), q.2) else q) } (sqStoreUser db now r).1 := by
      refine ⟨hrel, ?_, g.cmds, g.keys⟩
      intro q hq
      obtain ⟨q0, hq0, rfl⟩ := List.mem_map.1 hq
      by_cases h : q0.1.username = x
      · rw [if_pos h]; exact hy
      · rw [if_neg h]; exact g.times q0 hq0
    have hfind := fun x' => find_by_key (fun p : PdUserRec × Int => p.1.username)
      (fun q => (({ r with username := q.1.username, id := q.1.id } : PdUserRec), q.2)) (fun _ => rfl) k.users x x'
    refine ⟨_, g', rfl, rfl, ?_, ?_, ?_, ?_, ?_⟩
    · rw [bookUser_find g']
      simp only
      rw [hmap, hfind, if_pos rfl, hf]
      simp only [Option.map_some, hpk, hi, hid, ← hx]
    · intro o ho; rw [hi]; exact hsome o ho
    · rw [hsplit]; exact nofun
    · intro x' hne
      rw [bookUser_find g', bookUser_find g]
      simp only
      rw [hmap, hfind, if_neg hne]
    · exact other _ g' ⟨(r, p.2), hmem, hi.symm, hx⟩

theorem bookNet_vN (db : SqDb) (x y : Str) : bookNet db x y = (bookUser db x).bind (fun u => vN db u.id y) := rfl

theorem bookChan_vCn (db : SqDb) (x y z : Str) : bookChan db x y z = (bookUser db x).bind (fun u => vCn db u.id y z) := by
  unfold bookChan
  rw [bookNet_vN, Option.bind_assoc]
  rfl

/-- What is done for one user. -/
theorem user_step {k : PdKept} {db : SqDb} (g : ZGood k db) (esc : Str → Str) (onlyNet : Str → Bool) (now : Int)
    (existing : List PdUserRec) (s : ZncSection) (hlook : zncLookup (·.username) existing s.name = bookUser db s.name)
    (hnd : ((zncEach s b!"Network").map (·.name)).Nodup)
    (hready : ∀ t ∈ zncEach s b!"Network", onlyNet t.name = true → NetReady t (bookNet db s.name t.name))
    (db1 db2 : SqDb) (i : Nat) (done : Bool) (hst : sqStoreUser db now (zncUserRec existing s) = (db1, some i))
    (hnets : zncNetworks esc onlyNet s i (sqListNetworks db1 i) (zncEach s b!"Network") db1 = (db2, done)) :
    ∃ k', ZGood k' db2 ∧ UserMerged s (bookUser db s.name) (bookUser db2 s.name) ∧
      (done = true → ∀ t ∈ zncEach s b!"Network", onlyNet t.name = true →
        NetMerged esc s t (bookNet db s.name t.name) (bookNet db2 s.name t.name) ∧
        ChansDone t (bookChan db s.name t.name) (bookChan db2 s.name t.name)) ∧
      (∀ x', x' ≠ s.name → bookUser db2 x' = bookUser db x') ∧
      ∀ x' y', (x' = s.name → ∀ t ∈ zncEach s b!"Network", onlyNet t.name = true → t.name ≠ y') →
        bookNet db2 x' y' = bookNet db x' y' ∧ ∀ z, bookChan db2 x' y' z = bookChan db x' y' z := by
  have hrn : (zncUserRec existing s).username = s.name := by
    unfold zncUserRec
    rw [hlook]
    cases ho : bookUser db s.name with
    | none => rfl
    | some o => exact (bookUser_some g ho).1
  have hrid : (zncUserRec existing s).id = ((bookUser db s.name).map (·.id)).getD 0 := by
    unfold zncUserRec
    rw [hlook]
    cases bookUser db s.name <;> rfl
  have hrt : (zncUserRec existing s).interactedAt = ((bookUser db s.name).map (·.interactedAt)).getD 0 := by
    unfold zncUserRec
    rw [hlook]
    cases bookUser db s.name <;> rfl
  have hms : toMillis (zncUserRec existing s).interactedAt = (zncUserRec existing s).interactedAt ∧
      InYears (zncUserRec existing s).interactedAt := by
    rw [hrt]
    cases ho : bookUser db s.name with
    | none => exact ⟨by decide +kernel, by unfold InYears dayNanos; decide⟩
    | some o => exact (bookUser_some g ho).2
  obtain ⟨k1, g1, hn1, hc1, hb1, hi1, hfresh, hoth, hids⟩ := user_store g now (zncUserRec existing s) s.name hrn hms.2
    (by intro o ho; rw [hrid, ho]; rfl) (by intro ho; rw [hrid, ho]; rfl) i (by rw [hst])
  rw [hst] at g1 hb1 hoth hids
  simp only at g1 hb1 hoth hids
  have hvn : ∀ u y, vN db1 u y = vN db u y := fun u y => by rw [vN_find g1, vN_find g, hn1]
  have hvc : ∀ n z, vC db1 n z = vC db n z := fun n z => vC_same g.rel g1.rel hc1 n z
  have hvcn : ∀ u y z, vCn db1 u y z = vCn db u y z := by
    intro u y z
    unfold vCn
    rw [hvn]
    cases vN db u y with
    | none => rfl
    | some n => exact hvc n.id z
  have hbn : ∀ y, bookNet db s.name y = vN db i y := by
    intro y
    rw [bookNet_vN]
    cases ho : bookUser db s.name with
    | none => exact (hfresh ho y).symm
    | some o => rw [hi1 o ho]; rfl
  have hbc : ∀ y z, bookChan db s.name y z = vCn db i y z := by
    intro y z
    unfold bookChan vCn
    rw [hbn]
    rfl
  obtain ⟨k2, g2, hu2, hm2, hf2⟩ := nets_loop esc onlyNet s i (sqListNetworks db1 i) (zncEach s b!"Network") k1 db1 db2 done g1
    hnd (by
      intro t ht ho
      rw [hvn, ← hbn]
      refine ⟨hready t ht ho, ?_⟩
      rw [hbn, ← hvn]
      exact lookup_find _ _ (net_names g1 i) _) hnets
  have hbu : ∀ x, bookUser db2 x = bookUser db1 x := fun x => by rw [bookUser_find g2, bookUser_find g1, hu2]
  have hme : ∀ y, bookNet db2 s.name y = vN db2 i y := by
    intro y
    rw [bookNet_vN, hbu, hb1]
    rfl
  have hmc : ∀ y z, bookChan db2 s.name y z = vCn db2 i y z := by
    intro y z
    rw [bookChan_vCn, hbu, hb1]
    rfl
  refine ⟨k2, g2, ?_, ?_, ?_, ?_⟩
  · refine ⟨i, ?_, hi1⟩
    rw [hbu, hb1, keptUser_fixed { zncUserRec existing s with id := i } hms.1]
    unfold zncUserRec
    rw [hlook]
  · intro hd t ht ho
    have := hm2 hd t ht ho
    rw [hbn, hme, show bookChan db s.name t.name = vCn db i t.name from funext (hbc t.name),
      show bookChan db2 s.name t.name = vCn db2 i t.name from funext (hmc t.name)]
    rw [hvn, show vCn db1 i t.name = vCn db i t.name from funext (hvcn i t.name)] at this
    exact this
  · intro x' hne
    rw [hbu, hoth x' hne]
  · intro x' y' hy
    by_cases hx : x' = s.name
    · subst hx
      have := hf2 i y' (fun _ => hy rfl)
      refine ⟨by rw [hme, hbn, this.1, hvn], fun z => by rw [hmc, hbc, this.2, hvcn]⟩
    · have e : bookUser db2 x' = bookUser db x' := by rw [hbu, hoth x' hx]
      rw [bookNet_vN, bookNet_vN, e]
      cases ho : bookUser db x' with
      | none =>
        refine ⟨rfl, fun z => ?_⟩
        rw [bookChan_vCn, bookChan_vCn, e, ho]
        rfl
      | some w =>
        have hw : w.id ≠ i := hids x' w hx (by rw [hoth x' hx]; exact ho)
        have := hf2 w.id y' (fun e => absurd e hw)
        refine ⟨by simp only [Option.bind_some]; rw [this.1, hvn], fun z => ?_⟩
        rw [bookChan_vCn, bookChan_vCn, e, ho]
        simp only [Option.bind_some]
        rw [this.2, hvcn]

/-- What is done for a list of users. -/
theorem users_loop (esc : Str → Str) (onlyUser onlyNet : Str → Bool) (now : Int) (existing : List PdUserRec)
    (l : List ZncSection) : ∀ (k : PdKept) (db db' : SqDb) (done : Bool), ZGood k db → (l.map (·.name)).Nodup →
    (∀ s ∈ l, onlyUser s.name = true → zncLookup (·.username) existing s.name = bookUser db s.name ∧
      ((zncEach s b!"Network").map (·.name)).Nodup ∧
      ∀ t ∈ zncEach s b!"Network", onlyNet t.name = true → NetReady t (bookNet db s.name t.name)) →
    zncUsers esc onlyUser onlyNet now existing l db = (db', done) →
    ∃ k', ZGood k' db' ∧
      (done = true → ∀ s ∈ l, onlyUser s.name = true → UserMerged s (bookUser db s.name) (bookUser db' s.name) ∧
        ∀ t ∈ zncEach s b!"Network", onlyNet t.name = true →
          NetMerged esc s t (bookNet db s.name t.name) (bookNet db' s.name t.name) ∧
          ChansDone t (bookChan db s.name t.name) (bookChan db' s.name t.name)) ∧
      (∀ x', (∀ s ∈ l, onlyUser s.name = true → s.name ≠ x') → bookUser db' x' = bookUser db x') ∧
      ∀ x' y', (∀ s ∈ l, onlyUser s.name = true → s.name = x' →
          ∀ t ∈ zncEach s b!"Network", onlyNet t.name = true → t.name ≠ y') →
        bookNet db' x' y' = bookNet db x' y' ∧ ∀ z, bookChan db' x' y' z = bookChan db x' y' z := by
  induction l with
  | nil =>
    intro k db db' done g _ _ h
    simp only [zncUsers, Prod.mk.injEq] at h
    rw [← h.1]
    exact ⟨k, g, fun _ s hs => (nomatch hs), fun _ _ => rfl, fun _ _ _ => ⟨rfl, fun _ => rfl⟩⟩
  | cons s l ih =>
    intro k db db' done g hnd hready h
    rw [List.map_cons, List.nodup_cons] at hnd
    have hne : ∀ s' ∈ l, s'.name ≠ s.name := fun s' hs' e => hnd.1 (by rw [← e]; exact List.mem_map_of_mem hs')
    rw [zncUsers] at h
    by_cases ho : onlyUser s.name = true
    · rw [if_pos ho] at h
      obtain ⟨hlook, hnets, hok⟩ := hready s (by simp) ho
      split at h
      · rename_i db1 hst
        rw [← (Prod.mk.inj h).1, ← (Prod.mk.inj h).2, user_store_fails hst]
        exact ⟨k, g, nofun, fun _ _ => rfl, fun _ _ _ => ⟨rfl, fun _ => rfl⟩⟩
      · rename_i db1 i hst
        split at h
        · rename_i db2 hz
          obtain ⟨k1, g1, -, -, hf1, hf2⟩ := user_step g esc onlyNet now existing s hlook hnets hok db1 db2 i false hst hz
          rw [← (Prod.mk.inj h).1, ← (Prod.mk.inj h).2]
          exact ⟨k1, g1, nofun, fun x' hx => hf1 x' (fun e => hx s (by simp) ho e.symm),
            fun x' y' hy => hf2 x' y' (fun e => hy s (by simp) ho e.symm)⟩
        · rename_i db2 hz
          obtain ⟨k1, g1, hu1, hm1, hf1, hf2⟩ := user_step g esc onlyNet now existing s hlook hnets hok db1 db2 i true hst hz
          have hsu : ∀ s' ∈ l, bookUser db2 s'.name = bookUser db s'.name := fun s' hs' => hf1 s'.name (hne s' hs')
          have hsn : ∀ s' ∈ l, ∀ y, bookNet db2 s'.name y = bookNet db s'.name y ∧
              ∀ z, bookChan db2 s'.name y z = bookChan db s'.name y z :=
            fun s' hs' y => hf2 s'.name y (fun e => absurd e (hne s' hs'))
          obtain ⟨k2, g2, hm2, he1, he2⟩ := ih k1 db2 db' done g1 hnd.2 (by
            intro s' hs' ho'
            rw [hsu s' hs']
            obtain ⟨h1, h2, h3⟩ := hready s' (by simp [hs']) ho'
            refine ⟨h1, h2, fun t ht hot => ?_⟩
            rw [(hsn s' hs' t.name).1]
            exact h3 t ht hot) h
          have hfu : bookUser db' s.name = bookUser db2 s.name := he1 s.name (fun s' hs' _ => hne s' hs')
          have hfn : ∀ y, bookNet db' s.name y = bookNet db2 s.name y ∧
              ∀ z, bookChan db' s.name y z = bookChan db2 s.name y z :=
            fun y => he2 s.name y (fun s' hs' _ e => absurd e (hne s' hs'))
          refine ⟨k2, g2, ?_, ?_, ?_⟩
          · intro hd s' hs' ho'
            rcases List.mem_cons.1 hs' with rfl | hs'
            · rw [hfu]
              refine ⟨hu1, fun t ht hot => ?_⟩
              rw [(hfn t.name).1, show bookChan db' s'.name t.name = bookChan db2 s'.name t.name from funext (hfn t.name).2]
              exact hm1 rfl t ht hot
            · rw [← hsu s' hs']
              obtain ⟨h1, h2⟩ := hm2 hd s' hs' ho'
              refine ⟨h1, fun t ht hot => ?_⟩
              rw [← (hsn s' hs' t.name).1,
                ← show bookChan db2 s'.name t.name = bookChan db s'.name t.name from funext (hsn s' hs' t.name).2]
              exact h2 t ht hot
          · intro x' hx
            rw [he1 x' (fun s' hs' => hx s' (by simp [hs'])), hf1 x' (fun e => hx s (by simp) ho e.symm)]
          · intro x' y' hy
            have h1 := he2 x' y' (fun s' hs' => hy s' (by simp [hs']))
            have h2 := hf2 x' y' (fun e => hy s (by simp) ho e.symm)
            exact ⟨h1.1.trans h2.1, fun z => (h1.2 z).trans (h2.2 z)⟩
    · rw [if_neg ho] at h
      obtain ⟨k2, g2, hm2, he1, he2⟩ := ih k db db' done g hnd.2 (fun s' hs' => hready s' (by simp [hs'])) h
      refine ⟨k2, g2, ?_, fun x' hx => he1 x' (fun s' hs' => hx s' (by simp [hs'])),
        fun x' y' hy => he2 x' y' (fun s' hs' => hy s' (by simp [hs']))⟩
      intro hd s' hs' ho'
      rcases List.mem_cons.1 hs' with rfl | hs'
      · exact absurd ho' ho
      · exact hm2 hd s' hs' ho'

/-- The names of networks of each user are distinct, in terms of the records. -/
theorem keys_of_lists {k : PdKept} {db : SqDb} (h : SqRel k db) (hc : ∀ p ∈ k.networks, CommandsOK p.2.connectCommands)
    (hn : ∀ u, ((sqListNetworks db u).map NetRec.getName).Nodup) :
    (k.networks.map (fun p => (p.1, p.2.getName))).Nodup := by
  have hl : ∀ u, ((k.networks.filter (fun p => decide (p.1 = u))).map (fun p => p.2.getName)).Nodup := by
    intro u
    have := hn u
    unfold sqListNetworks dbListNetworks at this
    rw [h.networks, List.filter_map, List.map_map, List.map_map] at this
    refine Eq.mp (congrArg List.Nodup (List.map_congr_left ?_)) this
    intro p hp
    have hm := h.base.mech p (pd_mem_filter hp)
    have hk := hc p (pd_mem_filter hp)
    have e : networkColumns p.1 p.2 = some (pdNetRow p.1 p.2) := by rw [sq_columns, if_pos hm]
    have := (columns_back p.1 p.2 _ e hk p.2.id p.1).1
    exact (congrArg NetRec.getName this).trans (keptNetwork_name p.2)
  generalize k.networks = l at hl
  induction l with
  | nil => exact List.nodup_nil
  | cons a l ih =>
    rw [List.map_cons, List.nodup_cons]
    constructor
    · intro hm
      obtain ⟨b, hb, e⟩ := List.mem_map.1 hm
      simp only [Prod.mk.injEq] at e
      have := hl a.1
      rw [List.filter_cons_of_pos (by simp), List.map_cons, List.nodup_cons] at this
      exact this.1 (List.mem_map.2 ⟨b, List.mem_filter.2 ⟨hb, by simp [e.1]⟩, e.2⟩)
    · apply ih
      intro u
      have := hl u
      by_cases ha : a.1 = u
      · rw [List.filter_cons_of_pos (by simpa using ha), List.map_cons, List.nodup_cons] at this
        exact this.2
      · rw [List.filter_cons_of_neg (by simpa using ha)] at this
        exact this

/-- What the import does. -/
theorem import_good {k : PdKept} {db db' : SqDb} (g : ZGood k db) (esc : Str → Str) (onlyUser onlyNet : Str → Bool) (now : Int)
    (root : ZncSection) (hi : Importable onlyUser onlyNet root db) (done : Bool)
    (h : zncImport esc onlyUser onlyNet now root db = (db', done)) :
    ∃ k', ZGood k' db' ∧
      (done = true → ∀ s, UserSection onlyUser root s → UserMerged s (bookUser db s.name) (bookUser db' s.name) ∧
        ∀ t, NetSection onlyNet s t →
          NetMerged esc s t (bookNet db s.name t.name) (bookNet db' s.name t.name) ∧
          ChansDone t (bookChan db s.name t.name) (bookChan db' s.name t.name)) ∧
      (∀ x', (∀ s, UserSection onlyUser root s → s.name ≠ x') → bookUser db' x' = bookUser db x') ∧
      ∀ x' y', (∀ s t, UserSection onlyUser root s → NetSection onlyNet s t → s.name = x' → t.name ≠ y') →
        bookNet db' x' y' = bookNet db x' y' ∧ ∀ z, bookChan db' x' y' z = bookChan db x' y' z := by
  unfold zncImport at h
  rw [list_users g] at h
  obtain ⟨k', g', h1, h2, h3⟩ := users_loop esc onlyUser onlyNet now _ _ k db db' done g hi.users (by
    intro s hs ho
    refine ⟨?_, hi.networks s ⟨hs, ho⟩, fun t ht hot => ⟨hi.name s t ⟨hs, ho⟩ ⟨ht, hot⟩, hi.channels s t ⟨hs, ho⟩ ⟨ht, hot⟩,
      hi.named s t ⟨hs, ho⟩ ⟨ht, hot⟩⟩⟩
    rw [lookup_find _ _ (user_names g _ (list_users g))]
    unfold bookUser
    rw [list_users g]
    rfl) h
  exact ⟨k', g', fun hd s hs => ⟨(h1 hd s hs.1 hs.2).1, fun t ht => (h1 hd s hs.1 hs.2).2 t ht.1 ht.2⟩,
    fun x' hx => h2 x' (fun s hs ho => hx s ⟨hs, ho⟩),
    fun x' y' hy => h3 x' y' (fun s hs ho e t ht hot => hy s t ⟨hs, ho⟩ ⟨ht, hot⟩ e)⟩

end Verif.Proof
