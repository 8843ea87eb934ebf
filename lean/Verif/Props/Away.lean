import Verif.Model.Away
import Verif.Proof.Util

/-! # C23: automatic away follows the presence of clients -/

namespace Verif.Props
open Verif.Model Verif.Proof

/-! ## Specification -/

/-- Whether the server of a network considers the user away, from the events of a history: a new connection
starts as present, every AWAY command with a reason makes the user away, one without makes it present. -/
def serverAway (net : Nat) : List (AwOp × List AwMsg) → Bool :=
  List.foldl (fun away e =>
    let start := match e.1 with
      | .upDisconnect n => if n = net then false else away
      | _ => away
    (e.2.filter (fun m => decide (m.net = net))).foldl (fun _ m => m.reason.isSome) start) false

/-- No client attached to the network is present. -/
def NobodyPresent (st : AwState) (net : Nat) : Prop := ∀ c ∈ st.clients, c.network = some net → c.away = true

/-! ## Lemmas -/

private theorem uw_net (cl : List AwClient) (u : AwUp) : (updateAway cl u).1.net = u.net ∧
    (updateAway cl u).1.autoAway = u.autoAway ∧ (updateAway cl u).1.preAway = u.preAway := by
  unfold updateAway; simp only; split
  · simp
  · split <;> simp

private def awayOf (cl : List AwClient) (net : Nat) : Bool :=
  (cl.filter (fun c => decide (c.network = some net))).all (fun c => c.away)

private theorem awayOf_iff (st : AwState) (net : Nat) : awayOf st.clients net = true ↔ NobodyPresent st net := by
  unfold awayOf NobodyPresent
  simp only [List.all_eq_true, List.mem_filter, decide_eq_true_eq]
  exact ⟨fun h c h1 h2 => h c ⟨h1, h2⟩, fun h c hc => h c hc.1 hc.2⟩

/-- What `updateAway` sends leads the server to the state that it records. -/
private theorem uw_spec (cl : List AwClient) (u : AwUp) :
    ((updateAway cl u).2.filter (fun m => decide (m.net = u.net))).foldl (fun _ m => m.reason.isSome) u.away
      = (updateAway cl u).1.away ∧
    (∀ m ∈ (updateAway cl u).2, m.net = u.net) ∧
    (u.autoAway = true → (updateAway cl u).1.away = awayOf cl u.net) ∧
    (u.autoAway = false → (updateAway cl u).1 = u ∧ (updateAway cl u).2 = []) := by
  unfold updateAway awayOf
  simp only
  by_cases h : u.autoAway = true
  · simp only [h, Bool.not_true, Bool.false_eq_true, if_false]
    split
    · rename_i h'; simp [h']
    · refine ⟨?_, by simp, by simp, by simp⟩
      simp only [decide_true, List.filter_cons, if_true, List.filter_nil, List.foldl_cons, List.foldl_nil]
      split <;> simp_all
  · have : u.autoAway = false := by simpa using h
    simp [this]

private structure AInv (st : AwState) (hist : List (AwOp × List AwMsg)) : Prop where
  nd : (st.ups.map (·.net)).Nodup
  srv : ∀ u ∈ st.ups, serverAway u.net hist = u.away
  off : ∀ net, net ∉ st.ups.map (·.net) → serverAway net hist = false
  auto : ∀ u ∈ st.ups, u.autoAway = true → u.away = awayOf st.clients u.net
  noauto : ∀ u ∈ st.ups, u.autoAway = false → u.away = false

private theorem serverAway_snoc (net : Nat) (hist : List (AwOp × List AwMsg)) (e : AwOp × List AwMsg)
    (h : ∀ n, e.1 ≠ .upDisconnect n) : serverAway net (hist ++ [e]) =
      (e.2.filter (fun m => decide (m.net = net))).foldl (fun _ m => m.reason.isSome) (serverAway net hist) := by
  unfold serverAway
  rw [List.foldl_append]
  obtain ⟨op, ms⟩ := e
  cases op with
  | upDisconnect n => exact absurd rfl (h n)
  | _ => rfl

/-- Updating a selection of the upstreams. -/
private theorem fold_msgs (cl : List AwClient) (sel : AwUp → Bool) (ups : List AwUp) (nd : (ups.map (·.net)).Nodup)
    (net : Nat) (b : Bool) (hb : ∀ u ∈ ups, u.net = net → u.away = b) :
    ((ups.flatMap (fun u => if sel u then (updateAway cl u).2 else [])).filter (fun m => decide (m.net = net))).foldl
      (fun _ m => m.reason.isSome) b
    = match ups.find? (fun u => decide (u.net = net)) with
      | some u => if sel u then (updateAway cl u).1.away else u.away
      | none => b := by
  induction ups with
  | nil => rfl
  | cons u ups ih =>
    simp only [List.map_cons, List.nodup_cons] at nd
    rw [List.flatMap_cons, List.filter_append, List.foldl_append]
    by_cases hu : u.net = net
    · have hrest : (ups.flatMap (fun u => if sel u then (updateAway cl u).2 else [])).filter (fun m => decide (m.net = net)) = [] := by
        rw [List.filter_eq_nil_iff]
        intro m hm
        obtain ⟨v, hv, hm⟩ := List.mem_flatMap.1 hm
        split at hm
        · have := (uw_spec cl v).2.1 m hm
          simp only [decide_eq_true_eq]
          intro hc
          exact nd.1 (hu ▸ hc ▸ this ▸ List.mem_map_of_mem hv)
        · simp at hm
      rw [hrest, List.foldl_nil, List.find?_cons]
      simp only [hu, decide_true]
      split
      · have := (uw_spec cl u).1
        rw [hu, hb u List.mem_cons_self hu] at this
        exact this
      · simp only [List.filter_nil, List.foldl_nil]
        exact (hb u List.mem_cons_self hu).symm
    · have hno : (if sel u then (updateAway cl u).2 else []).filter (fun m => decide (m.net = net)) = [] := by
        rw [List.filter_eq_nil_iff]
        intro m hm
        split at hm
        · have := (uw_spec cl u).2.1 m hm
          simp only [decide_eq_true_eq]
          intro hc; exact hu (this ▸ hc)
        · simp at hm
      rw [hno, List.foldl_nil, ih nd.2 (fun v hv => hb v (List.mem_cons_of_mem _ hv)), List.find?_cons]
      simp [hu]

private theorem find_some {ups : List AwUp} (nd : (ups.map (·.net)).Nodup) {u : AwUp} (hu : u ∈ ups) :
    ups.find? (fun v => decide (v.net = u.net)) = some u := by
  cases h : ups.find? (fun v => decide (v.net = u.net)) with
  | none => rw [List.find?_eq_none] at h; simpa using h u hu
  | some v =>
    have h1 := List.find?_some h
    have h2 := List.mem_of_find?_eq_some h
    rw [eq_of_nodup_map nd h2 hu (by simpa using h1)]

/-- The common part of the events that update some of the upstreams. -/
private theorem ainv_update {st : AwState} {hist : List (AwOp × List AwMsg)} (i : AInv st hist) (cl : List AwClient)
    (sel : AwUp → Bool) (op : AwOp) (hop : ∀ n, op ≠ .upDisconnect n)
    (hsel : ∀ u ∈ st.ups, sel u = false → u.autoAway = true → awayOf cl u.net = awayOf st.clients u.net) :
    AInv ⟨cl, st.ups.map (fun u => if sel u then (updateAway cl u).1 else u)⟩
      (hist ++ [(op, st.ups.flatMap (fun u => if sel u then (updateAway cl u).2 else []))]) := by
  have hnets : (st.ups.map (fun u => if sel u then (updateAway cl u).1 else u)).map (·.net) = st.ups.map (·.net) := by
    rw [List.map_map]
    apply List.map_congr_left
    intro u _
    simp only [Function.comp]
    split
    · exact (uw_net cl u).1
    · rfl
  have hfold : ∀ net, serverAway net (hist ++ [(op, st.ups.flatMap (fun u => if sel u then (updateAway cl u).2 else []))])
      = match st.ups.find? (fun u => decide (u.net = net)) with
        | some u => if sel u then (updateAway cl u).1.away else u.away
        | none => serverAway net hist := by
    intro net
    rw [serverAway_snoc _ _ _ hop]
    exact fold_msgs cl sel st.ups i.nd net _ (fun u hu hn => by rw [← hn]; exact (i.srv u hu).symm)
  refine ⟨by rw [hnets]; exact i.nd, ?_, ?_, ?_, ?_⟩
  · intro v hv
    obtain ⟨u, hu, rfl⟩ := List.mem_map.1 hv
    rw [hfold]
    have : (if sel u then (updateAway cl u).1 else u).net = u.net := by
      split
      · exact (uw_net cl u).1
      · rfl
    rw [this, find_some i.nd hu]
    simp only
    split <;> rfl
  · intro net hn
    rw [hnets] at hn
    rw [hfold]
    have : st.ups.find? (fun u => decide (u.net = net)) = none := by
      rw [List.find?_eq_none]
      intro u hu
      simp only [decide_eq_true_eq]
      rintro rfl
      exact hn (List.mem_map_of_mem hu)
    rw [this]
    exact i.off net hn
  · intro v hv ha
    obtain ⟨u, hu, rfl⟩ := List.mem_map.1 hv
    by_cases hs : sel u = true
    · simp only [hs, if_true] at ha ⊢
      rw [(uw_net cl u).2.1] at ha
      rw [(uw_spec cl u).2.2.1 ha, (uw_net cl u).1]
    · have hs' : sel u = false := by simpa using hs
      simp only [hs', Bool.false_eq_true, if_false] at ha ⊢
      rw [hsel u hu hs' ha]
      exact i.auto u hu ha
  · intro v hv ha
    obtain ⟨u, hu, rfl⟩ := List.mem_map.1 hv
    by_cases hs : sel u = true
    · simp only [hs, if_true] at ha ⊢
      rw [(uw_net cl u).2.1] at ha
      rw [((uw_spec cl u).2.2.2 ha).1]
      exact i.noauto u hu ha
    · have hs' : sel u = false := by simpa using hs
      simp only [hs', Bool.false_eq_true, if_false] at ha ⊢
      exact i.noauto u hu ha

private theorem ainv_step {st : AwState} {hist : List (AwOp × List AwMsg)} (i : AInv st hist)
    (hid : ((st.clients).map (·.id)).Nodup) (op : AwOp) :
    AInv (awStep st op).1 (hist ++ [(op, (awStep st op).2)]) := by
  cases op with
  | upConnect net a p =>
    simp only [awStep]
    split
    · refine ⟨i.nd, ?_, ?_, i.auto, i.noauto⟩
      · intro u hu; rw [serverAway_snoc _ _ _ (by simp)]; exact i.srv u hu
      · intro n hn; rw [serverAway_snoc _ _ _ (by simp)]; exact i.off n hn
    · rename_i hno
      have hno : net ∉ st.ups.map (·.net) := by
        intro h
        obtain ⟨u, hu, rfl⟩ := List.mem_map.1 h
        apply hno
        rw [List.any_eq_true]
        exact ⟨u, hu, by simp⟩
      generalize hnew : (⟨net, a, p, false⟩ : AwUp) = nu
      have hn : nu.net = net := by rw [← hnew]
      obtain ⟨s1, s2, s3, s4⟩ := uw_spec st.clients nu
      have hother : ∀ n, n ≠ net → (updateAway st.clients nu).2.filter (fun m => decide (m.net = n)) = [] := by
        intro n hne
        rw [List.filter_eq_nil_iff]
        intro m hm
        rw [s2 m hm, hn]; simpa using Ne.symm hne
      refine ⟨?_, ?_, ?_, ?_, ?_⟩
      · simp only [List.map_append, List.map_cons, List.map_nil, (uw_net st.clients nu).1, hn]
        rw [List.nodup_append]
        refine ⟨i.nd, by simp, ?_⟩
        intro x hx y hy
        simp only [List.mem_singleton] at hy
        rintro rfl
        exact hno (hy ▸ hx)
      · intro u hu
        rw [serverAway_snoc _ _ _ (by simp)]
        rcases List.mem_append.1 hu with hu | hu
        · simp only
          rw [hother u.net (fun h => hno (h ▸ List.mem_map_of_mem hu))]
          exact i.srv u hu
        · simp only [List.mem_singleton] at hu
          subst hu
          simp only [(uw_net st.clients nu).1]
          rw [hn, i.off net hno, ← hn]
          have : nu.away = false := by rw [← hnew]
          rw [this] at s1
          exact s1
      · intro n hn'
        rw [serverAway_snoc _ _ _ (by simp)]
        simp only [List.map_append, List.map_cons, List.map_nil, (uw_net st.clients nu).1, hn, List.mem_append,
          List.mem_singleton, not_or] at hn'
        simp only
        rw [hother n hn'.2]
        exact i.off n hn'.1
      · intro u hu ha
        rcases List.mem_append.1 hu with hu | hu
        · exact i.auto u hu ha
        · simp only [List.mem_singleton] at hu
          subst hu
          rw [(uw_net st.clients nu).2.1] at ha
          rw [s3 ha, (uw_net st.clients nu).1]
      · intro u hu ha
        rcases List.mem_append.1 hu with hu | hu
        · exact i.noauto u hu ha
        · simp only [List.mem_singleton] at hu
          subst hu
          rw [(uw_net st.clients nu).2.1] at ha
          rw [(s4 ha).1, ← hnew]
  | upDisconnect net =>
    simp only [awStep]
    have hsnoc : ∀ n, serverAway n (hist ++ [(.upDisconnect net, [])]) = if net = n then false else serverAway n hist := by
      intro n; unfold serverAway; rw [List.foldl_append]; simp
    refine ⟨?_, ?_, ?_, ?_, ?_⟩
    · exact List.Nodup.sublist (List.Sublist.map _ List.filter_sublist) i.nd
    · intro u hu
      obtain ⟨hu1, hu2⟩ := List.mem_filter.1 hu
      simp only [ne_eq, decide_not, Bool.not_eq_true', decide_eq_false_iff_not] at hu2
      rw [hsnoc, if_neg (Ne.symm hu2)]
      exact i.srv u hu1
    · intro n hn
      rw [hsnoc]
      split
      · rfl
      · rename_i hne
        refine i.off n (fun h => hn ?_)
        obtain ⟨u, hu, rfl⟩ := List.mem_map.1 h
        exact List.mem_map_of_mem (List.mem_filter.2 ⟨hu, by simpa using Ne.symm hne⟩)
    · intro u hu ha; exact i.auto u (List.mem_filter.1 hu).1 ha
    · intro u hu ha; exact i.noauto u (List.mem_filter.1 hu).1 ha
  | connect c =>
    have := ainv_update i (st.clients ++ [c]) (fun _ => true) (.connect c) (by simp) (by simp)
    simpa [awStep, updateAwayAll] using this
  | disconnect id =>
    have := ainv_update i (st.clients.filter (fun c => decide (c.id ≠ id))) (fun _ => true) (.disconnect id) (by simp) (by simp)
    simpa [awStep, updateAwayAll] using this
  | away id a =>
    simp only [awStep]
    generalize hcl : st.clients.map (fun c => if c.id = id then { c with away := a } else c) = cl
    -- the clients of other networks are not changed
    have hsame : ∀ net, (∀ c, st.clients.find? (fun c => decide (c.id = id)) = some c → c.network ≠ some net) →
        awayOf cl net = awayOf st.clients net := by
      intro net hnet
      have hstep : ∀ c ∈ st.clients, (if c.id = id then { c with away := a } else c).network = some net →
          (if c.id = id then { c with away := a } else c) = c := by
        intro c hc h
        by_cases hcid : c.id = id
        · rw [if_pos hcid] at h
          have hf : st.clients.find? (fun c => decide (c.id = id)) = some c := by
            cases hf : st.clients.find? (fun c => decide (c.id = id)) with
            | none => rw [List.find?_eq_none] at hf; exact absurd (by simpa using hcid) (hf c hc)
            | some d =>
              have h1 := List.find?_some hf
              have h2 := List.mem_of_find?_eq_some hf
              rw [eq_of_nodup_map hid h2 hc (by simp only [decide_eq_true_eq] at h1; rw [h1, hcid])]
          exact absurd h (hnet c hf)
        · rw [if_neg hcid]
      rw [← hcl]
      unfold awayOf
      generalize st.clients = l at hstep ⊢
      induction l with
      | nil => rfl
      | cons c l ih =>
        have ih := ih (fun c hc => hstep c (List.mem_cons_of_mem _ hc))
        rw [List.map_cons, List.filter_cons, List.filter_cons]
        have hn : (if c.id = id then { c with away := a } else c).network = c.network := by split <;> rfl
        rw [hn]
        by_cases hcn : c.network = some net
        · have := hstep c List.mem_cons_self (by rw [hn]; exact hcn)
          rw [this]
          simp only [hcn, decide_true, if_true, List.all_cons, ih]
        · simp only [hcn, decide_false, Bool.false_eq_true, if_false, ih]
    split
    · rename_i hnone
      have := ainv_update i cl (fun _ => false) (.away id a) (by simp) (fun u hu _ _ => by
        apply hsame
        intro c hc hcn
        rw [hc] at hnone
        simp [hcn] at hnone)
      have hnil : st.ups.flatMap (fun _ => ([] : List AwMsg)) = [] := by
        rw [List.flatMap_eq_nil_iff]; simp
      simpa [hnil] using this
    · rename_i net hsome
      have := ainv_update i cl (fun u => decide (u.net = net)) (.away id a) (by simp) (fun u hu hs _ => by
        apply hsame
        intro c hc hcn
        rw [hc] at hsome
        simp only [Option.bind_some, hcn, Option.some.injEq] at hsome
        simp [hsome] at hs)
      simpa using this

/-- Client IDs are never reused (server.go:478: a counter). -/
def FreshIDs : List AwOp → List Nat → Prop
  | [], _ => True
  | .connect c :: ops, used => c.id ∉ used ∧ FreshIDs ops (c.id :: used)
  | _ :: ops, used => FreshIDs ops used

private theorem arun_inv (ops : List AwOp) : ∀ (st : AwState) (hist : List (AwOp × List AwMsg)) (used : List Nat),
    AInv st hist → (st.clients.map (·.id)).Nodup → (∀ c ∈ st.clients, c.id ∈ used) → FreshIDs ops used →
    AInv (awRun st ops).1 (hist ++ (awRun st ops).2) := by
  induction ops with
  | nil => intro st hist used i _ _ _; simpa [awRun] using i
  | cons op ops ih =>
    intro st hist used i hid hused hf
    have istep := ainv_step i hid op
    have key : ∃ used', ((awStep st op).1.clients.map (·.id)).Nodup ∧ (∀ c ∈ (awStep st op).1.clients, c.id ∈ used') ∧
        FreshIDs ops used' := by
      cases op with
      | upConnect net a p =>
        refine ⟨used, ?_, ?_, hf⟩ <;> (simp only [awStep]; split <;> assumption)
      | upDisconnect net => exact ⟨used, hid, hused, hf⟩
      | connect c =>
        obtain ⟨h1, h2⟩ := hf
        refine ⟨c.id :: used, ?_, ?_, h2⟩
        · simp only [awStep, updateAwayAll, List.map_append, List.map_cons, List.map_nil]
          rw [List.nodup_append]
          refine ⟨hid, by simp, ?_⟩
          intro x hx y hy
          simp only [List.mem_singleton] at hy
          rintro rfl
          obtain ⟨d, hd, rfl⟩ := List.mem_map.1 hx
          exact h1 (hy ▸ hused d hd)
        · intro d hd
          simp only [awStep, updateAwayAll, List.mem_append, List.mem_singleton] at hd
          rcases hd with hd | rfl
          · exact List.mem_cons_of_mem _ (hused d hd)
          · exact List.mem_cons_self
      | disconnect id =>
        refine ⟨used, ?_, ?_, hf⟩
        · exact List.Nodup.sublist (List.Sublist.map _ List.filter_sublist) hid
        · intro c hc; exact hused c (List.mem_filter.1 hc).1
      | away id a =>
        have hids : (st.clients.map (fun c => if c.id = id then { c with away := a } else c)).map (·.id)
            = st.clients.map (·.id) := by
          rw [List.map_map]
          apply List.map_congr_left
          intro c _
          simp only [Function.comp]
          split <;> rfl
        have hcl : (awStep st (.away id a)).1.clients
            = st.clients.map (fun c => if c.id = id then { c with away := a } else c) := by
          simp only [awStep]; split <;> rfl
        refine ⟨used, by rw [hcl, hids]; exact hid, ?_, hf⟩
        intro c hc
        rw [hcl] at hc
        obtain ⟨d, hd, rfl⟩ := List.mem_map.1 hc
        split <;> exact hused d hd
    obtain ⟨used', k1, k2, k3⟩ := key
    have := ih _ _ used' istep k1 k2 k3
    simpa [awRun, List.append_assoc] using this

/-- **C23** (auto-away): after any history of network connections, client sessions and AWAY commands, on a
connected network with auto-away the server considers the user away exactly when no attached client is present
(none is attached, or all of them are themselves away). -/
theorem C23_follows_presence (ops : List AwOp) (hf : FreshIDs ops []) (u : AwUp)
    (hu : u ∈ (awRun ⟨[], []⟩ ops).1.ups) (ha : u.autoAway = true) :
    serverAway u.net (awRun ⟨[], []⟩ ops).2 = true ↔ NobodyPresent (awRun ⟨[], []⟩ ops).1 u.net := by
  have i := arun_inv ops ⟨[], []⟩ [] [] ⟨by simp, by simp, fun _ _ => rfl, by simp, by simp⟩ (by simp) (by simp) hf
  rw [List.nil_append] at i
  rw [i.srv u hu, i.auto u hu ha, awayOf_iff]

/-- **C23** (disabled): on a network without auto-away the bouncer never sends AWAY. -/
theorem C23_disabled (st : AwState) (op : AwOp) (m : AwMsg) (hm : m ∈ (awStep st op).2) :
    (∃ u ∈ st.ups, u.net = m.net ∧ u.autoAway = true) ∨ ∃ p, op = .upConnect m.net true p := by
  have key : ∀ cl (u : AwUp), m ∈ (updateAway cl u).2 → u.net = m.net ∧ u.autoAway = true := by
    intro cl u hm
    refine ⟨((uw_spec cl u).2.1 m hm).symm, ?_⟩
    cases h : u.autoAway with
    | true => rfl
    | false => rw [((uw_spec cl u).2.2.2 h).2] at hm; cases hm
  cases op with
  | upConnect net a p =>
    simp only [awStep] at hm
    split at hm
    · cases hm
    · have := key _ _ hm
      simp only at this
      right; exact ⟨p, by rw [this.1, this.2]⟩
  | upDisconnect net => simp [awStep] at hm
  | connect c =>
    simp only [awStep, updateAwayAll] at hm
    obtain ⟨u, hu, hm⟩ := List.mem_flatMap.1 hm
    exact Or.inl ⟨u, hu, key _ _ hm⟩
  | disconnect id =>
    simp only [awStep, updateAwayAll] at hm
    obtain ⟨u, hu, hm⟩ := List.mem_flatMap.1 hm
    exact Or.inl ⟨u, hu, key _ _ hm⟩
  | away id a =>
    simp only [awStep] at hm
    split at hm
    · cases hm
    · obtain ⟨u, hu, hm⟩ := List.mem_flatMap.1 hm
      split at hm
      · exact Or.inl ⟨u, hu, key _ _ hm⟩
      · cases hm

/-- A history with two clients on one network and one on another. -/
example :
    let ops : List AwOp := [.upConnect 1 true false, .connect ⟨1, some 1, false⟩, .connect ⟨2, some 1, false⟩,
      .upConnect 2 true true, .connect ⟨3, some 2, false⟩, .away 1 true, .disconnect 2, .upConnect 3 false false]
    FreshIDs ops [] ∧ (awRun ⟨[], []⟩ ops).1.ups = [⟨1, true, false, true⟩, ⟨2, true, true, false⟩, ⟨3, false, false, false⟩] ∧
    serverAway 1 (awRun ⟨[], []⟩ ops).2 = true ∧ serverAway 2 (awRun ⟨[], []⟩ ops).2 = false := by
  simp only [FreshIDs]; decide

/-! ## The AWAY command of a client -/

/-- What an AWAY command says (modern.ircdocs.horse, AWAY): a text that is not empty makes the user away, none or an empty one makes
them present. -/
def commandAway (params : List Str) : Bool := match params with
  | text :: _ => decide (text ≠ [])
  | [] => false

/-- **C23** (the command, partial): an AWAY command makes the client away or present as it says, and the reply says which, unless its
text is empty. -/
theorem C23_command_partial (params : List Str) (h : params.head? ≠ some []) :
    awayCommand params = commandAway params ∧
    (awayReply (awayCommand params) = b!"306" ↔ commandAway params = true) ∧
    (awayReply (awayCommand params) = b!"305" ↔ commandAway params = false) := by
  have he : awayCommand params = commandAway params := by
    cases params with
    | nil => rfl
    | cons t ts =>
      have : t ≠ [] := fun e => h (by rw [e]; rfl)
      simp [awayCommand, commandAway, this]
  rw [he]
  cases commandAway params <;> decide

example : ([b!"gone"] : List Str).head? ≠ some [] ∧ ([] : List Str).head? ≠ some ([] : Str) := by decide

/-- A client that comes back with an empty text, as servers allow, is taken as away: with auto-away its user, who has said to be
present, is away on the network. -/
theorem C23_empty_violated :
    ∃ params, commandAway params = false ∧ awayReply (awayCommand params) = b!"306" ∧
      serverAway 1 (awRun ⟨[], []⟩ [.upConnect 1 true false, .connect ⟨7, some 1, false⟩, .away 7 (awayCommand params)]).2 = true :=
  ⟨[[]], by decide, by decide, by decide⟩

end Verif.Props
