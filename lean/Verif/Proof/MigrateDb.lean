import Verif.Model.MigrateDb
import Verif.Proof.PgDb
import Verif.Proof.GoMap

/-! # Proofs about the migration of the database -/

namespace Verif.Proof
open Verif.Model Verif.Spec

/-- The destination is what the calls made have left. -/
def MgOK (ok : Nat → Str → Bool) (tm : Int → Int) (st : MgSt PdDb) : Prop := ∃ ops, st = pdRun ok tm ops

theorem mg_rel {ok : Nat → Str → Bool} {tm : Int → Int} {st : MgSt PdDb} (h : MgOK ok tm st) : PdRel tm (pdKept st.2) st.1 := by
  obtain ⟨ops, rfl⟩ := h
  exact pd_rel ok tm ops

theorem mg_call {ok : Nat → Str → Bool} {tm : Int → Int} {st st' : MgSt PdDb} {op : PdOp} {res : Option Nat} (h : MgOK ok tm st)
    (hc : mgCall (pdStep ok tm) st op = (st', res)) :
    MgOK ok tm st' ∧ pdKept st'.2 = pdKeep (pdKept st.2) (op, res) ∧ pdStep ok tm st.1 op = (st'.1, res) := by
  unfold mgCall at hc
  cases hc
  refine ⟨?_, ?_, rfl⟩
  · obtain ⟨ops, rfl⟩ := h
    exact ⟨ops ++ [op], by rw [pd_run_snoc]⟩
  · unfold pdKept
    rw [List.foldl_append]
    rfl

theorem mg_try {ok : Nat → Str → Bool} {tm : Int → Int} {st st' : MgSt PdDb} {op : PdOp} (h : MgOK ok tm st)
    (hc : mgTry (pdStep ok tm) st op = (st', true)) :
    MgOK ok tm st' ∧ ∃ id, pdKept st'.2 = pdKeep (pdKept st.2) (op, some id) := by
  unfold mgTry at hc
  generalize hh : mgCall (pdStep ok tm) st op = r at hc
  obtain ⟨st1, res⟩ := r
  cases res with
  | none => cases hc
  | some id =>
    cases hc
    obtain ⟨a, b, _⟩ := mg_call h hh
    exact ⟨a, id, b⟩

theorem mg_each_ind {S α : Type} (f : MgSt S → α → MgSt S × Bool) (P : List α → MgSt S → Prop) (l : List α)
    (step : ∀ done a rest st st', l = done ++ a :: rest → P done st → f st a = (st', true) → P (done ++ [a]) st') :
    ∀ (rest done : List α) (st st' : MgSt S), l = done ++ rest → P done st → mgEach f st rest = (st', true) → P l st' := by
  intro rest
  induction rest with
  | nil =>
    intro done st st' hl hp hr
    cases hr
    rw [hl, List.append_nil]
    exact hp
  | cons a rest ih =>
    intro done st st' hl hp hr
    rw [mgEach] at hr
    generalize hf : f st a = r at hr
    obtain ⟨st1, b⟩ := r
    cases b with
    | false => cases hr
    | true => exact ih (done ++ [a]) st1 st' (by simp [hl]) (step done a rest st st1 hl hp hf) hr

/-- The loop keeps an invariant that may depend on what has been done. -/
theorem mg_each {S α : Type} (f : MgSt S → α → MgSt S × Bool) (P : List α → MgSt S → Prop) (l : List α) (st st' : MgSt S)
    (h0 : P [] st)
    (step : ∀ done a rest st st', l = done ++ a :: rest → P done st → f st a = (st', true) → P (done ++ [a]) st')
    (hr : mgEach f st l = (st', true)) : P l st' :=
  mg_each_ind f P l step l [] st st' rfl h0 hr

theorem mg_set_flat (m : GoMap Str (List PdReceipt)) (c : Str) (d : PdReceipt) :
    ((GoMap.set m c ((GoMap.get m c).getD [] ++ [d])).flatMap (·.2)).Perm (m.flatMap (·.2) ++ [d]) := by
  induction m with
  | nil => simp [GoMap.set, GoMap.get]
  | cons p m ih =>
    obtain ⟨k, e⟩ := p
    rw [GoMap.set, GoMap.get]
    by_cases h : k = c
    · simp only [h, if_true, List.flatMap_cons, Option.getD_some]
      rw [List.append_assoc, List.append_assoc]
      exact List.Perm.append_left _ List.perm_append_comm
    · simp only [h, if_false, List.flatMap_cons]
      rw [List.append_assoc]
      exact List.Perm.append_left _ ih

theorem mg_group (rs : List PdReceipt) :
    ((mgGroup rs).map (·.1)).Nodup ∧ ((mgGroup rs).flatMap (·.2)).Perm (rs.map (fun r => { r with id := 0 })) ∧
    ∀ p ∈ mgGroup rs, ∀ r ∈ p.2, r.client = p.1 ∧ r.id = 0 := by
  unfold mgGroup
  induction rs using snocInd with
  | nil => simp
  | snoc rs d ih =>
    rw [List.foldl_append]
    simp only [List.foldl_cons, List.foldl_nil]
    generalize List.foldl (fun m d => GoMap.set m d.client ((GoMap.get m d.client).getD [] ++ [{ d with id := 0 }])) [] rs = m at ih
    obtain ⟨i1, i2, i3⟩ := ih
    refine ⟨mset_nodup i1 _ _, ?_, ?_⟩
    · rw [List.map_append]
      exact (mg_set_flat m d.client _).trans (i2.append_right _)
    · intro p hp r hr
      rcases mem_mset hp with rfl | hp
      · simp only [List.mem_append, List.mem_singleton] at hr
        rcases hr with hr | rfl
        · cases hg : GoMap.get m d.client with
          | none => rw [hg] at hr; cases hr
          | some e =>
            rw [hg] at hr
            exact i3 _ (mget_some_mem hg) r hr
        · exact ⟨rfl, rfl⟩
      · exact i3 p hp r hr

/-- The network `b` of the destination has what the network `a` of the source has. -/
structure MgCopied (src : MgSource) (user : Nat) (k : PdKept) (a : NetRec) (b : Nat) : Prop where
  net : (user, { a with id := b }) ∈ k.networks
  channels : (k.channels.filter (fun p => decide (p.1 = b))).map (fun p => { p.2 with id := 0 }) =
    (src.channels a.id).map (fun c => { c with id := 0 })
  receipts : ((k.receipts.filter (fun p => decide (p.1 = b))).map (·.2)).Perm
    ((src.receipts a.id).map (fun r => { r with id := 0 }))
  subs : (k.subs.filter (fun p => decide (p.2.1 = b))).map (fun p => (p.1, p.2.2.endpoint, p.2.2.auth, p.2.2.p256dh, p.2.2.vapid)) =
    (src.subs user a.id).map (fun s => (user, s.endpoint, s.auth, s.p256dh, s.vapid))

/-- Nothing but the contents of the network `b` has changed. -/
structure MgFrame (b : Nat) (k k' : PdKept) : Prop where
  users : k'.users = k.users
  networks : k'.networks = k.networks
  configs : k'.configs = k.configs
  channels : ∀ n, n ≠ b → k'.channels.filter (fun p => decide (p.1 = n)) = k.channels.filter (fun p => decide (p.1 = n))
  receipts : ∀ n, n ≠ b → k'.receipts.filter (fun p => decide (p.1 = n)) = k.receipts.filter (fun p => decide (p.1 = n))
  subs : ∀ n, n ≠ b → k'.subs.filter (fun p => decide (p.2.1 = n)) = k.subs.filter (fun p => decide (p.2.1 = n))

theorem mg_frame_refl (b : Nat) (k : PdKept) : MgFrame b k k :=
  ⟨rfl, rfl, rfl, fun _ _ => rfl, fun _ _ => rfl, fun _ _ => rfl⟩

theorem mg_chan_loop {ok : Nat → Str → Bool} {tm : Int → Int} (dest : Nat) (l : List ChanRec) (st st' : MgSt PdDb)
    (h : MgOK ok tm st) (h0 : (pdKept st.2).channels.filter (fun p => decide (p.1 = dest)) = [])
    (hr : mgEach (fun st c => mgTry (pdStep ok tm) st (.storeChannel dest { c with id := 0 })) st l = (st', true)) :
    MgOK ok tm st' ∧ MgFrame dest (pdKept st.2) (pdKept st'.2) ∧ (pdKept st'.2).receipts = (pdKept st.2).receipts ∧
    (pdKept st'.2).subs = (pdKept st.2).subs ∧
    ((pdKept st'.2).channels.filter (fun p => decide (p.1 = dest))).map (fun p => { p.2 with id := 0 }) =
      l.map (fun c => { c with id := 0 }) := by
  refine mg_each _ (fun done s => MgOK ok tm s ∧ MgFrame dest (pdKept st.2) (pdKept s.2) ∧
    (pdKept s.2).receipts = (pdKept st.2).receipts ∧ (pdKept s.2).subs = (pdKept st.2).subs ∧
    ((pdKept s.2).channels.filter (fun p => decide (p.1 = dest))).map (fun p => { p.2 with id := 0 }) =
      done.map (fun c => { c with id := 0 })) l st st' ?_ ?_ hr
  · exact ⟨h, mg_frame_refl _ _, rfl, rfl, by rw [h0]; rfl⟩
  · rintro done a rest s s' _ ⟨p1, p2, p3, p4, p5⟩ hf
    obtain ⟨q1, id, q2⟩ := mg_try p1 hf
    simp only [pdKeep, if_true] at q2
    rw [q2]
    refine ⟨q1, { p2 with channels := ?_ }, p3, p4, ?_⟩
    · intro n hn
      simp only [List.filter_append, p2.channels n hn]
      simp [Ne.symm hn]
    · simp only [List.filter_append, List.map_append, p5]
      simp

theorem mg_rcpt_loop {ok : Nat → Str → Bool} {tm : Int → Int} (dest : Nat) (l : List (Str × List PdReceipt)) (st st' : MgSt PdDb)
    (h : MgOK ok tm st) (h0 : (pdKept st.2).receipts.filter (fun p => decide (p.1 = dest)) = [])
    (hn : (l.map (·.1)).Nodup) (hg : ∀ p ∈ l, ∀ r ∈ p.2, r.client = p.1 ∧ r.id = 0)
    (hr : mgEach (fun st p => mgTry (pdStep ok tm) st (.storeReceipts dest p.1 p.2)) st l = (st', true)) :
    MgOK ok tm st' ∧ MgFrame dest (pdKept st.2) (pdKept st'.2) ∧ (pdKept st'.2).channels = (pdKept st.2).channels ∧
    (pdKept st'.2).subs = (pdKept st.2).subs ∧
    ((pdKept st'.2).receipts.filter (fun p => decide (p.1 = dest))).map (·.2) = l.flatMap (·.2) := by
  refine mg_each _ (fun done s => MgOK ok tm s ∧ MgFrame dest (pdKept st.2) (pdKept s.2) ∧
    (pdKept s.2).channels = (pdKept st.2).channels ∧ (pdKept s.2).subs = (pdKept st.2).subs ∧
    ((pdKept s.2).receipts.filter (fun p => decide (p.1 = dest))).map (·.2) = done.flatMap (·.2)) l st st' ?_ ?_ hr
  · exact ⟨h, mg_frame_refl _ _, rfl, rfl, by rw [h0]; rfl⟩
  · rintro done a rest s s' hl ⟨p1, p2, p3, p4, p5⟩ hf
    obtain ⟨q1, id, q2⟩ := mg_try p1 hf
    simp only [pdKeep] at q2
    rw [q2]
    have hclient : ∀ p ∈ (pdKept s.2).receipts, p.1 = dest → p.2.client ≠ a.1 := by
      intro p hp hd he
      have : p.2 ∈ done.flatMap (·.2) := by
        rw [← p5]
        exact List.mem_map_of_mem (List.mem_filter.2 ⟨hp, decide_eq_true hd⟩)
      rw [List.mem_flatMap] at this
      obtain ⟨x, hx, hpx⟩ := this
      have hc := (hg x (by rw [hl]; simp [hx]) p.2 hpx).1
      rw [hl, List.map_append, List.map_cons, List.nodup_append] at hn
      exact hn.2.2 x.1 (List.mem_map_of_mem hx) a.1 (by simp) (by rw [← hc, he])
    have hfil : (pdKept s.2).receipts.filter (fun p => !(decide (p.1 = dest) && decide (p.2.client = a.1))) = (pdKept s.2).receipts := by
      rw [List.filter_eq_self]
      intro p hp
      by_cases hd : p.1 = dest
      · simp [hclient p hp hd]
      · simp [hd]
    simp only [hfil]
    refine ⟨q1, { p2 with receipts := ?_ }, p3, p4, ?_⟩
    · intro n hn
      simp only [List.filter_append, p2.receipts n hn]
      rw [List.append_right_eq_self, List.filter_eq_nil_iff]
      intro p hp
      rw [List.mem_map] at hp
      obtain ⟨r, _, rfl⟩ := hp
      simp [Ne.symm hn]
    · simp only [List.filter_append, List.map_append, p5, List.flatMap_append]
      congr 1
      rw [List.filter_eq_self.2 (by
        intro p hp
        rw [List.mem_map] at hp
        obtain ⟨r, _, rfl⟩ := hp
        simp), List.map_map]
      simp only [List.flatMap_cons, List.flatMap_nil, List.append_nil]
      conv => rhs; rw [← List.map_id a.2]
      apply List.map_congr_left
      intro r hr
      obtain ⟨e1, e2⟩ := hg a (by rw [hl]; simp) r hr
      cases r
      simp only at e1 e2
      simp [e1, e2]

theorem mg_sub_loop {ok : Nat → Str → Bool} {tm : Int → Int} (now : Int) (user dest : Nat) (l : List PdSub) (st st' : MgSt PdDb)
    (h : MgOK ok tm st) (h0 : (pdKept st.2).subs.filter (fun p => decide (p.2.1 = dest)) = [])
    (hr : mgEach (fun st s => mgTry (pdStep ok tm) st (.storeSub now user dest { s with id := 0 })) st l = (st', true)) :
    MgOK ok tm st' ∧ MgFrame dest (pdKept st.2) (pdKept st'.2) ∧ (pdKept st'.2).receipts = (pdKept st.2).receipts ∧
    (pdKept st'.2).channels = (pdKept st.2).channels ∧
    ((pdKept st'.2).subs.filter (fun p => decide (p.2.1 = dest))).map
        (fun p => (p.1, p.2.2.endpoint, p.2.2.auth, p.2.2.p256dh, p.2.2.vapid)) =
      l.map (fun s => (user, s.endpoint, s.auth, s.p256dh, s.vapid)) := by
  refine mg_each _ (fun done s => MgOK ok tm s ∧ MgFrame dest (pdKept st.2) (pdKept s.2) ∧
    (pdKept s.2).receipts = (pdKept st.2).receipts ∧ (pdKept s.2).channels = (pdKept st.2).channels ∧
    ((pdKept s.2).subs.filter (fun p => decide (p.2.1 = dest))).map
        (fun p => (p.1, p.2.2.endpoint, p.2.2.auth, p.2.2.p256dh, p.2.2.vapid)) =
      done.map (fun s => (user, s.endpoint, s.auth, s.p256dh, s.vapid))) l st st' ?_ ?_ hr
  · exact ⟨h, mg_frame_refl _ _, rfl, rfl, by rw [h0]; rfl⟩
  · rintro done a rest s s' _ ⟨p1, p2, p3, p4, p5⟩ hf
    obtain ⟨q1, id, q2⟩ := mg_try p1 hf
    simp only [pdKeep, if_true] at q2
    rw [q2]
    refine ⟨q1, { p2 with subs := ?_ }, p3, p4, ?_⟩
    · intro n hn
      simp only [List.filter_append, p2.subs n hn]
      simp [Ne.symm hn]
    · simp only [List.filter_append, List.map_append, p5]
      simp

/-- What the destination has of the networks done so far: the pairs of a network of the source and the identifier of
its copy; `before` is what was there when the user was stored. -/
structure MgNets (src : MgSource) (user : Nat) (before k : PdKept) (done : List NetRec) (ids : List Nat) : Prop where
  len : ids.length = done.length
  users : k.users = before.users
  configs : k.configs = before.configs
  networks : k.networks = before.networks ++ (done.zip ids).map (fun p => (user, { p.1 with id := p.2 }))
  copied : ∀ p ∈ done.zip ids, MgCopied src user k p.1 p.2
  channels : ∀ n, PdNet before n → k.channels.filter (fun p => decide (p.1 = n)) = before.channels.filter (fun p => decide (p.1 = n))
  receipts : ∀ n, PdNet before n → k.receipts.filter (fun p => decide (p.1 = n)) = before.receipts.filter (fun p => decide (p.1 = n))
  subs : ∀ n, PdNet before n → k.subs.filter (fun p => decide (p.2.1 = n)) = before.subs.filter (fun p => decide (p.2.1 = n))

theorem mg_network {ok : Nat → Str → Bool} {tm : Int → Int} (now : Int)
    (ord : GoMap Str (List PdReceipt) → GoMap Str (List PdReceipt)) (hord : ∀ m, (ord m).Perm m) (src : MgSource)
    (user : Nat) (before : PdKept) (done : List NetRec) (ids : List Nat) (st st' : MgSt PdDb) (a : NetRec) (h : MgOK ok tm st)
    (hp : MgNets src user before (pdKept st.2) done ids)
    (hf : mgNetwork (pdStep ok tm) now ord src user st a = (st', true)) :
    MgOK ok tm st' ∧ ∃ b, MgNets src user before (pdKept st'.2) (done ++ [a]) (ids ++ [b]) := by
  unfold mgNetwork at hf
  generalize hc : mgCall (pdStep ok tm) st (.storeNetwork user { a with id := 0 }) = r at hf
  obtain ⟨st1, res⟩ := r
  cases res with
  | none => cases hf
  | some b =>
    simp only at hf
    obtain ⟨a1, a2, a3⟩ := mg_call h hc
    have hrel := mg_rel h
    simp only [pdKeep, if_true] at a2
    have hb : b = st.1.seqN := by
      simp only [pdStep, pdStoreNetwork] at a3
      cases hcol : pdNetColumns user { a with id := 0 } with
      | none => rw [hcol] at a3; cases (Prod.mk.inj a3).2
      | some row =>
        rw [hcol] at a3
        simp only [if_true] at a3
        split at a3
        · exact (Option.some.inj (Prod.mk.inj a3).2).symm
        · cases (Prod.mk.inj a3).2
    have hfresh : ∀ n, PdNet (pdKept st.2) n → n ≠ b := by
      rintro n ⟨p, hp, e⟩
      have := (hrel.nPos p hp).2
      rw [hb]; omega
    have c0 : (pdKept st1.2).channels.filter (fun p => decide (p.1 = b)) = [] := by
      rw [a2, List.filter_eq_nil_iff]
      intro p hp
      simp only [decide_eq_true_eq]
      exact hfresh _ (hrel.fkC p hp)
    have r0 : (pdKept st1.2).receipts.filter (fun p => decide (p.1 = b)) = [] := by
      rw [a2, List.filter_eq_nil_iff]
      intro p hp
      simp only [decide_eq_true_eq]
      exact hfresh _ (hrel.fkD p hp)
    have s0 : (pdKept st1.2).subs.filter (fun p => decide (p.2.1 = b)) = [] := by
      rw [a2, List.filter_eq_nil_iff]
      intro p hp
      simp only [decide_eq_true_eq]
      rcases (hrel.fkS p hp).2 with hz | hz
      · have := hrel.seqs; rw [hz, hb]; omega
      · exact hfresh _ hz
    generalize hl1 : mgEach (fun st c => mgTry (pdStep ok tm) st (.storeChannel b { c with id := 0 })) st1 (src.channels a.id) = r1 at hf
    obtain ⟨st2, b1⟩ := r1
    cases b1 with
    | false => cases hf
    | true =>
      simp only at hf
      obtain ⟨d1, d2, d3, d4, d5⟩ := mg_chan_loop b _ st1 st2 a1 c0 hl1
      generalize hl2 : mgEach (fun st p => mgTry (pdStep ok tm) st (.storeReceipts b p.1 p.2)) st2 (ord (mgGroup (src.receipts a.id))) = r2 at hf
      obtain ⟨st3, b2⟩ := r2
      cases b2 with
      | false => cases hf
      | true =>
        simp only at hf
        obtain ⟨g1, g2, g3⟩ := mg_group (src.receipts a.id)
        have ho := hord (mgGroup (src.receipts a.id))
        obtain ⟨e1, e2, e3, e4, e5⟩ := mg_rcpt_loop b _ st2 st3 d1 (by rw [d3]; exact r0)
          ((ho.map (·.1)).nodup_iff.2 g1) (fun p hp => g3 p (ho.mem_iff.1 hp)) hl2
        obtain ⟨f1, f2, f3, f4, f5⟩ := mg_sub_loop now user b _ st3 st' e1 (by rw [e4, d4]; exact s0) hf
        have en : (pdKept st'.2).networks = (pdKept st.2).networks ++ [(user, { a with id := b })] := by
          rw [f2.networks, e2.networks, d2.networks, a2]
        have eu : (pdKept st'.2).users = (pdKept st.2).users := by
          rw [f2.users, e2.users, d2.users, a2]
        have ec : (pdKept st'.2).configs = (pdKept st.2).configs := by
          rw [f2.configs, e2.configs, d2.configs, a2]
        have fc : ∀ n, n ≠ b → (pdKept st'.2).channels.filter (fun p => decide (p.1 = n)) =
            (pdKept st.2).channels.filter (fun p => decide (p.1 = n)) := by
          intro n hn
          rw [f2.channels n hn, e2.channels n hn, d2.channels n hn, a2]
        have fr : ∀ n, n ≠ b → (pdKept st'.2).receipts.filter (fun p => decide (p.1 = n)) =
            (pdKept st.2).receipts.filter (fun p => decide (p.1 = n)) := by
          intro n hn
          rw [f2.receipts n hn, e2.receipts n hn, d2.receipts n hn, a2]
        have fs : ∀ n, n ≠ b → (pdKept st'.2).subs.filter (fun p => decide (p.2.1 = n)) =
            (pdKept st.2).subs.filter (fun p => decide (p.2.1 = n)) := by
          intro n hn
          rw [f2.subs n hn, e2.subs n hn, d2.subs n hn, a2]
        have hzip : (done ++ [a]).zip (ids ++ [b]) = done.zip ids ++ [(a, b)] := by
          rw [List.zip_append hp.len.symm]
          rfl
        have hbefore : ∀ n, PdNet before n → n ≠ b := by
          rintro n ⟨p, hpp, e⟩
          exact hfresh n ⟨p, by rw [hp.networks]; simp [hpp], e⟩
        refine ⟨f1, b, ?_⟩
        constructor
        · simp [hp.len]
        · rw [eu, hp.users]
        · rw [ec, hp.configs]
        · rw [en, hp.networks, hzip, List.map_append, List.append_assoc]
          rfl
        · intro p hpz
          rw [hzip, List.mem_append, List.mem_singleton] at hpz
          rcases hpz with hpz | rfl
          · have hcop := hp.copied p hpz
            have hne : p.2 ≠ b := hfresh _ ⟨_, hcop.net, rfl⟩
            exact ⟨by rw [en]; simp [hcop.net], by rw [fc _ hne]; exact hcop.channels,
              by rw [fr _ hne]; exact hcop.receipts, by rw [fs _ hne]; exact hcop.subs⟩
          · refine ⟨by rw [en]; simp, ?_, ?_, f5⟩
            · rw [f4, e3]; exact d5
            · rw [f3, e5]
              exact (List.Perm.flatMap_right _ ho).trans g2
        · intro n hn
          rw [fc n (hbefore n hn)]; exact hp.channels n hn
        · intro n hn
          rw [fr n (hbefore n hn)]; exact hp.receipts n hn
        · intro n hn
          rw [fs n (hbefore n hn)]; exact hp.subs n hn

/-- What the destination has of the users done so far. -/
structure MgUsers (src : MgSource) (now : Int) (db : PdDb) (k : PdKept) (done : List PdUserRec) : Prop where
  seq : db.seqU = done.length + 1
  users : k.users = (List.range done.length).zipWith (fun i u => ({ u with id := i + 1 }, now)) done
  configs : k.configs = []
  nets : ∀ i, i < done.length → ∃ ids : List Nat, ids.length = (src.networks (i + 1)).length ∧
    k.networks.filter (fun p => decide (p.1 = i + 1)) =
      ((src.networks (i + 1)).zip ids).map (fun p => (i + 1, { p.1 with id := p.2 })) ∧
    ∀ p ∈ (src.networks (i + 1)).zip ids, MgCopied src (i + 1) k p.1 p.2

theorem pd_seqU (ok : Nat → Str → Bool) (tm : Int → Int) (db : PdDb) (op : PdOp) (h : ∀ now r, op ≠ .storeUser now r) :
    (pdStep ok tm db op).1.seqU = db.seqU := by
  cases op with
  | storeUser now r => exact absurd rfl (h now r)
  | storeNetwork user r => simp only [pdStep, pdStoreNetwork]; (repeat' split) <;> rfl
  | storeChannel n c => simp only [pdStep, pdStoreChannel]; (repeat' split) <;> rfl
  | storeRead n r => simp only [pdStep, pdStoreRead]; (repeat' split) <;> rfl
  | storeSub now u n s => simp only [pdStep, pdStoreSub]; (repeat' split) <;> rfl
  | storeConfig c => simp only [pdStep, pdStoreConfig]; (repeat' split) <;> rfl
  | storeReceipts n c rs => simp only [pdStep, pdStoreReceipts]; (repeat' split) <;> rfl
  | deleteUser i => rfl
  | deleteNetwork i => rfl
  | deleteChannel i => rfl
  | deleteSub i => rfl

theorem mg_try_seq {ok : Nat → Str → Bool} {tm : Int → Int} {α : Type} (op : α → PdOp) (hop : ∀ a now r, op a ≠ .storeUser now r)
    (l : List α) (st st' : MgSt PdDb) (hr : mgEach (fun st a => mgTry (pdStep ok tm) st (op a)) st l = (st', true)) :
    st'.1.seqU = st.1.seqU := by
  refine mg_each _ (fun _ s => s.1.seqU = st.1.seqU) l st st' rfl ?_ hr
  intro done a rest s s' _ hs hf
  have : s' = (mgCall (pdStep ok tm) s (op a)).1 := (congrArg Prod.fst hf).symm
  rw [this, ← hs]
  exact pd_seqU ok tm s.1 (op a) (hop a)

theorem mg_network_seq {ok : Nat → Str → Bool} {tm : Int → Int} (now : Int)
    (ord : GoMap Str (List PdReceipt) → GoMap Str (List PdReceipt)) (src : MgSource) (user : Nat) (st st' : MgSt PdDb) (a : NetRec)
    (hf : mgNetwork (pdStep ok tm) now ord src user st a = (st', true)) : st'.1.seqU = st.1.seqU := by
  unfold mgNetwork at hf
  generalize hc : mgCall (pdStep ok tm) st (.storeNetwork user { a with id := 0 }) = r at hf
  obtain ⟨st1, res⟩ := r
  cases res with
  | none => cases hf
  | some b =>
    simp only at hf
    have h1 : st1.1.seqU = st.1.seqU := by
      have : st1 = (mgCall (pdStep ok tm) st (.storeNetwork user { a with id := 0 })).1 := (congrArg Prod.fst hc).symm
      rw [this]
      exact pd_seqU ok tm st.1 _ (fun _ _ e => by cases e)
    generalize hl1 : mgEach (fun st c => mgTry (pdStep ok tm) st (.storeChannel b { c with id := 0 })) st1 (src.channels a.id) = r1 at hf
    obtain ⟨st2, b1⟩ := r1
    cases b1 with
    | false => cases hf
    | true =>
      simp only at hf
      have h2 := mg_try_seq (fun c : ChanRec => PdOp.storeChannel b { c with id := 0 }) (fun _ _ _ e => by cases e) _ st1 st2 hl1
      generalize hl2 : mgEach (fun st p => mgTry (pdStep ok tm) st (.storeReceipts b p.1 p.2)) st2 (ord (mgGroup (src.receipts a.id))) = r2 at hf
      obtain ⟨st3, b2⟩ := r2
      cases b2 with
      | false => cases hf
      | true =>
        simp only at hf
        have h3 := mg_try_seq (fun p : Str × List PdReceipt => PdOp.storeReceipts b p.1 p.2) (fun _ _ _ e => by cases e) _ st2 st3 hl2
        have h4 := mg_try_seq (fun s : PdSub => PdOp.storeSub now user b { s with id := 0 }) (fun _ _ _ e => by cases e) _ st3 st' hf
        rw [h4, h3, h2, h1]

theorem mg_nets {ok : Nat → Str → Bool} {tm : Int → Int} (now : Int)
    (ord : GoMap Str (List PdReceipt) → GoMap Str (List PdReceipt)) (hord : ∀ m, (ord m).Perm m) (src : MgSource)
    (user : Nat) (l : List NetRec) (st st' : MgSt PdDb) (h : MgOK ok tm st)
    (hr : mgEach (mgNetwork (pdStep ok tm) now ord src user) st l = (st', true)) :
    MgOK ok tm st' ∧ st'.1.seqU = st.1.seqU ∧ ∃ ids, MgNets src user (pdKept st.2) (pdKept st'.2) l ids := by
  refine mg_each _ (fun done s => MgOK ok tm s ∧ s.1.seqU = st.1.seqU ∧ ∃ ids, MgNets src user (pdKept st.2) (pdKept s.2) done ids)
    l st st' ?_ ?_ hr
  · refine ⟨h, rfl, [], ?_⟩
    constructor
    · rfl
    · rfl
    · rfl
    · simp
    · intro p hp; cases hp
    · exact fun _ _ => rfl
    · exact fun _ _ => rfl
    · exact fun _ _ => rfl
  · rintro done a rest s s' _ ⟨p1, p2, ids, p3⟩ hf
    obtain ⟨q1, b, q2⟩ := mg_network now ord hord src user _ done ids s s' a p1 p3 hf
    exact ⟨q1, (mg_network_seq now ord src user s s' a hf).trans p2, ids ++ [b], q2⟩

theorem mg_zip_mem {α β : Type} (l : List α) (ids : List β) (h : ids.length = l.length) (a : α) (ha : a ∈ l) :
    ∃ b, (a, b) ∈ l.zip ids := by
  induction l generalizing ids with
  | nil => cases ha
  | cons x l ih =>
    cases ids with
    | nil => simp at h
    | cons y ids =>
      rw [List.mem_cons] at ha
      rcases ha with rfl | ha
      · exact ⟨y, by simp⟩
      · obtain ⟨b, hb⟩ := ih ids (by simpa using h) ha
        exact ⟨b, by simp [hb]⟩

theorem mg_user {ok : Nat → Str → Bool} {tm : Int → Int} (now : Int)
    (ord : GoMap Str (List PdReceipt) → GoMap Str (List PdReceipt)) (hord : ∀ m, (ord m).Perm m) (src : MgSource)
    (done : List PdUserRec) (u : PdUserRec) (st st' : MgSt PdDb) (h : MgOK ok tm st)
    (hp : MgUsers src now st.1 (pdKept st.2) done) (hf : mgUser (pdStep ok tm) now ord src st u = (st', true)) :
    MgOK ok tm st' ∧ MgUsers src now st'.1 (pdKept st'.2) (done ++ [u]) := by
  unfold mgUser at hf
  generalize hc : mgCall (pdStep ok tm) st (.storeUser now { u with id := 0 }) = r at hf
  obtain ⟨st1, res⟩ := r
  cases res with
  | none => cases hf
  | some b =>
    simp only at hf
    obtain ⟨a1, a2, a3⟩ := mg_call h hc
    have hrel := mg_rel h
    simp only [pdKeep, if_true] at a2
    have hb : b = done.length + 1 ∧ st1.1.seqU = done.length + 1 + 1 := by
      rw [← hp.seq]
      simp only [pdStep, pdStoreUser, if_true] at a3
      split at a3
      · have a4 := Prod.mk.inj a3
        refine ⟨(Option.some.inj a4.2).symm, ?_⟩
        rw [← a4.1]
      · cases (Prod.mk.inj a3).2
    obtain ⟨n1, n2, ids, n3⟩ := mg_nets now ord hord src b _ st1 st' a1 hf
    have hulen : ∀ p ∈ (pdKept st.2).networks, p.1 ≠ b := by
      intro p hpn e
      obtain ⟨q, hq, e2⟩ := hrel.fkN p hpn
      have := (hrel.uPos q hq).2
      rw [hp.seq] at this
      omega
    have hold : ∀ n, PdNet (pdKept st.2) n → PdNet (pdKept st1.2) n := by
      rintro n ⟨p, hpn, e⟩
      exact ⟨p, by rw [a2]; exact hpn, e⟩
    refine ⟨n1, ?_, ?_, ?_, ?_⟩
    · rw [n2, hb.2]; simp
    · rw [n3.users, a2]
      simp only [hp.users, List.length_append, List.length_cons, List.length_nil, Nat.zero_add]
      rw [List.range_succ, List.zipWith_append (by simp)]
      simp [hb.1]
    · rw [n3.configs, a2]
      exact hp.configs
    · intro i hi
      rw [List.length_append] at hi
      simp only [List.length_cons, List.length_nil, Nat.zero_add] at hi
      by_cases hlast : i = done.length
      · have hbi : b = i + 1 := by rw [hb.1, hlast]
        rw [← hbi]
        refine ⟨ids, n3.len, ?_, n3.copied⟩
        rw [n3.networks, List.filter_append, a2]
        simp only
        rw [List.filter_eq_nil_iff.2 (by intro p hpn; simpa using hulen p hpn), List.nil_append]
        rw [List.filter_eq_self]
        intro p hpn
        rw [List.mem_map] at hpn
        obtain ⟨q, _, rfl⟩ := hpn
        simp
      · obtain ⟨jds, j1, j2, j3⟩ := hp.nets i (by omega)
        refine ⟨jds, j1, ?_, ?_⟩
        · rw [n3.networks, List.filter_append, a2]
          simp only
          rw [j2]
          rw [List.append_right_eq_self, List.filter_eq_nil_iff]
          intro p hpn
          rw [List.mem_map] at hpn
          obtain ⟨q, _, rfl⟩ := hpn
          simp only [decide_eq_true_eq]
          omega
        · intro p hpz
          have hcop := j3 p hpz
          have hnet : PdNet (pdKept st1.2) p.2 := hold _ ⟨_, hcop.net, rfl⟩
          have e1 : (pdKept st1.2).channels = (pdKept st.2).channels := by rw [a2]
          have e2 : (pdKept st1.2).receipts = (pdKept st.2).receipts := by rw [a2]
          have e3 : (pdKept st1.2).subs = (pdKept st.2).subs := by rw [a2]
          refine ⟨?_, ?_, ?_, ?_⟩
          · rw [n3.networks, a2]
            simp [hcop.net]
          · rw [n3.channels _ hnet, e1]; exact hcop.channels
          · rw [n3.receipts _ hnet, e2]; exact hcop.receipts
          · rw [n3.subs _ hnet, e3]; exact hcop.subs

theorem mg_users {ok : Nat → Str → Bool} {tm : Int → Int} (now : Int)
    (ord : GoMap Str (List PdReceipt) → GoMap Str (List PdReceipt)) (hord : ∀ m, (ord m).Perm m) (src : MgSource)
    (st' : MgSt PdDb) (hr : mgEach (mgUser (pdStep ok tm) now ord src) ({}, []) src.users = (st', true)) :
    MgOK ok tm st' ∧ MgUsers src now st'.1 (pdKept st'.2) src.users := by
  refine mg_each _ (fun done s => MgOK ok tm s ∧ MgUsers src now s.1 (pdKept s.2) done) src.users ({}, []) st' ?_ ?_ hr
  · exact ⟨⟨[], rfl⟩, ⟨rfl, rfl, rfl, fun i hi => absurd hi (by simp)⟩⟩
  · rintro done a rest s s' _ ⟨p1, p2⟩ hf
    exact mg_user now ord hord src done a s s' p1 p2 hf

/-- What the destination has at the end. -/
theorem mg_run {ok : Nat → Str → Bool} {tm : Int → Int} (now : Int)
    (ord : GoMap Str (List PdReceipt) → GoMap Str (List PdReceipt)) (hord : ∀ m, (ord m).Perm m) (src : MgSource)
    (st' : MgSt PdDb) (hr : mgRun (pdStep ok tm) now ord src {} = (st', true)) :
    MgOK ok tm st' ∧ MgUsers src now st'.1 { pdKept st'.2 with configs := [] } src.users ∧
    (pdKept st'.2).configs.map (fun c => { c with id := 0 }) = src.configs.map (fun c => { c with id := 0 }) := by
  unfold mgRun at hr
  generalize hu : mgEach (mgUser (pdStep ok tm) now ord src) ({}, []) src.users = r at hr
  obtain ⟨st, b⟩ := r
  cases b with
  | false => cases hr
  | true =>
    simp only at hr
    obtain ⟨h1, h2⟩ := mg_users now ord hord src st hu
    have hc0 : (pdKept st.2).configs = [] := h2.configs
    refine mg_each _ (fun done s => MgOK ok tm s ∧ MgUsers src now s.1 { pdKept s.2 with configs := [] } src.users ∧
      (pdKept s.2).configs.map (fun c => { c with id := 0 }) = done.map (fun c => { c with id := 0 })) src.configs st st' ?_ ?_ hr
    · refine ⟨h1, ?_, by rw [hc0]⟩
      have hk : ∀ k : PdKept, k.configs = [] → { k with configs := [] } = k := by
        intro k h; cases k; cases h; rfl
      rw [hk _ hc0]
      exact h2
    · rintro done a rest s s' _ ⟨p1, p2, p3⟩ hf
      obtain ⟨q1, id, q2⟩ := mg_try p1 hf
      have hseq : s'.1.seqU = s.1.seqU := by
        have : s' = (mgCall (pdStep ok tm) s (.storeConfig { a with id := 0 })).1 := (congrArg Prod.fst hf).symm
        rw [this]
        exact pd_seqU ok tm s.1 _ (fun _ _ e => by cases e)
      simp only [pdKeep] at q2
      refine ⟨q1, ?_, ?_⟩
      · have e : { pdKept s'.2 with configs := [] } = { pdKept s.2 with configs := [] } := by rw [q2]
        rw [e]
        exact { p2 with seq := hseq.trans p2.seq }
      · rw [q2]
        simp only [List.map_append, p3]
        rfl

end Verif.Proof
