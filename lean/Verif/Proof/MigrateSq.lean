import Verif.Proof.MigrateDb
import Verif.Proof.SqDb

/-! # Proofs about the migration to an SQLite database -/

namespace Verif.Proof
open Verif.Model Verif.Spec

/-- The destination is what the calls made have left. -/
def MqOK (st : MgSt SqDb) : Prop := ∃ ops, st = sqRun ops

theorem mq_rel {st : MgSt SqDb} (h : MqOK st) : SqRel (sqKept st.2) st.1 := by
  obtain ⟨ops, rfl⟩ := h
  exact sq_rel ops

theorem mq_call {st st' : MgSt SqDb} {op : PdOp} {res : Option Nat} (h : MqOK st)
    (hc : mgCall sqStep st op = (st', res)) :
    MqOK st' ∧ sqKept st'.2 = sqKeep (sqKept st.2) (op, res) ∧ sqStep st.1 op = (st'.1, res) := by
  unfold mgCall at hc
  cases hc
  refine ⟨?_, ?_, rfl⟩
  · obtain ⟨ops, rfl⟩ := h
    exact ⟨ops ++ [op], by rw [sq_run_snoc]⟩
  · unfold sqKept
    rw [List.foldl_append]
    rfl

theorem mq_try {st st' : MgSt SqDb} {op : PdOp} (h : MqOK st)
    (hc : mgTry sqStep st op = (st', true)) :
    MqOK st' ∧ ∃ id, sqKept st'.2 = sqKeep (sqKept st.2) (op, some id) := by
  unfold mgTry at hc
  generalize hh : mgCall sqStep st op = r at hc
  obtain ⟨st1, res⟩ := r
  cases res with
  | none => cases hc
  | some id =>
    cases hc
    obtain ⟨a, b, _⟩ := mq_call h hh
    exact ⟨a, id, b⟩

theorem mq_chan_loop (dest : Nat) (l : List ChanRec) (st st' : MgSt SqDb)
    (h : MqOK st) (h0 : (sqKept st.2).channels.filter (fun p => decide (p.1 = dest)) = [])
    (hr : mgEach (fun st c => mgTry sqStep st (.storeChannel dest { c with id := 0 })) st l = (st', true)) :
    MqOK st' ∧ MgFrame dest (sqKept st.2) (sqKept st'.2) ∧ (sqKept st'.2).receipts = (sqKept st.2).receipts ∧
    (sqKept st'.2).subs = (sqKept st.2).subs ∧
    ((sqKept st'.2).channels.filter (fun p => decide (p.1 = dest))).map (fun p => { p.2 with id := 0 }) =
      l.map (fun c => { c with id := 0 }) := by
  refine mg_each _ (fun done s => MqOK s ∧ MgFrame dest (sqKept st.2) (sqKept s.2) ∧
    (sqKept s.2).receipts = (sqKept st.2).receipts ∧ (sqKept s.2).subs = (sqKept st.2).subs ∧
    ((sqKept s.2).channels.filter (fun p => decide (p.1 = dest))).map (fun p => { p.2 with id := 0 }) =
      done.map (fun c => { c with id := 0 })) l st st' ?_ ?_ hr
  · exact ⟨h, mg_frame_refl _ _, rfl, rfl, by rw [h0]; rfl⟩
  · rintro done a rest s s' _ ⟨p1, p2, p3, p4, p5⟩ hf
    obtain ⟨q1, id, q2⟩ := mq_try p1 hf
    simp only [sqKeep, if_true] at q2
    rw [q2]
    refine ⟨q1, { p2 with channels := ?_ }, p3, p4, ?_⟩
    · intro n hn
      simp only [List.filter_append, p2.channels n hn]
      simp [Ne.symm hn]
    · simp only [List.filter_append, List.map_append, p5]
      simp

theorem mq_rcpt_loop (dest : Nat) (l : List (Str × List PdReceipt)) (st st' : MgSt SqDb)
    (h : MqOK st) (h0 : (sqKept st.2).receipts.filter (fun p => decide (p.1 = dest)) = [])
    (hn : (l.map (·.1)).Nodup) (hg : ∀ p ∈ l, ∀ r ∈ p.2, r.client = p.1 ∧ r.id = 0)
    (hr : mgEach (fun st p => mgTry sqStep st (.storeReceipts dest p.1 p.2)) st l = (st', true)) :
    MqOK st' ∧ MgFrame dest (sqKept st.2) (sqKept st'.2) ∧ (sqKept st'.2).channels = (sqKept st.2).channels ∧
    (sqKept st'.2).subs = (sqKept st.2).subs ∧
    ((sqKept st'.2).receipts.filter (fun p => decide (p.1 = dest))).map (·.2) = l.flatMap (·.2) := by
  refine mg_each _ (fun done s => MqOK s ∧ MgFrame dest (sqKept st.2) (sqKept s.2) ∧
    (sqKept s.2).channels = (sqKept st.2).channels ∧ (sqKept s.2).subs = (sqKept st.2).subs ∧
    ((sqKept s.2).receipts.filter (fun p => decide (p.1 = dest))).map (·.2) = done.flatMap (·.2)) l st st' ?_ ?_ hr
  · exact ⟨h, mg_frame_refl _ _, rfl, rfl, by rw [h0]; rfl⟩
  · rintro done a rest s s' hl ⟨p1, p2, p3, p4, p5⟩ hf
    obtain ⟨q1, id, q2⟩ := mq_try p1 hf
    simp only [sqKeep, pdKeep] at q2
    rw [q2]
    have hclient : ∀ p ∈ (sqKept s.2).receipts, p.1 = dest → p.2.client ≠ a.1 := by
      intro p hp hd he
      have : p.2 ∈ done.flatMap (·.2) := by
        rw [← p5]
        exact List.mem_map_of_mem (List.mem_filter.2 ⟨hp, decide_eq_true hd⟩)
      rw [List.mem_flatMap] at this
      obtain ⟨x, hx, hpx⟩ := this
      have hc := (hg x (by rw [hl]; simp [hx]) p.2 hpx).1
      rw [hl, List.map_append, List.map_cons, List.nodup_append] at hn
      exact hn.2.2 x.1 (List.mem_map_of_mem hx) a.1 (by simp) (by rw [← hc, he])
    have hfil : (sqKept s.2).receipts.filter (fun p => !(decide (p.1 = dest) && decide (p.2.client = a.1))) = (sqKept s.2).receipts := by
      rw [List.filter_eq_self]
      intro p hp
      by_cases hd : p.1 = dest
      · simp [hclient p hp hd]
      · simp [hd]
    simp only [hfil]
    refine ⟨q1, { p2 with receipts := ?_ }, p3, p4, ?_⟩
    · intro n hn
      simp only [List.filter_append, p2.receipts n hn]
      rw [List.append_right_eq_self, List.filter_eq_nil_iff]
      intro p hp
      rw [List.mem_map] at hp
      obtain ⟨r, _, rfl⟩ := hp
      simp [Ne.symm hn]
    · simp only [List.filter_append, List.map_append, p5, List.flatMap_append]
      congr 1
      rw [List.filter_eq_self.2 (by
        intro p hp
        rw [List.mem_map] at hp
        obtain ⟨r, _, rfl⟩ := hp
        simp), List.map_map]
      simp only [List.flatMap_cons, List.flatMap_nil, List.append_nil]
      conv => rhs; rw [← List.map_id a.2]
      apply List.map_congr_left
      intro r hr
      obtain ⟨e1, e2⟩ := hg a (by rw [hl]; simp) r hr
      cases r
      simp only at e1 e2
      simp [e1, e2]

theorem mq_sub_loop (now : Int) (user dest : Nat) (l : List PdSub) (st st' : MgSt SqDb)
    (h : MqOK st) (h0 : (sqKept st.2).subs.filter (fun p => decide (p.2.1 = dest)) = [])
    (hr : mgEach (fun st s => mgTry sqStep st (.storeSub now user dest { s with id := 0 })) st l = (st', true)) :
    MqOK st' ∧ MgFrame dest (sqKept st.2) (sqKept st'.2) ∧ (sqKept st'.2).receipts = (sqKept st.2).receipts ∧
    (sqKept st'.2).channels = (sqKept st.2).channels ∧
    ((sqKept st'.2).subs.filter (fun p => decide (p.2.1 = dest))).map
        (fun p => (p.1, p.2.2.endpoint, p.2.2.auth, p.2.2.p256dh, p.2.2.vapid)) =
      l.map (fun s => (user, s.endpoint, s.auth, s.p256dh, s.vapid)) := by
  refine mg_each _ (fun done s => MqOK s ∧ MgFrame dest (sqKept st.2) (sqKept s.2) ∧
    (sqKept s.2).receipts = (sqKept st.2).receipts ∧ (sqKept s.2).channels = (sqKept st.2).channels ∧
    ((sqKept s.2).subs.filter (fun p => decide (p.2.1 = dest))).map
        (fun p => (p.1, p.2.2.endpoint, p.2.2.auth, p.2.2.p256dh, p.2.2.vapid)) =
      done.map (fun s => (user, s.endpoint, s.auth, s.p256dh, s.vapid))) l st st' ?_ ?_ hr
  · exact ⟨h, mg_frame_refl _ _, rfl, rfl, by rw [h0]; rfl⟩
  · rintro done a rest s s' _ ⟨p1, p2, p3, p4, p5⟩ hf
    obtain ⟨q1, id, q2⟩ := mq_try p1 hf
    simp only [sqKeep, pdKeep, if_true] at q2
    rw [q2]
    refine ⟨q1, { p2 with subs := ?_ }, p3, p4, ?_⟩
    · intro n hn
      simp only [List.filter_append, p2.subs n hn]
      simp [Ne.symm hn]
    · simp only [List.filter_append, List.map_append, p5]
      simp

theorem mq_commit {db db' : SqDb} {after : Option SqDb} {id b : Nat} (h : sqCommit db after id = (db', some b)) : b = id := by
  unfold sqCommit at h
  cases after with
  | none => cases (Prod.mk.inj h).2
  | some d => exact (Option.some.inj (Prod.mk.inj h).2).symm

theorem mq_network (now : Int)
    (ord : GoMap Str (List PdReceipt) → GoMap Str (List PdReceipt)) (hord : ∀ m, (ord m).Perm m) (src : MgSource)
    (user : Nat) (before : PdKept) (done : List NetRec) (ids : List Nat) (st st' : MgSt SqDb) (a : NetRec) (h : MqOK st)
    (hp : MgNets src user before (sqKept st.2) done ids)
    (hf : mgNetwork sqStep now ord src user st a = (st', true)) :
    MqOK st' ∧ ∃ b, MgNets src user before (sqKept st'.2) (done ++ [a]) (ids ++ [b]) := by
  unfold mgNetwork at hf
  generalize hc : mgCall sqStep st (.storeNetwork user { a with id := 0 }) = r at hf
  obtain ⟨st1, res⟩ := r
  cases res with
  | none => cases hf
  | some b =>
    simp only at hf
    obtain ⟨a1, a2, a3⟩ := mq_call h hc
    have hrel := mq_rel h
    simp only [sqKeep, pdKeep, if_true] at a2
    have hb : b = (sqPd (sqKept st.2)).seqN := by
      have hall := (sq_step _ _ hrel (.storeNetwork user { a with id := 0 })).2
      rw [a3] at hall
      have hm : PdMech { a with id := 0 } := (hall.1 rfl).1
      simp only [sqStep] at a3
      rw [sq_store_net_new _ _ _ hm rfl] at a3
      have hid : nextRowId (st.1.networks.map (·.id)) = (sqPd (sqKept st.2)).seqN := by
        rw [hrel.networks, List.map_map]; rfl
      rw [hid] at a3
      split at a3
      · exact mq_commit a3
      · cases (Prod.mk.inj a3).2
    have hfresh : ∀ n, PdNet (sqKept st.2) n → n ≠ b := by
      rintro n ⟨p, hp, e⟩
      have := (hrel.base.nPos p hp).2
      rw [hb]; omega
    have c0 : (sqKept st1.2).channels.filter (fun p => decide (p.1 = b)) = [] := by
      rw [a2, List.filter_eq_nil_iff]
      intro p hp
      simp only [decide_eq_true_eq]
      exact hfresh _ (hrel.base.fkC p hp)
    have r0 : (sqKept st1.2).receipts.filter (fun p => decide (p.1 = b)) = [] := by
      rw [a2, List.filter_eq_nil_iff]
      intro p hp
      simp only [decide_eq_true_eq]
      exact hfresh _ (hrel.base.fkD p hp)
    have s0 : (sqKept st1.2).subs.filter (fun p => decide (p.2.1 = b)) = [] := by
      rw [a2, List.filter_eq_nil_iff]
      intro p hp
      simp only [decide_eq_true_eq]
      rcases (hrel.base.fkS p hp).2 with hz | hz
      · have := hrel.base.seqs; rw [hz, hb]; omega
      · exact hfresh _ hz
    generalize hl1 : mgEach (fun st c => mgTry sqStep st (.storeChannel b { c with id := 0 })) st1 (src.channels a.id) = r1 at hf
    obtain ⟨st2, b1⟩ := r1
    cases b1 with
    | false => cases hf
    | true =>
      simp only at hf
      obtain ⟨d1, d2, d3, d4, d5⟩ := mq_chan_loop b _ st1 st2 a1 c0 hl1
      generalize hl2 : mgEach (fun st p => mgTry sqStep st (.storeReceipts b p.1 p.2)) st2 (ord (mgGroup (src.receipts a.id))) = r2 at hf
      obtain ⟨st3, b2⟩ := r2
      cases b2 with
      | false => cases hf
      | true =>
        simp only at hf
        obtain ⟨g1, g2, g3⟩ := mg_group (src.receipts a.id)
        have ho := hord (mgGroup (src.receipts a.id))
        obtain ⟨e1, e2, e3, e4, e5⟩ := mq_rcpt_loop b _ st2 st3 d1 (by rw [d3]; exact r0)
          ((ho.map (·.1)).nodup_iff.2 g1) (fun p hp => g3 p (ho.mem_iff.1 hp)) hl2
        obtain ⟨f1, f2, f3, f4, f5⟩ := mq_sub_loop now user b _ st3 st' e1 (by rw [e4, d4]; exact s0) hf
        have en : (sqKept st'.2).networks = (sqKept st.2).networks ++ [(user, { a with id := b })] := by
          rw [f2.networks, e2.networks, d2.networks, a2]
        have eu : (sqKept st'.2).users = (sqKept st.2).users := by
          rw [f2.users, e2.users, d2.users, a2]
        have ec : (sqKept st'.2).configs = (sqKept st.2).configs := by
          rw [f2.configs, e2.configs, d2.configs, a2]
        have fc : ∀ n, n ≠ b → (sqKept st'.2).channels.filter (fun p => decide (p.1 = n)) =
            (sqKept st.2).channels.filter (fun p => decide (p.1 = n)) := by
          intro n hn
          rw [f2.channels n hn, e2.channels n hn, d2.channels n hn, a2]
        have fr : ∀ n, n ≠ b → (sqKept st'.2).receipts.filter (fun p => decide (p.1 = n)) =
            (sqKept st.2).receipts.filter (fun p => decide (p.1 = n)) := by
          intro n hn
          rw [f2.receipts n hn, e2.receipts n hn, d2.receipts n hn, a2]
        have fs : ∀ n, n ≠ b → (sqKept st'.2).subs.filter (fun p => decide (p.2.1 = n)) =
            (sqKept st.2).subs.filter (fun p => decide (p.2.1 = n)) := by
          intro n hn
          rw [f2.subs n hn, e2.subs n hn, d2.subs n hn, a2]
        have hzip : (done ++ [a]).zip (ids ++ [b]) = done.zip ids ++ [(a, b)] := by
          rw [List.zip_append hp.len.symm]
          rfl
        have hbefore : ∀ n, PdNet before n → n ≠ b := by
          rintro n ⟨p, hpp, e⟩
          exact hfresh n ⟨p, by rw [hp.networks]; simp [hpp], e⟩
        refine ⟨f1, b, ?_⟩
        constructor
        · simp [hp.len]
        · rw [eu, hp.users]
        · rw [ec, hp.configs]
        · rw [en, hp.networks, hzip, List.map_append, List.append_assoc]
          rfl
        · intro p hpz
          rw [hzip, List.mem_append, List.mem_singleton] at hpz
          rcases hpz with hpz | rfl
          · have hcop := hp.copied p hpz
            have hne : p.2 ≠ b := hfresh _ ⟨_, hcop.net, rfl⟩
            exact ⟨by rw [en]; simp [hcop.net], by rw [fc _ hne]; exact hcop.channels,
              by rw [fr _ hne]; exact hcop.receipts, by rw [fs _ hne]; exact hcop.subs⟩
          · refine ⟨by rw [en]; simp, ?_, ?_, f5⟩
            · rw [f4, e3]; exact d5
            · rw [f3, e5]
              exact (List.Perm.flatMap_right _ ho).trans g2
        · intro n hn
          rw [fc n (hbefore n hn)]; exact hp.channels n hn
        · intro n hn
          rw [fr n (hbefore n hn)]; exact hp.receipts n hn
        · intro n hn
          rw [fs n (hbefore n hn)]; exact hp.subs n hn

theorem mq_nets (now : Int)
    (ord : GoMap Str (List PdReceipt) → GoMap Str (List PdReceipt)) (hord : ∀ m, (ord m).Perm m) (src : MgSource)
    (user : Nat) (l : List NetRec) (st st' : MgSt SqDb) (h : MqOK st)
    (hr : mgEach (mgNetwork sqStep now ord src user) st l = (st', true)) :
    MqOK st' ∧ ∃ ids, MgNets src user (sqKept st.2) (sqKept st'.2) l ids := by
  refine mg_each _ (fun done s => MqOK s ∧ ∃ ids, MgNets src user (sqKept st.2) (sqKept s.2) done ids)
    l st st' ?_ ?_ hr
  · refine ⟨h, [], ?_⟩
    constructor
    · rfl
    · rfl
    · rfl
    · simp
    · intro p hp; cases hp
    · exact fun _ _ => rfl
    · exact fun _ _ => rfl
    · exact fun _ _ => rfl
  · rintro done a rest s s' _ ⟨p1, ids, p3⟩ hf
    obtain ⟨q1, b, q2⟩ := mq_network now ord hord src user _ done ids s s' a p1 p3 hf
    exact ⟨q1, ids ++ [b], q2⟩

theorem mq_seq {k : PdKept} {t : Int} {l : List PdUserRec}
    (h : k.users = (List.range l.length).zipWith (fun i u => ({ u with id := i + 1 }, t)) l) :
    (sqPd k).seqU = l.length + 1 := by
  show nextRowId (k.users.map (·.1.id)) = _
  rw [← nextRowId_range, h, List.map_zipWith]
  congr 1
  apply List.ext_getElem <;> simp

theorem mq_user (now : Int)
    (ord : GoMap Str (List PdReceipt) → GoMap Str (List PdReceipt)) (hord : ∀ m, (ord m).Perm m) (src : MgSource)
    (done : List PdUserRec) (u : PdUserRec) (st st' : MgSt SqDb) (h : MqOK st)
    (hp : MgUsers src (toMillis now) (sqPd (sqKept st.2)) (sqKept st.2) done) (hf : mgUser sqStep now ord src st u = (st', true)) :
    MqOK st' ∧ MgUsers src (toMillis now) (sqPd (sqKept st'.2)) (sqKept st'.2) (done ++ [u]) := by
  unfold mgUser at hf
  generalize hc : mgCall sqStep st (.storeUser now { u with id := 0 }) = r at hf
  obtain ⟨st1, res⟩ := r
  cases res with
  | none => cases hf
  | some b =>
    simp only at hf
    obtain ⟨a1, a2, a3⟩ := mq_call h hc
    have hrel := mq_rel h
    simp only [sqKeep, if_true] at a2
    have hb : b = done.length + 1 := by
      rw [← hp.seq]
      simp only [sqStep, sqStoreUser, ne_eq, not_true_eq_false, if_false] at a3
      have hid : nextRowId (st.1.users.map (·.id)) = (sqPd (sqKept st.2)).seqU := by
        rw [hrel.users, List.map_map]; rfl
      rw [hid] at a3
      split at a3
      · cases (Prod.mk.inj a3).2
      · exact mq_commit a3
    obtain ⟨n1, ids, n3⟩ := mq_nets now ord hord src b _ st1 st' a1 hf
    have hulen : ∀ p ∈ (sqKept st.2).networks, p.1 ≠ b := by
      intro p hpn e
      obtain ⟨q, hq, e2⟩ := hrel.base.fkN p hpn
      have := (hrel.base.uPos q hq).2
      rw [hp.seq] at this
      omega
    have hold : ∀ n, PdNet (sqKept st.2) n → PdNet (sqKept st1.2) n := by
      rintro n ⟨p, hpn, e⟩
      exact ⟨p, by rw [a2]; exact hpn, e⟩
    have hus : (sqKept st'.2).users =
        (List.range (done ++ [u]).length).zipWith (fun i u => ({ u with id := i + 1 }, toMillis now)) (done ++ [u]) := by
      rw [n3.users, a2]
      simp only [hp.users, List.length_append, List.length_cons, List.length_nil, Nat.zero_add]
      rw [List.range_succ, List.zipWith_append (by simp)]
      simp [hb]
    refine ⟨n1, mq_seq hus, hus, ?_, ?_⟩
    · rw [n3.configs, a2]
      exact hp.configs
    · intro i hi
      rw [List.length_append] at hi
      simp only [List.length_cons, List.length_nil, Nat.zero_add] at hi
      by_cases hlast : i = done.length
      · have hbi : b = i + 1 := by rw [hb, hlast]
        rw [← hbi]
        refine ⟨ids, n3.len, ?_, n3.copied⟩
        rw [n3.networks, List.filter_append, a2]
        simp only
        rw [List.filter_eq_nil_iff.2 (by intro p hpn; simpa using hulen p hpn), List.nil_append]
        rw [List.filter_eq_self]
        intro p hpn
        rw [List.mem_map] at hpn
        obtain ⟨q, _, rfl⟩ := hpn
        simp
      · obtain ⟨jds, j1, j2, j3⟩ := hp.nets i (by omega)
        refine ⟨jds, j1, ?_, ?_⟩
        · rw [n3.networks, List.filter_append, a2]
          simp only
          rw [j2]
          rw [List.append_right_eq_self, List.filter_eq_nil_iff]
          intro p hpn
          rw [List.mem_map] at hpn
          obtain ⟨q, _, rfl⟩ := hpn
          simp only [decide_eq_true_eq]
          omega
        · intro p hpz
          have hcop := j3 p hpz
          have hnet : PdNet (sqKept st1.2) p.2 := hold _ ⟨_, hcop.net, rfl⟩
          have e1 : (sqKept st1.2).channels = (sqKept st.2).channels := by rw [a2]
          have e2 : (sqKept st1.2).receipts = (sqKept st.2).receipts := by rw [a2]
          have e3 : (sqKept st1.2).subs = (sqKept st.2).subs := by rw [a2]
          refine ⟨?_, ?_, ?_, ?_⟩
          · rw [n3.networks, a2]
            simp [hcop.net]
          · rw [n3.channels _ hnet, e1]; exact hcop.channels
          · rw [n3.receipts _ hnet, e2]; exact hcop.receipts
          · rw [n3.subs _ hnet, e3]; exact hcop.subs

theorem mq_users (now : Int)
    (ord : GoMap Str (List PdReceipt) → GoMap Str (List PdReceipt)) (hord : ∀ m, (ord m).Perm m) (src : MgSource)
    (st' : MgSt SqDb) (hr : mgEach (mgUser sqStep now ord src) ({}, []) src.users = (st', true)) :
    MqOK st' ∧ MgUsers src (toMillis now) (sqPd (sqKept st'.2)) (sqKept st'.2) src.users := by
  refine mg_each _ (fun done s => MqOK s ∧ MgUsers src (toMillis now) (sqPd (sqKept s.2)) (sqKept s.2) done) src.users ({}, []) st' ?_ ?_ hr
  · exact ⟨⟨[], rfl⟩, ⟨rfl, rfl, rfl, fun i hi => absurd hi (by simp)⟩⟩
  · rintro done a rest s s' _ ⟨p1, p2⟩ hf
    exact mq_user now ord hord src done a s s' p1 p2 hf

/-- What the destination has at the end. -/
theorem mq_run (now : Int)
    (ord : GoMap Str (List PdReceipt) → GoMap Str (List PdReceipt)) (hord : ∀ m, (ord m).Perm m) (src : MgSource)
    (st' : MgSt SqDb) (hr : mgRun sqStep now ord src {} = (st', true)) :
    MqOK st' ∧ MgUsers src (toMillis now) (sqPd (sqKept st'.2)) { sqKept st'.2 with configs := [] } src.users ∧
    (sqKept st'.2).configs.map (fun c => { c with id := 0 }) = src.configs.map (fun c => { c with id := 0 }) := by
  unfold mgRun at hr
  generalize hu : mgEach (mgUser sqStep now ord src) ({}, []) src.users = r at hr
  obtain ⟨st, b⟩ := r
  cases b with
  | false => cases hr
  | true =>
    simp only at hr
    obtain ⟨h1, h2⟩ := mq_users now ord hord src st hu
    have hc0 : (sqKept st.2).configs = [] := h2.configs
    refine mg_each _ (fun done s => MqOK s ∧ MgUsers src (toMillis now) (sqPd (sqKept s.2)) { sqKept s.2 with configs := [] } src.users ∧
      (sqKept s.2).configs.map (fun c => { c with id := 0 }) = done.map (fun c => { c with id := 0 })) src.configs st st' ?_ ?_ hr
    · refine ⟨h1, ?_, by rw [hc0]⟩
      have hk : ∀ k : PdKept, k.configs = [] → { k with configs := [] } = k := by
        intro k h; cases k; cases h; rfl
      rw [hk _ hc0]
      exact h2
    · rintro done a rest s s' _ ⟨p1, p2, p3⟩ hf
      obtain ⟨q1, id, q2⟩ := mq_try p1 hf
      simp only [sqKeep, pdKeep] at q2
      refine ⟨q1, ?_, ?_⟩
      · have e : { sqKept s'.2 with configs := [] } = { sqKept s.2 with configs := [] } := by rw [q2]
        rw [e]
        exact { p2 with seq := mq_seq (k := sqKept s'.2) (by rw [q2]; exact p2.users) }
      · rw [q2]
        simp only [List.map_append, p3]
        rfl

/-- Every call made is one of those the program makes for the records of the source. -/
theorem mg_ops {S : Type} (step : S → PdOp → S × Option Nat) (now : Int)
    (ord : GoMap Str (List PdReceipt) → GoMap Str (List PdReceipt)) (src : MgSource) (init : S) (Q : PdOp → Prop)
    (hu : ∀ u ∈ src.users, Q (.storeUser now { u with id := 0 }))
    (hn : ∀ user u, ∀ a ∈ src.networks u, Q (.storeNetwork user { a with id := 0 }))
    (hc : ∀ n c, Q (.storeChannel n c)) (hd : ∀ n c rs, Q (.storeReceipts n c rs))
    (hs : ∀ u n (s : PdSub), Q (.storeSub now u n { s with id := 0 })) (hw : ∀ c, Q (.storeConfig c)) :
    ∀ c ∈ (mgRun step now ord src init).1.2, Q c.1 := by
  have call : ∀ (st : MgSt S) op, (∀ c ∈ st.2, Q c.1) → Q op → ∀ c ∈ (mgCall step st op).1.2, Q c.1 := by
    intro st op h hq c hc
    unfold mgCall at hc
    simp only [List.mem_append, List.mem_singleton] at hc
    rcases hc with hc | rfl
    · exact h c hc
    · exact hq
  have each : ∀ {α : Type} (f : MgSt S → α → MgSt S × Bool) (l : List α),
      (∀ st, ∀ a ∈ l, (∀ c ∈ st.2, Q c.1) → ∀ c ∈ (f st a).1.2, Q c.1) → ∀ st, (∀ c ∈ st.2, Q c.1) →
      ∀ c ∈ (mgEach f st l).1.2, Q c.1 := by
    intro α f l
    induction l with
    | nil => intro _ st h; exact h
    | cons a l ih =>
      intro hf st h
      have h1 := hf st a (by simp) h
      rw [mgEach]
      generalize f st a = r at h1
      obtain ⟨st1, b⟩ := r
      cases b with
      | true => exact ih (fun st a ha => hf st a (by simp [ha])) st1 h1
      | false => exact h1
  have try_ : ∀ (st : MgSt S) op, (∀ c ∈ st.2, Q c.1) → Q op → ∀ c ∈ (mgTry step st op).1.2, Q c.1 := call
  have net : ∀ user u (st : MgSt S), ∀ a ∈ src.networks u, (∀ c ∈ st.2, Q c.1) →
      ∀ c ∈ (mgNetwork step now ord src user st a).1.2, Q c.1 := by
    intro user u st a ha h
    unfold mgNetwork
    have h1 := call st (.storeNetwork user { a with id := 0 }) h (hn user u a ha)
    generalize mgCall step st (.storeNetwork user { a with id := 0 }) = r at h1
    obtain ⟨st1, res⟩ := r
    cases res with
    | none => exact h1
    | some b =>
      simp only at h1 ⊢
      have h2 := each (fun st c => mgTry step st (.storeChannel b { c with id := 0 })) (src.channels a.id)
        (fun st c _ h => try_ st _ h (hc _ _)) st1 h1
      generalize mgEach (fun st c => mgTry step st (.storeChannel b { c with id := 0 })) st1 (src.channels a.id) = r2 at h2 ⊢
      obtain ⟨st2, b2⟩ := r2
      cases b2 with
      | false => exact h2
      | true =>
        simp only at h2 ⊢
        have h3 := each (fun st (p : Str × List PdReceipt) => mgTry step st (.storeReceipts b p.1 p.2))
          (ord (mgGroup (src.receipts a.id))) (fun st c _ h => try_ st _ h (hd _ _ _)) st2 h2
        generalize mgEach (fun st (p : Str × List PdReceipt) => mgTry step st (.storeReceipts b p.1 p.2)) st2
          (ord (mgGroup (src.receipts a.id))) = r3 at h3 ⊢
        obtain ⟨st3, b3⟩ := r3
        cases b3 with
        | false => exact h3
        | true =>
          exact each (fun st (s : PdSub) => mgTry step st (.storeSub now user b { s with id := 0 })) _
            (fun st c _ h => try_ st _ h (hs _ _ _)) st3 h3
  have user : ∀ (st : MgSt S), ∀ u ∈ src.users, (∀ c ∈ st.2, Q c.1) →
      ∀ c ∈ (mgUser step now ord src st u).1.2, Q c.1 := by
    intro st u hmem h
    unfold mgUser
    have h1 := call st (.storeUser now { u with id := 0 }) h (hu u hmem)
    generalize mgCall step st (.storeUser now { u with id := 0 }) = r at h1
    obtain ⟨st1, res⟩ := r
    cases res with
    | none => exact h1
    | some b => exact each _ _ (net b b) st1 h1
  unfold mgRun
  have h1 := each _ src.users user (init, []) (by intro c hc; cases hc)
  generalize mgEach (mgUser step now ord src) (init, []) src.users = r at h1
  obtain ⟨st, b⟩ := r
  cases b with
  | false => exact h1
  | true =>
    exact each (fun st (c : PdConfig) => mgTry step st (.storeConfig { c with id := 0 })) _
      (fun st c _ h => try_ st _ h (hw _)) st h1

theorem sq_run_ops (ops : List PdOp) : (sqRun ops).2.map (·.1) = ops := by
  induction ops using snocInd with
  | nil => rfl
  | snoc ops op ih => rw [sq_run_snoc]; simp [ih]

end Verif.Proof
