import Verif.Proof.ChanView2

/-! C75: the remaining events of the user goroutine keep the invariant. -/

namespace Verif.Proof
open Verif.Model Verif.Spec

variable {a : Calm} {cm : CaseMapping} {avail : List Model.Membership} {syms k : Str}

theorem cli_updateNick {det : Bool} {d d' : View} {on : Bool} {c : VcClient} {nick : Str}
    (h : CliRel a cm syms k on det d c) (hs : ¬ a.stay) (hn : d'.nick = nick) (hj : d'.joined = false) :
    CliRel a cm syms k true det d' (vcUpdateNick nick c) := by
  unfold vcUpdateNick
  split
  · rename_i he
    exact ⟨h.1, fun _ => ⟨hn.trans he, fun _ _ => VR_of_not hj fun h => absurd h hs⟩⟩
  · refine ⟨?_, fun _ => ⟨hn, fun _ _ => VR_of_not hj fun h => absurd h hs⟩⟩
    dsimp only
    rw [view_send, read_nick]
    exact if_pos (by rw [h.1])

theorem cli_off {det : Bool} {d d' : View} {on det' : Bool} {c : VcClient}
    (h : CliRel a cm syms k on det d c) : CliRel a cm syms k false det' d' c :=
  ⟨h.1, fun h => nomatch h⟩

theorem op_connected {st : VcState} {d : View} (nick : Str) (h : VInv a cm avail k st d)
    (hs : a.stay → st.clients = []) :
    VInv a cm avail k
      { st with conn := some ⟨nick, []⟩, clients := st.clients.map (vcUpdateNick nick) }
      (View.fresh nick) := by
  refine ⟨h.recs, fun c hc => ?_, fun c hcm => ?_⟩
  · cases hc
    exact ⟨rfl, List.nodup_nil, (by simp), (fun ch hch => nomatch hch), fun _ => rfl⟩
  · obtain ⟨c', hc', rfl⟩ := List.mem_map.1 hcm
    exact cli_updateNick (h.cli c' hc') (fun h' => by rw [hs h'] at hc'; cases hc') rfl rfl

/-- What a client sees of the messages in which the channel `k` does not occur. -/
theorem fold_attach_other (hsp : 32 ∉ avail.map (·.pfx)) (c : VcClient) (ch : VcChan) (v : View)
    (hk : casemap cm ch.name ≠ k) :
    (vcChannelMsgs c ch).foldl (readMsg cm (avail.map (·.pfx)) k) v = v := by
  rw [fold_channel avail hsp c ch v (fun h => absurd h hk), if_neg (fun h => hk h.1)]

/-- The client joins the channel and is told about it. -/
theorem fold_join_channel (hsp : 32 ∉ avail.map (·.pfx)) (c : VcClient) (ch : VcChan) (v d : View) (name : Str)
    (hname : casemap cm name = k) (hch : casemap cm ch.name = k) (hok : ChOk cm avail ch d)
    (hcomp : ch.complete = true) (hv : v.nick = c.nick) :
    (((⟨c.nick, b!"JOIN", [name]⟩ : VMsg) :: vcChannelMsgs c ch).foldl
      (readMsg cm (avail.map (·.pfx)) k) v).nick = c.nick ∧ (c.noNames = false →
    VR a d (((⟨c.nick, b!"JOIN", [name]⟩ : VMsg) :: vcChannelMsgs c ch).foldl
      (readMsg cm (avail.map (·.pfx)) k) v)) := by
  rw [List.foldl_cons, read_join, if_pos hname, if_pos (by rw [hv]),
    fold_channel avail hsp c ch _ (fun _ => hok.wf), if_pos ⟨hch, rfl⟩]
  refine ⟨hv, fun hnn => ⟨fun _ => ⟨fun _ => rfl, fun _ => ?_⟩, fun _ _ => hok.joined⟩⟩
  dsimp only
  rw [hok.listed, if_pos hcomp, hnn]
  refine ⟨by simp, ?_, fun x => ?_⟩
  · rw [hok.topic]
    by_cases ht : ch.topic = [] <;> simp [ht]
  · simp [hok.members]

/-! ### Login -/

theorem fold_burst (f : Str × VcChan → List VMsg) (l : GoMap Str VcChan)
    (hnd : (l.map (·.1)).Nodup)
    (hf : ∀ e ∈ l, e.1 ≠ k → ∀ v, (f e).foldl (readMsg cm (avail.map (·.pfx)) k) v = v) (v : View) :
    (l.flatMap f).foldl (readMsg cm (avail.map (·.pfx)) k) v =
      match GoMap.get l k with
      | some ch => (f (k, ch)).foldl (readMsg cm (avail.map (·.pfx)) k) v
      | none => v := by
  induction l generalizing v with
  | nil => rfl
  | cons e l ih =>
    obtain ⟨q, ch⟩ := e
    simp only [List.map_cons, List.nodup_cons] at hnd
    rw [List.flatMap_cons, List.foldl_append, ih hnd.2 (fun e he => hf e (List.mem_cons_of_mem _ he))]
    simp only [GoMap.get]
    by_cases hq : q = k
    · subst hq
      rw [if_pos rfl, mget_none_iff.2 hnd.1]
    · rw [if_neg hq, hf (q, ch) (List.mem_cons_self ..) hq]

/-- The burst for one channel. -/
def burstMsgs (cm : CaseMapping) (st : VcState) (c : VcClient) (e : Str × VcChan) : List VMsg :=
  if e.2.complete = false ∨ vcDetached cm st e.2.name then []
  else ⟨c.nick, b!"JOIN", [e.2.name]⟩ :: vcChannelMsgs c e.2

theorem op_login {st : VcState} {d : View} (num : Nat) (ej mp nn : Bool) (hsp : 32 ∉ avail.map (·.pfx))
    (h : VInv a cm avail k st d)
    (hcalm : a.login → ∀ conn ch, st.conn = some conn → conn.chans.get k = some ch → detK k st = false →
      ch.complete = true) :
    VInv a cm avail k (vcWelcome cm st num ej mp nn) d := by
  refine ⟨h.recs, h.dir, fun c hcm => ?_⟩
  simp only [vcWelcome, List.mem_append, List.mem_singleton] at hcm
  rcases hcm with hcm | hcm
  · exact h.cli c hcm
  show CliRel a cm _ k st.conn.isSome (detK k st) d c
  cases hc : st.conn with
  | none =>
    rw [hc] at hcm
    dsimp only at hcm
    subst hcm
    obtain ⟨h1, h2, h3⟩ := view_sendAll (cm := cm) (syms := avail.map (·.pfx)) (k := k)
      (⟨num, st.wantNick, ej, mp, nn, []⟩ : VcClient)
      [⟨[], b!"001", [st.wantNick, b!"Welcome to soju, " ++ st.wantNick]⟩]
    refine ⟨?_, fun h => nomatch h⟩
    rw [h1, h2, List.foldl_cons, List.foldl_nil, read_welcome]
  | some conn =>
    rw [hc] at hcm
    dsimp only at hcm
    subst hcm
    have hd := h.dir conn hc
    generalize hcc : (⟨num, conn.nick, ej, mp, nn, []⟩ : VcClient) = c0
    have hc0 : c0.nick = conn.nick := by rw [← hcc]
    have hout : c0.out = [] := by rw [← hcc]
    have hnn : c0.noNames = nn := by rw [← hcc]
    obtain ⟨h1, h2, h3⟩ := view_sendAll (cm := cm) (syms := avail.map (·.pfx)) (k := k) c0
      (⟨[], b!"001", [conn.nick, b!"Welcome to soju, " ++ conn.nick]⟩ :: vcBurst cm st conn c0)
    have h0 : viewOf cm (avail.map (·.pfx)) k c0.out = View.fresh [] := by rw [hout]; rfl
    rw [h0, List.foldl_cons, read_welcome] at h1
    have hb : ∀ v, (vcBurst cm st conn c0).foldl (readMsg cm (avail.map (·.pfx)) k) v =
        match GoMap.get conn.chans k with
        | some ch => (burstMsgs cm st c0 (k, ch)).foldl (readMsg cm (avail.map (·.pfx)) k) v
        | none => v := by
      refine fold_burst (burstMsgs cm st c0) _ hd.nodup fun e he hek v => ?_
      have hname := hd.keys e he
      unfold burstMsgs
      split
      · rfl
      · rw [List.foldl_cons, read_join, if_neg (by rw [← hname]; exact hek)]
        exact fold_attach_other hsp c0 e.2 v (by rw [← hname]; exact hek)
    rw [hb] at h1
    cases hg : conn.chans.get k with
    | none =>
      rw [hg] at h1
      dsimp only at h1
      refine ⟨?_, fun _ => ⟨?_, fun _ _ => VR_of_not (hd.absent hg) fun _ => by rw [h1]; rfl⟩⟩
      · rw [h1, h2, hc0]
      · rw [h2, hc0]; exact hd.nick
    | some ch =>
      rw [hg] at h1
      dsimp only at h1
      have hname := (hd.keys _ (mget_some_mem hg)).symm
      dsimp only at hname
      unfold burstMsgs at h1
      dsimp only at h1
      by_cases hskip : ch.complete = false ∨ vcDetached cm st ch.name = true
      · rw [if_pos hskip] at h1
        rw [List.foldl_nil] at h1
        refine ⟨?_, fun _ => ⟨?_, fun hdet _ => ?_⟩⟩
        · rw [h1, h2, hc0]
        · rw [h2, hc0]; exact hd.nick
        · rw [h1]
          rw [vcDetached_k hname, hdet] at hskip
          refine ⟨fun _ => ⟨fun hs => ?_, fun hv => nomatch hv⟩, fun _ hv => nomatch hv⟩
          have := hcalm hs conn ch hc hg hdet
          rw [this] at hskip
          simp at hskip
      · rw [if_neg hskip] at h1
        have hcomp : ch.complete = true := by
          cases hx : ch.complete
          · exact absurd (Or.inl hx) hskip
          · rfl
        obtain ⟨hn, hr⟩ := fold_join_channel (a := a) hsp c0 ch
          { View.fresh [] with nick := conn.nick } d ch.name hname hname (hd.chan ch hg) hcomp hc0.symm
        rw [← h1] at hn hr
        refine ⟨hn.trans h2.symm, fun _ => ⟨?_, fun _ hn' => hr (by rw [h3] at hn'; exact hn')⟩⟩
        rw [h2, hc0]; exact hd.nick

/-! ### Attaching and detaching -/

theorem detK_set (st : VcState) (key : Str) (r : Str × Bool) (cl : List VcClient) :
    detK k { st with records := st.records.set key r, clients := cl } =
      if key = k then r.2 else detK k st := by
  unfold detK
  dsimp only
  rw [mget_mset]
  by_cases h : key = k
  · rw [if_pos h, if_pos h]
  · rw [if_neg h, if_neg h]

theorem recs_set {st : VcState} {name : Str} {r : Str × Bool}
    (h : ∀ e ∈ st.records, e.1 = casemap cm e.2.1) (hr : casemap cm r.1 = casemap cm name) :
    ∀ e ∈ st.records.set (casemap cm name) r, e.1 = casemap cm e.2.1 := by
  intro e he
  rcases mem_mset he with he | he
  · rw [he]; exact hr.symm
  · exact h e he

theorem op_detach {st : VcState} {d : View} {name : Str} {r : Str × Bool} (h : VInv a cm avail k st d)
    (hg : st.records.get (casemap cm name) = some r) :
    VInv a cm avail k (vcDetach cm st name r) d := by
  have hr := h.recs _ (mget_some_mem hg)
  dsimp only at hr
  unfold vcDetach
  split
  · exact h
  · refine ⟨recs_set h.recs hr.symm, h.dir, fun c hcm => ?_⟩
    obtain ⟨c', hc', rfl⟩ := List.mem_map.1 hcm
    obtain ⟨ha, hb⟩ := h.cli c' hc'
    rw [detK_set]
    have hn : (viewOf cm (avail.map (·.pfx)) k
        (c'.send ⟨c'.nick, b!"PART", [r.1, b!"Detach"]⟩).out).nick =
        (c'.send ⟨c'.nick, b!"PART", [r.1, b!"Detach"]⟩).nick := by
      rw [view_send, read_nick_field (by dsimp only; decide) (by dsimp only; decide), send_nick]; exact ha
    refine ⟨hn, fun ho => ⟨?_, fun hdet hnn => ?_⟩⟩
    · rw [send_nick]; exact (hb ho).1
    · split at hdet
      · cases hdet
      · rename_i hk
        rw [view_send, read_part, if_neg (by rw [← hr]; exact hk)]
        rw [send_noNames] at hnn
        exact (hb ho).2 hdet hnn

theorem cli_of_msgs {on det : Bool} {d : View} {c : VcClient} {ms : List VMsg}
    (h : (ms.foldl (readMsg cm syms k) (viewOf cm syms k c.out)).nick = c.nick ∧
      (on = true → d.nick = c.nick ∧ (det = false → c.noNames = false →
        VR a d (ms.foldl (readMsg cm syms k) (viewOf cm syms k c.out))))) :
    CliRel a cm syms k on det d (c.sendAll ms) := by
  obtain ⟨h1, h2, h3⟩ := view_sendAll (cm := cm) (syms := syms) (k := k) c ms
  unfold CliRel
  rw [h1, h2, h3]
  exact h

theorem attach_here {st : VcState} {d : View} {name : Str} {r : Str × Bool} {c : VcClient} {det : Bool}
    (hsp : 32 ∉ avail.map (·.pfx)) (h : VInv a cm avail k st d)
    (hr : casemap cm r.1 = k) (hk : casemap cm name = k) (hpart : vcPartial cm st name = false)
    (hst : a.stay → d.joined = true)
    (hcl : CliRel a cm (avail.map (·.pfx)) k st.conn.isSome det d c) :
    CliRel a cm (avail.map (·.pfx)) k st.conn.isSome false d
      (c.sendAll (vcAttachMsgs cm st name r c)) := by
  obtain ⟨ha, hb⟩ := hcl
  apply cli_of_msgs
  generalize viewOf cm (avail.map (·.pfx)) k c.out = v at ha ⊢
  have hb : st.conn.isSome = true → d.nick = c.nick := fun h => (hb h).1
  unfold vcPartial at hpart
  unfold vcAttachMsgs
  unfold vcChan? at hpart ⊢
  cases hc : st.conn with
  | none =>
    dsimp only
    rw [List.foldl_cons, List.foldl_nil]
    refine ⟨?_, fun ho => nomatch ho⟩
    rw [read_nick_field (by dsimp only; decide) (by dsimp only; decide)]
    exact ha
  | some conn =>
    rw [hc] at hpart hb
    dsimp only at hpart ⊢
    have hd := h.dir conn hc
    rw [hk] at hpart ⊢
    cases hg : conn.chans.get k with
    | none =>
      dsimp only
      rw [List.foldl_cons, List.foldl_nil]
      refine ⟨?_, fun _ => ⟨hb rfl, fun _ _ => VR_of_not (hd.absent hg)
        fun hs => (by rw [hd.absent hg] at hst; exact nomatch hst hs)⟩⟩
      rw [read_nick_field (by dsimp only; decide) (by dsimp only; decide)]
      exact ha
    | some ch =>
      rw [hg] at hpart
      have hcomp : ch.complete = true := by simpa using hpart
      have hname := (hd.keys _ (mget_some_mem hg)).symm
      obtain ⟨hn, hvr⟩ := fold_join_channel (a := a) hsp c ch v d r.1 hr hname
        (hd.chan ch hg) hcomp ha
      exact ⟨hn, fun _ => ⟨hb rfl, fun _ => hvr⟩⟩

theorem attach_other {st : VcState} {d : View} {name : Str} {r : Str × Bool} {c : VcClient} {det : Bool}
    (hsp : 32 ∉ avail.map (·.pfx)) (h : VInv a cm avail k st d)
    (hr : casemap cm r.1 = casemap cm name) (hk : casemap cm name ≠ k)
    (hcl : CliRel a cm (avail.map (·.pfx)) k st.conn.isSome det d c) :
    CliRel a cm (avail.map (·.pfx)) k st.conn.isSome det d
      (c.sendAll (vcAttachMsgs cm st name r c)) := by
  apply cli_of_msgs
  have hfold : (vcAttachMsgs cm st name r c).foldl (readMsg cm (avail.map (·.pfx)) k)
      (viewOf cm (avail.map (·.pfx)) k c.out) = viewOf cm (avail.map (·.pfx)) k c.out := by
    unfold vcAttachMsgs
    rw [List.foldl_cons, read_join, if_neg (by rw [hr]; exact hk)]
    split
    · rename_i ch hch
      unfold vcChan? at hch
      cases hc : st.conn with
      | none => rw [hc] at hch; cases hch
      | some conn =>
        rw [hc] at hch
        have hname := (h.dir conn hc).keys _ (mget_some_mem hch)
        exact fold_attach_other hsp c ch _ (by rw [← hname]; exact hk)
    · rfl
  rw [hfold]
  exact hcl

theorem op_attach {st st' : VcState} {d : View} {name : Str} {r : Str × Bool} (hsp : 32 ∉ avail.map (·.pfx))
    (h : VInv a cm avail k st d)
    (hst : a.stay → casemap cm name = k → r.2 = true → d.joined = true)
    (hg : st.records.get (casemap cm name) = some r) (hs : vcAttach cm st name r = some st') :
    VInv a cm avail k st' d := by
  have hr := (h.recs _ (mget_some_mem hg)).symm
  dsimp only at hr
  unfold vcAttach at hs
  split at hs
  · cases hs; exact h
  rename_i hdet0
  split at hs
  · cases hs
  · rename_i hpart
    cases hs
    refine ⟨recs_set h.recs hr, h.dir, fun c hcm => ?_⟩
    obtain ⟨c', hc', rfl⟩ := List.mem_map.1 hcm
    have hcl := h.cli c' hc'
    rw [detK_set]
    by_cases hk : casemap cm name = k
    · rw [if_pos hk]
      refine attach_here (st := st) hsp h (hr.trans hk) hk ?_ (fun h => hst h hk (by simpa using hdet0)) hcl
      cases hp : vcPartial cm st name
      · rfl
      · rw [hp] at hpart
        cases hcl : st.clients with
        | nil => rw [hcl] at hc'; cases hc'
        | cons a l => rw [hcl] at hpart; exact absurd rfl hpart
    · rw [if_neg hk]
      exact attach_other (st := st) hsp h hr hk hcl

/-! ### Questions of the clients, and the rest -/

theorem cli_weaken {on det det' : Bool} {d : View} {c : VcClient} (h : CliRel a cm syms k on det d c)
    (hd : det' = false → det = false) : CliRel a cm syms k on det' d c :=
  ⟨h.1, fun ho => ⟨(h.2 ho).1, fun h1 h2 => (h.2 ho).2 (hd h1) h2⟩⟩

theorem chan_some {st : VcState} {name : Str} {ch : VcChan} (h : vcChan? cm st name = some ch) :
    ∃ conn, st.conn = some conn ∧ conn.chans.get (casemap cm name) = some ch := by
  unfold vcChan? at h
  cases hc : st.conn with
  | none => rw [hc] at h; cases h
  | some conn => rw [hc] at h; exact ⟨conn, rfl, h⟩

theorem op_names {st : VcState} {d : View} {name : Str} {ch : VcChan} (num : Nat)
    (hsp : 32 ∉ avail.map (·.pfx)) (h : VInv a cm avail k st d) (hch : vcChan? cm st name = some ch) :
    VInv a cm avail k { st with clients := st.clients.map fun c =>
      if c.num = num then c.sendAll (vcNamesMsgs c ch) else c } d := by
  obtain ⟨conn, hc, hg⟩ := chan_some hch
  have hd := h.dir conn hc
  have hname := (hd.keys _ (mget_some_mem hg)).symm
  dsimp only at hname
  refine ⟨h.recs, h.dir, fun c hcm => ?_⟩
  obtain ⟨c', hc', rfl⟩ := List.mem_map.1 hcm
  have hcl := h.cli c' hc'
  split
  · apply cli_of_msgs
    have hok : casemap cm ch.name = k → ChOk cm avail ch d := by
      intro hk
      rw [hname] at hk
      rw [hk] at hg
      exact hd.chan ch hg
    rw [fold_names avail hsp c' ch _ (fun hk => (hok hk).wf)]
    obtain ⟨ha, hb⟩ := hcl
    generalize viewOf cm (avail.map (·.pfx)) k c'.out = v at ha hb ⊢
    split
    · rename_i hk
      have hok := hok hk.1
      refine ⟨ha, fun ho => ⟨(hb ho).1, fun h1 h2 => ?_⟩⟩
      have hvr : VR a d v := (hb ho).2 h1 h2
      refine ⟨fun hj => ?_, hvr.2⟩
      obtain ⟨hv1, hv2⟩ := hvr.1 hj
      refine ⟨hv1, fun hv => ?_⟩
      have hv2 := hv2 hv
      dsimp only
      split at hv2 <;> rename_i hl
      · rw [if_pos hl]
        exact ⟨rfl, hv2.2.1, fun x => by rw [hv2.2.2 x, ← hok.members, Bool.or_self]⟩
      · rw [if_neg hl]
        refine ⟨hv2.1, fun x hx => ?_⟩
        rw [← hok.members, Bool.or_eq_true] at hx
        exact hx.elim (hv2.2 x) (fun h => h)
    · exact ⟨ha, hb⟩
  · exact hcl

theorem op_topic {st : VcState} {d : View} {name : Str} {ch : VcChan} (num : Nat)
    (h : VInv a cm avail k st d) (hch : vcChan? cm st name = some ch) :
    VInv a cm avail k { st with clients := st.clients.map fun c =>
      if c.num = num then c.sendAll (vcTopicMsgs c ch) else c } d := by
  obtain ⟨conn, hc, hg⟩ := chan_some hch
  have hd := h.dir conn hc
  have hname := (hd.keys _ (mget_some_mem hg)).symm
  dsimp only at hname
  refine ⟨h.recs, h.dir, fun c hcm => ?_⟩
  obtain ⟨c', hc', rfl⟩ := List.mem_map.1 hcm
  have hcl := h.cli c' hc'
  split
  · apply cli_of_msgs
    have hok : casemap cm ch.name = k → ChOk cm avail ch d := by
      intro hk
      rw [hname] at hk
      rw [hk] at hg
      exact hd.chan ch hg
    rw [fold_topic]
    obtain ⟨ha, hb⟩ := hcl
    generalize viewOf cm (avail.map (·.pfx)) k c'.out = v at ha hb ⊢
    split
    · rename_i hk
      have hok := hok hk.1
      refine ⟨ha, fun ho => ⟨(hb ho).1, fun h1 h2 => ?_⟩⟩
      have hvr : VR a d v := (hb ho).2 h1 h2
      refine ⟨fun hj => ?_, hvr.2⟩
      obtain ⟨hv1, hv2⟩ := hvr.1 hj
      refine ⟨hv1, fun hv => ?_⟩
      have hv2 := hv2 hv
      dsimp only
      split at hv2 <;> rename_i hl
      · rw [if_pos hl]
        exact ⟨hv2.1, hok.topic.symm, hv2.2.2⟩
      · rw [if_neg hl]
        exact ⟨fun ht => hok.topic.symm.trans ht, hv2.2⟩
    · exact ⟨ha, hb⟩
  · exact hcl

theorem op_modes {st : VcState} {d : View} {conn : VcConn} {name nick : Str} {ch : VcChan}
    {e : Str × MembershipSet} (ms : MembershipSet) (h : VInv a cm avail k st d) (hc : st.conn = some conn)
    (hg : conn.chans.get (casemap cm name) = some ch) (he : ch.members.get (casemap cm nick) = some e) :
    VInv a cm avail k { st with conn := some { conn with chans := (conn.chans.set (casemap cm name)
      { ch with members := ch.members.set (casemap cm nick) (e.1, ms.filter (· ∈ avail)) }) } } d := by
  have hd := h.dir conn hc
  refine vc_reply_in h hc rfl (hd.keys _ (mget_some_mem hg)).symm (fun hk => ⟨?_, fun v hv => hv⟩)
    (fun _ => rfl)
  rw [hk] at hg
  have hok := hd.chan ch hg
  refine ⟨hok.joined, hok.listed, hok.topic, fun x => ?_, fun e' he' => ?_⟩
  · dsimp only
    rw [mget_mset, hok.members]
    split
    · rename_i hx; rw [← hx, he]; rfl
    · rfl
  · have hw := hok.wf _ (mget_some_mem he)
    rcases mem_mset he' with he' | he'
    · rw [he']
      exact ⟨hw.1, hw.2.1, fun m hm => by simpa using (List.mem_filter.1 hm).2⟩
    · exact hok.wf e' he'

/-- What an event may do to the channel `k`, given the state before it and what a direct client
knows. -/
structure StepOk (a : Calm) (cm : CaseMapping) (syms k : Str) (st : VcState) (d : Option View) (op : VcOp) :
    Prop where
  orderly : ∀ m dc v, op = .server m dc → d = some v → Orderly cm syms k v m
  leave : ∀ name, op = .cPart name ∨ op = .forget name → casemap cm name = k → detK k st = false
  login : a.login → ∀ n e m nn v, op = .login n e m nn → d = some v → v.joined = true →
    detK k st = false → v.listed = true
  reconnect : a.stay → ∀ n, op = .connected n → st.clients = []
  attach : a.stay → ∀ name, (op = .attach name ∨ op = .cJoin name) → casemap cm name = k →
    detK k st = true → ∃ v, d = some v ∧ v.joined = true

/-- The invariant of a run. -/
def RInv (a : Calm) (cm : CaseMapping) (avail : List Model.Membership) (k : Str) (st : VcState)
    (d : Option View) : Prop :=
  st.conn.isSome = d.isSome ∧ VInv a cm avail k st (d.getD (View.fresh []))

theorem inv_offline {st : VcState} {d d' : View} (h : VInv a cm avail k st d) :
    VInv a cm avail k { st with conn := none } d' :=
  ⟨h.recs, (fun _ hc => nomatch hc), fun c hc => cli_off (h.cli c hc)⟩

theorem inv_wantNick {st : VcState} {d : View} (n : Str) (h : VInv a cm avail k st d) :
    VInv a cm avail k { st with wantNick := n } d := ⟨h.recs, h.dir, h.cli⟩

theorem inv_record {st : VcState} {d : View} {name : Str} (b : Bool) (h : VInv a cm avail k st d)
    (hg : st.records.get (casemap cm name) = none) :
    VInv a cm avail k { st with records := st.records.set (casemap cm name) (name, b) } d := by
  refine ⟨recs_set h.recs rfl, h.dir, fun c hc => cli_weaken (h.cli c hc) fun hd => ?_⟩
  rw [detK_set st (casemap cm name) (name, b) st.clients] at hd
  split at hd
  · rename_i hk
    unfold detK; rw [← hk, hg]
  · exact hd

theorem attach_conn {st st' : VcState} {name : Str} {r : Str × Bool}
    (h : vcAttach cm st name r = some st') : st'.conn = st.conn := by
  unfold vcAttach at h
  split at h
  · cases h; rfl
  · split at h
    · cases h
    · cases h; rfl

theorem detach_conn (st : VcState) (name : Str) (r : Str × Bool) : (vcDetach cm st name r).conn = st.conn := by
  unfold vcDetach; split <;> rfl

theorem detK_some {st : VcState} {r : Str × Bool} (h : st.records.get k = some r) : detK k st = r.2 := by
  unfold detK; rw [h]

theorem rinv_attach {st st' : VcState} {d : Option View} {name : Str} {r : Str × Bool}
    (hsp : 32 ∉ avail.map (·.pfx)) (h : RInv a cm avail k st d)
    (hst : a.stay → casemap cm name = k → detK k st = true → ∃ v, d = some v ∧ v.joined = true)
    (hg : st.records.get (casemap cm name) = some r) (hs : vcAttach cm st name r = some st') :
    RInv a cm avail k st' d := by
  refine ⟨by rw [attach_conn hs]; exact h.1, op_attach hsp h.2 (fun h1 h2 h3 => ?_) hg hs⟩
  obtain ⟨v, hv, hj⟩ := hst h1 h2 (by rw [h2] at hg; rw [detK_some hg]; exact h3)
  rw [hv]; exact hj

theorem server_conn {st st' : VcState} {conn : VcConn} {m : VMsg} {dc : Nat} (hc : st.conn = some conn)
    (hs : vcServer cm avail st conn m dc = some st') : st'.conn.isSome = true := by
  have hpr : ∀ (st : VcState) n m, (vcProduce cm st n m).conn = st.conn :=
    fun st n m => (produce_fields st n m).1
  have hj : ∀ l (st : VcState) (conn : VcConn), st.conn.isSome = true →
      (vcJoinLoop cm m l st conn).conn.isSome = true := by
    intro l
    induction l with
    | nil => exact fun _ _ h => h
    | cons n l ih =>
      intro st conn h
      simp only [vcJoinLoop]
      split
      · exact ih _ _ (by rw [hpr]; rfl)
      · split
        · exact ih _ _ (by rw [hpr]; rfl)
        · exact h
  have hp : ∀ l (st : VcState) (conn : VcConn), st.conn.isSome = true →
      (vcPartLoop cm m l st conn).conn.isSome = true := by
    intro l
    induction l with
    | nil => exact fun _ _ h => h
    | cons n l ih =>
      intro st conn h
      simp only [vcPartLoop]
      split
      · exact ih _ _ (by rw [hpr]; rfl)
      · split
        · exact ih _ _ (by rw [hpr]; rfl)
        · exact h
  have h0 : st.conn.isSome = true := by rw [hc]; rfl
  unfold vcServer at hs
  split at hs
  · cases hs
    unfold vcNick
    split
    · dsimp only; split <;> rfl
    · exact h0
  split at hs
  · split at hs <;> cases hs
    · exact hj _ _ _ h0
    · exact h0
  split at hs
  · split at hs <;> cases hs
    · exact hp _ _ _ h0
    · exact h0
  split at hs
  · cases hs
    unfold vcKick
    repeat' split
    all_goals first | exact h0 | (rw [hpr]; rfl)
  split at hs
  · cases hs
    unfold vcQuit
    dsimp only
    split <;> rfl
  split at hs
  · cases hs
    unfold vcTopicReply
    repeat' split
    all_goals first | exact h0 | rfl
  split at hs
  · cases hs
    unfold vcTopic
    repeat' split
    all_goals first | exact h0 | (rw [hpr]; rfl)
  split at hs
  · unfold vcNamReply at hs
    repeat' split at hs
    all_goals first | (cases hs; done) | (cases hs; exact h0) | (cases hs; rfl)
  split at hs
  · cases hs
    unfold vcEndOfNames
    repeat' split
    all_goals first | exact h0 | rfl
  · cases hs; exact h0

theorem step_inv {st st' : VcState} {d : Option View} {op : VcOp} (hsp : 32 ∉ avail.map (·.pfx))
    (h : RInv a cm avail k st d) (hok : StepOk a cm (avail.map (·.pfx)) k st d op)
    (hs : vcStep cm avail st op = some st') :
    RInv a cm avail k st' (directStep cm (avail.map (·.pfx)) k d op) := by
  cases op with
  | connected n =>
    simp only [vcStep, Option.some.injEq] at hs
    subst hs
    exact ⟨rfl, op_connected n h.2 (fun h' => hok.reconnect h' n rfl)⟩
  | disconnected =>
    simp only [vcStep, Option.some.injEq] at hs
    subst hs
    exact ⟨rfl, inv_offline h.2⟩
  | server m dc =>
    simp only [vcStep] at hs
    obtain ⟨h0, h⟩ := h
    cases hc : st.conn with
    | none =>
      rw [hc] at hs h0
      cases hs
      cases d with
      | none => exact ⟨by rw [hc]; rfl, h⟩
      | some v => cases h0
    | some conn =>
      rw [hc] at hs h0
      cases d with
      | none => cases h0
      | some v =>
        exact ⟨server_conn hc hs, server_inv dc hsp h hc (hok.orderly m dc v rfl rfl) hs⟩
  | login n e m nn =>
    simp only [vcStep, Option.some.injEq] at hs
    subst hs
    have hd : directStep cm (avail.map (·.pfx)) k d (.login n e m nn) = d := by cases d <;> rfl
    rw [hd]
    refine ⟨h.1, op_login n e m nn hsp h.2 fun hl conn ch hc hg hdet => ?_⟩
    cases d with
    | none => have := h.1; rw [hc] at this; cases this
    | some v =>
      have hd := (h.2.dir conn hc).chan ch hg
      rw [← hd.listed]
      exact hok.login hl n e m nn v rfl rfl hd.joined hdet
  | logout n =>
    simp only [vcStep, Option.some.injEq] at hs
    subst hs
    have hd : directStep cm (avail.map (·.pfx)) k d (.logout n) = d := by cases d <;> rfl
    rw [hd]
    exact ⟨h.1, h.2.recs, h.2.dir, fun c hc => h.2.cli c (List.mem_filter.1 hc).1⟩
  | cJoin name =>
    have hd : directStep cm (avail.map (·.pfx)) k d (.cJoin name) = d := by cases d <;> rfl
    rw [hd]
    simp only [vcStep] at hs
    split at hs
    · split at hs
      · rename_i r hg
        exact rinv_attach hsp h (fun h1 => hok.attach h1 name (.inr rfl)) hg hs
      · rename_i hg
        cases hs
        exact ⟨h.1, inv_record false h.2 hg⟩
    · cases hs; exact h
  | cDetach name =>
    have hd : directStep cm (avail.map (·.pfx)) k d (.cDetach name) = d := by cases d <;> rfl
    rw [hd]
    simp only [vcStep] at hs
    split at hs
    · split at hs
      · rename_i r hg
        cases hs
        exact ⟨by rw [detach_conn]; exact h.1, op_detach h.2 hg⟩
      · rename_i hg
        cases hs
        exact ⟨h.1, inv_record true h.2 hg⟩
    · cases hs; exact h
  | cPart name =>
    have hd : directStep cm (avail.map (·.pfx)) k d (.cPart name) = d := by cases d <;> rfl
    rw [hd]
    simp only [vcStep] at hs
    split at hs
    · cases hs
      refine ⟨h.1, fun e he => h.2.recs e (List.mem_filter.1 he).1, h.2.dir,
        fun c hc => cli_weaken (h.2.cli c hc) fun hdet => ?_⟩
      by_cases hk : casemap cm name = k
      · exact hok.leave name (.inl rfl) hk
      · unfold detK at hdet ⊢
        dsimp only at hdet
        rw [mget_mdel, if_neg hk] at hdet
        exact hdet
    · cases hs; exact h
  | save name =>
    have hd : directStep cm (avail.map (·.pfx)) k d (.save name) = d := by cases d <;> rfl
    rw [hd]
    simp only [vcStep] at hs
    split at hs
    · cases hs; exact h
    · rename_i hg
      cases hs
      exact ⟨h.1, inv_record false h.2 hg⟩
  | forget name =>
    have hd : directStep cm (avail.map (·.pfx)) k d (.forget name) = d := by cases d <;> rfl
    rw [hd]
    simp only [vcStep] at hs
    cases hs
    refine ⟨h.1, fun e he => h.2.recs e (List.mem_filter.1 he).1, h.2.dir,
      fun c hc => cli_weaken (h.2.cli c hc) fun hdet => ?_⟩
    by_cases hk : casemap cm name = k
    · exact hok.leave name (.inr rfl) hk
    · unfold detK at hdet ⊢
      dsimp only at hdet
      rw [mget_mdel, if_neg hk] at hdet
      exact hdet
  | setNick nick =>
    have hd : directStep cm (avail.map (·.pfx)) k d (.setNick nick) = d := by cases d <;> rfl
    rw [hd]
    simp only [vcStep] at hs
    cases hs
    exact ⟨h.1, inv_wantNick nick h.2⟩
  | detach name =>
    have hd : directStep cm (avail.map (·.pfx)) k d (.detach name) = d := by cases d <;> rfl
    rw [hd]
    simp only [vcStep] at hs
    split at hs
    · rename_i r hg
      cases hs
      exact ⟨by rw [detach_conn]; exact h.1, op_detach h.2 hg⟩
    · cases hs; exact h
  | attach name =>
    have hd : directStep cm (avail.map (·.pfx)) k d (.attach name) = d := by cases d <;> rfl
    rw [hd]
    simp only [vcStep] at hs
    split at hs
    · rename_i r hg
      exact rinv_attach hsp h (fun h1 => hok.attach h1 name (.inl rfl)) hg hs
    · cases hs; exact h
  | cNick num nick =>
    have hd : directStep cm (avail.map (·.pfx)) k d (.cNick num nick) = d := by cases d <;> rfl
    rw [hd]
    simp only [vcStep] at hs
    split at hs
    · cases hs
      exact ⟨h.1, inv_wantNick nick h.2⟩
    · rename_i hc
      cases hs
      refine ⟨h.1, h.2.recs, h.2.dir, fun c hcm => ?_⟩
      obtain ⟨c', hc', rfl⟩ := List.mem_map.1 hcm
      have hcl := h.2.cli c' hc'
      rw [hc] at hcl
      show CliRel a cm _ k st.conn.isSome (detK k st) _ _
      rw [hc]
      split
      · refine ⟨?_, fun h => nomatch h⟩
        unfold vcUpdateNick
        split
        · exact hcl.1
        · dsimp only
          rw [view_send, read_nick]
          exact if_pos (by rw [hcl.1])
      · exact hcl
  | cNames num name =>
    have hd : directStep cm (avail.map (·.pfx)) k d (.cNames num name) = d := by cases d <;> rfl
    rw [hd]
    simp only [vcStep] at hs
    split at hs
    · rename_i ch hch
      cases hs
      exact ⟨h.1, op_names num hsp h.2 hch⟩
    · cases hs; exact h
  | cTopic num name =>
    have hd : directStep cm (avail.map (·.pfx)) k d (.cTopic num name) = d := by cases d <;> rfl
    rw [hd]
    simp only [vcStep] at hs
    split at hs
    · rename_i ch hch
      cases hs
      exact ⟨h.1, op_topic num h.2 hch⟩
    · cases hs; exact h
  | setModes name nick ms =>
    have hd : directStep cm (avail.map (·.pfx)) k d (.setModes name nick ms) = d := by cases d <;> rfl
    rw [hd]
    simp only [vcStep] at hs
    split at hs
    · rename_i conn hc
      split at hs
      · rename_i ch hg
        split at hs
        · rename_i e he
          cases hs
          refine ⟨?_, op_modes ms h.2 hc hg he⟩
          have := h.1
          rw [hc] at this
          exact this
        · cases hs; exact h
      · cases hs; exact h
    · cases hs; exact h

theorem run_snoc (st : VcState) (ops : List VcOp) (op : VcOp) :
    vcRun cm avail st (ops ++ [op]) = (vcRun cm avail st ops).bind fun st' => vcStep cm avail st' op := by
  induction ops generalizing st with
  | nil =>
    simp only [List.nil_append, vcRun, Option.bind_some]
    cases vcStep cm avail st op <;> rfl
  | cons o ops ih =>
    simp only [List.cons_append, vcRun]
    cases vcStep cm avail st o with
    | none => rfl
    | some st' => exact ih st'

theorem run_inv (hsp : 32 ∉ avail.map (·.pfx)) {init : VcState} (h0 : RInv a cm avail k init none)
    (ops : List VcOp) (st : VcState)
    (hok : ∀ pre op post st, ops = pre ++ op :: post → vcRun cm avail init pre = some st →
      StepOk a cm (avail.map (·.pfx)) k st (directView cm (avail.map (·.pfx)) k pre) op)
    (hr : vcRun cm avail init ops = some st) :
    RInv a cm avail k st (directView cm (avail.map (·.pfx)) k ops) := by
  induction ops using snocInd generalizing st with
  | nil => cases hr; exact h0
  | snoc ops op ih =>
    rw [run_snoc] at hr
    cases h1 : vcRun cm avail init ops with
    | none => rw [h1] at hr; cases hr
    | some st1 =>
      rw [h1] at hr
      have := ih st1 (fun pre o post st he => hok pre o (post ++ [op]) st (by rw [he]; simp)) h1
      rw [show directView cm (avail.map (·.pfx)) k (ops ++ [op]) =
        directStep cm (avail.map (·.pfx)) k (directView cm (avail.map (·.pfx)) k ops) op by
          simp [directView, List.foldl_append]]
      exact step_inv hsp this (hok ops op [] st1 rfl h1) hr

theorem init_inv (want : Str) (records : GoMap Str (Str × Bool))
    (h : ∀ e ∈ records, e.1 = casemap cm e.2.1) : RInv a cm avail k (vcInit want records) none :=
  ⟨rfl, h, (fun _ hc => nomatch hc), fun _ hc => nomatch hc⟩

theorem detK_saved {st : VcState} : detK k st = true ↔ SavedDetached k st := by
  unfold detK SavedDetached
  cases h : st.records.get k with
  | none => simp
  | some r =>
    obtain ⟨n, b⟩ := r
    simp

theorem stepOk_of {init : VcState} {ops : List VcOp} (hserver : OrderlyRun cm (avail.map (·.pfx)) k ops)
    (hleave : EachStep cm avail k init ops (NoPartDetached cm k))
    (hlogin : a.login → EachStep cm avail k init ops (NoLoginHalfway k))
    (hstay : a.stay → EachStep cm avail k init ops (Steady cm k)) :
    ∀ pre op post st, ops = pre ++ op :: post → vcRun cm avail init pre = some st →
      StepOk a cm (avail.map (·.pfx)) k st (directView cm (avail.map (·.pfx)) k pre) op := by
  intro pre op post st he hr
  refine ⟨fun m dc v ho hv => ?_, fun name ho hk => ?_, fun hl n e m nn v ho hv hj hd => ?_,
    fun hs => ((hstay hs) pre op post st he hr).1, fun hs name ho hk hd =>
    ((hstay hs) pre op post st he hr).2 name ho hk (detK_saved.1 hd)⟩
  · subst ho; exact hserver pre m dc post v he hv
  · have := hleave pre op post st he hr name ho hk
    rw [← detK_saved] at this
    simpa using this
  · refine hlogin hl pre op post st he hr n e m nn v ho hv hj ?_
    rw [← detK_saved, hd]; simp

end Verif.Proof
