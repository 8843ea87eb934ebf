import Verif.Model.UserLoop
import Verif.Proof.Util

/-! # C62: a disabled account is not used; C67: changing the password or disabling the account cuts clients off

A history is any list of steps of the goroutines of the networks, of the clients and of the event loop, in any
interleaving, including requests for which the database fails.  See `Model/UserLoop.lean`. -/

namespace Verif.Props

open Verif.Model Verif.Proof

/-- The network has a connection to its server. -/
def HasConn (n : UlNet) : Prop := n.gor = .conn ∨ n.gor = .reg

/-- The client was let in and has not been closed: what it sends is executed for the account. -/
def CanAct (c : UlClient) : Prop := c.seen = true ∧ c.user = true ∧ c.closed = false

/-! ## The invariant -/

private def Quiet (n : UlNet) : Prop := (n.gor = .fresh ∨ n.gor = .done) ∧ n.conn = false ∧ n.pend = []

/-- The same client, up to the network it is bound to. -/
private def SameC (a b : UlClient) : Prop :=
  a.id = b.id ∧ a.pw = b.pw ∧ a.seen = b.seen ∧ a.user = b.user ∧ a.listed = b.listed ∧ a.closed = b.closed

private theorem SameC.refl (a : UlClient) : SameC a a := ⟨rfl, rfl, rfl, rfl, rfl, rfl⟩

private theorem SameC.trans {a b c : UlClient} (h1 : SameC a b) (h2 : SameC b c) : SameC a c :=
  ⟨h1.1.trans h2.1, h1.2.1.trans h2.2.1, h1.2.2.1.trans h2.2.2.1, h1.2.2.2.1.trans h2.2.2.2.1,
    h1.2.2.2.2.1.trans h2.2.2.2.2.1, h1.2.2.2.2.2.trans h2.2.2.2.2.2⟩

private structure Upd (st st' : UlState) : Prop where
  enabled : st'.enabled = st.enabled
  admin : st'.admin = st.admin
  pw : st'.pw = st.pw
  nextId : st'.nextId = st.nextId
  crashed : st'.crashed = st.crashed
  ids : st'.nets.map (·.id) = st.nets.map (·.id)
  old : (∀ n ∈ st.old, n.stopped = true) → ∀ n ∈ st'.old, n.stopped = true
  nets : ∀ n ∈ st'.nets, n ∈ st.nets ∨ Quiet n
  clients : ∀ c ∈ st'.clients, ∃ d ∈ st.clients, SameC c d

private theorem Upd.refl (st : UlState) : Upd st st :=
  ⟨rfl, rfl, rfl, rfl, rfl, rfl, fun h => h, fun _ h => .inl h, fun c h => ⟨c, h, SameC.refl c⟩⟩

private theorem Upd.trans {a b c : UlState} (h1 : Upd a b) (h2 : Upd b c) : Upd a c := by
  refine ⟨h2.enabled.trans h1.enabled, h2.admin.trans h1.admin, h2.pw.trans h1.pw, h2.nextId.trans h1.nextId,
    h2.crashed.trans h1.crashed, h2.ids.trans h1.ids, fun h => h2.old (h1.old h), ?_, ?_⟩
  · intro n hn
    rcases h2.nets n hn with h | h
    · exact h1.nets n h
    · exact .inr h
  · intro x hx
    obtain ⟨d, hd, e⟩ := h2.clients x hx
    obtain ⟨d2, hd2, e2⟩ := h1.clients d hd
    exact ⟨d2, hd2, e.trans e2⟩

private theorem update_upd {st st' : UlState} {id : Nat} {e : Bool} {a : UlAddr} {ok : Bool}
    (h : ulUpdate st id e a ok = some st') : Upd st st' ∧ ∀ n ∈ st'.nets, n.id = id → Quiet n := by
  unfold ulUpdate at h
  split at h
  · cases h
  · rename_i n hf
    split at h
    · cases h
    · simp only [Option.some.injEq] at h
      subst h
      refine ⟨⟨rfl, rfl, rfl, rfl, rfl, ?_, ?_, ?_, ?_⟩, ?_⟩
      · simp only [List.map_map]
        apply List.map_congr_left
        intro m _
        simp only [Function.comp]
        split
        · rename_i h; simp [ulNewNet, h]
        · rfl
      · intro h m hm
        rcases List.mem_cons.1 hm with rfl | hm
        · rfl
        · exact h m hm
      · intro m hm
        obtain ⟨m0, hm0, rfl⟩ := List.mem_map.1 hm
        split
        · exact .inr ⟨.inl rfl, rfl, rfl⟩
        · exact .inl hm0
      · intro c hc
        obtain ⟨c0, hc0, rfl⟩ := List.mem_map.1 hc
        refine ⟨c0, hc0, ?_⟩
        split
        · exact ⟨rfl, rfl, rfl, rfl, rfl, rfl⟩
        · exact SameC.refl _
      · intro m hm hid
        obtain ⟨m0, hm0, rfl⟩ := List.mem_map.1 hm
        by_cases h0 : m0.id = id
        · rw [if_pos h0]; exact ⟨.inl rfl, rfl, rfl⟩
        · rw [if_neg h0] at hid; exact absurd hid h0

private theorem updateAll_upd (dbNet : Nat → Bool) (l : List UlNet) (st : UlState) :
    Upd st (ulUpdateAll dbNet l st).1 ∧
    ((ulUpdateAll dbNet l st).2 = true →
      ∀ n ∈ (ulUpdateAll dbNet l st).1.nets, n.id ∈ l.map (·.id) → Quiet n) := by
  induction l generalizing st with
  | nil => exact ⟨Upd.refl st, fun _ n _ h => by simp at h⟩
  | cons m rest ih =>
    unfold ulUpdateAll
    split
    · exact ⟨(ih st).1, fun h => by simp at h⟩
    · rename_i st' he
      obtain ⟨u, q⟩ := update_upd he
      obtain ⟨u2, q2⟩ := ih st'
      refine ⟨u.trans u2, fun hok n hn hid => ?_⟩
      by_cases hr : n.id ∈ rest.map (·.id)
      · exact q2 hok n hn hr
      · rcases u2.nets n hn with h | h
        · rcases List.mem_cons.1 (by simpa using hid : n.id ∈ m.id :: rest.map (·.id)) with e | e
          · exact q n h e
          · exact absurd e hr
        · exact h

private structure UlInv (st : UlState) : Prop where
  ids : (st.nets.map (·.id)).Nodup
  lt : ∀ n ∈ st.nets, n.id < st.nextId
  old : ∀ n ∈ st.old, n.stopped = true
  quiet : st.enabled = false → ∀ n ∈ st.nets, Quiet n
  closed : st.enabled = false → ∀ c ∈ st.clients, c.listed = true → c.closed = true

private theorem start_inv (e a : Bool) (recs : List (Nat × Bool × UlAddr)) (nx : Nat)
    (nd : (recs.map (·.1)).Nodup) (lt : ∀ r ∈ recs, r.1 < nx) : UlInv (ulStart e a recs nx) := by
  have hm : ∀ n ∈ (ulStart e a recs nx).nets, Quiet n ∧ n.id < nx := by
    intro n hn
    obtain ⟨p, hp, rfl⟩ := List.mem_map.1 hn
    refine ⟨⟨.inl rfl, rfl, rfl⟩, ?_⟩
    have := List.mem_zipIdx hp
    exact lt p.1 (by rw [this.2.2]; exact List.getElem_mem _)
  refine ⟨?_, fun n hn => (hm n hn).2, fun n hn => absurd hn (List.not_mem_nil), fun _ n hn => (hm n hn).1,
    fun _ c hc => absurd hc (List.not_mem_nil)⟩
  have : (ulStart e a recs nx).nets.map (·.id) = recs.map (·.1) := by
    simp only [ulStart, List.map_map]
    have : ∀ k, ((recs.zipIdx k).map ((fun x : UlNet => x.id) ∘ fun p => ulNewNet p.2 p.1.1 p.1.2.1 p.1.2.2)) =
        recs.map (·.1) := by
      intro k
      clear nd lt hm
      induction recs generalizing k with
      | nil => rfl
      | cons r rs ih => rw [List.zipIdx_cons, List.map_cons, ih]; rfl
    exact this 0
  rw [this]; exact nd

private theorem mem_ids {l l' : List UlNet} (h : l'.map (·.id) = l.map (·.id)) {n : UlNet} (hn : n ∈ l') :
    ∃ m ∈ l, m.id = n.id := by
  have : n.id ∈ l.map (·.id) := h ▸ List.mem_map_of_mem hn
  obtain ⟨m, hm, e⟩ := List.mem_map.1 this
  exact ⟨m, hm, e⟩

private theorem inv_upd {st st' : UlState} (u : Upd st st') (h : UlInv st) : UlInv st' := by
  refine ⟨u.ids ▸ h.ids, ?_, u.old h.old, ?_, ?_⟩
  · intro n hn
    obtain ⟨m, hm, e⟩ := mem_ids u.ids hn
    rw [← e, u.nextId]; exact h.lt m hm
  · intro he n hn
    rcases u.nets n hn with h2 | h2
    · exact h.quiet (u.enabled ▸ he) n h2
    · exact h2
  · intro he c hc hl
    obtain ⟨d, hd, e⟩ := u.clients c hc
    rw [e.2.2.2.2.2]
    exact h.closed (u.enabled ▸ he) d hd (e.2.2.2.2.1 ▸ hl)

private theorem closeAll_closed {st : UlState} {c : UlClient} (h : c ∈ (ulCloseAll st).clients)
    (hl : c.listed = true) : c.closed = true := by
  obtain ⟨d, hd, rfl⟩ := List.mem_map.1 h
  by_cases hd2 : d.listed = true
  · rw [if_pos hd2]
  · rw [if_neg hd2] at hl; exact absurd hl hd2

private theorem closeAll_inv {st : UlState} (h : UlInv st) : UlInv (ulCloseAll st) :=
  ⟨h.ids, h.lt, h.old, h.quiet, fun _ _ hc hl => closeAll_closed hc hl⟩

private theorem updateNets_upd (before st : UlState) (ch : UlChange) (dn : Nat → Bool) (sk : UlNet → Bool) :
    Upd st (ulUpdateNets before st ch dn sk).1 ∧
    ((ulUpdateNets before st ch dn sk).2 = true → before.enabled ≠ st.enabled →
      ∀ n ∈ (ulUpdateNets before st ch dn sk).1.nets, Quiet n) := by
  unfold ulUpdateNets
  dsimp only
  split
  · obtain ⟨u, q⟩ := updateAll_upd dn (st.nets.filter (fun n => decide (before.enabled ≠ st.enabled) || !sk n)) st
    refine ⟨u, fun hok hup n hn => q hok n hn ?_⟩
    obtain ⟨m, hm, e⟩ := mem_ids u.ids hn
    rw [← e]
    exact List.mem_map_of_mem (List.mem_filter.2 ⟨hm, by simp [hup]⟩)
  · rename_i hc
    refine ⟨Upd.refl _, fun _ hup => ?_⟩
    exact absurd (by simp [hup]) hc

private theorem updateUser_inv {st : UlState} (h : UlInv st) (ch : UlChange) (du : Bool) (dn : Nat → Bool)
    (sk : UlNet → Bool) (hne : (ulUpdateUser st ch du dn sk).2 ≠ .netErr) :
    UlInv (ulUpdateUser st ch du dn sk).1 := by
  unfold ulUpdateUser at hne ⊢
  split
  · exact h
  · rename_i hdu
    rw [if_neg hdu] at hne
    dsimp only at hne ⊢
    obtain ⟨u, q⟩ := updateNets_upd st (ulStored st ch) ch dn sk
    generalize ulUpdateNets st (ulStored st ch) ch dn sk = r at hne u q ⊢
    split
    · rename_i hok
      rw [if_pos hok] at hne
      exact absurd rfl hne
    · rename_i hok
      have hids : (r.1.nets.map (·.id)).Nodup := by rw [u.ids]; exact h.ids
      have hlt : ∀ n ∈ r.1.nets, n.id < r.1.nextId := by
        intro n hn
        obtain ⟨m, hm, e⟩ := mem_ids u.ids hn
        rw [← e, u.nextId]; exact h.lt m hm
      have hold := u.old h.old
      have hq : r.1.enabled = false → ∀ n ∈ r.1.nets, Quiet n := by
        intro hen
        by_cases hup : st.enabled ≠ (ulStored st ch).enabled
        · exact q (by simpa using hok) hup
        · intro n hn
          rcases u.nets n hn with h2 | h2
          · refine h.quiet ?_ n h2
            rw [Classical.not_not.1 hup, ← u.enabled]; exact hen
          · exact h2
      split
      · rename_i hen
        exact ⟨hids, hlt, hold, hq, fun hf => by rw [hen] at hf; cases hf⟩
      · exact ⟨hids, hlt, hold, hq, fun _ c hc hl => closeAll_closed hc hl⟩

private theorem ids_filter {l : List UlNet} (p : UlNet → Bool) (h : (l.map (·.id)).Nodup) :
    ((l.filter p).map (·.id)).Nodup :=
  List.Sublist.nodup (List.Sublist.map _ List.filter_sublist) h

private theorem exec_inv {st : UlState} (h : UlInv st) (c : UlCmd) (hne : (ulExec st c).2 ≠ some .netErr) :
    UlInv (ulExec st c).1 := by
  cases c with
  | plain => exact h
  | other => exact h
  | realname du dn sk =>
    apply updateUser_inv h
    intro e
    apply hne
    simp only [ulExec, e]
  | create en ad ok =>
    simp only [ulExec, ulCreate]
    split
    · exact h
    · refine ⟨?_, ?_, h.old, ?_, h.closed⟩
      · dsimp only
        rw [List.map_append, List.nodup_append]
        refine ⟨h.ids, by simp, ?_⟩
        intro a ha b hb e
        obtain ⟨m, hm, rfl⟩ := List.mem_map.1 ha
        have := h.lt m hm
        simp [ulNewNet] at hb
        omega
      · intro n hn
        dsimp only at hn ⊢
        rcases List.mem_append.1 hn with hn | hn
        · have := h.lt n hn; omega
        · simp at hn; subst hn; simp [ulNewNet]
      · intro he n hn
        rcases List.mem_append.1 hn with hn | hn
        · exact h.quiet he n hn
        · simp at hn; subst hn; exact ⟨.inl rfl, rfl, rfl⟩
  | update id en ad ok =>
    simp only [ulExec]
    cases hu : ulUpdate st id en ad ok with
    | none => exact h
    | some st' => exact inv_upd (update_upd hu).1 h
  | delete id ok =>
    simp only [ulExec, ulDelete]
    split
    · exact h
    · split
      · exact h
      · rename_i n hf _
        refine ⟨ids_filter _ h.ids, fun m hm => h.lt m (List.mem_filter.1 hm).1, ?_,
          fun he m hm => h.quiet he m (List.mem_filter.1 hm).1, ?_⟩
        · intro m hm
          rcases List.mem_cons.1 hm with rfl | hm
          · rfl
          · exact h.old m hm
        · intro he c hc hl
          obtain ⟨d, hd, rfl⟩ := List.mem_map.1 hc
          by_cases hx : d.listed = true ∧ d.net = some n.obj
          · rw [if_pos hx]
          · rw [if_neg hx] at hl ⊢
            exact h.closed he d hd hl

private theorem mapObj_inv {st : UlState} (h : UlInv st) (obj : Nat) (f : UlNet → UlNet)
    (hid : ∀ n, (f n).id = n.id) (hst : ∀ n, (f n).stopped = n.stopped)
    (hq : ∀ n, st.enabled = false → Quiet n → Quiet (f n)) :
    UlInv { st with nets := ulMapObj obj f st.nets, old := ulMapObj obj f st.old } := by
  have hmap : (ulMapObj obj f st.nets).map (·.id) = st.nets.map (·.id) := by
    simp only [ulMapObj, List.map_map]
    apply List.map_congr_left
    intro n _
    simp only [Function.comp]
    split
    · exact hid n
    · rfl
  refine ⟨?_, ?_, ?_, ?_, h.closed⟩
  · dsimp only; rw [hmap]; exact h.ids
  · intro n hn
    obtain ⟨m, hm, e⟩ := mem_ids hmap hn
    rw [← e]; exact h.lt m hm
  · intro n hn
    obtain ⟨m, hm, rfl⟩ := List.mem_map.1 hn
    split
    · rw [hst]; exact h.old m hm
    · exact h.old m hm
  · intro he n hn
    obtain ⟨m, hm, rfl⟩ := List.mem_map.1 hn
    split
    · exact hq m he (h.quiet he m hm)
    · exact h.quiet he m hm

private theorem gor_id (e : Bool) (s : UlGStep) (n : UlNet) : (ulGor e s n).id = n.id := by
  unfold ulGor; split <;> rfl

private theorem gor_stopped (e : Bool) (s : UlGStep) (n : UlNet) : (ulGor e s n).stopped = n.stopped := by
  unfold ulGor; split <;> rfl

private theorem gor_quiet (s : UlGStep) (n : UlNet) (h : Quiet n) : Quiet (ulGor false s n) := by
  obtain ⟨h1, h2, h3⟩ := h
  unfold ulGor
  rcases h1 with h1 | h1 <;> rw [h1] <;> cases s <;> simp_all [Quiet]

private theorem event_quiet (n : UlNet) (h : Quiet n) : ulEvent n = n := by
  unfold ulEvent; rw [h.2.2]

private theorem clients_inv {st : UlState} (h : UlInv st) (cs : List UlClient)
    (hc : st.enabled = false → ∀ c ∈ cs, c.listed = true → c.closed = true) : UlInv { st with clients := cs } :=
  ⟨h.ids, h.lt, h.old, h.quiet, hc⟩

private theorem mapClient_inv {st : UlState} (h : UlInv st) (k : Nat) (f : UlClient → UlClient)
    (hc : st.enabled = false → ∀ c, (c.listed = true → c.closed = true) → (f c).listed = true → (f c).closed = true) :
    ∀ (_ : st.enabled = false), ∀ c ∈ ulMapClient k f st.clients, c.listed = true → c.closed = true := by
  intro he c hm hl
  obtain ⟨d, hd, rfl⟩ := List.mem_map.1 hm
  by_cases hk : d.id = k
  · rw [if_pos hk] at hl ⊢
    exact hc he d (h.closed he d hd) hl
  · rw [if_neg hk] at hl ⊢
    exact h.closed he d hd hl

private theorem enableOnAuth_inv {st : UlState} (h : UlInv st) (onAuth du : Bool) (dn : List Nat)
    (hne : (ulEnableOnAuth onAuth st du dn).2 ≠ some .netErr) : UlInv (ulEnableOnAuth onAuth st du dn).1 := by
  unfold ulEnableOnAuth at hne ⊢
  split
  · rename_i ha
    rw [if_pos ha] at hne
    exact updateUser_inv h _ _ _ _ (fun e => hne (by simp only [e]))
  · exact h

private theorem login_inv {st : UlState} (h : UlInv st) (onAuth : Bool) (k : Nat) (bind : Option Nat)
    (fail du : Bool) (dn : List Nat) (hne : (ulLogin onAuth st k bind fail du dn).2 ≠ some .netErr) :
    UlInv (ulLogin onAuth st k bind fail du dn).1 := by
  have hi := enableOnAuth_inv h onAuth du dn hne
  refine clients_inv hi _ (mapClient_inv hi k _ (fun he c hc hl => ?_))
  simp only [ulAdmit, he, Bool.not_false, if_true] at hl ⊢
  exact hc hl

private theorem step_inv {st : UlState} (h : UlInv st) (onAuth : Bool) (op : UlOp)
    (hne : (ulStep onAuth st op).2 ≠ some .netErr) : UlInv (ulStep onAuth st op).1 := by
  cases op with
  | net obj s =>
    refine mapObj_inv h obj _ (gor_id _ _) (gor_stopped _ _) (fun n he hq => ?_)
    rw [he]; exact gor_quiet s n hq
  | auth k =>
    simp only [ulStep]
    split
    · exact h
    · refine clients_inv h _ (fun he c hc hl => ?_)
      rcases List.mem_append.1 hc with hc | hc
      · exact h.closed he c hc hl
      · simp at hc; subst hc; cases hl
  | hangup k => exact clients_inv h _ (mapClient_inv h k _ (fun _ _ _ _ => rfl))
  | netEvent obj =>
    simp only [ulStep] at hne ⊢
    split
    · exact h
    · refine mapObj_inv h obj _ ?_ ?_ (fun n _ hq => by rw [event_quiet n hq]; exact hq)
      · intro n; unfold ulEvent; split <;> rfl
      · intro n; unfold ulEvent; split <;> rfl
  | login k b f du dn =>
    simp only [ulStep] at hne ⊢
    by_cases h1 : st.crashed = true
    · rw [if_pos h1]; exact h
    · rw [if_neg h1] at hne ⊢
      by_cases h2 : (st.clients.any fun c => decide (c.id = k ∧ c.seen = false)) = true
      · rw [if_pos h2] at hne ⊢; exact login_inv h _ _ _ _ _ _ hne
      · rw [if_neg h2]; exact h
  | cmd k c =>
    simp only [ulStep] at hne ⊢
    by_cases h1 : st.crashed = true
    · rw [if_pos h1]; exact h
    · rw [if_neg h1] at hne ⊢
      unfold ulCmd at hne ⊢
      cases hf : st.clients.find? (fun x => x.id = k) with
      | none => exact h
      | some x =>
        rw [hf] at hne
        dsimp only at hne ⊢
        by_cases h2 : (!x.seen || x.closed) = true
        · rw [if_pos h2]; exact h
        · rw [if_neg h2] at hne ⊢
          by_cases h3 : (!x.user) = true
          · rw [if_pos h3]
            split
            · exact h
            · exact ⟨h.ids, h.lt, h.old, h.quiet, h.closed⟩
          · rw [if_neg h3] at hne ⊢; exact exec_inv h c hne
  | gone k =>
    simp only [ulStep]
    split
    · exact h
    · exact clients_inv h _ (mapClient_inv h k _ (fun _ _ _ hl => by cases hl))
  | account ch du dn =>
    simp only [ulStep] at hne ⊢
    by_cases h1 : st.crashed = true
    · rw [if_pos h1]; exact h
    · rw [if_neg h1] at hne ⊢
      have hi := updateUser_inv h ch du (fun i => dn.contains i) (fun _ => false) (fun e => hne (by simp only [e]))
      dsimp only
      split
      · exact closeAll_inv hi
      · exact hi
  | adminRun c =>
    simp only [ulStep] at hne ⊢
    by_cases h1 : st.crashed = true
    · rw [if_pos h1]; exact h
    · rw [if_neg h1] at hne ⊢
      exact exec_inv h c hne

private theorem run_inv (onAuth : Bool) (ops : List UlOp) {st : UlState} (h : UlInv st)
    (hne : .netErr ∉ (ulRun onAuth st ops).2) : UlInv (ulRun onAuth st ops).1 := by
  induction ops generalizing st with
  | nil => exact h
  | cons op ops ih =>
    simp only [ulRun, List.mem_append, not_or] at hne ⊢
    refine ih (step_inv h onAuth op ?_) hne.2
    intro e
    apply hne.1
    rw [e]; simp

/-! ## C62 -/

/-- C62 (partial): after every history, if the account is disabled then none of its networks has a connection or is
connecting, and every client in its list has been closed.  A network object that was replaced when the account was
disabled may still have its connection for a moment, but it has been told to stop (see `C62_hang_up`).

Partial: no update of the account has failed half-way (`netErr`).  `C62_socket_violated` shows that this is needed. -/
theorem C62_disabled_partial (onAuth enabled admin : Bool) (recs : List (Nat × Bool × UlAddr)) (nextId : Nat)
    (nd : (recs.map (·.1)).Nodup) (lt : ∀ r ∈ recs, r.1 < nextId) (ops : List UlOp)
    (hne : .netErr ∉ (ulRun onAuth (ulStart enabled admin recs nextId) ops).2) :
    let st := (ulRun onAuth (ulStart enabled admin recs nextId) ops).1
    st.enabled = false →
      (∀ n ∈ st.nets, ¬ HasConn n ∧ n.gor ≠ .dialing ∧ n.conn = false) ∧
      (∀ n ∈ st.nets ++ st.old, HasConn n → n.stopped = true) ∧
      (∀ c ∈ st.clients, c.listed = true → c.closed = true) := by
  intro st hen
  have hi : UlInv st := run_inv onAuth ops (start_inv enabled admin recs nextId nd lt) hne
  have hq : ∀ n ∈ st.nets, ¬ HasConn n ∧ n.gor ≠ .dialing ∧ n.conn = false := by
    intro n hn
    obtain ⟨h1, h2, _⟩ := hi.quiet hen n hn
    refine ⟨?_, ?_, h2⟩
    · rintro (h | h) <;> rcases h1 with h1 | h1 <;> rw [h1] at h <;> cases h
    · intro h; rcases h1 with h1 | h1 <;> rw [h1] at h <;> cases h
  refine ⟨hq, ?_, fun c hc hl => hi.closed hen c hc hl⟩
  intro n hn hc
  rcases List.mem_append.1 hn with h | h
  · exact absurd hc (hq n h).1
  · exact hi.old n h

/-- A history in which an account with two networks, one of them connected, and a client is disabled. -/
private def disabling : List UlOp :=
  [.net 0 .start, .net 0 .top, .net 0 .dialled, .net 0 .registered, .netEvent 0, .net 1 .start,
    .auth 7, .login 7 (some 10) false true [], .account { enabled := some false } true [10, 11], .net 2 .start]

example :
    let r := ulRun false (ulStart true false [(10, true, .internet), (11, false, .internet)] 12) disabling
    UlAnswer.netErr ∉ r.2 ∧ r.1.enabled = false ∧ r.1.nets.length = 2 ∧ r.1.clients.length = 1 ∧
      r.1.old.any (fun n => n.gor = .reg) := by decide

/-- The steps that the goroutine of a network really takes: each changes where it is. -/
inductive GorSteps (accEnabled : Bool) : UlNet → List UlGStep → UlNet → Prop
  | nil (n : UlNet) : GorSteps accEnabled n [] n
  | cons {n m : UlNet} {s : UlGStep} {ss : List UlGStep} :
      (ulGor accEnabled s n).gor ≠ n.gor → GorSteps accEnabled (ulGor accEnabled s n) ss m →
      GorSteps accEnabled n (s :: ss) m

/-- How many steps are left once the network has been told to stop. -/
private def left : UlGor → Nat
  | .done => 0
  | .idle => 1
  | .reg => 2
  | .conn => 3
  | .dialing => 4
  | .fresh => 5

private theorem left_lt (e : Bool) (s : UlGStep) (n : UlNet) (hs : n.stopped = true)
    (h : (ulGor e s n).gor ≠ n.gor) : left (ulGor e s n).gor < left n.gor := by
  obtain ⟨obj, id, en, ad, st, cn, g, p⟩ := n
  simp only at hs
  subst hs
  cases s with
  | fail again => cases g <;> cases again <;> simp_all [ulGor, left]
  | start => cases g <;> cases e <;> cases en <;> simp_all [ulGor, left]
  | _ => cases g <;> simp_all [ulGor, left]

/-- C62: a network that has been told to stop takes at most five more steps, whatever they are, and it can go on
until its goroutine has ended, without a connection. -/
theorem C62_hang_up (accEnabled : Bool) (n m : UlNet) (ss : List UlGStep) (hs : n.stopped = true)
    (h : GorSteps accEnabled n ss m) :
    ss.length ≤ 5 ∧ m.stopped = true ∧
    ((∀ s, (ulGor accEnabled s m).gor = m.gor) → m.gor = .done ∧ ¬ HasConn m) := by
  have hl : ss.length + left m.gor ≤ left n.gor ∧ m.stopped = true := by
    induction h with
    | nil => exact ⟨by simp, hs⟩
    | @cons n m s ss h1 h2 ih =>
      have hs' := gor_stopped accEnabled s n
      obtain ⟨a, b⟩ := ih (hs'.trans hs)
      have := left_lt accEnabled s n hs h1
      refine ⟨?_, b⟩
      rw [List.length_cons]
      omega
  refine ⟨?_, hl.2, ?_⟩
  · have : left n.gor ≤ 5 := by cases n.gor <;> simp [left]
    omega
  · intro hstuck
    have hd : m.gor = .done := by
      obtain ⟨obj, id, en, ad, st, cn, g, p⟩ := m
      have h2 : st = true := hl.2
      subst h2
      cases g with
      | done => rfl
      | fresh =>
        have := hstuck .start
        simp only [ulGor] at this
        split at this <;> cases this
      | idle => have := hstuck .top; simp [ulGor] at this
      | dialing => have := hstuck (.fail false); simp [ulGor] at this
      | conn => have := hstuck (.fail false); simp [ulGor] at this
      | reg => have := hstuck (.fail false); simp [ulGor] at this
    refine ⟨hd, ?_⟩
    rintro (h | h) <;> rw [hd] at h <;> cases h

example : GorSteps false ⟨0, 10, true, .internet, true, false, .reg, []⟩ [.fail true, .top]
    ⟨0, 10, true, .internet, true, false, .done, [false]⟩ := by
  refine .cons (by decide) (.cons (by decide) ?_)
  exact .nil _

/-- C62: a client that logs in to a disabled account (which logging in does not enable) is not let in: it is told
so, does not appear in the list of clients and nothing else changes.  What it sends afterwards changes nothing
either, as long as it is a `CAP`, `PING`, `PONG` or `USER` command. -/
theorem C62_turned_away (st : UlState) (client : Nat) (bind : Option Nat) (fail dbUser : Bool) (dbNet : List Nat)
    (hen : st.enabled = false) (hcr : st.crashed = false)
    (hnew : ∃ c ∈ st.clients, c.id = client ∧ c.seen = false ∧ c.user = false ∧ c.listed = false)
    (huniq : (st.clients.map (·.id)).Nodup) :
    let st' := (ulStep false st (.login client bind fail dbUser dbNet)).1
    (∃ cs, st' = { st with clients := cs } ∧ cs.filter (fun c => c.id ≠ client) = st.clients.filter (fun c => c.id ≠ client)) ∧
    (∀ c ∈ st'.clients, c.id = client → c.user = false ∧ c.listed = false) ∧
    (ulStep false st' (.cmd client .plain)).1 = st' := by
  intro st'
  obtain ⟨c0, hc0, e0, s0, u0, l0⟩ := hnew
  have hst' : st' = { st with clients := ulMapClient client (fun c => { c with seen := true }) st.clients } := by
    show (ulStep false st (.login client bind fail dbUser dbNet)).1 = _
    simp only [ulStep]
    rw [if_neg (by simp [hcr]), if_pos (List.any_eq_true.2 ⟨c0, hc0, by simp [e0, s0]⟩)]
    have h1 : ulEnableOnAuth false st dbUser dbNet = (st, none) := by simp [ulEnableOnAuth]
    have h2 : ulAdmit st bind fail = fun c => { c with seen := true } := by funext c; simp [ulAdmit, hen]
    simp only [ulLogin, h1, h2]
  have huser : ∀ c ∈ st'.clients, c.id = client → c.user = false ∧ c.listed = false := by
    intro c hc hid
    rw [hst'] at hc
    obtain ⟨d, hd, rfl⟩ := List.mem_map.1 hc
    have hdid : d.id = client := by
      by_cases h : d.id = client
      · exact h
      · rw [if_neg h] at hid; exact hid
    have : d = c0 := eq_of_nodup_map huniq hd hc0 (hdid.trans e0.symm)
    subst this
    rw [if_pos hdid]
    exact ⟨u0, l0⟩
  refine ⟨⟨_, hst', ?_⟩, huser, ?_⟩
  · clear huser hst' st' hc0 huniq
    generalize st.clients = l
    induction l with
    | nil => rfl
    | cons c l ih =>
      simp only [ulMapClient, List.map_cons, List.filter_cons] at ih ⊢
      by_cases h : c.id = client
      · rw [if_pos h]
        simp only [ne_eq, h, not_true_eq_false, decide_false, Bool.false_eq_true, if_false]
        exact ih
      · rw [if_neg h, ih]
  · have hc2 : st'.crashed = false := by rw [hst']; exact hcr
    simp only [ulStep, hc2, Bool.false_eq_true, if_false, ulCmd]
    split
    · rfl
    · rename_i x hx
      have hxid : x.id = client := by simpa using List.find?_some hx
      rw [(huser x (List.mem_of_find?_eq_some hx) hxid).1]
      split <;> rfl

example :
    let st : UlState := (ulRun false (ulStart false false [(10, true, .internet)] 11) [.auth 7]).1
    st.enabled = false ∧ st.crashed = false ∧
      (∃ c ∈ st.clients, c.id = 7 ∧ c.seen = false ∧ c.user = false ∧ c.listed = false) ∧
      (st.clients.map (·.id)).Nodup := by decide

/-- C62 is violated: a client is turned away because the account is disabled, then sends a command that reads the
account, such as `NICK bob`, and the event loop of the account panics. -/
theorem C62_message_violated :
    (ulRun false (ulStart false false [(10, true, .internet)] 11)
      [.auth 7, .login 7 none false true [], .cmd 7 .other]).1.crashed = true := by decide

/-- C62 is violated: an administrator has a network with a local socket; they lose their rights, then their account
is disabled.  The update fails at that network and so the network stays connected, without being stopped, and the
client stays connected too, although the account is stored as disabled. -/
theorem C62_socket_violated :
    let r := ulRun false (ulStart true true [(10, true, .socket)] 11)
      [.net 0 .start, .net 0 .top, .net 0 .dialled, .net 0 .registered, .netEvent 0,
        .auth 7, .login 7 (some 10) false true [], .account { admin := some false } true [10],
        .account { enabled := some false } true [10]]
    r.1.enabled = false ∧ r.1.crashed = false ∧
      (∃ n ∈ r.1.nets, n.gor = .reg ∧ n.conn = true ∧ n.stopped = false) ∧
      (∃ c ∈ r.1.clients, c.listed = true ∧ c.closed = false ∧ c.user = true) := by decide

/-- While a client that was turned away is connected, it sends only commands that do not read the account. -/
def RefusedQuiet (onAuth : Bool) (st : UlState) : List UlOp → Prop
  | [] => True
  | op :: ops =>
    (∀ k c, op = .cmd k c → c ≠ .plain → ∀ x ∈ st.clients, x.id = k → x.seen = true → x.closed = false → x.user = true) ∧
    RefusedQuiet onAuth (ulStep onAuth st op).1 ops

private theorem updateUser_crashed (st : UlState) (ch : UlChange) (du : Bool) (dn : Nat → Bool) (sk : UlNet → Bool) :
    (ulUpdateUser st ch du dn sk).1.crashed = st.crashed := by
  unfold ulUpdateUser
  split
  · rfl
  · have hx := (updateNets_upd st (ulStored st ch) ch dn sk).1.crashed
    dsimp only
    split
    · exact hx
    · split <;> exact hx

private theorem exec_crashed (st : UlState) (c : UlCmd) : (ulExec st c).1.crashed = st.crashed := by
  cases c with
  | plain => rfl
  | other => rfl
  | realname du dn sk => exact updateUser_crashed _ _ _ _ _
  | create en ad ok => simp only [ulExec, ulCreate]; split <;> rfl
  | update id en ad ok =>
    simp only [ulExec]
    cases hu : ulUpdate st id en ad ok with
    | none => rfl
    | some st' => exact (update_upd hu).1.crashed
  | delete id ok =>
    simp only [ulExec, ulDelete]
    split
    · rfl
    · split <;> rfl

private theorem login_crashed (onAuth : Bool) (st : UlState) (k : Nat) (b : Option Nat) (f du : Bool) (dn : List Nat) :
    (ulLogin onAuth st k b f du dn).1.crashed = st.crashed := by
  show (ulEnableOnAuth onAuth st du dn).1.crashed = _
  unfold ulEnableOnAuth
  split
  · exact updateUser_crashed _ _ _ _ _
  · rfl

/-- C62 (partial): as long as the clients that were turned away send nothing but `CAP`, `PING`, `PONG` and `USER`,
the event loop goes on, whatever else happens.  `C62_message_violated` shows that the restriction is needed. -/
theorem C62_alive_partial (onAuth : Bool) (ops : List UlOp) (st : UlState) (hcr : st.crashed = false)
    (hq : RefusedQuiet onAuth st ops) : (ulRun onAuth st ops).1.crashed = false := by
  induction ops generalizing st with
  | nil => exact hcr
  | cons op ops ih =>
    obtain ⟨h1, h2⟩ := hq
    refine ih _ ?_ h2
    cases op with
    | net obj s => exact hcr
    | auth k => simp only [ulStep]; split <;> exact hcr
    | hangup k => exact hcr
    | netEvent obj => simp only [ulStep, hcr, Bool.false_eq_true, if_false]
    | login k b f du dn =>
      simp only [ulStep, hcr, Bool.false_eq_true, if_false]
      split
      · rw [login_crashed]; exact hcr
      · exact hcr
    | cmd k c =>
      simp only [ulStep, hcr, Bool.false_eq_true, if_false, ulCmd]
      split
      · exact hcr
      · rename_i x hx
        split
        · exact hcr
        · rename_i hsc
          split
          · rename_i hu
            split
            · exact hcr
            · rename_i hp
              have := h1 k c rfl hp x (List.mem_of_find?_eq_some hx) (by simpa using List.find?_some hx)
                (by cases hs : x.seen <;> simp_all) (by cases hs : x.closed <;> simp_all)
              rw [this] at hu; cases hu
          · rw [exec_crashed]; exact hcr
    | gone k => simp only [ulStep, hcr, Bool.false_eq_true, if_false]
    | account ch du dn =>
      simp only [ulStep, hcr, Bool.false_eq_true, if_false]
      split
      · exact (updateUser_crashed _ _ _ _ _).trans hcr
      · exact (updateUser_crashed _ _ _ _ _).trans hcr
    | adminRun c =>
      simp only [ulStep, hcr, Bool.false_eq_true, if_false]
      rw [exec_crashed]; exact hcr

example : RefusedQuiet false (ulStart false false [(10, true, .internet)] 11)
    [.auth 7, .login 7 none false true [], .cmd 7 .plain, .account { enabled := some true } true [10]] := by
  refine ⟨?_, ?_, ?_, ?_, trivial⟩ <;> intro k c h <;> cases h
  exact fun h => absurd rfl h

/-! ## C67 -/

/-- Every client is handled as soon as it has authenticated, and no request for a network fails at login. -/
def PromptLogins : List UlOp → Prop
  | [] => True
  | .auth k :: .login k' _ fail _ _ :: ops => k = k' ∧ fail = false ∧ PromptLogins ops
  | .auth _ :: _ => False
  | .login _ _ _ _ _ :: _ => False
  | _ :: ops => PromptLogins ops

/-- The same client, possibly closed since. -/
private def Later (c d : UlClient) : Prop :=
  c.id = d.id ∧ c.pw = d.pw ∧ c.seen = d.seen ∧ c.user = d.user ∧ c.listed = d.listed ∧ (d.closed = true → c.closed = true)

private theorem Later.refl (c : UlClient) : Later c c := ⟨rfl, rfl, rfl, rfl, rfl, fun h => h⟩

private theorem Later.trans {a b c : UlClient} (h1 : Later a b) (h2 : Later b c) : Later a c :=
  ⟨h1.1.trans h2.1, h1.2.1.trans h2.2.1, h1.2.2.1.trans h2.2.2.1, h1.2.2.2.1.trans h2.2.2.2.1,
    h1.2.2.2.2.1.trans h2.2.2.2.2.1, fun h => h1.2.2.2.2.2 (h2.2.2.2.2.2 h)⟩

private theorem SameC.later {c d : UlClient} (h : SameC c d) : Later c d :=
  ⟨h.1, h.2.1, h.2.2.1, h.2.2.2.1, h.2.2.2.2.1, fun e => h.2.2.2.2.2.trans e⟩

private def LaterAll (cs ds : List UlClient) : Prop := ∀ c ∈ cs, ∃ d ∈ ds, Later c d

private theorem LaterAll.refl (cs : List UlClient) : LaterAll cs cs := fun c h => ⟨c, h, Later.refl c⟩

private theorem LaterAll.trans {a b c : List UlClient} (h1 : LaterAll a b) (h2 : LaterAll b c) : LaterAll a c := by
  intro x hx
  obtain ⟨y, hy, e⟩ := h1 x hx
  obtain ⟨z, hz, e2⟩ := h2 y hy
  exact ⟨z, hz, e.trans e2⟩

private theorem closeAll_later (st : UlState) : LaterAll (ulCloseAll st).clients st.clients := by
  intro c hc
  obtain ⟨d, hd, rfl⟩ := List.mem_map.1 hc
  refine ⟨d, hd, ?_⟩
  split
  · exact ⟨rfl, rfl, rfl, rfl, rfl, fun _ => rfl⟩
  · exact Later.refl d

private theorem updateUser_later (st : UlState) (ch : UlChange) (du : Bool) (dn : Nat → Bool) (sk : UlNet → Bool) :
    LaterAll (ulUpdateUser st ch du dn sk).1.clients st.clients := by
  unfold ulUpdateUser
  split
  · exact LaterAll.refl _
  · have hx : LaterAll (ulUpdateNets st (ulStored st ch) ch dn sk).1.clients st.clients := by
      intro c hc
      obtain ⟨d, hd, e⟩ := (updateNets_upd st (ulStored st ch) ch dn sk).1.clients c hc
      exact ⟨d, hd, e.later⟩
    dsimp only
    split
    · exact hx
    · split
      · exact hx
      · exact LaterAll.trans (closeAll_later _) hx

private theorem updateUser_pw (st : UlState) (ch : UlChange) (du : Bool) (dn : Nat → Bool) (sk : UlNet → Bool)
    (hp : ch.password = false) : (ulUpdateUser st ch du dn sk).1.pw = st.pw := by
  unfold ulUpdateUser
  split
  · rfl
  · have hx : (ulUpdateNets st (ulStored st ch) ch dn sk).1.pw = st.pw := by
      rw [(updateNets_upd st (ulStored st ch) ch dn sk).1.pw]
      simp [ulStored, hp]
    dsimp only
    split
    · exact hx
    · split <;> exact hx

private theorem exec_later (st : UlState) (c : UlCmd) :
    LaterAll (ulExec st c).1.clients st.clients ∧ (ulExec st c).1.pw = st.pw := by
  cases c with
  | plain => exact ⟨LaterAll.refl _, rfl⟩
  | other => exact ⟨LaterAll.refl _, rfl⟩
  | realname du dn sk => exact ⟨updateUser_later _ _ _ _ _, updateUser_pw _ _ _ _ _ rfl⟩
  | create en ad ok =>
    simp only [ulExec, ulCreate]
    split
    · exact ⟨LaterAll.refl _, rfl⟩
    · exact ⟨LaterAll.refl _, rfl⟩
  | update id en ad ok =>
    simp only [ulExec]
    cases hu : ulUpdate st id en ad ok with
    | none => exact ⟨LaterAll.refl _, rfl⟩
    | some st' =>
      refine ⟨fun c hc => ?_, (update_upd hu).1.pw⟩
      obtain ⟨d, hd, e⟩ := (update_upd hu).1.clients c hc
      exact ⟨d, hd, e.later⟩
  | delete id ok =>
    simp only [ulExec, ulDelete]
    split
    · exact ⟨LaterAll.refl _, rfl⟩
    · split
      · exact ⟨LaterAll.refl _, rfl⟩
      · refine ⟨fun c hc => ?_, rfl⟩
        obtain ⟨d, hd, rfl⟩ := List.mem_map.1 hc
        refine ⟨d, hd, ?_⟩
        split
        · exact ⟨rfl, rfl, rfl, rfl, rfl, fun _ => rfl⟩
        · exact Later.refl d

/-- Every client that was let in is in the list, or closed; those that are open have used the current password. -/
private structure PwInv (st : UlState) : Prop where
  listed : ∀ c ∈ st.clients, c.user = true → c.listed = true ∨ c.closed = true
  cur : ∀ c ∈ st.clients, c.listed = true → c.closed = true ∨ c.pw = st.pw

private theorem pw_later {st st' : UlState} (h : PwInv st) (hl : LaterAll st'.clients st.clients)
    (hp : st'.pw = st.pw) : PwInv st' := by
  constructor
  · intro c hc hu
    obtain ⟨d, hd, e⟩ := hl c hc
    rcases h.listed d hd (e.2.2.2.1 ▸ hu) with h1 | h1
    · exact .inl (e.2.2.2.2.1.trans h1)
    · exact .inr (e.2.2.2.2.2 h1)
  · intro c hc hu
    obtain ⟨d, hd, e⟩ := hl c hc
    rcases h.cur d hd (e.2.2.2.2.1 ▸ hu) with h1 | h1
    · exact .inl (e.2.2.2.2.2 h1)
    · exact .inr (by rw [e.2.1, h1, hp])

private theorem seen_later {cs ds : List UlClient} (hl : LaterAll cs ds) (h : ∀ d ∈ ds, d.seen = true) :
    ∀ c ∈ cs, c.seen = true := by
  intro c hc
  obtain ⟨d, hd, e⟩ := hl c hc
  rw [e.2.2.1]; exact h d hd

/-- The steps other than logins keep the invariant. -/
private theorem pw_step (onAuth : Bool) {st : UlState} (h : PwInv st) (op : UlOp)
    (hs : st.crashed = false → ∀ c ∈ st.clients, c.seen = true)
    (h1 : ∀ k, op ≠ .auth k) (h2 : ∀ k b f du dn, op ≠ .login k b f du dn) :
    PwInv (ulStep onAuth st op).1 ∧
      ((ulStep onAuth st op).1.crashed = false → ∀ c ∈ (ulStep onAuth st op).1.clients, c.seen = true) := by
  have fin : ∀ st' : UlState, LaterAll st'.clients st.clients → st'.pw = st.pw →
      (st'.crashed = false → st.crashed = false) →
      PwInv st' ∧ (st'.crashed = false → ∀ c ∈ st'.clients, c.seen = true) :=
    fun st' hl hp hc => ⟨pw_later h hl hp, fun hcr => seen_later hl (hs (hc hcr))⟩
  have same : PwInv st ∧ (st.crashed = false → ∀ c ∈ st.clients, c.seen = true) := ⟨h, hs⟩
  cases op with
  | auth k => exact absurd rfl (h1 k)
  | login k b f du dn => exact absurd rfl (h2 k b f du dn)
  | net obj s => exact fin _ (LaterAll.refl _) rfl (fun x => x)
  | hangup k =>
    refine fin _ (fun c hc => ?_) rfl (fun x => x)
    obtain ⟨d, hd, rfl⟩ := List.mem_map.1 hc
    refine ⟨d, hd, ?_⟩
    split
    · exact ⟨rfl, rfl, rfl, rfl, rfl, fun _ => rfl⟩
    · exact Later.refl d
  | netEvent obj =>
    simp only [ulStep]
    split
    · exact same
    · exact fin _ (LaterAll.refl _) rfl (fun x => x)
  | cmd k c =>
    simp only [ulStep]
    split
    · exact same
    · rename_i hcr
      unfold ulCmd
      split
      · exact same
      · split
        · exact same
        · split
          · split
            · exact same
            · exact fin _ (LaterAll.refl _) rfl (fun x => by cases x)
          · exact fin _ (exec_later st c).1 (exec_later st c).2 (fun _ => by simpa using hcr)
  | gone k =>
    simp only [ulStep]
    split
    · exact same
    · rename_i hcr
      refine ⟨⟨?_, ?_⟩, fun hc => ?_⟩
      · intro c hc hu
        obtain ⟨d, hd, rfl⟩ := List.mem_map.1 hc
        by_cases hk : d.id = k
        · rw [if_pos hk]; exact .inr rfl
        · rw [if_neg hk] at hu ⊢; exact h.listed d hd hu
      · intro c hc hu
        obtain ⟨d, hd, rfl⟩ := List.mem_map.1 hc
        by_cases hk : d.id = k
        · rw [if_pos hk] at hu; cases hu
        · rw [if_neg hk] at hu ⊢; exact h.cur d hd hu
      · intro c hc2
        obtain ⟨d, hd, rfl⟩ := List.mem_map.1 hc2
        have := hs hc d hd
        split <;> exact this
  | account ch du dn =>
    simp only [ulStep]
    split
    · exact same
    · rename_i hcr
      have hl := updateUser_later st ch du (fun i => dn.contains i) (fun _ => false)
      dsimp only
      split
      · refine ⟨⟨?_, ?_⟩, fun _ => ?_⟩
        · intro c hc hu
          obtain ⟨d, hd, e⟩ := LaterAll.trans (closeAll_later _) hl c hc
          rcases h.listed d hd (e.2.2.2.1 ▸ hu) with h1 | h1
          · exact .inl (e.2.2.2.2.1.trans h1)
          · exact .inr (e.2.2.2.2.2 h1)
        · intro c hc hu
          exact .inl (closeAll_closed hc hu)
        · exact seen_later (LaterAll.trans (closeAll_later _) hl) (hs (by simpa using hcr))
      · rename_i hp
        exact fin _ hl (updateUser_pw _ _ _ _ _ (by simpa using hp)) (fun _ => by simpa using hcr)
  | adminRun c =>
    simp only [ulStep]
    split
    · exact same
    · rename_i hcr
      exact fin _ (exec_later st c).1 (exec_later st c).2 (fun _ => by simpa using hcr)

/-- A client authenticates and is handled at once. -/
private theorem pw_login (onAuth : Bool) {st : UlState} (h : PwInv st) (k : Nat) (b : Option Nat) (du : Bool)
    (dn : List Nat) (hs : st.crashed = false → ∀ c ∈ st.clients, c.seen = true) :
    let st' := (ulStep onAuth (ulStep onAuth st (.auth k)).1 (.login k b false du dn)).1
    PwInv st' ∧ (st'.crashed = false → ∀ c ∈ st'.clients, c.seen = true) := by
  intro st'
  obtain ⟨mid, hmid⟩ : ∃ mid, mid = (ulStep onAuth st (.auth k)).1 := ⟨_, rfl⟩
  have hst' : st' = (ulStep onAuth mid (.login k b false du dn)).1 := by rw [hmid]
  -- the state after authentication
  have hm : PwInv mid ∧ mid.crashed = st.crashed ∧ mid.pw = st.pw ∧
      (st.crashed = false → ∀ c ∈ mid.clients, c.seen = false → c.id = k) ∧
      (st.crashed = false → (∃ c ∈ mid.clients, c.id = k ∧ c.seen = false) →
        ∀ c ∈ mid.clients, c.id = k → c.pw = mid.pw) := by
    rw [hmid]
    simp only [ulStep]
    split
    · refine ⟨h, rfl, rfl, fun hc c hcm hsn => ?_, fun hc ⟨c, hcm, _, hsn⟩ => ?_⟩
      · rw [hs hc c hcm] at hsn; cases hsn
      · rw [hs hc c hcm] at hsn; cases hsn
    · rename_i hany
      have hno : ∀ c ∈ st.clients, c.id ≠ k := by
        intro c hc e
        exact hany (List.any_eq_true.2 ⟨c, hc, by simpa using e⟩)
      refine ⟨⟨?_, ?_⟩, rfl, rfl, ?_, ?_⟩
      · intro c hc hu
        rcases List.mem_append.1 hc with hc | hc
        · exact h.listed c hc hu
        · simp at hc; subst hc; cases hu
      · intro c hc hu
        rcases List.mem_append.1 hc with hc | hc
        · exact h.cur c hc hu
        · simp at hc; subst hc; cases hu
      · intro hcr c hc hsn
        rcases List.mem_append.1 hc with hc | hc
        · rw [hs hcr c hc] at hsn; cases hsn
        · simp at hc; subst hc; rfl
      · intro _ _ c hc hid
        rcases List.mem_append.1 hc with hc | hc
        · exact absurd hid (hno c hc)
        · simp at hc; subst hc; rfl
  obtain ⟨hpi, hcre, hpwe, hun, hpw⟩ := hm
  rw [hst']
  simp only [ulStep]
  by_cases hcr : mid.crashed = true
  · rw [if_pos hcr]
    exact ⟨hpi, fun h => by rw [hcr] at h; cases h⟩
  · rw [if_neg hcr]
    have hcr0 : st.crashed = false := by rw [← hcre]; simpa using hcr
    by_cases hany : (mid.clients.any fun c => decide (c.id = k ∧ c.seen = false)) = true
    · rw [if_pos hany]
      have hex : ∃ c ∈ mid.clients, c.id = k ∧ c.seen = false := by
        obtain ⟨c, hc, e⟩ := List.any_eq_true.1 hany
        exact ⟨c, hc, by simpa using e⟩
      -- enabling the account
      obtain ⟨st2, hst2⟩ : ∃ st2, st2 = (ulEnableOnAuth onAuth mid du dn).1 := ⟨_, rfl⟩
      have hla : LaterAll st2.clients mid.clients ∧ st2.pw = mid.pw := by
        rw [hst2]; unfold ulEnableOnAuth
        split
        · exact ⟨updateUser_later _ _ _ _ _, updateUser_pw _ _ _ _ _ rfl⟩
        · exact ⟨LaterAll.refl _, rfl⟩
      have hp2 : PwInv st2 := pw_later hpi hla.1 hla.2
      have hres : (ulLogin onAuth mid k b false du dn).1 =
          { st2 with clients := ulMapClient k (ulAdmit st2 b false) st2.clients } := by rw [hst2]; rfl
      rw [hres]
      have hcase : ∀ c ∈ ulMapClient k (ulAdmit st2 b false) st2.clients, ∃ d ∈ st2.clients,
          (d.id ≠ k ∧ c = d) ∨ (d.id = k ∧ c = ulAdmit st2 b false d) := by
        intro c hc
        obtain ⟨d, hd, rfl⟩ := List.mem_map.1 hc
        refine ⟨d, hd, ?_⟩
        by_cases hk : d.id = k
        · exact .inr ⟨hk, by rw [if_pos hk]⟩
        · exact .inl ⟨hk, by rw [if_neg hk]⟩
      have hadm : ∀ d, (ulAdmit st2 b false d).seen = true ∧ (ulAdmit st2 b false d).pw = d.pw ∧
          (ulAdmit st2 b false d).closed = d.closed ∧
          (((ulAdmit st2 b false d).user = d.user ∧ (ulAdmit st2 b false d).listed = d.listed) ∨
            (ulAdmit st2 b false d).listed = true) := by
        intro d
        simp only [ulAdmit, Bool.false_eq_true, if_false]
        split
        · exact ⟨rfl, rfl, rfl, .inl ⟨rfl, rfl⟩⟩
        · exact ⟨rfl, rfl, rfl, .inr rfl⟩
      refine ⟨⟨?_, ?_⟩, fun _ => ?_⟩
      · intro c hc hu
        obtain ⟨d, hd, ⟨_, rfl⟩ | ⟨_, rfl⟩⟩ := hcase c hc
        · exact hp2.listed c hd hu
        · obtain ⟨_, _, a3, a4 | a4⟩ := hadm d
          · rw [a4.2, a3]; exact hp2.listed d hd (a4.1 ▸ hu)
          · exact .inl a4
      · intro c hc hu
        obtain ⟨d, hd, ⟨_, rfl⟩ | ⟨hk, rfl⟩⟩ := hcase c hc
        · exact hp2.cur c hd hu
        · right
          obtain ⟨m, hmem, e⟩ := hla.1 d hd
          rw [(hadm d).2.1, e.2.1]
          show m.pw = st2.pw
          rw [hla.2]
          exact hpw hcr0 hex m hmem (e.1 ▸ hk)
      · intro c hc
        obtain ⟨d, hd, ⟨hk, rfl⟩ | ⟨_, rfl⟩⟩ := hcase c hc
        · obtain ⟨m, hmem, e⟩ := hla.1 c hd
          rw [e.2.2.1]
          cases hsn : m.seen with
          | true => rfl
          | false => exact absurd (e.1.trans (hun hcr0 m hmem hsn)) hk
        · exact (hadm d).1
    · rw [if_neg hany]
      refine ⟨hpi, fun _ c hc => ?_⟩
      cases hsn : c.seen with
      | true => rfl
      | false =>
        exact absurd (List.any_eq_true.2 ⟨c, hc, by simpa using And.intro (hun hcr0 c hc hsn) hsn⟩) hany

private theorem pw_run (onAuth : Bool) (n : Nat) (ops : List UlOp) (hn : ops.length ≤ n) {st : UlState} (h : PwInv st)
    (hs : st.crashed = false → ∀ c ∈ st.clients, c.seen = true) (hp : PromptLogins ops) :
    PwInv (ulRun onAuth st ops).1 := by
  induction n generalizing ops st with
  | zero =>
    cases ops with
    | nil => exact h
    | cons => simp at hn
  | succ n ih =>
    cases ops with
    | nil => exact h
    | cons op ops =>
      simp only [List.length_cons] at hn
      by_cases ha : ∃ k, op = .auth k
      · obtain ⟨k, rfl⟩ := ha
        cases ops with
        | nil => exact absurd hp (by simp [PromptLogins])
        | cons op2 ops =>
          cases op2 with
          | login k' b f du dn =>
            simp only [PromptLogins] at hp
            obtain ⟨rfl, rfl, hp⟩ := hp
            obtain ⟨h1, h2⟩ := pw_login onAuth h k b du dn hs
            simp only [List.length_cons] at hn
            exact ih ops (by omega) h1 h2 hp
          | _ => exact absurd hp (by simp [PromptLogins])
      · by_cases hl : ∃ k b f du dn, op = .login k b f du dn
        · obtain ⟨k, b, f, du, dn, rfl⟩ := hl
          exact absurd hp (by simp [PromptLogins])
        · obtain ⟨h1, h2⟩ := pw_step onAuth h op hs (fun k e => ha ⟨k, e⟩)
            (fun k b f du dn e => hl ⟨k, b, f, du, dn, e⟩)
          have hp' : PromptLogins ops := by
            cases op with
            | auth k => exact absurd ⟨k, rfl⟩ ha
            | login k b f du dn => exact absurd ⟨k, b, f, du, dn, rfl⟩ hl
            | _ => simpa [PromptLogins] using hp
          exact ih ops (by omega) h1 h2 hp'

/-- C67 (partial): whatever happens, a client that can act on the account has given its current password: changing
the password cuts off the others, whether or not the update succeeds otherwise.

Partial: every client is handled as soon as it has authenticated and no request for a network fails at login.
`C67_pending_violated` and `C67_failed_login_violated` show that both are needed. -/
theorem C67_password_partial (onAuth enabled admin : Bool) (recs : List (Nat × Bool × UlAddr)) (nextId : Nat)
    (ops : List UlOp) (hp : PromptLogins ops) :
    let st := (ulRun onAuth (ulStart enabled admin recs nextId) ops).1
    ∀ c ∈ st.clients, CanAct c → c.pw = st.pw := by
  intro st c hc ⟨_, hu, hcl⟩
  have h : PwInv st := pw_run onAuth ops.length ops (Nat.le_refl _)
    ⟨fun c hc => absurd hc List.not_mem_nil, fun c hc => absurd hc List.not_mem_nil⟩
    (fun _ c hc => absurd hc List.not_mem_nil) hp
  rcases h.listed c hc hu with hl | hl
  · rcases h.cur c hc hl with h1 | h1
    · rw [h1] at hcl; cases hcl
    · exact h1
  · rw [hl] at hcl; cases hcl

example : PromptLogins [.auth 7, .login 7 none false true [], .account { password := true } true [],
    .auth 8, .login 8 (some 10) false true [], .cmd 7 .other] ∧
    (ulRun false (ulStart true false [(10, true, .internet)] 11)
      [.auth 7, .login 7 none false true [], .account { password := true } true [],
        .auth 8, .login 8 (some 10) false true [], .cmd 7 .other]).1.clients.map (fun c => (c.id, c.pw, c.closed)) =
      [(7, 0, true), (8, 1, false)] := by
  refine ⟨by simp [PromptLogins], by decide⟩

/-- C67 (partial): when the account is disabled no client can act on it.  Partial as in `C67_password_partial` and
`C62_disabled_partial`. -/
theorem C67_disabled_partial (onAuth enabled admin : Bool) (recs : List (Nat × Bool × UlAddr)) (nextId : Nat)
    (nd : (recs.map (·.1)).Nodup) (lt : ∀ r ∈ recs, r.1 < nextId) (ops : List UlOp) (hp : PromptLogins ops)
    (hne : .netErr ∉ (ulRun onAuth (ulStart enabled admin recs nextId) ops).2) :
    let st := (ulRun onAuth (ulStart enabled admin recs nextId) ops).1
    st.enabled = false → ∀ c ∈ st.clients, ¬ CanAct c := by
  intro st hen c hc ⟨_, hu, hcl⟩
  have h : PwInv st := pw_run onAuth ops.length ops (Nat.le_refl _)
    ⟨fun c hc => absurd hc List.not_mem_nil, fun c hc => absurd hc List.not_mem_nil⟩
    (fun _ c hc => absurd hc List.not_mem_nil) hp
  have hcc : c.closed = true := by
    rcases h.listed c hc hu with hl | hl
    · exact (C62_disabled_partial onAuth enabled admin recs nextId nd lt ops hne hen).2.2 c hc hl
    · exact hl
  rw [hcc] at hcl; cases hcl

/-- What a client that cannot act sends to a working account is ignored (or, if it was turned away, see
`C62_turned_away`): the account, its networks and the other clients stay as they are. -/
theorem C67_ignored (onAuth : Bool) (st : UlState) (client : Nat) (c : UlCmd)
    (h : ∀ x ∈ st.clients, x.id = client → x.closed = true) :
    (ulStep onAuth st (.cmd client c)).1 = st := by
  simp only [ulStep]
  split
  · rfl
  · unfold ulCmd
    split
    · rfl
    · rename_i x hx
      rw [h x (List.mem_of_find?_eq_some hx) (by simpa using List.find?_some hx)]
      simp

example :
    let st := (ulRun false (ulStart true false [(10, true, .internet)] 11)
      [.auth 7, .login 7 none false true [], .account { password := true } true []]).1
    (∀ x ∈ st.clients, x.id = 7 → x.closed = true) ∧ st.clients.length = 1 := by decide

/-- C67 is violated: a client authenticates, the password is changed before the loop handles the client, which is
then let in with the old password. -/
theorem C67_pending_violated :
    let st := (ulRun false (ulStart true false [(10, true, .internet)] 11)
      [.auth 7, .account { password := true } true [], .login 7 none false true []]).1
    st.pw = 1 ∧ ∃ c ∈ st.clients, c.pw = 0 ∧ (c.seen = true ∧ c.user = true ∧ c.closed = false) := by decide

/-- C67 is violated: a client asks for a network that does not exist and is told that this has failed, but its
connection stays open outside the list of clients.  The password is changed and the account is disabled, and the
client can still create a network. -/
theorem C67_failed_login_violated :
    let st := (ulRun false (ulStart true false [(10, true, .internet)] 11)
      [.auth 7, .login 7 none true true [], .account { password := true } true [],
        .account { enabled := some false } true [10]]).1
    st.pw = 1 ∧ st.enabled = false ∧
      (∃ c ∈ st.clients, c.pw = 0 ∧ (c.seen = true ∧ c.user = true ∧ c.closed = false)) ∧
      (ulStep false st (.cmd 7 (.create true .internet true))).1.nets.length = st.nets.length + 1 := by decide

end Verif.Props
