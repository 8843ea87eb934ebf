import Verif.Model.UserLoop
import Verif.Proof.Util

/-! # C99: every enabled network of an enabled account has a goroutine that keeps it connected

See `Props/Reconnect.lean` for what that goroutine does. -/

namespace Verif.Props
open Verif.Model Verif.Proof

/-- No server has refused the bouncer for good (`C99_keeps_trying` says when that happens). -/
def NoRefusal (ops : List UlOp) : Prop := ∀ obj, UlOp.net obj (.fail false) ∉ ops

private def New (n : UlNet) : Prop := n.gor = .fresh ∧ n.stopped = false

private def Live (st : UlState) : Prop :=
  ∀ n ∈ st.nets, n.stopped = false ∧ (n.gor = .done → st.enabled = true → n.enabled = false)

private structure Renew (st st' : UlState) : Prop where
  enabled : st'.enabled = st.enabled
  ids : st'.nets.map (·.id) = st.nets.map (·.id)
  nets : ∀ n ∈ st'.nets, n ∈ st.nets ∨ New n

private theorem Renew.live {st st' : UlState} (u : Renew st st') (h : Live st) : Live st' := by
  intro n hn
  rcases u.nets n hn with h1 | h1
  · rw [u.enabled]; exact h n h1
  · exact ⟨h1.2, fun e => by rw [h1.1] at e; cases e⟩

private theorem update_renew {st st' : UlState} {id : Nat} {e : Bool} {a : UlAddr} {ok : Bool}
    (h : ulUpdate st id e a ok = some st') : Renew st st' ∧ ∀ n ∈ st'.nets, n.id = id → New n := by
  unfold ulUpdate at h
  split at h
  · cases h
  · split at h
    · cases h
    · have := Option.some.inj h; subst this
      refine ⟨⟨rfl, ?_, ?_⟩, ?_⟩
      · simp only [List.map_map]
        apply List.map_congr_left
        intro m _
        simp only [Function.comp]
        split
        · rename_i h; simp [ulNewNet, h]
        · rfl
      · intro m hm
        obtain ⟨m0, hm0, rfl⟩ := List.mem_map.1 hm
        split
        · exact .inr ⟨rfl, rfl⟩
        · exact .inl hm0
      · intro m hm hid
        obtain ⟨m0, hm0, rfl⟩ := List.mem_map.1 hm
        by_cases h0 : m0.id = id
        · rw [if_pos h0]; exact ⟨rfl, rfl⟩
        · rw [if_neg h0] at hid; exact absurd hid h0

private theorem updateAll_renew (dbNet : Nat → Bool) (l : List UlNet) (st : UlState) :
    Renew st (ulUpdateAll dbNet l st).1 ∧
    ((ulUpdateAll dbNet l st).2 = true →
      ∀ n ∈ (ulUpdateAll dbNet l st).1.nets, n.id ∈ l.map (·.id) → New n) := by
  induction l generalizing st with
  | nil => exact ⟨⟨rfl, rfl, fun _ h => .inl h⟩, fun _ n _ h => by simp at h⟩
  | cons m rest ih =>
    unfold ulUpdateAll
    split
    · exact ⟨(ih st).1, fun h => by simp at h⟩
    · rename_i st' he
      obtain ⟨u, q⟩ := update_renew he
      obtain ⟨u2, q2⟩ := ih st'
      refine ⟨⟨u2.enabled.trans u.enabled, u2.ids.trans u.ids, ?_⟩, fun hok n hn hid => ?_⟩
      · intro n hn
        rcases u2.nets n hn with h | h
        · exact u.nets n h
        · exact .inr h
      · by_cases hr : n.id ∈ rest.map (·.id)
        · exact q2 hok n hn hr
        · rcases u2.nets n hn with h | h
          · rcases List.mem_cons.1 (by simpa using hid : n.id ∈ m.id :: rest.map (·.id)) with e | e
            · exact q n h e
            · exact absurd e hr
          · exact h

private theorem updateUser_live {st : UlState} (h : Live st) (ch : UlChange) (du : Bool) (dn : Nat → Bool)
    (sk : UlNet → Bool) (hne : (ulUpdateUser st ch du dn sk).2 ≠ .netErr) :
    Live (ulUpdateUser st ch du dn sk).1 := by
  unfold ulUpdateUser at hne ⊢
  by_cases hdu : (!du) = true
  · rw [if_pos hdu]; exact h
  · rw [if_neg hdu] at hne ⊢
    dsimp only at hne ⊢
    have key : (ulUpdateNets st (ulStored st ch) ch dn sk).2 = true →
        Live (ulUpdateNets st (ulStored st ch) ch dn sk).1 := by
      intro hok
      unfold ulUpdateNets at hok ⊢
      dsimp only at hok ⊢
      by_cases hup : st.enabled = (ulStored st ch).enabled
      · have hl : Live (ulStored st ch) := by
          intro n hn
          have := h n hn
          exact ⟨this.1, fun e1 e2 => this.2 e1 (hup.trans e2)⟩
        split
        · exact (updateAll_renew _ _ _).1.live hl
        · exact hl
      · rw [if_pos (by simp [hup])] at hok ⊢
        obtain ⟨u, q⟩ := updateAll_renew dn
          ((ulStored st ch).nets.filter (fun n => decide (st.enabled ≠ (ulStored st ch).enabled) || !sk n)) (ulStored st ch)
        intro n hn
        have hnew : New n := by
          refine q hok n hn ?_
          have : n.id ∈ (ulStored st ch).nets.map (·.id) := u.ids ▸ List.mem_map_of_mem hn
          obtain ⟨m, hm, e⟩ := List.mem_map.1 this
          rw [← e]
          exact List.mem_map_of_mem (List.mem_filter.2 ⟨hm, by simp [hup]⟩)
        exact ⟨hnew.2, fun e => by rw [hnew.1] at e; cases e⟩
    generalize ulUpdateNets st (ulStored st ch) ch dn sk = r at hne key ⊢
    by_cases hok : (!r.2) = true
    · rw [if_pos hok] at hne; exact absurd rfl hne
    · rw [if_neg hok]
      have := key (by simpa using hok)
      split <;> exact this

private theorem exec_live {st : UlState} (h : Live st) (c : UlCmd) (hne : (ulExec st c).2 ≠ some .netErr) :
    Live (ulExec st c).1 := by
  cases c with
  | plain => exact h
  | other => exact h
  | realname du dn sk =>
    apply updateUser_live h
    intro e
    apply hne
    simp only [ulExec, e]
  | create en ad ok =>
    simp only [ulExec, ulCreate]
    split
    · exact h
    · intro n hn
      rcases List.mem_append.1 hn with hn | hn
      · exact h n hn
      · rw [List.mem_singleton.1 hn]; exact ⟨rfl, fun e => by cases e⟩
  | update id en ad ok =>
    simp only [ulExec]
    cases hu : ulUpdate st id en ad ok with
    | none => exact h
    | some st' => exact (update_renew hu).1.live h
  | delete id ok =>
    simp only [ulExec, ulDelete]
    split
    · exact h
    · split
      · exact h
      · intro n hn; exact h n (List.mem_filter.1 hn).1

private theorem step_live {st : UlState} (h : Live st) (onAuth : Bool) (op : UlOp)
    (hf : ∀ obj, op ≠ .net obj (.fail false)) (hne : (ulStep onAuth st op).2 ≠ some .netErr) :
    Live (ulStep onAuth st op).1 := by
  cases op with
  | net obj s =>
    intro n hn
    obtain ⟨m, hm, rfl⟩ := List.mem_map.1 hn
    obtain ⟨h1, h2⟩ := h m hm
    show (if m.obj = obj then _ else m).stopped = false ∧ _
    by_cases e : m.obj = obj
    · rw [if_pos e]
      refine ⟨?_, ?_⟩
      · unfold ulGor; split <;> exact h1
      · intro hd hen
        have hst : st.enabled = true := hen
        cases s with
        | start =>
          cases hg : m.gor <;> simp only [ulGor, hg] at hd ⊢ <;> try (first | exact h2 hg hst | cases hd)
          rw [hst] at hd
          cases he : m.enabled with
          | false => rfl
          | true => rw [he] at hd; cases hd
        | top =>
          cases hg : m.gor <;> simp only [ulGor, hg] at hd ⊢ <;> try (first | exact h2 hg hst | cases hd)
          rw [h1] at hd; cases hd
        | dialled => cases hg : m.gor <;> simp only [ulGor, hg] at hd ⊢ <;> first | exact h2 hg hst | cases hd
        | registered => cases hg : m.gor <;> simp only [ulGor, hg] at hd ⊢ <;> first | exact h2 hg hst | cases hd
        | fail again =>
          cases again with
          | false => exact absurd rfl (hf obj)
          | true => cases hg : m.gor <;> simp only [ulGor, hg] at hd ⊢ <;> first | exact h2 hg hst | cases hd
    · rw [if_neg e]; exact ⟨h1, h2⟩
  | auth k => simp only [ulStep]; split <;> exact h
  | hangup k => exact h
  | netEvent obj =>
    simp only [ulStep]
    split
    · exact h
    · intro n hn
      obtain ⟨m, hm, rfl⟩ := List.mem_map.1 hn
      have := h m hm
      show (if m.obj = obj then _ else m).stopped = false ∧ _
      by_cases e : m.obj = obj
      · rw [if_pos e]; unfold ulEvent; split <;> exact this
      · rw [if_neg e]; exact this
  | login k b f du dn =>
    simp only [ulStep] at hne ⊢
    by_cases h1 : st.crashed = true
    · rw [if_pos h1]; exact h
    · rw [if_neg h1] at hne ⊢
      split
      · rename_i h2
        rw [if_pos h2] at hne
        unfold ulLogin at hne ⊢
        have : Live (ulEnableOnAuth onAuth st du dn).1 := by
          unfold ulEnableOnAuth at hne ⊢
          by_cases h3 : (!st.enabled && onAuth) = true
          · rw [if_pos h3] at hne ⊢
            exact updateUser_live h _ _ _ _ (fun e => hne (by simp only [e]))
          · rw [if_neg h3]; exact h
        exact this
      · exact h
  | cmd k c =>
    simp only [ulStep] at hne ⊢
    by_cases h1 : st.crashed = true
    · rw [if_pos h1]; exact h
    · rw [if_neg h1] at hne ⊢
      unfold ulCmd at hne ⊢
      cases hfd : st.clients.find? (fun x => x.id = k) with
      | none => exact h
      | some x =>
        rw [hfd] at hne
        dsimp only at hne ⊢
        by_cases h2 : (!x.seen || x.closed) = true
        · rw [if_pos h2]; exact h
        · rw [if_neg h2] at hne ⊢
          by_cases h3 : (!x.user) = true
          · rw [if_pos h3]
            split <;> exact h
          · rw [if_neg h3] at hne ⊢; exact exec_live h c hne
  | gone k =>
    simp only [ulStep]
    split <;> exact h
  | account ch du dn =>
    simp only [ulStep] at hne ⊢
    by_cases h1 : st.crashed = true
    · rw [if_pos h1]; exact h
    · rw [if_neg h1] at hne ⊢
      have hi := updateUser_live h ch du (fun i => dn.contains i) (fun _ => false) (fun e => hne (by simp only [e]))
      dsimp only
      split <;> exact hi
  | adminRun c =>
    simp only [ulStep] at hne ⊢
    by_cases h1 : st.crashed = true
    · rw [if_pos h1]; exact h
    · rw [if_neg h1] at hne ⊢
      exact exec_live h c hne

/-- C99 (partial): after every history of the account, an enabled network of an enabled account has a goroutine that
has not ended and has not been told to stop, unless its server has refused the bouncer for good.

Partial: no update of the account has failed half-way (`netErr`).  `C99_reenabled_violated` shows that this is
needed. -/
theorem C99_alive_partial (onAuth enabled admin : Bool) (recs : List (Nat × Bool × UlAddr)) (nextId : Nat)
    (ops : List UlOp) (hr : NoRefusal ops)
    (hne : .netErr ∉ (ulRun onAuth (ulStart enabled admin recs nextId) ops).2) :
    let st := (ulRun onAuth (ulStart enabled admin recs nextId) ops).1
    st.enabled = true → ∀ n ∈ st.nets, n.enabled = true → n.gor ≠ .done ∧ n.stopped = false := by
  have main : ∀ (ops : List UlOp) (st : UlState), Live st → NoRefusal ops → .netErr ∉ (ulRun onAuth st ops).2 →
      Live (ulRun onAuth st ops).1 := by
    intro ops
    induction ops with
    | nil => intro st h _ _; exact h
    | cons op ops ih =>
      intro st h hr hne
      simp only [ulRun, List.mem_append, not_or] at hne ⊢
      refine ih _ (step_live h onAuth op (fun obj e => hr obj (by rw [e]; exact List.mem_cons_self)) ?_)
        (fun obj e => hr obj (List.mem_cons_of_mem _ e)) hne.2
      intro e
      apply hne.1
      rw [e]; simp
  intro st hen n hn he
  have h0 : Live (ulStart enabled admin recs nextId) := by
    intro n hn
    obtain ⟨p, _, rfl⟩ := List.mem_map.1 hn
    exact ⟨rfl, fun e => by cases e⟩
  obtain ⟨h1, h2⟩ := main ops _ h0 hr hne n hn
  refine ⟨fun e => ?_, h1⟩
  have := h2 e hen
  rw [he] at this; cases this

/-- The account is disabled and enabled again while its network is being connected. -/
example :
    let ops : List UlOp := [.net 0 .start, .net 0 .top, .net 0 .dialled, .account { enabled := some false } true [10],
      .net 0 (.fail true), .net 1 .start, .account { enabled := some true } true [10], .net 2 .start, .net 2 .top]
    let r := ulRun false (ulStart true false [(10, true, .internet)] 11) ops
    NoRefusal ops ∧ UlAnswer.netErr ∉ r.2 ∧ r.1.enabled = true ∧
      (∃ n ∈ r.1.nets, n.enabled = true ∧ n.gor = .dialing) ∧ (∃ n ∈ r.1.old, n.gor = .done) := by
  refine ⟨?_, by decide, by decide, by decide, by decide⟩
  intro obj h
  simp at h

/-- C99 is violated if the database fails while a disabled account is enabled again: the account is stored as enabled,
its network too, but nothing connects it. -/
theorem C99_reenabled_violated :
    let ops : List UlOp := [.net 0 .start, .account { enabled := some true } true []]
    let r := ulRun false (ulStart false false [(10, true, .internet)] 11) ops
    r.1.enabled = true ∧ ∃ n ∈ r.1.nets, n.enabled = true ∧ n.gor = .done := by decide

/-- C99: when a network is updated, the new connection does not wait for the end of the old one: the bouncer can be
registered with the server twice at the same time (so that its nick is in use, by itself). -/
theorem C99_overlap_violated :
    let ops : List UlOp := [.net 0 .start, .net 0 .top, .net 0 .dialled, .net 0 .registered, .netEvent 0,
      .adminRun (.update 10 true .internet true), .net 1 .start, .net 1 .top, .net 1 .dialled, .net 1 .registered]
    let r := ulRun false (ulStart true false [(10, true, .internet)] 11) ops
    (∃ n ∈ r.1.nets, n.id = 10 ∧ n.gor = .reg) ∧ ∃ n ∈ r.1.old, n.id = 10 ∧ n.gor = .reg := by decide

end Verif.Props
