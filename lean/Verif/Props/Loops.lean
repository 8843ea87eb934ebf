import Verif.Proof.Loops

/-! # C55: an administrator updating another account gets an answer and both loops keep running

True when the users can be ordered such that every command only waits for users below the one who sends it — for
instance when there is one administrator — and nobody waits longer than the deadline.  False otherwise: two
administrators who update each other's account wait for each other forever, and there are four other ways in which a
loop stops forever. -/

namespace Verif.Props

open Verif.Model Verif.Spec Verif.Proof

private theorem exec_inv {rank : Nat → Nat} {cap : Nat} {ops : List LpOp} {st st' : LpState} (inv : LpInv rank st)
    (hi : ∀ op ∈ ops, LpInternal rank op) (h : LpExec cap st ops st') :
    LpInv rank st' ∧ lpWork st' + ops.length ≤ lpWork st := by
  induction ops generalizing st with
  | nil => cases h; exact ⟨inv, by simp⟩
  | cons op ops ih =>
    obtain ⟨m, hm, h⟩ := h
    have h1 := hi op List.mem_cons_self
    have h2 := lpWork_step inv h1.1 h1.2 hm
    have h3 := ih (lpInv_step inv h1.2 hm) (fun op' h => hi op' (List.mem_cons_of_mem _ h)) h
    exact ⟨h3.1, by simp only [List.length_cons]; omega⟩

/-- For every number of users, every order of them and every history in which clients only send commands that wait
for users below their own, whatever the interleaving: the loops stop working after a bounded number of steps, and when
no loop can take a step all loops wait for events and all events have been handled — so every command has been
answered.  Missing: commands that do not follow an order (see the violations below), deletions, broadcasts, commands
timed out while they are being executed elsewhere, loops that crash. -/
theorem C55_ordered_partial (rank : Nat → Nat) (cap : Nat) (hcap : 0 < cap) (n : Nat) (ops : List LpOp)
    (hops : ∀ op ∈ ops, lpAllowed rank op) :
    ∃ bound, ∀ (ops' : List LpOp) (st' : LpState), (∀ op ∈ ops', LpInternal rank op) →
      LpExec cap (lpRun cap (lpInit n) ops) ops' st' →
      ops'.length ≤ bound ∧ ((∀ op, LpInternal rank op → lpStep cap st' op = none) → LpQuiet st') := by
  have inv := lpInv_run (cap := cap) ops (lpInit n) (lpInv_init rank n) hops
  refine ⟨lpWork (lpRun cap (lpInit n) ops), ?_⟩
  intro ops' st' hi hex
  obtain ⟨inv', hw⟩ := exec_inv inv hi hex
  refine ⟨by omega, ?_⟩
  intro hstuck
  apply Classical.byContradiction
  intro hq
  have hbusy : ∃ l ∈ st'.loops, l.st ≠ .idle ∨ l.queue ≠ [] := by
    apply Classical.byContradiction
    intro hno
    apply hq
    intro l hl
    refine ⟨?_, ?_⟩
    · apply Classical.byContradiction; intro h; exact hno ⟨l, hl, Or.inl h⟩
    · apply Classical.byContradiction; intro h; exact hno ⟨l, hl, Or.inr h⟩
  obtain ⟨op, h1, h2, h3⟩ := lp_progress hcap inv' hbusy
  have := hstuck op ⟨h1, h2⟩
  rw [this] at h3; cases h3

/-- User 0 is the only administrator: the commands of other users concern nobody else, and the administrator updates
accounts and runs commands for them. -/
def OneAdmin : LpOp → Prop
  | .arrive u c => (∃ n, c = .plain n) ∨ u = 0 ∧ ((∃ t, c = .update t) ∨ ∃ t n, c = .run t (.plain n))
  | .timeOut _ => False
  | .crash _ => False
  | _ => True

/-- With one administrator, any number of users and any interleaving, everything the administrator asks for is
answered: whenever no loop can take a step any more, all loops are free, and that happens after a bounded number of
steps.  Missing: see above. -/
theorem C55_one_admin_partial (cap : Nat) (hcap : 0 < cap) (n : Nat) (ops : List LpOp) (hops : ∀ op ∈ ops, OneAdmin op) :
    ∃ bound, ∀ (ops' : List LpOp) (st' : LpState),
      (∀ op ∈ ops', OneAdmin op ∧ ∀ u c, op ≠ .arrive u c) →
      LpExec cap (lpRun cap (lpInit n) ops) ops' st' →
      ops'.length ≤ bound ∧
        ((∀ op, OneAdmin op → (∀ u c, op ≠ .arrive u c) → lpStep cap st' op = none) → LpQuiet st') := by
  have key : ∀ op, OneAdmin op → lpAllowed (fun u => if u = 0 then 1 else 0) op := by
    intro op h
    cases op with
    | arrive u c =>
      rcases h with ⟨n, h⟩ | ⟨hu, ⟨t, h⟩ | ⟨t, n, h⟩⟩
      · subst h; trivial
      · subst h; subst hu
        by_cases ht : t = 0
        · exact Or.inl ht
        · right; simp [ht]
      · subst h; subst hu
        refine ⟨?_, trivial⟩
        by_cases ht : t = 0
        · exact Or.inl ht
        · right; simp [ht]
    | timeOut u => exact h
    | crash u => exact h
    | _ => trivial
  have back : ∀ op, (∀ u c, op ≠ LpOp.arrive u c) → lpAllowed (fun u => if u = 0 then 1 else 0) op → OneAdmin op := by
    intro op hne h
    cases op with
    | arrive u c => exact absurd rfl (hne u c)
    | timeOut u => exact h
    | crash u => exact h
    | _ => trivial
  obtain ⟨bound, hb⟩ := C55_ordered_partial _ cap hcap n ops (fun op h => key op (hops op h))
  refine ⟨bound, fun ops' st' hi hex => ?_⟩
  obtain ⟨h1, h2⟩ := hb ops' st' (fun op h => ⟨(hi op h).2, key op (hi op h).1⟩) hex
  exact ⟨h1, fun hs => h2 (fun op ho => hs op (back op ho.1 ho.2) ho.1)⟩

-- the administrator updates two accounts, one of which has a full channel, and runs a command for the other one
example : ∃ ops : List LpOp, (∀ op ∈ ops, OneAdmin op) ∧
    (lpRun 2 (lpInit 3) ops).loops.map (·.st) = [.sending 1 (.upd 0) true none, .idle, .idle] :=
  ⟨[.arrive 1 (.plain 1), .arrive 1 (.plain 2), .arrive 0 (.update 1), .arrive 0 (.run 2 (.plain 3)), .take 0, .look 0,
    .send 0], by
      intro op h
      simp only [List.mem_cons, List.not_mem_nil, or_false] at h
      rcases h with h | h | h | h | h | h | h <;> subst h <;> simp [OneAdmin], by decide +kernel⟩

/-! ## The violations -/

private theorem run_inv {P : LpState → Prop} {cap : Nat} (hstep : ∀ st op st', P st → lpStep cap st op = some st' → P st')
    (ops : List LpOp) (st : LpState) (h : P st) : P (lpRun cap st ops) := by
  induction ops generalizing st with
  | nil => exact h
  | cons op ops ih =>
    simp only [lpRun]
    apply ih
    cases hs : lpStep cap st op with
    | none => exact h
    | some st' => exact hstep st op st' h hs

/-- Two administrators update each other's account at the same time: each loop has sent its event to the other one
and waits for the answer, which the other one would only give after its own wait.  There is no deadline
(service.go:1129): whatever happens afterwards, both loops wait forever. -/
theorem C55_mutual_update_violated :
    ∃ ops : List LpOp, (∀ op ∈ ops, ∀ u, op ≠ .crash u) ∧ ∀ more : List LpOp,
      (lpRun 64 (lpRun 64 (lpInit 2) ops) more).loops.map (·.st) = [.waitUpd 0 none, .waitUpd 1 none] := by
  refine ⟨[.arrive 0 (.update 1), .arrive 1 (.update 0), .take 0, .take 1, .look 0, .look 1, .send 0, .send 1],
    by simp, fun more => ?_⟩
  have key := run_inv (cap := 64)
    (P := fun st => (∃ q0 q1, st.loops = [⟨q0, .waitUpd 0 none⟩, ⟨q1, .waitUpd 1 none⟩]) ∧ st.answered = []) ?_ more
    (lpRun 64 (lpInit 2) [.arrive 0 (.update 1), .arrive 1 (.update 0), .take 0, .take 1, .look 0, .look 1, .send 0,
      .send 1]) ⟨⟨_, _, rfl⟩, rfl⟩
  · obtain ⟨⟨q0, q1, h⟩, _⟩ := key
    rw [h]; rfl
  · intro st op st' ⟨⟨q0, q1, hl⟩, ha⟩ hs
    cases op with
    | arrive u c =>
      match u with
      | 0 =>
        simp only [lpStep, lpPush, hl, List.getElem?_cons_zero] at hs
        split at hs
        · cases hs; exact ⟨⟨_, _, rfl⟩, ha⟩
        · cases hs
      | 1 =>
        simp only [lpStep, lpPush, hl, List.getElem?_cons_succ, List.getElem?_cons_zero] at hs
        split at hs
        · cases hs; exact ⟨⟨_, _, rfl⟩, ha⟩
        · cases hs
      | u + 2 => simp [lpStep, lpPush, hl] at hs
    | _ u =>
      match u with
      | 0 => simp [lpStep, hl, ha, lpTake, lpLook, lpSend, lpGiveUp, lpTimeOut, lpAnswer, lpDone, lpRecv, lpPrint, lpCast,
          lpCrash] at hs
      | 1 => simp [lpStep, hl, ha, lpTake, lpLook, lpSend, lpGiveUp, lpTimeOut, lpAnswer, lpDone, lpRecv, lpPrint, lpCast,
          lpCrash] at hs
      | u + 2 => simp [lpStep, hl] at hs

/-- A `user delete` is not answered in time, and its author then updates the account: the loop of the account ends
before it handles the update, and the loop of the author waits for the answer forever. -/
theorem C55_deleted_violated :
    ∃ ops : List LpOp, (∀ op ∈ ops, ∀ u, op ≠ .crash u) ∧ ∀ more : List LpOp,
      (lpRun 64 (lpRun 64 (lpInit 2) ops) more).loops.map (·.st) = [.waitUpd 0 none, .dead] := by
  refine ⟨[.arrive 0 (.delete 1), .arrive 0 (.update 1), .take 0, .look 0, .send 0, .timeOut 0, .take 0, .look 0,
    .send 0, .take 1], by simp, fun more => ?_⟩
  have key := run_inv (cap := 64)
    (P := fun st => (∃ q0 q1, st.loops = [⟨q0, .waitUpd 0 none⟩, ⟨q1, .dead⟩]) ∧ st.answered = []) ?_ more
    (lpRun 64 (lpInit 2) [.arrive 0 (.delete 1), .arrive 0 (.update 1), .take 0, .look 0, .send 0, .timeOut 0, .take 0,
      .look 0, .send 0, .take 1]) ⟨⟨_, _, rfl⟩, rfl⟩
  · obtain ⟨⟨q0, q1, h⟩, _⟩ := key
    rw [h]; rfl
  · intro st op st' ⟨⟨q0, q1, hl⟩, ha⟩ hs
    cases op with
    | arrive u c =>
      match u with
      | 0 =>
        simp only [lpStep, lpPush, hl, List.getElem?_cons_zero] at hs
        split at hs
        · cases hs; exact ⟨⟨_, _, rfl⟩, ha⟩
        · cases hs
      | 1 =>
        simp only [lpStep, lpPush, hl, List.getElem?_cons_succ, List.getElem?_cons_zero] at hs
        split at hs
        · cases hs; exact ⟨⟨_, _, rfl⟩, ha⟩
        · cases hs
      | u + 2 => simp [lpStep, lpPush, hl] at hs
    | _ u =>
      match u with
      | 0 => simp [lpStep, hl, ha, lpTake, lpLook, lpSend, lpGiveUp, lpTimeOut, lpAnswer, lpDone, lpRecv, lpPrint, lpCast,
          lpCrash] at hs
      | 1 => simp [lpStep, hl, lpTake, lpLook, lpSend, lpGiveUp, lpTimeOut, lpAnswer, lpDone, lpRecv, lpPrint, lpCast,
          lpCrash] at hs
      | u + 2 => simp [lpStep, hl] at hs

/-- A user deletes their own account: the loop waits for its own end, forever. -/
theorem C55_own_deletion_violated :
    ∃ ops : List LpOp, (∀ op ∈ ops, ∀ u, op ≠ .crash u) ∧ ∀ more : List LpOp,
      (lpRun 64 (lpRun 64 (lpInit 1) ops) more).loops.map (·.st) = [.waitDone 0 false none] := by
  refine ⟨[.arrive 0 (.delete 0), .take 0, .look 0, .send 0], by simp, fun more => ?_⟩
  have key := run_inv (cap := 64)
    (P := fun st => ∃ q0, st.loops = [⟨q0, .waitDone 0 false none⟩]) ?_ more
    (lpRun 64 (lpInit 1) [.arrive 0 (.delete 0), .take 0, .look 0, .send 0]) ⟨_, rfl⟩
  · obtain ⟨q0, h⟩ := key
    rw [h]; rfl
  · intro st op st' ⟨q0, hl⟩ hs
    cases op with
    | arrive u c =>
      match u with
      | 0 =>
        simp only [lpStep, lpPush, hl, List.getElem?_cons_zero] at hs
        split at hs
        · cases hs; exact ⟨_, rfl⟩
        · cases hs
      | u + 1 => simp [lpStep, lpPush, hl] at hs
    | _ u =>
      match u with
      | 0 => simp [lpStep, hl, lpTake, lpLook, lpSend, lpGiveUp, lpTimeOut, lpAnswer, lpDone, lpEnded, lpRecv, lpPrint,
          lpCast, lpCrash] at hs
      | u + 1 => simp [lpStep, hl] at hs

/-- does not wait for messages of request 0, nor sends it -/
private def clear0 : LpSt → Bool
  | .waitRun r _ _ => r ≠ 0
  | .sending _ (.run r _) _ _ => r ≠ 0
  | _ => true

private theorem clear0_fin (k : Option Nat) : clear0 (lpFin k) = true := by cases k <;> rfl
private theorem clear0_start (u : Nat) (t : Bool) (k : Option Nat) (c : LpCmd) : clear0 (lpStart u t k c) = true := by
  induction c with
  | plain n => cases k <;> rfl
  | update t => simp only [lpStart]; split; exact clear0_fin k; rfl
  | run t c ih => simp only [lpStart]; split; exact ih; rfl
  | delete t => rfl
  | broadcast s => rfl

private def stuckRun (st : LpState) : Prop :=
  ∃ l0 q1, st.loops = [l0, ⟨q1, .printing 0 1⟩] ∧ clear0 l0.st = true ∧ (lpGet st.chan 0).isSome ∧ 0 < st.next

private theorem get_append {chan : List (Nat × Bool)} {r : Nat} (h : (lpGet chan r).isSome) (x : Nat × Bool) :
    (lpGet (chan ++ [x]) r).isSome := by
  simp only [lpGet, Option.isSome_map, List.find?_isSome] at h ⊢
  obtain ⟨m, hm, h⟩ := h
  exact ⟨m, List.mem_append_left _ hm, h⟩

private theorem get_drop {chan : List (Nat × Bool)} {r r' : Nat} (h : (lpGet chan r).isSome) (hne : r' ≠ r) :
    (lpGet (lpDrop chan r') r).isSome := by
  simp only [lpGet, Option.isSome_map, List.find?_isSome] at h ⊢
  obtain ⟨m, hm, h⟩ := h
  refine ⟨m, ?_, h⟩
  have h' : m.1 = r := by simpa using h
  rw [lpDrop, List.mem_eraseP_of_neg]
  · exact hm
  · simp; omega

private theorem push2 {cap : Nat} {st st' : LpState} {l0 l1 : LpLoop} (hl : st.loops = [l0, l1]) {t : Nat} {ev : LpEv}
    (h : lpPush cap st t ev = some st') :
    st'.chan = st.chan ∧ st'.next = st.next ∧ st'.lock = st.lock ∧ st'.answered = st.answered ∧
    ((t = 0 ∧ l0.queue.length < cap ∧ st'.loops = [{ l0 with queue := l0.queue ++ [ev] }, l1]) ∨
      (t = 1 ∧ l1.queue.length < cap ∧ st'.loops = [l0, { l1 with queue := l1.queue ++ [ev] }])) := by
  match t with
  | 0 =>
    simp only [lpPush, hl, List.getElem?_cons_zero] at h
    split at h
    · cases h; exact ⟨rfl, rfl, rfl, rfl, Or.inl ⟨rfl, by assumption, rfl⟩⟩
    · cases h
  | 1 =>
    simp only [lpPush, hl, List.getElem?_cons_succ, List.getElem?_cons_zero] at h
    split at h
    · cases h; exact ⟨rfl, rfl, rfl, rfl, Or.inr ⟨rfl, by assumption, rfl⟩⟩
    · cases h
  | t + 2 => simp [lpPush, hl] at h

private theorem stuckRun_step {cap : Nat} {st st' : LpState} {op : LpOp} (h : stuckRun st)
    (hs : lpStep cap st op = some st') : stuckRun st' := by
  obtain ⟨l0, q1, hl, hc, hg, hn⟩ := h
  have set0 : ∀ (l : LpLoop) (s : LpSt), (lpSet st 0 l s).loops = [{ l with st := s }, ⟨q1, .printing 0 1⟩] := by
    intro l s; simp [lpSet, hl]
  -- what the steps of user 1 need
  have one : ∀ f : LpState → Nat → LpLoop → Option LpState,
      (st.loops[1]?).bind (f st 1) = some st' → f st 1 ⟨q1, .printing 0 1⟩ = some st' := by
    intro f hf; simpa [hl] using hf
  have zero : ∀ f : LpState → Nat → LpLoop → Option LpState,
      (st.loops[0]?).bind (f st 0) = some st' → f st 0 l0 = some st' := by
    intro f hf; simpa [hl] using hf
  cases op with
  | arrive u c =>
    obtain ⟨h1, h2, -, -, ⟨-, -, h3⟩ | ⟨-, -, h3⟩⟩ := push2 hl hs
    · exact ⟨_, _, h3, hc, h1 ▸ hg, h2 ▸ hn⟩
    · exact ⟨_, _, h3, hc, h1 ▸ hg, h2 ▸ hn⟩
  | take u =>
    match u with
    | 0 =>
      have := zero lpTake hs
      unfold lpTake at this
      split at this
      · rename_i ev rest _ _
        cases ev <;> (cases this; refine ⟨_, _, set0 .., ?_, hg, hn⟩) <;> first | rfl | exact clear0_start ..
      · cases this
    | 1 => simpa [lpTake] using one lpTake hs
    | u + 2 => simp [lpStep, hl] at hs
  | look u =>
    match u with
    | 0 =>
      have := zero lpLook hs
      unfold lpLook at this
      split at this
      · split at this
        · cases this
        · split at this
          · split at this
            · cases this; exact ⟨_, _, set0 .., rfl, hg, Nat.succ_pos _⟩
            · cases this; exact ⟨_, _, set0 .., clear0_fin _, hg, hn⟩
          · split at this
            · cases this; exact ⟨_, _, set0 .., by simp [clear0]; omega, hg, Nat.succ_pos _⟩
            · cases this; exact ⟨_, _, set0 .., clear0_fin _, hg, hn⟩
          · split at this
            · cases this; exact ⟨_, _, set0 .., rfl, hg, hn⟩
            · cases this; exact ⟨_, _, set0 .., clear0_fin _, hg, hn⟩
          · cases this; exact ⟨_, _, set0 .., rfl, hg, hn⟩
          · cases this; exact ⟨_, _, set0 .., clear0_fin _, hg, hn⟩
      · cases this
    | 1 => simpa [lpLook] using one lpLook hs
    | u + 2 => simp [lpStep, hl] at hs
  | send u =>
    match u with
    | 0 =>
      have := zero (lpSend cap) hs
      unfold lpSend at this
      split at this
      · rename_i t ev timed k hst
        rw [hst] at hc
        have hc' : clear0 (lpSent t timed k ev) = true := by
          cases ev <;> first | exact clear0_fin k | rfl | exact hc
        obtain ⟨h1, h2, -, -, ⟨-, -, h3⟩ | ⟨-, -, h3⟩⟩ := push2 (set0 _ _) this
        · exact ⟨_, _, h3, hc', by rw [h1]; exact hg, by rw [h2]; exact hn⟩
        · exact ⟨_, _, h3, hc', by rw [h1]; exact hg, by rw [h2]; exact hn⟩
      · cases this
    | 1 => simpa [lpSend] using one (lpSend cap) hs
    | u + 2 => simp [lpStep, hl] at hs
  | giveUp u =>
    match u with
    | 0 =>
      have := zero lpGiveUp hs
      unfold lpGiveUp at this
      split at this
      · split at this
        · cases this; exact ⟨_, _, set0 .., clear0_fin _, hg, hn⟩
        · cases this
      · split at this
        · cases this; exact ⟨_, _, set0 .., clear0_fin _, hg, hn⟩
        · cases this
      · cases this
    | 1 => simpa [lpGiveUp] using one lpGiveUp hs
    | u + 2 => simp [lpStep, hl] at hs
  | timeOut u =>
    match u with
    | 0 =>
      have := zero lpTimeOut hs
      unfold lpTimeOut at this
      split at this
      · split at this
        · cases this; exact ⟨_, _, set0 .., clear0_fin _, hg, hn⟩
        · cases this
      · split at this
        · cases this; exact ⟨_, _, set0 .., clear0_fin _, hg, hn⟩
        · cases this
      · cases this
    | 1 => simpa [lpTimeOut] using one lpTimeOut hs
    | u + 2 => simp [lpStep, hl] at hs
  | answer u =>
    match u with
    | 0 =>
      have := zero lpAnswer hs
      unfold lpAnswer at this
      split at this
      · split at this
        · cases this; exact ⟨_, _, set0 .., clear0_fin _, hg, hn⟩
        · cases this
      · cases this
    | 1 => simpa [lpAnswer] using one lpAnswer hs
    | u + 2 => simp [lpStep, hl] at hs
  | done u =>
    match u with
    | 0 =>
      have := zero lpDone hs
      unfold lpDone at this
      split at this
      · split at this
        · cases this; exact ⟨_, _, set0 .., clear0_fin _, hg, hn⟩
        · cases this
      · split at this
        · cases this; exact ⟨_, _, set0 .., clear0_fin _, hg, hn⟩
        · cases this
      · cases this
    | 1 => simpa [lpDone] using one lpDone hs
    | u + 2 => simp [lpStep, hl] at hs
  | recv u =>
    match u with
    | 0 =>
      have := zero lpRecv hs
      unfold lpRecv at this
      split at this
      · rename_i r timed k hst
        rw [hst] at hc
        have hr : r ≠ 0 := by simpa [clear0] using hc
        split at this
        · cases this
        · rename_i final _
          cases this
          refine ⟨_, _, set0 .., ?_, get_drop hg hr, hn⟩
          cases final
          · exact hc
          · exact clear0_fin _
      · cases this
    | 1 => simpa [lpRecv] using one lpRecv hs
    | u + 2 => simp [lpStep, hl] at hs
  | print u =>
    match u with
    | 0 =>
      have := zero lpPrint hs
      unfold lpPrint at this
      split at this
      · rename_i r n hst
        split at this
        · cases this
        · cases this
          refine ⟨_, _, set0 .., ?_, get_append hg _, hn⟩
          dsimp only
          split <;> rfl
      · cases this
    | 1 =>
      have := one lpPrint hs
      obtain ⟨f, hf⟩ := Option.isSome_iff_exists.mp hg
      simp [lpPrint, hf] at this
    | u + 2 => simp [lpStep, hl] at hs
  | cast u =>
    match u with
    | 0 =>
      have := zero (lpCast cap) hs
      unfold lpCast at this
      split at this
      · cases this; exact ⟨_, _, set0 .., clear0_fin _, hg, hn⟩
      · dsimp only at this
        split at this
        · obtain ⟨h1, h2, -, -, ⟨-, -, h3⟩ | ⟨-, -, h3⟩⟩ := push2 (set0 _ _) this
          · exact ⟨_, _, h3, rfl, by rw [h1]; exact hg, by rw [h2]; exact hn⟩
          · exact ⟨_, _, h3, rfl, by rw [h1]; exact hg, by rw [h2]; exact hn⟩
        · cases this; exact ⟨_, _, set0 .., rfl, hg, hn⟩
      · cases this
    | 1 => simpa [lpCast] using one (lpCast cap) hs
    | u + 2 => simp [lpStep, hl] at hs
  | crash u =>
    match u with
    | 0 =>
      have := zero lpCrash hs
      unfold lpCrash at this
      split at this
      · cases this; exact ⟨_, _, set0 .., rfl, hg, hn⟩
      · cases this
    | 1 => simpa [lpCrash] using one lpCrash hs
    | u + 2 => simp [lpStep, hl] at hs

/-- An administrator runs a command that prints a line for another user, and gives up because the loop of that user is
busy for longer than the deadline.  The loop then executes the command, and since nobody reads its messages any more it
is stuck in sending the second one (user.go:871-874: its context never ends): the loop of that user never handles
another event. -/
theorem C55_run_violated :
    ∃ ops : List LpOp, (∀ op ∈ ops, ∀ u, op ≠ .crash u) ∧ ∀ more : List LpOp,
      ((lpRun 64 (lpRun 64 (lpInit 2) ops) more).loops[1]?).map (·.st) = some (.printing 0 1) := by
  refine ⟨[.arrive 0 (.run 1 (.plain 1)), .take 0, .look 0, .send 0, .timeOut 0, .take 1, .print 1], by simp,
    fun more => ?_⟩
  obtain ⟨l0, q1, hl, _⟩ := run_inv (cap := 64) (P := stuckRun) (fun st op st' h hs => stuckRun_step h hs) more
    (lpRun 64 (lpInit 2) [.arrive 0 (.run 1 (.plain 1)), .take 0, .look 0, .send 0, .timeOut 0, .take 1, .print 1])
    ⟨_, _, rfl, rfl, rfl, by decide⟩
  rw [hl]; rfl

private def stuckCast (cap : Nat) (st : LpState) : Prop :=
  ∃ q0 l1, st.loops = [⟨q0, .casting [0, 1] false none⟩, l1] ∧ cap ≤ q0.length ∧ st.lock = some 0 ∧
    ∀ r t k, l1.st ≠ .casting r t k

private theorem cast_fin (k : Option Nat) : ∀ r t k', lpFin k ≠ .casting r t k' := by cases k <;> simp [lpFin]
private theorem cast_start (u : Nat) (tm : Bool) (k : Option Nat) (c : LpCmd) :
    ∀ r t k', lpStart u tm k c ≠ .casting r t k' := by
  induction c with
  | plain n => cases k <;> simp [lpStart]
  | update t => simp only [lpStart]; split; exact cast_fin k; simp
  | run t c ih => simp only [lpStart]; split; exact ih; simp
  | delete t => simp [lpStart]
  | broadcast s => simp [lpStart]

private theorem stuckCast_step {cap : Nat} {st st' : LpState} {op : LpOp} (h : stuckCast cap st)
    (hs : lpStep cap st op = some st') : stuckCast cap st' := by
  obtain ⟨q0, l1, hl, hq, hk, hc⟩ := h
  have set1 : ∀ (l : LpLoop) (s : LpSt),
      (lpSet st 1 l s).loops = [⟨q0, .casting [0, 1] false none⟩, { l with st := s }] := by
    intro l s; simp [lpSet, hl]
  have zero : ∀ f : LpState → Nat → LpLoop → Option LpState,
      (st.loops[0]?).bind (f st 0) = some st' → f st 0 ⟨q0, .casting [0, 1] false none⟩ = some st' := by
    intro f hf; simpa [hl] using hf
  have one : ∀ f : LpState → Nat → LpLoop → Option LpState,
      (st.loops[1]?).bind (f st 1) = some st' → f st 1 l1 = some st' := by
    intro f hf; simpa [hl] using hf
  cases op with
  | arrive u c =>
    obtain ⟨-, -, h1, -, ⟨-, h2, h3⟩ | ⟨-, -, h3⟩⟩ := push2 hl hs
    · exact absurd h2 (by dsimp only; omega)
    · exact ⟨_, _, h3, hq, h1 ▸ hk, hc⟩
  | take u =>
    match u with
    | 0 => simpa [lpTake] using zero lpTake hs
    | 1 =>
      have := one lpTake hs
      unfold lpTake at this
      split at this
      · rename_i ev rest _ _
        cases ev <;> (cases this; refine ⟨_, _, set1 .., hq, hk, ?_⟩) <;> first | exact cast_start _ _ _ _ | simp
      · cases this
    | u + 2 => simp [lpStep, hl] at hs
  | look u =>
    match u with
    | 0 => simpa [lpLook] using zero lpLook hs
    | 1 =>
      have := one lpLook hs
      unfold lpLook at this
      split at this
      · rw [hk] at this; simp at this
      · cases this
    | u + 2 => simp [lpStep, hl] at hs
  | send u =>
    match u with
    | 0 => simpa [lpSend] using zero (lpSend cap) hs
    | 1 =>
      have := one (lpSend cap) hs
      unfold lpSend at this
      split at this
      · rename_i t ev timed k hst
        have hc' : ∀ r t' k', lpSent t timed k ev ≠ .casting r t' k' := by
          cases ev <;> first | exact cast_fin k | simp [lpSent]
        obtain ⟨-, -, h1, -, ⟨-, h2, h3⟩ | ⟨-, -, h3⟩⟩ := push2 (set1 _ _) this
        · exact absurd h2 (by dsimp only; omega)
        · exact ⟨_, _, h3, hq, by rw [h1]; exact hk, hc'⟩
      · cases this
    | u + 2 => simp [lpStep, hl] at hs
  | giveUp u =>
    match u with
    | 0 => simpa [lpGiveUp] using zero lpGiveUp hs
    | 1 =>
      have := one lpGiveUp hs
      unfold lpGiveUp at this
      split at this
      · split at this
        · cases this; exact ⟨_, _, set1 .., hq, hk, cast_fin _⟩
        · cases this
      · rename_i hst; exact absurd hst (hc _ _ _)
      · cases this
    | u + 2 => simp [lpStep, hl] at hs
  | timeOut u =>
    match u with
    | 0 => simpa [lpTimeOut] using zero lpTimeOut hs
    | 1 =>
      have := one lpTimeOut hs
      unfold lpTimeOut at this
      split at this
      · split at this
        · cases this; exact ⟨_, _, set1 .., hq, hk, cast_fin _⟩
        · cases this
      · split at this
        · cases this; exact ⟨_, _, set1 .., hq, hk, cast_fin _⟩
        · cases this
      · cases this
    | u + 2 => simp [lpStep, hl] at hs
  | answer u =>
    match u with
    | 0 => simpa [lpAnswer] using zero lpAnswer hs
    | 1 =>
      have := one lpAnswer hs
      unfold lpAnswer at this
      split at this
      · split at this
        · cases this; exact ⟨_, _, set1 .., hq, hk, cast_fin _⟩
        · cases this
      · cases this
    | u + 2 => simp [lpStep, hl] at hs
  | done u =>
    match u with
    | 0 => simpa [lpDone] using zero lpDone hs
    | 1 =>
      have := one lpDone hs
      unfold lpDone at this
      split at this
      · split at this
        · cases this; exact ⟨_, _, set1 .., hq, hk, cast_fin _⟩
        · cases this
      · split at this
        · cases this; exact ⟨_, _, set1 .., hq, hk, cast_fin _⟩
        · cases this
      · cases this
    | u + 2 => simp [lpStep, hl] at hs
  | recv u =>
    match u with
    | 0 => simpa [lpRecv] using zero lpRecv hs
    | 1 =>
      have := one lpRecv hs
      unfold lpRecv at this
      split at this
      · split at this
        · cases this
        · rename_i final _
          cases this
          refine ⟨_, _, set1 .., hq, hk, ?_⟩
          cases final
          · simp
          · exact cast_fin _
      · cases this
    | u + 2 => simp [lpStep, hl] at hs
  | print u =>
    match u with
    | 0 => simpa [lpPrint] using zero lpPrint hs
    | 1 =>
      have := one lpPrint hs
      unfold lpPrint at this
      split at this
      · split at this
        · cases this
        · cases this
          refine ⟨_, _, set1 .., hq, hk, ?_⟩
          dsimp only
          split <;> simp
      · cases this
    | u + 2 => simp [lpStep, hl] at hs
  | cast u =>
    match u with
    | 0 =>
      have := zero (lpCast cap) hs
      simp only [lpCast] at this
      split at this
      · obtain ⟨-, -, h1, -, ⟨-, h2, h3⟩ | ⟨h2, -, h3⟩⟩ :=
          push2 (l0 := ⟨q0, .casting [1] false none⟩) (l1 := l1) (by simp [lpSet, hl]) this
        · exact absurd h2 (by dsimp only; omega)
        · cases h2
      · rename_i hkn
        exact absurd (by simp [lpKnown, hl]) hkn
    | 1 =>
      have := one (lpCast cap) hs
      unfold lpCast at this
      split at this
      · rename_i hst; exact absurd hst (hc _ _ _)
      · rename_i hst; exact absurd hst (hc _ _ _)
      · cases this
    | u + 2 => simp [lpStep, hl] at hs
  | crash u =>
    match u with
    | 0 => simpa [lpCrash] using zero lpCrash hs
    | 1 =>
      have := one lpCrash hs
      unfold lpCrash at this
      split at this
      · cases this; exact ⟨_, _, set1 .., hq, hk, by simp⟩
      · cases this
    | u + 2 => simp [lpStep, hl] at hs

/-- An administrator sends a message to all users of the bouncer while their own channel is full (their clients have
sent 64 other messages): their loop waits for a place in its own channel, with the lock of the table of users held.
Whatever happens afterwards it waits forever, and nobody gets the lock any more. -/
theorem C55_broadcast_violated :
    ∃ ops : List LpOp, (∀ op ∈ ops, ∀ u, op ≠ .crash u) ∧ ∀ more : List LpOp,
      ((lpRun 64 (lpRun 64 (lpInit 2) ops) more).loops[0]?).map (·.st) = some (.casting [0, 1] false none) ∧
      (lpRun 64 (lpRun 64 (lpInit 2) ops) more).lock = some 0 := by
  refine ⟨[.arrive 0 (.broadcast false), .take 0, .look 0] ++ List.replicate 64 (.arrive 0 (.plain 0)), ?_,
    fun more => ?_⟩
  · intro op h u
    rcases List.mem_append.mp h with h | h
    · simp at h; rcases h with h | h | h <;> subst h <;> simp
    · rw [List.eq_of_mem_replicate h]; simp
  · have hst : lpRun 64 (lpInit 2)
        ([.arrive 0 (.broadcast false), .take 0, .look 0] ++ List.replicate 64 (.arrive 0 (.plain 0))) =
        ⟨[⟨List.replicate 64 (.msg (.plain 0)), .casting [0, 1] false none⟩, ⟨[], .idle⟩], [], [], some 0, 0⟩ := by
      decide +kernel
    rw [hst]
    obtain ⟨q0, l1, hl, _, hk, _⟩ := run_inv (cap := 64) (P := stuckCast 64) (fun st op st' h hs => stuckCast_step h hs) more
      ⟨[⟨List.replicate 64 (.msg (.plain 0)), .casting [0, 1] false none⟩, ⟨[], .idle⟩], [], [], some 0, 0⟩
      ⟨_, _, rfl, by decide, rfl, by simp⟩
    exact ⟨by rw [hl]; rfl, hk⟩

/-- The loop is sending a broadcast. -/
def LpCasting (l : LpLoop) : Prop := ∃ rest timed k, l.st = .casting rest timed k

private def LockInv (st : LpState) : Prop :=
  ∀ u l, st.loops[u]? = some l → (LpCasting l ↔ st.lock = some u)

private theorem lockInv_set {st : LpState} {u : Nat} {l l' : LpLoop} (h : LockInv st) (hl : st.loops[u]? = some l)
    (lock : Option Nat) (loops : List LpLoop) (hloops : loops = st.loops.set u l')
    (h1 : LpCasting l' ↔ lock = some u) (h2 : ∀ v, v ≠ u → (lock = some v ↔ st.lock = some v)) :
    ∀ v m, loops[v]? = some m → (LpCasting m ↔ lock = some v) := by
  intro v m hm
  subst hloops
  by_cases hv : u = v
  · subst hv
    have hlt : u < st.loops.length := by
      rcases Nat.lt_or_ge u st.loops.length with h | h
      · exact h
      · rw [List.getElem?_eq_none h] at hl; cases hl
    rw [List.getElem?_set_self hlt] at hm
    cases hm
    exact h1
  · rw [List.getElem?_set_ne hv] at hm
    rw [h2 v (Ne.symm hv)]
    exact h v m hm

private theorem fin_not {k : Option Nat} {q : List LpEv} : ¬ LpCasting ⟨q, lpFin k⟩ := by
  rintro ⟨r, t, k', h⟩
  cases k <;> simp [lpFin] at h

private theorem start_not {u : Nat} {timed : Bool} {k : Option Nat} {c : LpCmd} {q : List LpEv} :
    ¬ LpCasting ⟨q, lpStart u timed k c⟩ := by
  induction c with
  | plain n => rintro ⟨r, t, k', h⟩; cases k <;> simp [lpStart] at h
  | update t =>
    rw [lpStart]
    split
    · exact fin_not
    · rintro ⟨r, t, k', h⟩; simp at h
  | run t c ih =>
    rw [lpStart]
    split
    · exact ih
    · rintro ⟨r, t, k', h⟩; simp at h
  | delete t => rintro ⟨r, t, k', h⟩; simp [lpStart] at h
  | broadcast s => rintro ⟨r, t, k', h⟩; simp [lpStart] at h

private theorem sent_not {t : Nat} {timed : Bool} {k : Option Nat} {ev : LpEv} {q : List LpEv} :
    ¬ LpCasting ⟨q, lpSent t timed k ev⟩ := by
  cases ev <;> simp only [lpSent] <;> first | exact fin_not | (rintro ⟨r, t, k', h⟩; simp at h)

private theorem lockInv_push {cap : Nat} {st st' : LpState} {t : Nat} {ev : LpEv} (h : LockInv st)
    (hp : lpPush cap st t ev = some st') : LockInv st' := by
  unfold lpPush at hp
  split at hp
  · cases hp
  · rename_i l hl
    split at hp
    · simp only [Option.some.injEq] at hp
      subst hp
      exact lockInv_set h hl st.lock _ rfl (h t l hl) (fun _ _ => Iff.rfl)
    · cases hp

/-- A loop that is not sending a broadcast goes on to something else that is none. -/
private theorem lockInv_other {st : LpState} {u : Nat} {l : LpLoop} (h : LockInv st) (hl : st.loops[u]? = some l)
    (hn : ¬ LpCasting l) (q : List LpEv) (s : LpSt) (hs : ¬ LpCasting ⟨q, s⟩) (a : List Nat) (c : List (Nat × Bool)) (n : Nat) :
    LockInv ⟨st.loops.set u ⟨q, s⟩, a, c, st.lock, n⟩ :=
  lockInv_set h hl st.lock _ rfl ⟨fun e => absurd e hs, fun e => absurd ((h u l hl).2 e) hn⟩ (fun _ _ => Iff.rfl)

private theorem lockInv_step {cap : Nat} {st st' : LpState} {op : LpOp} (h : LockInv st)
    (hs : lpStep cap st op = some st') : LockInv st' := by
  cases op with
  | arrive u c => exact lockInv_push h hs
  | take u =>
    obtain ⟨l, hl, hs⟩ := Option.bind_eq_some_iff.1 hs
    unfold lpTake at hs
    split at hs
    · rename_i ev rest hst hq
      have hn : ¬ LpCasting l := by rintro ⟨r, t, k, e⟩; rw [hst] at e; cases e
      dsimp only at hs
      split at hs <;> (simp only [Option.some.injEq] at hs; subst hs)
      · (refine lockInv_other h hl hn _ _ ?_ _ _ _; exact start_not)
      · (refine lockInv_other h hl hn _ _ ?_ _ _ _; exact (by rintro ⟨r, t, k, e⟩; cases e))
      · (refine lockInv_other h hl hn _ _ ?_ _ _ _; exact start_not)
      · (refine lockInv_other h hl hn _ _ ?_ _ _ _; exact (by rintro ⟨r, t, k, e⟩; cases e))
      · (refine lockInv_other h hl hn _ _ ?_ _ _ _; exact (by rintro ⟨r, t, k, e⟩; cases e))
    · cases hs
  | look u =>
    obtain ⟨l, hl, hs⟩ := Option.bind_eq_some_iff.1 hs
    unfold lpLook at hs
    split at hs
    · rename_i c timed k hst
      have hn : ¬ LpCasting l := by rintro ⟨r, t, k, e⟩; rw [hst] at e; cases e
      split at hs
      · cases hs
      · rename_i hlock
        have hlock : st.lock = none := by simpa using hlock
        split at hs
        · split at hs <;> (simp only [Option.some.injEq] at hs; subst hs)
          · (refine lockInv_other h hl hn _ _ ?_ _ _ _; exact (by rintro ⟨r, t, k, e⟩; cases e))
          · (refine lockInv_other h hl hn _ _ ?_ _ _ _; exact fin_not)
        · split at hs <;> (simp only [Option.some.injEq] at hs; subst hs)
          · (refine lockInv_other h hl hn _ _ ?_ _ _ _; exact (by rintro ⟨r, t, k, e⟩; cases e))
          · (refine lockInv_other h hl hn _ _ ?_ _ _ _; exact fin_not)
        · split at hs <;> (simp only [Option.some.injEq] at hs; subst hs)
          · (refine lockInv_other h hl hn _ _ ?_ _ _ _; exact (by rintro ⟨r, t, k, e⟩; cases e))
          · (refine lockInv_other h hl hn _ _ ?_ _ _ _; exact fin_not)
        · simp only [Option.some.injEq] at hs
          subst hs
          refine lockInv_set h hl (some u) _ rfl ⟨fun _ => rfl, fun _ => ⟨_, _, _, rfl⟩⟩ ?_
          intro v hv
          rw [hlock]
          exact ⟨fun e => absurd (Option.some.inj e).symm hv, fun e => nomatch e⟩
        · simp only [Option.some.injEq] at hs
          subst hs
          (refine lockInv_other h hl hn _ _ ?_ _ _ _; exact fin_not)
    · cases hs
  | send u =>
    obtain ⟨l, hl, hs⟩ := Option.bind_eq_some_iff.1 hs
    unfold lpSend at hs
    split at hs
    · rename_i t ev timed k hst
      have hn : ¬ LpCasting l := by rintro ⟨r, t, k, e⟩; rw [hst] at e; cases e
      exact lockInv_push (lockInv_other h hl hn _ _ (sent_not (t := t) (timed := timed) (k := k) (ev := ev)) _ _ _) hs
    · cases hs
  | giveUp u =>
    obtain ⟨l, hl, hs⟩ := Option.bind_eq_some_iff.1 hs
    unfold lpGiveUp at hs
    split at hs
    · rename_i hst
      have hn : ¬ LpCasting l := by rintro ⟨r, t, k, e⟩; rw [hst] at e; cases e
      split at hs
      · simp only [Option.some.injEq] at hs
        subst hs
        (refine lockInv_other h hl hn _ _ ?_ _ _ _; exact fin_not)
      · cases hs
    · rename_i hst
      split at hs
      · simp only [Option.some.injEq] at hs
        subst hs
        have hu : st.lock = some u := (h u l hl).1 ⟨_, _, _, hst⟩
        refine lockInv_set h hl none _ rfl ⟨fun e => absurd e fin_not, fun e => nomatch e⟩ ?_
        intro v hv
        rw [hu]
        exact ⟨(fun e => nomatch e), fun e => absurd (Option.some.inj e).symm hv⟩
      · cases hs
    · cases hs
  | timeOut u =>
    obtain ⟨l, hl, hs⟩ := Option.bind_eq_some_iff.1 hs
    unfold lpTimeOut at hs
    split at hs
    · rename_i hst
      have hn : ¬ LpCasting l := by rintro ⟨r, t, k, e⟩; rw [hst] at e; cases e
      split at hs
      · simp only [Option.some.injEq] at hs
        subst hs
        (refine lockInv_other h hl hn _ _ ?_ _ _ _; exact fin_not)
      · cases hs
    · rename_i hst
      have hn : ¬ LpCasting l := by rintro ⟨r, t, k, e⟩; rw [hst] at e; cases e
      split at hs
      · simp only [Option.some.injEq] at hs
        subst hs
        (refine lockInv_other h hl hn _ _ ?_ _ _ _; exact fin_not)
      · cases hs
    · cases hs
  | answer u =>
    obtain ⟨l, hl, hs⟩ := Option.bind_eq_some_iff.1 hs
    unfold lpAnswer at hs
    split at hs
    · rename_i hst
      have hn : ¬ LpCasting l := by rintro ⟨r, t, k, e⟩; rw [hst] at e; cases e
      split at hs
      · simp only [Option.some.injEq] at hs
        subst hs
        (refine lockInv_other h hl hn _ _ ?_ _ _ _; exact fin_not)
      · cases hs
    · cases hs
  | done u =>
    obtain ⟨l, hl, hs⟩ := Option.bind_eq_some_iff.1 hs
    unfold lpDone at hs
    split at hs
    · rename_i hst
      have hn : ¬ LpCasting l := by rintro ⟨r, t, k, e⟩; rw [hst] at e; cases e
      split at hs
      · simp only [Option.some.injEq] at hs
        subst hs
        (refine lockInv_other h hl hn _ _ ?_ _ _ _; exact fin_not)
      · cases hs
    · rename_i hst
      have hn : ¬ LpCasting l := by rintro ⟨r, t, k, e⟩; rw [hst] at e; cases e
      split at hs
      · simp only [Option.some.injEq] at hs
        subst hs
        (refine lockInv_other h hl hn _ _ ?_ _ _ _; exact fin_not)
      · cases hs
    · cases hs
  | recv u =>
    obtain ⟨l, hl, hs⟩ := Option.bind_eq_some_iff.1 hs
    unfold lpRecv at hs
    split at hs
    · rename_i hst
      have hn : ¬ LpCasting l := by rintro ⟨r, t, k, e⟩; rw [hst] at e; cases e
      split at hs
      · cases hs
      · rename_i final _
        simp only [Option.some.injEq] at hs
        subst hs
        refine lockInv_other h hl hn _ _ ?_ _ _ _
        cases final
        · rintro ⟨r, t, k, e⟩; simp at e
        · exact fin_not
    · cases hs
  | print u =>
    obtain ⟨l, hl, hs⟩ := Option.bind_eq_some_iff.1 hs
    unfold lpPrint at hs
    split at hs
    · rename_i hst
      have hn : ¬ LpCasting l := by rintro ⟨r, t, k, e⟩; rw [hst] at e; cases e
      split at hs
      · cases hs
      · simp only [Option.some.injEq] at hs
        subst hs
        refine lockInv_other h hl hn _ _ ?_ _ _ _
        rintro ⟨r, t, k, e⟩
        dsimp only at e
        split at e <;> cases e
    · cases hs
  | cast u =>
    obtain ⟨l, hl, hs⟩ := Option.bind_eq_some_iff.1 hs
    unfold lpCast at hs
    split at hs
    · rename_i hst
      simp only [Option.some.injEq] at hs
      subst hs
      have hu : st.lock = some u := (h u l hl).1 ⟨_, _, _, hst⟩
      refine lockInv_set h hl none _ rfl ⟨fun e => absurd e fin_not, fun e => nomatch e⟩ ?_
      intro v hv
      rw [hu]
      exact ⟨(fun e => nomatch e), fun e => absurd (Option.some.inj e).symm hv⟩
    · rename_i hst
      have hu : st.lock = some u := (h u l hl).1 ⟨_, _, _, hst⟩
      have hi : LockInv (lpSet st u l (.casting ‹_› ‹_› ‹_›)) :=
        lockInv_set h hl st.lock _ rfl ⟨fun _ => hu, fun _ => ⟨_, _, _, rfl⟩⟩ (fun _ _ => Iff.rfl)
      dsimp only at hs
      split at hs
      · exact lockInv_push hi hs
      · simp only [Option.some.injEq] at hs
        subst hs
        exact hi
    · cases hs
  | crash u =>
    obtain ⟨l, hl, hs⟩ := Option.bind_eq_some_iff.1 hs
    unfold lpCrash at hs
    split at hs
    · rename_i hst hq
      have hn : ¬ LpCasting l := by rintro ⟨r, t, k, e⟩; rw [hst] at e; cases e
      simp only [Option.some.injEq] at hs
      subst hs
      (refine lockInv_other h hl hn _ _ ?_ _ _ _; exact (by rintro ⟨r, t, k, e⟩; cases e))
    · cases hs

/-- The lock of the table of users is held exactly while a loop sends a broadcast, by that loop: whatever happens, it
is free again once the broadcast has been sent or given up, so that only a broadcast can make others wait for it. -/
theorem C55_lock (cap n : Nat) (ops : List LpOp) (u : Nat) (l : LpLoop)
    (hl : (lpRun cap (lpInit n) ops).loops[u]? = some l) :
    LpCasting l ↔ (lpRun cap (lpInit n) ops).lock = some u := by
  refine run_inv (cap := cap) (P := LockInv) (fun st op st' h hs => lockInv_step h hs) ops (lpInit n) ?_ u l hl
  intro v m hm
  have := List.eq_of_mem_replicate (List.mem_of_getElem? hm)
  subst this
  exact ⟨(by rintro ⟨r, t, k, e⟩; cases e), fun e => nomatch e⟩

example : (lpRun 64 (lpInit 2) [.arrive 0 (.broadcast true), .take 0, .look 0, .cast 0]).lock = some 0 ∧
    (lpRun 64 (lpInit 2) [.arrive 0 (.broadcast true), .take 0, .look 0, .cast 0, .cast 0, .cast 0]).lock = none := by
  decide

end Verif.Props
