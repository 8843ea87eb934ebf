import Verif.Model.Shutdown
import Mathlib.Data.List.Basic

/-! # C94: the bouncer stops cleanly -/

namespace Verif.Props

open Verif.Model

/-- The steps of the goroutines that have something to do; the others are events that come from outside. -/
def sdProgress : SdOp → Bool
  | .sendStop | .unlock | .waitEnds | .closeDb | .take _ | .look _ | .forget _ | .serveEnds _ | .janitorLook
  | .janitorEnds => true
  | _ => false

/-- No account is created and no listener is started. -/
def sdNoNews (ops : List SdOp) : Prop := SdOp.create ∉ ops ∧ SdOp.serve ∉ ops

/-- The goroutine of this user has not ended. -/
def LoopAlive (st : SdState) (o : Nat) : Prop := ∃ l, st.loops[o]? = some l ∧ l.at_ ≠ .gone

/-- Shutdown waits for a place in the channel of a user, whose goroutine waits for the lock that Shutdown has. -/
def SdDeadlock (st : SdState) : Prop :=
  ∃ o rest l, st.phase = .stopping (o :: rest) ∧ st.loops[o]? = some l ∧ sdCap ≤ l.queue.length ∧
    (l.at_ = .wantLock ∨ l.at_ = .ended)

/-! ## Invariants -/

/-- What holds from the call of `Shutdown` on. -/
private structure SdInv (st : SdState) : Prop where
  called : st.phase ≠ .up
  /-- whoever is still to be stopped is in the table -/
  rest : ∀ o rest, st.phase = .stopping rest → o ∈ rest → LoopAlive st o
  /-- every goroutine that runs will be stopped -/
  stop : ∀ o l, st.loops[o]? = some l → l.at_ = .idle ∨ l.at_ = .wantLock →
    .stop ∈ l.queue ∨ ∃ rest, st.phase = .stopping rest ∧ o ∈ rest
  listeners : ∀ l ∈ st.listeners, l ≠ .serving
  quiet : st.phase = .waited ∨ st.phase = .down → sdQuiet st = true

/-- What holds all the time. -/
private def SdSaved (crashed : List Nat) (st : SdState) : Prop :=
  ∀ o l, st.loops[o]? = some l → l.at_ = .ended ∨ l.at_ = .gone → o ∉ crashed → l.saved = true

private theorem alive_users {st : SdState} {o : Nat} : o ∈ sdUsers st ↔ LoopAlive st o := by
  unfold sdUsers LoopAlive
  rw [List.mem_filter]
  constructor
  · rintro ⟨_, h⟩
    cases hl : st.loops[o]? with
    | none => rw [hl] at h; cases h
    | some l => rw [hl] at h; exact ⟨l, rfl, by simpa using h⟩
  · rintro ⟨l, hl, h⟩
    refine ⟨List.mem_range.2 ?_, by rw [hl]; simpa using h⟩
    exact (List.getElem?_eq_some_iff.1 hl).1

private theorem set_get {loops : List SdLoop} {o p : Nat} {l m : SdLoop} (hm : loops[o]? = some m) :
    (loops.set o l)[p]? = if p = o then some l else loops[p]? := by
  have hlt : o < loops.length := (List.getElem?_eq_some_iff.1 hm).1
  by_cases h : p = o
  · subst h; simp [hlt]
  · rw [if_neg h, List.getElem?_set_ne (fun e => h e.symm)]

/-- A loop changes while `Shutdown` stays where it is. -/
private theorem inv_set {st : SdState} (i : SdInv st) {o : Nat} {m l : SdLoop} (hm : st.loops[o]? = some m)
    (hgone : l.at_ = .gone → (∀ rest, st.phase ≠ .stopping rest) ∨ m.at_ = .gone)
    (hstop : l.at_ = .idle ∨ l.at_ = .wantLock → (.stop ∈ m.queue → .stop ∈ l.queue) ∧ (m.at_ = .idle ∨ m.at_ = .wantLock))
    (hquiet : m.at_ = .gone → l.at_ = .gone) : SdInv (sdSet st o l) := by
  refine ⟨i.called, ?_, ?_, i.listeners, ?_⟩
  · intro p rest hp hmem
    obtain ⟨k, hk, hg⟩ := i.rest p rest hp hmem
    unfold LoopAlive
    simp only [sdSet, set_get hm]
    by_cases h : p = o
    · subst h
      refine ⟨l, by simp, fun e => ?_⟩
      rcases hgone e with h | h
      · exact h rest hp
      · rw [hm, Option.some.injEq] at hk; subst hk; exact hg h
    · exact ⟨k, by rw [if_neg h]; exact hk, hg⟩
  · intro p k hk hp
    simp only [sdSet, set_get hm] at hk
    by_cases h : p = o
    · subst h
      rw [if_pos rfl, Option.some.injEq] at hk
      subst hk
      obtain ⟨h1, h2⟩ := hstop hp
      rcases i.stop p m hm h2 with h | h
      · exact .inl (h1 h)
      · exact .inr h
    · rw [if_neg h] at hk
      exact i.stop p k hk hp
  · intro hp
    have := i.quiet hp
    unfold sdQuiet at this ⊢
    simp only [Bool.and_eq_true, List.all_eq_true, decide_eq_true_eq, sdSet] at this ⊢
    refine ⟨⟨fun k hk => ?_, this.1.2⟩, decide_eq_true this.2⟩
    rcases List.mem_or_eq_of_mem_set hk with h | h
    · exact this.1.1 k h
    · subst h
      exact hquiet (this.1.1 m (List.mem_of_getElem? hm))

private theorem inv_call {st st' : SdState} {order : List Nat} (h : sdStep st (.call order) = some st') : SdInv st' := by
  simp only [sdStep] at h
  split at h
  · rename_i hc
    simp only [Option.some.injEq] at h
    subst h
    have hperm : order.Perm (sdUsers st) := List.isPerm_iff.1 hc.2
    have hmem : ∀ o, o ∈ order ↔ LoopAlive st o := fun o => by rw [hperm.mem_iff, alive_users]
    refine ⟨by simp, ?_, ?_, ?_, by simp⟩
    · intro o rest hp ho
      simp only [SdPhase.stopping.injEq] at hp
      subst hp
      exact (hmem o).1 ho
    · intro o l hl ha
      refine .inr ⟨order, rfl, (hmem o).2 ⟨l, hl, fun e => ?_⟩⟩
      rw [e] at ha; simp at ha
    · intro l hl
      obtain ⟨k, hk, rfl⟩ := List.mem_map.1 hl
      split
      · simp
      · rename_i hne; exact hne
  · cases h

private theorem inv_step {st st' : SdState} (i : SdInv st) (op : SdOp) (hc : op ≠ .create) (hs : op ≠ .serve)
    (h : sdStep st op = some st') : SdInv st' := by
  cases op with
  | call order =>
    exact inv_call h
  | sendStop =>
    simp only [sdStep] at h
    split at h
    · rename_i o rest hp
      split at h
      · rename_i l hl
        split at h
        · simp only [Option.some.injEq] at h
          subst h
          have j := inv_set (l := { l with queue := l.queue ++ [.stop] }) i hl (fun e => .inr e)
            (fun e => ⟨fun h => List.mem_append_left _ h, e⟩) (fun e => e)
          refine ⟨by simp, ?_, ?_, i.listeners, by simp⟩
          · intro p r hp' hmem
            simp only [SdPhase.stopping.injEq] at hp'
            subst hp'
            exact j.rest p (o :: rest) hp (List.mem_cons_of_mem _ hmem)
          · intro p k hk ha
            by_cases h : p = o
            · subst h
              simp only [sdSet, set_get hl, if_true, Option.some.injEq] at hk
              subst hk
              exact .inl (by simp)
            · rcases j.stop p k hk ha with h' | ⟨r, hr, hm⟩
              · exact .inl h'
              · have : SdPhase.stopping (o :: rest) = .stopping r := hp.symm.trans hr
                simp only [SdPhase.stopping.injEq] at this
                subst this
                rcases List.mem_cons.1 hm with e | e
                · exact absurd e h
                · exact .inr ⟨rest, rfl, e⟩
        · cases h
      · cases h
    · cases h
  | unlock =>
    simp only [sdStep] at h
    split at h
    · rename_i hp
      simp only [Option.some.injEq] at h
      subst h
      refine ⟨by simp, by simp, ?_, i.listeners, by simp⟩
      intro o l hl ha
      rcases i.stop o l hl ha with h | ⟨r, hr, hm⟩
      · exact .inl h
      · rw [hp] at hr
        simp only [SdPhase.stopping.injEq] at hr
        subst hr
        cases hm
    · cases h
  | waitEnds =>
    simp only [sdStep] at h
    split at h
    · rename_i hp
      simp only [Option.some.injEq] at h
      subst h
      refine ⟨by simp, by simp, ?_, i.listeners, fun _ => hp.2⟩
      intro o l hl ha
      rcases i.stop o l hl ha with h | ⟨r, hr, -⟩
      · exact .inl h
      · rw [hp.1] at hr; cases hr
    · cases h
  | closeDb =>
    simp only [sdStep] at h
    split at h
    · rename_i hp
      simp only [Option.some.injEq] at h
      subst h
      refine ⟨by simp, by simp, ?_, i.listeners, fun _ => i.quiet (.inl hp)⟩
      intro o l hl ha
      rcases i.stop o l hl ha with h | ⟨r, hr, -⟩
      · exact .inl h
      · rw [hp] at hr; cases hr
    · cases h
  | take o =>
    simp only [sdStep] at h
    split at h
    · rename_i q s hl
      simp only [Option.some.injEq] at h; subst h
      exact inv_set i hl (by simp) (fun _ => ⟨fun h => by simpa using h, .inl rfl⟩) (by simp)
    · rename_i q s hl
      simp only [Option.some.injEq] at h; subst h
      exact inv_set i hl (by simp) (fun _ => ⟨fun h => by simpa using h, .inl rfl⟩) (by simp)
    · rename_i q s hl
      simp only [Option.some.injEq] at h; subst h
      exact inv_set i hl (by simp) (by simp) (by simp)
    · cases h
  | look o =>
    simp only [sdStep] at h
    split at h
    · rename_i q s hl
      split at h
      · simp only [Option.some.injEq] at h; subst h
        exact inv_set i hl (by simp) (fun _ => ⟨fun h => h, .inr rfl⟩) (by simp)
      · cases h
    · cases h
  | forget o =>
    simp only [sdStep] at h
    split at h
    · rename_i q s hl
      split at h
      · rename_i hf
        simp only [Option.some.injEq] at h; subst h
        refine inv_set i hl (fun _ => .inl fun rest e => ?_) (by simp) (by simp)
        unfold sdFree at hf
        rw [e] at hf
        cases hf
      · cases h
    · cases h
  | serveEnds j =>
    simp only [sdStep] at h
    split at h
    · simp only [Option.some.injEq] at h; subst h
      refine ⟨i.called, i.rest, i.stop, ?_, ?_⟩
      · intro l hl
        rcases List.mem_or_eq_of_mem_set hl with h | h
        · exact i.listeners l h
        · subst h; simp
      · intro hp
        have := i.quiet hp
        unfold sdQuiet at this ⊢
        simp only [Bool.and_eq_true, List.all_eq_true, decide_eq_true_eq] at this ⊢
        refine ⟨⟨this.1.1, fun k hk => ?_⟩, this.2⟩
        rcases List.mem_or_eq_of_mem_set hk with h | h
        · exact this.1.2 k h
        · exact h
    · cases h
  | serveFails j =>
    simp only [sdStep] at h
    split at h
    · rename_i hj
      exact absurd rfl (i.listeners _ (List.mem_of_getElem? hj.1))
    · cases h
  | janitorLook =>
    simp only [sdStep] at h
    split at h
    · rename_i hj
      simp only [Option.some.injEq] at h; subst h
      refine ⟨i.called, i.rest, i.stop, i.listeners, fun hp => ?_⟩
      have := i.quiet hp
      unfold sdQuiet at this
      simp only [Bool.and_eq_true, decide_eq_true_eq] at this
      rw [hj.1] at this
      simp at this
    · cases h
  | janitorEnds =>
    simp only [sdStep] at h
    split at h
    · simp only [Option.some.injEq] at h; subst h
      refine ⟨i.called, i.rest, i.stop, i.listeners, fun hp => ?_⟩
      have := i.quiet hp
      unfold sdQuiet at this ⊢
      simp only [Bool.and_eq_true, decide_eq_true_eq] at this ⊢
      exact ⟨this.1, trivial⟩
    · cases h
  | arrive o ev =>
    simp only [sdStep] at h
    split at h
    · rename_i l hl
      split at h
      · simp only [Option.some.injEq] at h; subst h
        exact inv_set i hl (fun e => .inr e) (fun e => ⟨fun h => List.mem_append_left _ h, e⟩) (fun e => e)
      · cases h
    · cases h
  | crash o =>
    simp only [sdStep] at h
    split at h
    · rename_i q s hl
      simp only [Option.some.injEq] at h; subst h
      exact inv_set i hl (by simp) (by simp) (by simp)
    · cases h
  | create => exact absurd rfl hc
  | serve => exact absurd rfl hs
  | janitorWakes =>
    simp only [sdStep] at h
    split at h
    · rename_i hj
      simp only [Option.some.injEq] at h; subst h
      refine ⟨i.called, i.rest, i.stop, i.listeners, fun hp => ?_⟩
      have := i.quiet hp
      unfold sdQuiet at this
      simp only [Bool.and_eq_true, decide_eq_true_eq] at this
      rw [hj] at this
      simp at this
    · cases h

private theorem inv_run {st st' : SdState} (i : SdInv st) (ops : List SdOp) (hn : sdNoNews ops)
    (h : sdRun st ops = some st') : SdInv st' := by
  induction ops generalizing st with
  | nil => simp only [sdRun, Option.some.injEq] at h; subst h; exact i
  | cons op ops ih =>
    obtain ⟨m, hm, hr⟩ := Option.bind_eq_some_iff.1 h
    obtain ⟨h1, h2⟩ := hn
    simp only [List.mem_cons, not_or] at h1 h2
    exact ih (inv_step i op (fun e => h1.1 e.symm) (fun e => h2.1 e.symm) hm) ⟨h1.2, h2.2⟩ hr

private theorem run_append {st : SdState} (a b : List SdOp) : sdRun st (a ++ b) = (sdRun st a).bind (fun s => sdRun s b) := by
  induction a generalizing st with
  | nil => rfl
  | cons op ops ih =>
    simp only [List.cons_append, sdRun]
    cases sdStep st op with
    | none => rfl
    | some s => simp [ih]

private theorem inv_after {st st' : SdState} (pre : List SdOp) (order : List Nat) (post : List SdOp) (hn : sdNoNews post)
    (h : sdRun st (pre ++ .call order :: post) = some st') : SdInv st' := by
  rw [run_append] at h
  obtain ⟨m, -, h⟩ := Option.bind_eq_some_iff.1 h
  obtain ⟨c, hc, h⟩ := Option.bind_eq_some_iff.1 h
  exact inv_run (inv_call hc) post hn h

/-! ## The theorems -/

/-- C94, part: when the database is closed, every goroutine that uses it has ended: those of the users, those of the
listeners and the one that disables inactive accounts.  Missing: accounts that are created, and listeners that are
started, after `Shutdown` was called (see `C94_late_account_violated`). -/
theorem C94_database_last_partial (st st' : SdState) (pre : List SdOp) (order : List Nat) (post : List SdOp)
    (hn : sdNoNews post) (h : sdRun st (pre ++ .call order :: post) = some st') (hd : st'.phase = .down) :
    (∀ o, ¬ LoopAlive st' o) ∧ (∀ l ∈ st'.listeners, l = .gone) ∧ st'.janitor = .gone := by
  have := (inv_after pre order post hn h).quiet (.inr hd)
  unfold sdQuiet at this
  simp only [Bool.and_eq_true, List.all_eq_true, decide_eq_true_eq] at this
  refine ⟨?_, this.1.2, this.2⟩
  rintro o ⟨l, hl, hg⟩
  exact hg (this.1.1 l (List.mem_of_getElem? hl))

/-- The loops that have ended without having crashed have stored the delivery receipts; the database is open as long as
a loop runs. -/
private structure SavInv (crashed : List Nat) (st : SdState) : Prop where
  saved : ∀ o l, st.loops[o]? = some l → l.at_ = .ended ∨ l.at_ = .gone → o ∉ crashed → l.saved = true
  open_ : st.phase = .up ∨ SdInv st

private theorem sav_set {crashed : List Nat} {st : SdState}
    (i : ∀ o l, st.loops[o]? = some l → l.at_ = .ended ∨ l.at_ = .gone → o ∉ crashed → l.saved = true)
    {o : Nat} {m l : SdLoop} (hm : st.loops[o]? = some m)
    (hl : l.at_ = .ended ∨ l.at_ = .gone → o ∉ crashed → l.saved = true) :
    ∀ p k, (sdSet st o l).loops[p]? = some k → k.at_ = .ended ∨ k.at_ = .gone → p ∉ crashed → k.saved = true := by
  intro p k hk ha hp
  simp only [sdSet, set_get hm] at hk
  by_cases h : p = o
  · subst h
    rw [if_pos rfl, Option.some.injEq] at hk
    subst hk
    exact hl ha hp
  · rw [if_neg h] at hk
    exact i p k hk ha hp

private theorem sav_step {crashed : List Nat} {st st' : SdState} (i : SavInv crashed st) (op : SdOp)
    (hcr : ∀ o, op = .crash o → o ∈ crashed) (h : sdStep st op = some st') :
    ∀ o l, st'.loops[o]? = some l → l.at_ = .ended ∨ l.at_ = .gone → o ∉ crashed → l.saved = true := by
  cases op with
  | call order =>
    simp only [sdStep] at h
    split at h
    · simp only [Option.some.injEq] at h; subst h; exact i.saved
    · cases h
  | sendStop =>
    simp only [sdStep] at h
    split at h
    · split at h
      · rename_i l hl
        split at h
        · simp only [Option.some.injEq] at h; subst h
          exact sav_set (l := { l with queue := l.queue ++ [.stop] }) i.saved hl (i.saved _ l hl)
        · cases h
      · cases h
    · cases h
  | take o =>
    simp only [sdStep] at h
    split at h
    · rename_i hl
      simp only [Option.some.injEq] at h; subst h
      exact sav_set i.saved hl (by simp)
    · rename_i hl
      simp only [Option.some.injEq] at h; subst h
      exact sav_set i.saved hl (by simp)
    · rename_i hl
      simp only [Option.some.injEq] at h; subst h
      refine sav_set i.saved hl (fun _ _ => ?_)
      simp only [sdOpen, decide_eq_true_eq]
      intro hd
      rcases i.open_ with hu | hi
      · rw [hd] at hu; cases hu
      · have := hi.quiet (.inr hd)
        unfold sdQuiet at this
        simp only [Bool.and_eq_true, List.all_eq_true, decide_eq_true_eq] at this
        have := this.1.1 _ (List.mem_of_getElem? hl)
        cases this
    · cases h
  | look o =>
    simp only [sdStep] at h
    split at h
    · rename_i hl
      split at h
      · simp only [Option.some.injEq] at h; subst h
        exact sav_set i.saved hl (by simp)
      · cases h
    · cases h
  | forget o =>
    simp only [sdStep] at h
    split at h
    · rename_i hl
      split at h
      · simp only [Option.some.injEq] at h; subst h
        exact sav_set i.saved hl (fun _ hn => (i.saved o _ hl (.inl rfl) hn :))
      · cases h
    · cases h
  | arrive o ev =>
    simp only [sdStep] at h
    split at h
    · rename_i l hl
      split at h
      · simp only [Option.some.injEq] at h; subst h
        exact sav_set (l := { l with queue := l.queue ++ [ev] }) i.saved hl (i.saved o l hl)
      · cases h
    · cases h
  | crash o =>
    simp only [sdStep] at h
    split at h
    · rename_i hl
      simp only [Option.some.injEq] at h; subst h
      exact sav_set i.saved hl (fun _ hn => absurd (hcr o rfl) hn)
    · cases h
  | create =>
    simp only [sdStep] at h
    split at h
    · simp only [Option.some.injEq] at h; subst h
      intro o l hl ha hn
      rw [List.getElem?_append] at hl
      split at hl
      · exact i.saved o l hl ha hn
      · rw [List.getElem?_singleton] at hl
        split at hl
        · simp only [Option.some.injEq] at hl; subst hl; simp at ha
        · cases hl
    · cases h
  | _ =>
    simp only [sdStep] at h
    split at h
    · simp only [Option.some.injEq] at h; subst h; exact i.saved
    · cases h

private theorem up_step {st st' : SdState} (op : SdOp) (hu : st.phase = .up) (h : sdStep st op = some st') :
    st'.phase = .up ∨ SdInv st' := by
  cases op with
  | call order => exact .inr (inv_call h)
  | sendStop => simp only [sdStep, hu] at h; cases h
  | unlock => simp [sdStep, hu] at h
  | waitEnds => simp [sdStep, hu] at h
  | closeDb => simp [sdStep, hu] at h
  | take o =>
    simp only [sdStep] at h
    split at h
    all_goals first | (simp only [Option.some.injEq] at h; subst h; exact .inl hu) | cases h
  | look o =>
    simp only [sdStep] at h
    split at h
    · split at h
      · simp only [Option.some.injEq] at h; subst h; exact .inl hu
      · cases h
    · cases h
  | forget o =>
    simp only [sdStep] at h
    split at h
    · split at h
      · simp only [Option.some.injEq] at h; subst h; exact .inl hu
      · cases h
    · cases h
  | arrive o ev =>
    simp only [sdStep] at h
    split at h
    · split at h
      · simp only [Option.some.injEq] at h; subst h; exact .inl hu
      · cases h
    · cases h
  | crash o =>
    simp only [sdStep] at h
    split at h
    · simp only [Option.some.injEq] at h; subst h; exact .inl hu
    · cases h
  | _ =>
    simp only [sdStep] at h
    split at h
    · simp only [Option.some.injEq] at h; subst h; exact .inl hu
    · cases h

private theorem sav_run {crashed : List Nat} {st st' : SdState} (ops : List SdOp) (hcr : ∀ o, .crash o ∈ ops → o ∈ crashed)
    (hn : st.phase ≠ .up → sdNoNews ops)
    (hpost : ∀ pre order post, ops = pre ++ .call order :: post → sdNoNews post)
    (i : SavInv crashed st) (h : sdRun st ops = some st') : SavInv crashed st' := by
  induction ops generalizing st with
  | nil => simp only [sdRun, Option.some.injEq] at h; subst h; exact i
  | cons op ops ih =>
    obtain ⟨m, hm, hr⟩ := Option.bind_eq_some_iff.1 h
    have hopen : m.phase = .up ∨ SdInv m := by
      by_cases hu : st.phase = .up
      · exact up_step op hu hm
      · obtain ⟨h1, h2⟩ := hn hu
        simp only [List.mem_cons, not_or] at h1 h2
        rcases i.open_ with h | h
        · exact absurd h hu
        · exact .inr (inv_step h op (fun e => h1.1 e.symm) (fun e => h2.1 e.symm) hm)
    refine ih (fun o ho => hcr o (List.mem_cons_of_mem _ ho)) ?_ ?_
      ⟨sav_step i op (fun o ho => hcr o (by rw [ho]; exact List.mem_cons_self)) hm, hopen⟩ hr
    · intro hmu
      by_cases hu : st.phase = .up
      · have hcall : ∃ order, op = .call order := by
          cases op with
          | call order => exact ⟨order, rfl⟩
          | sendStop => simp only [sdStep, hu] at hm; cases hm
          | unlock => simp [sdStep, hu] at hm
          | waitEnds => simp [sdStep, hu] at hm
          | closeDb => simp [sdStep, hu] at hm
          | take o =>
            simp only [sdStep] at hm
            split at hm
            all_goals first | (simp only [Option.some.injEq] at hm; subst hm; exact absurd hu hmu) | cases hm
          | look o =>
            simp only [sdStep] at hm
            split at hm
            · split at hm
              · simp only [Option.some.injEq] at hm; subst hm; exact absurd hu hmu
              · cases hm
            · cases hm
          | forget o =>
            simp only [sdStep] at hm
            split at hm
            · split at hm
              · simp only [Option.some.injEq] at hm; subst hm; exact absurd hu hmu
              · cases hm
            · cases hm
          | arrive o ev =>
            simp only [sdStep] at hm
            split at hm
            · split at hm
              · simp only [Option.some.injEq] at hm; subst hm; exact absurd hu hmu
              · cases hm
            · cases hm
          | crash o =>
            simp only [sdStep] at hm
            split at hm
            · simp only [Option.some.injEq] at hm; subst hm; exact absurd hu hmu
            · cases hm
          | _ =>
            simp only [sdStep] at hm
            split at hm
            · simp only [Option.some.injEq] at hm; subst hm; exact absurd hu hmu
            · cases hm
        obtain ⟨order, rfl⟩ := hcall
        exact hpost [] order ops rfl
      · obtain ⟨h1, h2⟩ := hn hu
        exact ⟨fun e => h1 (List.mem_cons_of_mem _ e), fun e => h2 (List.mem_cons_of_mem _ e)⟩
    · intro pre order post he
      exact hpost (op :: pre) order post (by rw [he]; rfl)

/-- C94, part: when the database is closed, every user whose goroutine has not crashed has stored the delivery receipts
of the clients.  Missing: accounts created after `Shutdown` was called. -/
theorem C94_saved_partial (st st' : SdState) (hu : st.phase = .up)
    (hrun : ∀ l ∈ st.loops, l.at_ = .idle ∨ l.at_ = .wantLock) (ops : List SdOp)
    (hn : ∀ pre order post, ops = pre ++ .call order :: post → sdNoNews post)
    (h : sdRun st ops = some st') (hd : st'.phase = .down) (o : Nat) (l : SdLoop) (hl : st'.loops[o]? = some l)
    (hcr : SdOp.crash o ∉ ops) : l.saved = true := by
  let crashed : List Nat := ops.filterMap (fun op => match op with | .crash o => some o | _ => none)
  have hmem : ∀ o, SdOp.crash o ∈ ops ↔ o ∈ crashed := by
    intro o
    simp only [crashed, List.mem_filterMap]
    constructor
    · intro h; exact ⟨_, h, rfl⟩
    · rintro ⟨op, hop, he⟩
      cases op <;> simp at he
      subst he; exact hop
  have i0 : SavInv crashed st := by
    refine ⟨fun o l hl ha _ => ?_, .inl hu⟩
    rcases hrun l (List.mem_of_getElem? hl) with e | e <;> rw [e] at ha <;> simp at ha
  have i := sav_run ops (fun o ho => (hmem o).1 ho) (fun h => absurd hu h) hn i0 h
  rcases i.open_ with h | h
  · rw [hd] at h; cases h
  · have := h.quiet (.inr hd)
    unfold sdQuiet at this
    simp only [Bool.and_eq_true, List.all_eq_true, decide_eq_true_eq] at this
    exact i.saved o l hl (.inr (this.1.1 l (List.mem_of_getElem? hl))) (fun e => hcr ((hmem o).2 e))

/-- C94, part: as long as `Shutdown` has not returned, some goroutine can go on, unless `Shutdown` waits for a place in the
channel of a user whose goroutine waits for the lock that `Shutdown` has (`C94_deadlock_violated`).  Missing: that case,
and accounts created after `Shutdown` was called. -/
theorem C94_goes_on_partial (st st' : SdState) (pre : List SdOp) (order : List Nat) (post : List SdOp)
    (hn : sdNoNews post) (h : sdRun st (pre ++ .call order :: post) = some st') (hd : st'.phase ≠ .down)
    (hdead : ¬ SdDeadlock st') : ∃ op, sdProgress op = true ∧ (sdStep st' op).isSome = true := by
  have i := inv_after pre order post hn h
  -- with the lock free, everyone who has not ended can go on
  have free : sdFree st' = true → (∀ rest, st'.phase ≠ .stopping rest) → sdQuiet st' = false →
      ∃ op, sdProgress op = true ∧ (sdStep st' op).isSome = true := by
    intro hf hns hq
    unfold sdQuiet at hq
    simp only [Bool.and_eq_false_iff] at hq
    rcases hq with (hq | hq) | hq
    · rw [List.all_eq_false] at hq
      obtain ⟨l, hl, hg⟩ := hq
      simp only [decide_eq_true_eq] at hg
      obtain ⟨o, hlo⟩ := List.getElem?_of_mem hl
      obtain ⟨q, a, s⟩ := l
      cases a with
      | idle =>
        refine ⟨.take o, rfl, ?_⟩
        rcases i.stop o _ hlo (.inl rfl) with hs | ⟨r, hr, -⟩
        · cases q with
          | nil => cases hs
          | cons e q => cases e <;> simp [sdStep, hlo]
        · exact absurd hr (hns r)
      | wantLock => exact ⟨.look o, rfl, by simp [sdStep, hlo, hf]⟩
      | ended => exact ⟨.forget o, rfl, by simp [sdStep, hlo, hf]⟩
      | gone => exact absurd rfl hg
    · rw [List.all_eq_false] at hq
      obtain ⟨l, hl, hg⟩ := hq
      simp only [decide_eq_true_eq] at hg
      obtain ⟨j, hj⟩ := List.getElem?_of_mem hl
      refine ⟨.serveEnds j, rfl, ?_⟩
      cases l with
      | serving => exact absurd rfl (i.listeners _ hl)
      | closed => simp [sdStep, hj, hf]
      | gone => exact absurd rfl hg
    · simp only [decide_eq_false_iff_not] at hq
      cases hj : st'.janitor with
      | sleeping => exact ⟨.janitorEnds, rfl, by simp [sdStep, hj, sdCalled, i.called]⟩
      | wantLock => exact ⟨.janitorLook, rfl, by simp [sdStep, hj, hf]⟩
      | gone => exact absurd hj hq
  cases hp : st'.phase with
  | up => exact absurd hp i.called
  | stopping rest =>
    cases rest with
    | nil => exact ⟨.unlock, rfl, by simp [sdStep, hp]⟩
    | cons o rest =>
      obtain ⟨l, hl, hg⟩ := i.rest o _ hp List.mem_cons_self
      by_cases hq : l.queue.length < sdCap
      · exact ⟨.sendStop, rfl, by simp [sdStep, hp, hl, hq]⟩
      · obtain ⟨q, a, s⟩ := l
        cases a with
        | idle =>
          refine ⟨.take o, rfl, ?_⟩
          cases q with
          | nil => simp [sdCap] at hq
          | cons e q => cases e <;> simp [sdStep, hl]
        | wantLock => exact absurd ⟨o, rest, _, hp, hl, Nat.not_lt.1 hq, .inl rfl⟩ hdead
        | ended => exact absurd ⟨o, rest, _, hp, hl, Nat.not_lt.1 hq, .inr rfl⟩ hdead
        | gone => exact absurd rfl hg
  | waiting =>
    by_cases hq : sdQuiet st' = true
    · exact ⟨.waitEnds, rfl, by simp [sdStep, hp, hq]⟩
    · exact free (by simp [sdFree, hp]) (by simp [hp]) (by simpa using hq)
  | waited => exact ⟨.closeDb, rfl, by simp [sdStep, hp]⟩
  | down => exact absurd hp hd

/-! ### The goroutines do not go on forever -/

private def atWork : SdAt → Nat
  | .idle => 2
  | .wantLock => 3
  | .ended => 1
  | .gone => 0

private def loopWork (l : SdLoop) : Nat := 2 * l.queue.length + atWork l.at_

private def lnWork : SdListener → Nat
  | .closed => 1
  | _ => 0

private def phaseWork : SdPhase → Nat
  | .up => 0
  | .stopping rest => 3 * rest.length + 3
  | .waiting => 2
  | .waited => 1
  | .down => 0

private def janitorWork : SdJanitor → Nat
  | .sleeping => 1
  | .wantLock => 2
  | .gone => 0

/-- How many steps the goroutines can make if nothing comes from outside. -/
private def sdWork (st : SdState) : Nat :=
  phaseWork st.phase + (st.loops.map loopWork).sum + (st.listeners.map lnWork).sum + janitorWork st.janitor

private theorem sum_set {A : Type} (f : A → Nat) (xs : List A) (o : Nat) (m l : A) (h : xs[o]? = some m) :
    ((xs.set o l).map f).sum + f m = (xs.map f).sum + f l := by
  induction xs generalizing o with
  | nil => simp at h
  | cons x xs ih =>
    cases o with
    | zero => simp only [List.getElem?_cons_zero, Option.some.injEq] at h; subst h; simp; omega
    | succ o =>
      simp only [List.getElem?_cons_succ] at h
      have := ih o h
      simp only [List.set_cons_succ, List.map_cons, List.sum_cons]
      omega

private theorem work_set (st : SdState) {o : Nat} {m : SdLoop} (l : SdLoop) (h : st.loops[o]? = some m) :
    sdWork (sdSet st o l) + loopWork m = sdWork st + loopWork l := by
  have := sum_set loopWork st.loops o m l h
  simp only [sdWork, sdSet]
  omega

private theorem work_step {st st' : SdState} (op : SdOp) (hcalled : st.phase ≠ .up) (hc : op ≠ .create) (hs : op ≠ .serve)
    (h : sdStep st op = some st') :
    (if sdProgress op = true then 1 else 0) + sdWork st' ≤ sdWork st + (if sdProgress op = true then 0 else 2) := by
  cases op with
  | call order => simp [sdStep, hcalled] at h
  | sendStop =>
    simp only [sdStep] at h
    split at h
    · rename_i o rest hp
      split at h
      · rename_i l hl
        split at h
        · simp only [Option.some.injEq] at h; subst h
          have := work_set st { l with queue := l.queue ++ [.stop] } hl
          simp only [sdWork, sdSet, hp, phaseWork, loopWork, List.length_append, List.length_cons, List.length_nil,
            sdProgress, if_true] at this ⊢
          omega
        · cases h
      · cases h
    · cases h
  | unlock =>
    simp only [sdStep] at h
    split at h
    · rename_i hp
      simp only [Option.some.injEq] at h; subst h
      simp only [sdWork, hp, phaseWork, sdProgress, if_true, List.length_nil]; omega
    · cases h
  | waitEnds =>
    simp only [sdStep] at h
    split at h
    · rename_i hp
      simp only [Option.some.injEq] at h; subst h
      simp only [sdWork, hp.1, phaseWork, sdProgress, if_true]; omega
    · cases h
  | closeDb =>
    simp only [sdStep] at h
    split at h
    · rename_i hp
      simp only [Option.some.injEq] at h; subst h
      simp only [sdWork, hp, phaseWork, sdProgress, if_true]; omega
    · cases h
  | take o =>
    simp only [sdStep] at h
    split at h
    · rename_i q s hl
      simp only [Option.some.injEq] at h; subst h
      have := work_set st ⟨q, .idle, s⟩ hl
      simp only [loopWork, atWork, List.length_cons, sdProgress, if_true] at this ⊢
      omega
    · rename_i q s hl
      simp only [Option.some.injEq] at h; subst h
      have := work_set st ⟨q, .wantLock, s⟩ hl
      simp only [loopWork, atWork, List.length_cons, sdProgress, if_true] at this ⊢
      omega
    · rename_i q s hl
      simp only [Option.some.injEq] at h; subst h
      have := work_set st ⟨q, .ended, sdOpen st⟩ hl
      simp only [loopWork, atWork, List.length_cons, sdProgress, if_true] at this ⊢
      omega
    · cases h
  | look o =>
    simp only [sdStep] at h
    split at h
    · rename_i q s hl
      split at h
      · simp only [Option.some.injEq] at h; subst h
        have := work_set st ⟨q, .idle, s⟩ hl
        simp only [loopWork, atWork, sdProgress, if_true] at this ⊢
        omega
      · cases h
    · cases h
  | forget o =>
    simp only [sdStep] at h
    split at h
    · rename_i q s hl
      split at h
      · simp only [Option.some.injEq] at h; subst h
        have := work_set st ⟨q, .gone, s⟩ hl
        simp only [loopWork, atWork, sdProgress, if_true] at this ⊢
        omega
      · cases h
    · cases h
  | serveEnds j =>
    simp only [sdStep] at h
    split at h
    · rename_i hj
      simp only [Option.some.injEq] at h; subst h
      have := sum_set lnWork st.listeners j _ .gone hj.1
      simp only [sdWork, lnWork, sdProgress, if_true] at this ⊢
      omega
    · cases h
  | serveFails j =>
    simp only [sdStep] at h
    split at h
    · rename_i hj
      simp only [Option.some.injEq] at h; subst h
      have := sum_set lnWork st.listeners j _ .gone hj.1
      simp only [sdWork, lnWork, sdProgress] at this ⊢
      simp only [Bool.false_eq_true, if_false]
      omega
    · cases h
  | janitorLook =>
    simp only [sdStep] at h
    split at h
    · rename_i hj
      simp only [Option.some.injEq] at h; subst h
      simp only [sdWork, hj.1, janitorWork, sdProgress, if_true]; omega
    · cases h
  | janitorEnds =>
    simp only [sdStep] at h
    split at h
    · rename_i hj
      simp only [Option.some.injEq] at h; subst h
      simp only [sdWork, hj.1, janitorWork, sdProgress, if_true]; omega
    · cases h
  | arrive o ev =>
    simp only [sdStep] at h
    split at h
    · rename_i l hl
      split at h
      · simp only [Option.some.injEq] at h; subst h
        have := work_set st { l with queue := l.queue ++ [ev] } hl
        simp only [loopWork, List.length_append, List.length_cons, List.length_nil, sdProgress] at this ⊢
        simp only [Bool.false_eq_true, if_false]
        omega
      · cases h
    · cases h
  | crash o =>
    simp only [sdStep] at h
    split at h
    · rename_i q s hl
      simp only [Option.some.injEq] at h; subst h
      have := work_set st ⟨q, .ended, s⟩ hl
      simp only [loopWork, atWork, sdProgress] at this ⊢
      simp only [Bool.false_eq_true, if_false]
      omega
    · cases h
  | create => exact absurd rfl hc
  | serve => exact absurd rfl hs
  | janitorWakes =>
    simp only [sdStep] at h
    split at h
    · rename_i hj
      simp only [Option.some.injEq] at h; subst h
      simp only [sdWork, hj, janitorWork, sdProgress, Bool.false_eq_true, if_false]; omega
    · cases h

private theorem work_run {st st' : SdState} (i : SdInv st) (ops : List SdOp) (hn : sdNoNews ops)
    (h : sdRun st ops = some st') :
    ops.countP (fun op => sdProgress op) + sdWork st' ≤ sdWork st + 2 * ops.countP (fun op => !sdProgress op) := by
  induction ops generalizing st with
  | nil => simp only [sdRun, Option.some.injEq] at h; subst h; simp
  | cons op ops ih =>
    obtain ⟨m, hm, hr⟩ := Option.bind_eq_some_iff.1 h
    obtain ⟨h1, h2⟩ := hn
    simp only [List.mem_cons, not_or] at h1 h2
    have hc : op ≠ .create := fun e => h1.1 e.symm
    have hs : op ≠ .serve := fun e => h2.1 e.symm
    have := ih (inv_step i op hc hs hm) ⟨h1.2, h2.2⟩ hr
    have hw := work_step op i.called hc hs hm
    simp only [List.countP_cons]
    cases hp : sdProgress op <;> simp only [hp, if_true, Bool.false_eq_true, if_false, Bool.not_true, Bool.not_false] at hw ⊢ <;> omega

/-- C94, part: the goroutines do not keep `Shutdown` waiting forever: once it is called, there is a bound to the number of
steps they can make, which grows by at most two with each event that comes from outside.  Missing: accounts created and
listeners started after `Shutdown` was called. -/
theorem C94_bounded_partial (st st1 : SdState) (pre : List SdOp) (order : List Nat)
    (h1 : sdRun st (pre ++ [.call order]) = some st1) :
    ∃ bound, ∀ post st', sdNoNews post → sdRun st1 post = some st' →
      post.countP (fun op => sdProgress op) ≤ bound + 2 * post.countP (fun op => !sdProgress op) := by
  refine ⟨sdWork st1, fun post st' hn h => ?_⟩
  have i := inv_after pre order [] ⟨List.not_mem_nil, List.not_mem_nil⟩ h1
  have := work_run i post hn h
  omega

/-- A bouncer with two users and a listener for the examples. -/
private def exSd : SdState := { loops := [{}, {}], listeners := [.serving] }

/-- A whole run. -/
private def exSdOps : List SdOp :=
  [.arrive 0 .table, .call [1, 0], .sendStop, .take 0, .take 1, .sendStop, .janitorEnds, .unlock, .look 0, .take 0,
   .forget 1, .serveEnds 0, .forget 0, .waitEnds, .closeDb]

example : sdRun exSd exSdOps = some
    ({ phase := .down, loops := [⟨[], .gone, true⟩, ⟨[], .gone, true⟩], listeners := [.gone], janitor := .gone } : SdState) := by
  decide

example : sdNoNews exSdOps := by unfold sdNoNews exSdOps; decide

private theorem dead_step {st st' : SdState} (op : SdOp) {o : Nat} {rest : List Nat} (hp : st.phase = .stopping (o :: rest))
    {l : SdLoop} (hl : st.loops[o]? = some l) (hq : sdCap ≤ l.queue.length) (ha : l.at_ = .wantLock ∨ l.at_ = .ended)
    (h : sdStep st op = some st') : st'.phase = .stopping (o :: rest) ∧ st'.loops[o]? = some l := by
  have hf : sdFree st = false := by simp [sdFree, hp]
  have other : ∀ p m k, st.loops[p]? = some m → m ≠ l →
      (sdSet st p k).phase = .stopping (o :: rest) ∧ (sdSet st p k).loops[o]? = some l := by
    intro p m k hm hne
    refine ⟨hp, ?_⟩
    simp only [sdSet, set_get hm]
    rw [if_neg]
    · exact hl
    · intro e; subst e
      rw [hm, Option.some.injEq] at hl
      exact hne hl
  obtain ⟨q, a, s⟩ := l
  cases op with
  | call order => simp [sdStep, hp] at h
  | sendStop => simp [sdStep, hp, hl, Nat.not_lt.2 hq] at h
  | unlock => simp [sdStep, hp] at h
  | waitEnds => simp [sdStep, hp] at h
  | closeDb => simp [sdStep, hp] at h
  | take p =>
    simp only [sdStep] at h
    split at h
    · rename_i hm
      simp only [Option.some.injEq] at h; subst h
      exact other p _ _ hm (fun e => by simp only [SdLoop.mk.injEq] at e; rw [← e.2.1] at ha; simp at ha)
    · rename_i hm
      simp only [Option.some.injEq] at h; subst h
      exact other p _ _ hm (fun e => by simp only [SdLoop.mk.injEq] at e; rw [← e.2.1] at ha; simp at ha)
    · rename_i hm
      simp only [Option.some.injEq] at h; subst h
      exact other p _ _ hm (fun e => by simp only [SdLoop.mk.injEq] at e; rw [← e.2.1] at ha; simp at ha)
    · cases h
  | look p =>
    simp only [sdStep, hf, Bool.false_eq_true, if_false] at h
    split at h <;> cases h
  | forget p =>
    simp only [sdStep, hf, Bool.false_eq_true, if_false] at h
    split at h <;> cases h
  | serveEnds j => simp [sdStep, hf] at h
  | serveFails j => simp [sdStep, hf] at h
  | janitorLook => simp [sdStep, hf] at h
  | janitorEnds =>
    simp only [sdStep] at h
    split at h
    · simp only [Option.some.injEq] at h; subst h; exact ⟨hp, hl⟩
    · cases h
  | janitorWakes =>
    simp only [sdStep] at h
    split at h
    · simp only [Option.some.injEq] at h; subst h; exact ⟨hp, hl⟩
    · cases h
  | arrive p ev =>
    simp only [sdStep] at h
    split at h
    · rename_i m hm
      split at h
      · rename_i hlt
        simp only [Option.some.injEq] at h; subst h
        exact other p m _ hm (fun e => by subst e; exact absurd hlt (Nat.not_lt.2 hq))
      · cases h
    · cases h
  | crash p =>
    simp only [sdStep] at h
    split at h
    · rename_i hm
      simp only [Option.some.injEq] at h; subst h
      exact other p _ _ hm (fun e => by simp only [SdLoop.mk.injEq] at e; rw [← e.2.1] at ha; simp at ha)
    · cases h
  | create => simp [sdStep, hf] at h
  | serve => simp [sdStep, hf] at h

/-- The deadlock does not go away, whatever happens. -/
theorem C94_deadlock_stays (st st' : SdState) (h : SdDeadlock st) (ops : List SdOp) (hr : sdRun st ops = some st') :
    SdDeadlock st' ∧ st'.phase = st.phase := by
  obtain ⟨o, rest, l, hp, hl, hq, ha⟩ := h
  have : st'.phase = .stopping (o :: rest) ∧ st'.loops[o]? = some l := by
    induction ops generalizing st with
    | nil => simp only [sdRun, Option.some.injEq] at hr; subst hr; exact ⟨hp, hl⟩
    | cons op ops ih =>
      obtain ⟨m, hm, hr⟩ := Option.bind_eq_some_iff.1 hr
      obtain ⟨h1, h2⟩ := dead_step op hp hl hq ha hm
      exact ih m hr h1 h2
  exact ⟨⟨o, rest, l, this.1, this.2, hq, ha⟩, this.1.trans hp.symm⟩

/-- C94: `Shutdown` may wait forever.  The loop of a user waits for the lock, which `Shutdown` has; clients have filled the
channel of the user; `Shutdown` waits for a place in the channel.  The database is never closed. -/
theorem C94_deadlock_violated :
    ∃ st, sdRun exSd ([.call [0, 1], .arrive 0 .table, .take 0] ++ List.replicate 64 (.arrive 0 .plain)) = some st ∧
      ∀ ops st', sdRun st ops = some st' → st'.phase = .stopping [0, 1] := by
  refine ⟨_, rfl, fun ops st' h => ?_⟩
  exact (C94_deadlock_stays _ st' ⟨0, [1], _, rfl, rfl, by decide, .inl rfl⟩ ops h).2

/-- C94: an account that is created while the bouncer stops, for a client that has connected before, is not stopped:
`Shutdown` waits for its goroutine forever, although nobody has anything to do; or the database is closed while the
goroutine runs. -/
theorem C94_late_account_violated :
    (∃ st', sdRun { loops := [{}] } [.call [0], .sendStop, .unlock, .create, .take 0, .forget 0, .janitorEnds] = some st' ∧
      st'.phase = .waiting ∧ sdStep st' .waitEnds = none ∧ sdStep st' (.take 1) = none) ∧
    (∃ st', sdRun { loops := [{}] } [.call [0], .sendStop, .unlock, .take 0, .forget 0, .janitorEnds, .waitEnds, .create,
      .closeDb] = some st' ∧ st'.phase = .down ∧ LoopAlive st' 1) := by
  refine ⟨⟨_, rfl, rfl, by decide, by decide⟩, ⟨_, rfl, rfl, ⟨_, rfl, by decide⟩⟩⟩

end Verif.Props
