import Verif.Spec.Loops

/-! # Facts about the event loops: who waits for whom, and how much there is left to do -/

namespace Verif.Proof

open Verif.Model Verif.Spec

/-! ## Lists -/

theorem lp_sum_set {α : Type} (f : α → Nat) (L : List α) (u : Nat) (x y : α) (h : L[u]? = some x) :
    ((L.set u y).map f).sum + f x = (L.map f).sum + f y := by
  induction L generalizing u with
  | nil => simp at h
  | cons a L ih =>
    cases u with
    | zero => simp at h; subst h; simp; omega
    | succ u =>
      simp at h
      have := ih u h
      simp only [List.set_cons_succ, List.map_cons, List.sum_cons]; omega

theorem lp_sum_pos {α : Type} (f : α → Nat) (L : List α) (h : 0 < (L.map f).sum) :
    ∃ (u : Nat) (x : α), L[u]? = some x ∧ 0 < f x := by
  induction L with
  | nil => simp at h
  | cons a L ih =>
    by_cases ha : 0 < f a
    · exact ⟨0, a, by simp, ha⟩
    · simp only [List.map_cons, List.sum_cons] at h
      obtain ⟨u, x, h1, h2⟩ := ih (by omega)
      exact ⟨u + 1, x, by simpa using h1, h2⟩

theorem lp_le_sum {α : Type} (f : α → Nat) (L : List α) (u : Nat) (x : α) (h : L[u]? = some x) :
    f x ≤ (L.map f).sum := by
  induction L generalizing u with
  | nil => simp at h
  | cons a L ih =>
    cases u with
    | zero => simp at h; subst h; simp
    | succ u => simp at h; have := ih u h; simp only [List.map_cons, List.sum_cons]; omega

theorem lp_le_sum2 {α : Type} (f : α → Nat) (L : List α) (u v : Nat) (x y : α) (h : L[u]? = some x)
    (h' : L[v]? = some y) (hne : u ≠ v) : f x + f y ≤ (L.map f).sum := by
  induction L generalizing u v with
  | nil => simp at h
  | cons a L ih =>
    cases u with
    | zero =>
      cases v with
      | zero => exact absurd rfl hne
      | succ v =>
        simp at h h'; subst h
        have := lp_le_sum f L v y h'
        simp only [List.map_cons, List.sum_cons]; omega
    | succ u =>
      cases v with
      | zero =>
        simp at h h'; subst h'
        have := lp_le_sum f L u x h
        simp only [List.map_cons, List.sum_cons]; omega
      | succ v =>
        simp at h h'
        have := ih u v h h' (by omega)
        simp only [List.map_cons, List.sum_cons]; omega

theorem lp_get_set {α : Type} (L : List α) (u v : Nat) (x y : α) (h : L[u]? = some x) :
    (L.set u y)[v]? = if v = u then some y else L[v]? := by
  have hu : u < L.length := by
    rcases Nat.lt_or_ge u L.length with h1 | h1
    · exact h1
    · rw [List.getElem?_eq_none h1] at h; cases h
  rw [List.getElem?_set]
  by_cases hv : v = u
  · subst hv; simp [hu]
  · simp [hv, Ne.symm hv]

/-! ## Who holds and who awaits a request -/

def lpIsRun (r : Nat) : LpEv → Bool
  | .run r' _ => r' = r
  | _ => false

def lpKTok (r : Nat) (k : Option Nat) : Nat := if k = some r then 1 else 0

/-- the loop executes request `r` -/
def lpServe (r : Nat) : LpSt → Nat
  | .idle => 0
  | .lookup _ _ k => lpKTok r k
  | .sending _ _ _ k => lpKTok r k
  | .waitUpd _ k => lpKTok r k
  | .waitRun _ _ k => lpKTok r k
  | .printing r' _ => if r' = r then 1 else 0
  | .waitDone _ _ k => lpKTok r k
  | .casting _ _ k => lpKTok r k
  | .dead => 0

def lpSendT (r : Nat) : LpSt → Nat
  | .sending _ ev _ _ => if lpIsRun r ev then 1 else 0
  | _ => 0

def lpAwait (r : Nat) : LpSt → Nat
  | .waitRun r' _ _ => if r' = r then 1 else 0
  | _ => 0

def lpHold (r : Nat) (l : LpLoop) : Nat := l.queue.countP (lpIsRun r) + lpServe r l.st

def lpTok (r : Nat) (st : LpState) : Nat :=
  (st.loops.map (fun l => lpHold r l + lpSendT r l.st)).sum + st.chan.count (r, true)

def lpWaiters (r : Nat) (st : LpState) : Nat :=
  (st.loops.map (fun l => lpSendT r l.st + lpAwait r l.st)).sum

/-! ## What the events and states of a loop satisfy -/

def lpEvOk (rank : Nat → Nat) (u : Nat) : LpEv → Prop
  | .msg c => lpBelow rank u c
  | .run _ c => lpBelow rank u c
  | .stop => False
  | _ => True

def lpStOk (rank : Nat → Nat) (st : LpState) (u : Nat) : LpSt → Prop
  | .lookup c _ _ =>
    match c with
    | .plain _ => True
    | .update t => rank t < rank u
    | .run t c => rank t < rank u ∧ lpBelow rank t c
    | .delete _ => False
    | .broadcast _ => False
  | .sending t ev _ _ => rank t < rank u ∧ lpEvOk rank t ev ∧ t < st.loops.length
  | .waitUpd r _ => r ∈ st.answered ∨ ∃ t l, st.loops[t]? = some l ∧ rank t < rank u ∧ .upd r ∈ l.queue
  | .printing _ n => 1 ≤ n
  | .casting _ _ _ => False
  | .waitDone _ _ _ => False
  | .dead => False
  | _ => True

structure LpInv (rank : Nat → Nat) (st : LpState) : Prop where
  lock : st.lock = none
  evs : ∀ u l, st.loops[u]? = some l → ∀ ev ∈ l.queue, lpEvOk rank u ev
  sts : ∀ u l, st.loops[u]? = some l → lpStOk rank st u l.st
  bal : ∀ r, lpTok r st = lpWaiters r st
  one : ∀ r, lpTok r st ≤ 1
  fresh : ∀ r, st.next ≤ r → lpTok r st = 0
  order : ∀ r u lu t lt, st.loops[u]? = some lu → st.loops[t]? = some lt →
    0 < lpSendT r lu.st + lpAwait r lu.st → 0 < lpHold r lt → rank t < rank u

/-! ## What is left to do -/

def lpCmdW : LpCmd → Nat
  | .plain n => 2 * n + 1
  | .update _ => 4
  | .run _ c => lpCmdW c + 6
  | .delete _ => 0
  | .broadcast _ => 0

def lpEvW : LpEv → Nat
  | .msg c => lpCmdW c + 2
  | .upd _ => 1
  | .run _ c => lpCmdW c + 4
  | .bcast => 1
  | .stop => 0

def lpKW : Option Nat → Nat
  | none => 0
  | some _ => 2

def lpStW : LpSt → Nat
  | .idle => 0
  | .lookup c _ k => lpCmdW c + lpKW k + 1
  | .sending _ ev _ k => lpEvW ev + 2 + lpKW k
  | .waitUpd _ k => 1 + lpKW k
  | .waitRun _ _ k => 1 + lpKW k
  | .printing _ n => 2 * n
  | .casting _ _ _ => 0
  | .waitDone _ _ _ => 0
  | .dead => 0

def lpLoopW (l : LpLoop) : Nat := (l.queue.map lpEvW).sum + lpStW l.st

def lpWork (st : LpState) : Nat := (st.loops.map lpLoopW).sum + st.chan.length

/-! ## Executing a command -/

theorem lpFin_serve (r : Nat) (k : Option Nat) : lpServe r (lpFin k) = lpKTok r k := by
  cases k <;> simp [lpFin, lpServe, lpKTok]
theorem lpFin_send (r : Nat) (k : Option Nat) : lpSendT r (lpFin k) = 0 := by cases k <;> rfl
theorem lpFin_await (r : Nat) (k : Option Nat) : lpAwait r (lpFin k) = 0 := by cases k <;> rfl
theorem lpFin_w (k : Option Nat) : lpStW (lpFin k) = lpKW k := by cases k <;> rfl
theorem lpFin_ok (rank : Nat → Nat) (st : LpState) (u : Nat) (k : Option Nat) : lpStOk rank st u (lpFin k) := by
  cases k <;> simp [lpFin, lpStOk]

theorem lpStart_serve (u : Nat) (timed : Bool) (k : Option Nat) (r : Nat) (c : LpCmd) :
    lpServe r (lpStart u timed k c) = lpKTok r k := by
  induction c with
  | plain n => cases k <;> simp [lpStart, lpServe, lpKTok]
  | update t => simp only [lpStart]; split; exact lpFin_serve ..; rfl
  | run t c ih => simp only [lpStart]; split; exact ih; rfl
  | delete t => simp [lpStart, lpServe]
  | broadcast s => simp [lpStart, lpServe]

theorem lpStart_send (u : Nat) (timed : Bool) (k : Option Nat) (r : Nat) (c : LpCmd) :
    lpSendT r (lpStart u timed k c) = 0 := by
  induction c with
  | plain n => cases k <;> simp [lpStart, lpSendT]
  | update t => simp only [lpStart]; split; exact lpFin_send ..; rfl
  | run t c ih => simp only [lpStart]; split; exact ih; rfl
  | delete t => simp [lpStart, lpSendT]
  | broadcast s => simp [lpStart, lpSendT]

theorem lpStart_await (u : Nat) (timed : Bool) (k : Option Nat) (r : Nat) (c : LpCmd) :
    lpAwait r (lpStart u timed k c) = 0 := by
  induction c with
  | plain n => cases k <;> simp [lpStart, lpAwait]
  | update t => simp only [lpStart]; split; exact lpFin_await ..; rfl
  | run t c ih => simp only [lpStart]; split; exact ih; rfl
  | delete t => simp [lpStart, lpAwait]
  | broadcast s => simp [lpStart, lpAwait]

theorem lpStart_w (rank : Nat → Nat) (u : Nat) (timed : Bool) (k : Option Nat) (c : LpCmd) (h : lpBelow rank u c) :
    lpStW (lpStart u timed k c) ≤ lpCmdW c + lpKW k + 1 := by
  induction c with
  | plain n => cases k <;> simp [lpStart, lpStW, lpCmdW, lpKW] <;> omega
  | update t => simp only [lpStart]; split; rw [lpFin_w]; omega; simp [lpStW]
  | run t c ih =>
    simp only [lpStart]; split
    · rename_i ht; have := ih (ht ▸ h.2); simp only [lpCmdW]; omega
    · simp [lpStW]
  | delete t => exact absurd h (by simp [lpBelow])
  | broadcast s => exact absurd h (by simp [lpBelow])

theorem lpStart_ok (rank : Nat → Nat) (st : LpState) (u : Nat) (timed : Bool) (k : Option Nat) (c : LpCmd)
    (h : lpBelow rank u c) : lpStOk rank st u (lpStart u timed k c) := by
  induction c with
  | plain n => cases k <;> simp [lpStart, lpStOk]
  | update t =>
    simp only [lpStart]; split
    · exact lpFin_ok ..
    · rename_i ht; rcases h with h | h
      · exact absurd h ht
      · exact h
  | run t c ih =>
    simp only [lpStart]; split
    · rename_i ht; exact ih (ht ▸ h.2)
    · rename_i ht; rcases h with ⟨h | h, h2⟩
      · exact absurd h ht
      · exact ⟨h, h2⟩
  | delete t => exact absurd h (by simp [lpBelow])
  | broadcast s => exact absurd h (by simp [lpBelow])

/-! ## Channels of messages -/

theorem lpGet_count {chan : List (Nat × Bool)} {r : Nat} {f : Bool} (h : lpGet chan r = some f) (r' : Nat) :
    (lpDrop chan r).count (r', true) + (if r' = r ∧ f = true then 1 else 0) = chan.count (r', true) := by
  induction chan with
  | nil => simp [lpGet] at h
  | cons m chan ih =>
    obtain ⟨a, b⟩ := m
    by_cases ha : a = r
    · subst ha
      simp [lpGet] at h
      subst h
      have he : lpDrop ((a, b) :: chan) a = chan := by simp [lpDrop]
      rw [he, List.count_cons]
      by_cases hr : r' = a
      · subst hr; cases b <;> simp
      · have : ¬ (a = r') := fun h => hr h.symm
        simp [hr, this]
    · have h' : lpGet chan r = some f := by simpa [lpGet, ha] using h
      have := ih h'
      have he : lpDrop ((a, b) :: chan) r = (a, b) :: lpDrop chan r := by simp [lpDrop, ha]
      rw [he, List.count_cons, List.count_cons]
      omega

theorem lpGet_length {chan : List (Nat × Bool)} {r : Nat} {f : Bool} (h : lpGet chan r = some f) :
    (lpDrop chan r).length + 1 = chan.length := by
  induction chan with
  | nil => simp [lpGet] at h
  | cons m chan ih =>
    obtain ⟨a, b⟩ := m
    by_cases ha : a = r
    · simp [lpDrop, ha]
    · have h' : lpGet chan r = some f := by simpa [lpGet, ha] using h
      have := ih h'
      have he : lpDrop ((a, b) :: chan) r = (a, b) :: lpDrop chan r := by simp [lpDrop, ha]
      rw [he]; simp; omega

theorem lpGet_of_count {chan : List (Nat × Bool)} {r : Nat} (h : 0 < chan.count (r, true)) :
    (lpGet chan r).isSome := by
  have hm : (r, true) ∈ chan := List.count_pos_iff.mp h
  simp only [lpGet, Option.isSome_map, List.find?_isSome]
  exact ⟨_, hm, by simp⟩

/-! ## Each step keeps the invariant -/

theorem lpStOk_mono {rank : Nat → Nat} {st st' : LpState} {u : Nat} {s : LpSt} (hl : st'.loops.length = st.loops.length)
    (ha : ∀ r, r ∈ st.answered → r ∈ st'.answered)
    (hq : ∀ (r t : Nat) (l : LpLoop), st.loops[t]? = some l → .upd r ∈ l.queue →
      r ∈ st'.answered ∨ ∃ l' : LpLoop, st'.loops[t]? = some l' ∧ .upd r ∈ l'.queue)
    (h : lpStOk rank st u s) : lpStOk rank st' u s := by
  cases s with
  | sending t ev timed k => exact ⟨h.1, h.2.1, hl ▸ h.2.2⟩
  | waitUpd r k =>
    rcases h with h | ⟨t, l, h1, h2, h3⟩
    · exact Or.inl (ha r h)
    · rcases hq r t l h1 h3 with h4 | ⟨l', h4, h5⟩
      · exact Or.inl h4
      · exact Or.inr ⟨t, l', h4, h2, h5⟩
  | _ => exact h

/-- One loop changes. -/
theorem lpInv_local {rank : Nat → Nat} {st st' : LpState} (inv : LpInv rank st) {u : Nat} {l l' : LpLoop}
    (hu : st.loops[u]? = some l) (hloops : st'.loops = st.loops.set u l') (hlock : st'.lock = none)
    (hnext : st.next ≤ st'.next) (hans : ∀ r, r ∈ st.answered → r ∈ st'.answered)
    (hevs : ∀ ev ∈ l'.queue, lpEvOk rank u ev)
    (hupd : ∀ r, .upd r ∈ l.queue → r ∈ st'.answered ∨ .upd r ∈ l'.queue)
    (hst : lpStOk rank st u l'.st)
    (hbal : ∀ r, lpHold r l' + lpSendT r l'.st + st'.chan.count (r, true) + (lpSendT r l.st + lpAwait r l.st) =
      lpHold r l + lpSendT r l.st + st.chan.count (r, true) + (lpSendT r l'.st + lpAwait r l'.st))
    (hhold : ∀ r, lpHold r l' ≤ lpHold r l)
    (hw : ∀ r, lpSendT r l'.st + lpAwait r l'.st ≤ lpSendT r l.st + lpAwait r l.st ∨
      (st.next ≤ r ∧ r < st'.next ∧ lpSendT r l'.st + lpAwait r l'.st ≤ 1)) : LpInv rank st' := by
  have hT : ∀ r, lpTok r st' + (lpHold r l + lpSendT r l.st) + st.chan.count (r, true) =
      lpTok r st + (lpHold r l' + lpSendT r l'.st) + st'.chan.count (r, true) := by
    intro r
    have := lp_sum_set (fun l => lpHold r l + lpSendT r l.st) st.loops u l l' hu
    simp only [lpTok, hloops]; omega
  have hW : ∀ r, lpWaiters r st' + (lpSendT r l.st + lpAwait r l.st) =
      lpWaiters r st + (lpSendT r l'.st + lpAwait r l'.st) := by
    intro r
    have := lp_sum_set (fun l => lpSendT r l.st + lpAwait r l.st) st.loops u l l' hu
    simp only [lpWaiters, hloops]; omega
  have bal' : ∀ r, lpTok r st' = lpWaiters r st' := by
    intro r
    have h1 := hT r; have h2 := hW r; have h3 := hbal r; have h4 := inv.bal r
    omega
  have hget : ∀ v, st'.loops[v]? = if v = u then some l' else st.loops[v]? := by
    intro v; rw [hloops]; exact lp_get_set st.loops u v l l' hu
  have hlen : st'.loops.length = st.loops.length := by rw [hloops]; simp
  have hq : ∀ (r t : Nat) (l : LpLoop), st.loops[t]? = some l → .upd r ∈ l.queue →
      r ∈ st'.answered ∨ ∃ l' : LpLoop, st'.loops[t]? = some l' ∧ .upd r ∈ l'.queue := by
    intro r t lt ht hm
    by_cases htu : t = u
    · subst htu
      rw [hu] at ht; cases ht
      rcases hupd r hm with h | h
      · exact Or.inl h
      · exact Or.inr ⟨l', by rw [hget]; simp, h⟩
    · exact Or.inr ⟨lt, by rw [hget, if_neg htu]; exact ht, hm⟩
  refine ⟨hlock, ?_, ?_, bal', ?_, ?_, ?_⟩
  · intro v lv hv
    rw [hget] at hv
    by_cases hvu : v = u
    · rw [if_pos hvu] at hv; cases hv; subst hvu; exact hevs
    · rw [if_neg hvu] at hv; exact inv.evs v lv hv
  · intro v lv hv
    rw [hget] at hv
    by_cases hvu : v = u
    · rw [if_pos hvu] at hv; cases hv; subst hvu; exact lpStOk_mono hlen hans hq hst
    · rw [if_neg hvu] at hv; exact lpStOk_mono hlen hans hq (inv.sts v lv hv)
  · intro r
    have h1 := inv.one r; have h2 := inv.bal r; have h3 := hW r; have h4 := bal' r
    rcases hw r with h5 | ⟨h5, _, h6⟩
    · omega
    · have := inv.fresh r h5; omega
  · intro r hr
    have h1 := inv.fresh r (by omega); have h2 := inv.bal r; have h3 := hW r; have h4 := bal' r
    rcases hw r with h5 | ⟨_, h5, _⟩ <;> omega
  · intro r v lv t lt hv ht hpos hh
    rw [hget] at hv ht
    have hhold' : ∃ lt0, st.loops[t]? = some lt0 ∧ 0 < lpHold r lt0 := by
      by_cases htu : t = u
      · rw [if_pos htu] at ht; cases ht; subst htu
        exact ⟨l, hu, Nat.lt_of_lt_of_le hh (hhold r)⟩
      · rw [if_neg htu] at ht; exact ⟨lt, ht, hh⟩
    obtain ⟨lt0, ht0, hh0⟩ := hhold'
    by_cases hvu : v = u
    · rw [if_pos hvu] at hv; cases hv; subst hvu
      rcases hw r with h5 | ⟨h5, _, _⟩
      · exact inv.order r v l t lt0 hu ht0 (by omega) hh0
      · exfalso
        have h6 := inv.fresh r h5
        have h7 := lp_le_sum (fun l => lpHold r l + lpSendT r l.st) st.loops t lt0 ht0
        simp only [lpTok] at h6
        omega
    · rw [if_neg hvu] at hv
      exact inv.order r v lv t lt0 hv ht0 hpos hh0

/-- The event of `u` is sent. -/
theorem lpInv_send {rank : Nat → Nat} {cap : Nat} {st st' : LpState} (inv : LpInv rank st) {u : Nat} {l : LpLoop}
    (hu : st.loops[u]? = some l) (h : lpSend cap st u l = some st') : LpInv rank st' := by
  unfold lpSend at h
  split at h
  · rename_i t ev timed k hs
    have hok := inv.sts u l hu
    rw [hs] at hok
    obtain ⟨hrank, hevok, hlt⟩ := hok
    have htu : t ≠ u := by intro h; subst h; omega
    obtain ⟨l', hl'⟩ : ∃ l' : LpLoop, l' = { l with st := lpSent t timed k ev } := ⟨_, rfl⟩
    have hg1 := fun v => lp_get_set st.loops u v l l' hu
    simp only [lpPush, lpSet, ← hl'] at h
    rw [hg1 t, if_neg htu] at h
    obtain ⟨lt, hlt'⟩ : ∃ lt, st.loops[t]? = some lt := ⟨_, List.getElem?_eq_getElem hlt⟩
    rw [hlt'] at h
    dsimp only at h
    split at h
    · cases h
      obtain ⟨lt', hlt''⟩ : ∃ lt' : LpLoop, lt' = { lt with queue := lt.queue ++ [ev] } := ⟨_, rfl⟩
      rw [← hlt'']
      have hg2 : ∀ v, ((st.loops.set u l').set t lt')[v]? =
          if v = t then some lt' else if v = u then some l' else st.loops[v]? := by
        intro v
        rw [lp_get_set (st.loops.set u l') t v lt lt' (by rw [hg1 t, if_neg htu]; exact hlt'), hg1 v]
      have e1 : l'.queue = l.queue := by rw [hl']
      have e2 : l'.st = lpSent t timed k ev := by rw [hl']
      have e3 : lt'.queue = lt.queue ++ [ev] := by rw [hlt'']
      have e4 : lt'.st = lt.st := by rw [hlt'']
      have b1 : ∀ r, lpHold r l' = lpHold r l := by
        intro r
        simp only [lpHold, e1, e2, hs]
        cases ev <;> simp [lpSent, lpServe]
        all_goals (cases k <;> simp [lpFin, lpKTok])
      have b2 : ∀ r, lpSendT r l'.st = 0 := by
        intro r; rw [e2]; cases ev <;> simp [lpSent, lpSendT, lpFin] <;> cases k <;> simp
      have b3 : ∀ r, lpAwait r l'.st = lpSendT r l.st := by
        intro r; rw [e2, hs]; cases ev <;> simp [lpSent, lpSendT, lpAwait, lpIsRun] <;> cases k <;> simp [lpFin]
      have b4 : ∀ r, lpAwait r l.st = 0 := by intro r; rw [hs]; rfl
      have b5 : ∀ r, lpHold r lt' = lpHold r lt + lpSendT r l.st := by
        intro r; simp only [lpHold, e3, e4, hs, List.countP_append, lpSendT, List.countP_cons, List.countP_nil]
        omega
      have hsum : ∀ (f : LpLoop → Nat), (((st.loops.set u l').set t lt').map f).sum + f l + f lt =
          (st.loops.map f).sum + f l' + f lt' := by
        intro f
        have h1 := lp_sum_set f st.loops u l l' hu
        have h2 := lp_sum_set f (st.loops.set u l') t lt lt' (by rw [hg1 t, if_neg htu]; exact hlt')
        omega
      have hW : ∀ r, lpWaiters r { st with loops := (st.loops.set u l').set t lt' } = lpWaiters r st := by
        intro r
        have h1 := hsum (fun l => lpSendT r l.st + lpAwait r l.st)
        have := b2 r; have := b3 r; have := b4 r
        simp only [lpWaiters]; rw [e4] at h1; omega
      have hT : ∀ r, lpTok r { st with loops := (st.loops.set u l').set t lt' } = lpTok r st := by
        intro r
        have h1 := hsum (fun l => lpHold r l + lpSendT r l.st)
        have := b1 r; have := b2 r; have := b5 r
        simp only [lpTok]; rw [e4] at h1; omega
      have hq : ∀ (r v : Nat) (lv : LpLoop), st.loops[v]? = some lv → .upd r ∈ lv.queue →
          r ∈ st.answered ∨ ∃ lv' : LpLoop, ((st.loops.set u l').set t lt')[v]? = some lv' ∧ .upd r ∈ lv'.queue := by
        intro r v lv hv hm
        right
        rw [hg2]
        by_cases h1 : v = t
        · rw [if_pos h1]; subst h1; rw [hlt'] at hv; cases hv
          exact ⟨lt', rfl, by rw [e3]; exact List.mem_append_left _ hm⟩
        · rw [if_neg h1]
          by_cases h2 : v = u
          · rw [if_pos h2]; subst h2; rw [hu] at hv; cases hv
            exact ⟨l', rfl, by rw [e1]; exact hm⟩
          · rw [if_neg h2]; exact ⟨lv, hv, hm⟩
      refine ⟨inv.lock, ?_, ?_, ?_, ?_, ?_, ?_⟩
      · intro v lv hv ev' hev'
        rw [hg2] at hv
        by_cases h1 : v = t
        · rw [if_pos h1] at hv; cases hv; subst h1
          rw [e3] at hev'
          rcases List.mem_append.mp hev' with h3 | h3
          · exact inv.evs v lt hlt' ev' h3
          · simp at h3; subst h3; exact hevok
        · rw [if_neg h1] at hv
          by_cases h2 : v = u
          · rw [if_pos h2] at hv; cases hv; subst h2
            rw [e1] at hev'; exact inv.evs v l hu ev' hev'
          · rw [if_neg h2] at hv; exact inv.evs v lv hv ev' hev'
      · intro v lv hv
        rw [hg2] at hv
        by_cases h1 : v = t
        · rw [if_pos h1] at hv; cases hv; subst h1
          rw [e4]
          exact lpStOk_mono (st := st) (by simp) (fun _ h => h) hq (inv.sts v lt hlt')
        · rw [if_neg h1] at hv
          by_cases h2 : v = u
          · rw [if_pos h2] at hv; cases hv; subst h2
            rw [e2]
            cases ev with
            | upd r =>
              right
              exact ⟨t, lt', by rw [hg2, if_pos rfl], hrank, by rw [e3]; simp⟩
            | run r c => trivial
            | msg c => exact lpFin_ok ..
            | bcast => exact lpFin_ok ..
            | stop => exact absurd hevok (by simp [lpEvOk])
          · rw [if_neg h2] at hv
            exact lpStOk_mono (st := st) (by simp) (fun _ h => h) hq (inv.sts v lv hv)
      · intro r; rw [hT, hW]; exact inv.bal r
      · intro r; rw [hT]; exact inv.one r
      · intro r hr; rw [hT]; exact inv.fresh r hr
      · intro r v lv w lw hv hw hpos hh
        rw [hg2] at hv hw
        -- the waiters are the same
        have hv0 : ∃ lv0, st.loops[v]? = some lv0 ∧ 0 < lpSendT r lv0.st + lpAwait r lv0.st := by
          by_cases h1 : v = t
          · rw [if_pos h1] at hv; cases hv; subst h1; exact ⟨lt, hlt', by rw [e4] at hpos; exact hpos⟩
          · rw [if_neg h1] at hv
            by_cases h2 : v = u
            · rw [if_pos h2] at hv; cases hv; subst h2
              exact ⟨l, hu, by have := b2 r; have := b3 r; omega⟩
            · rw [if_neg h2] at hv; exact ⟨lv, hv, hpos⟩
        obtain ⟨lv0, hv0, hpos0⟩ := hv0
        by_cases hnew : 0 < lpSendT r l.st
        · -- `r` is the request being sent
          have hvu : v = u := by
            apply Classical.byContradiction; intro hne
            have h1 := lp_le_sum2 (fun l => lpSendT r l.st + lpAwait r l.st) st.loops v u lv0 l hv0 hu hne
            have h2 := inv.one r; have h3 := inv.bal r
            simp only [lpWaiters] at h3; omega
          by_cases h1 : w = t
          · subst h1; subst hvu; exact hrank
          · exfalso
            rw [if_neg h1] at hw
            have h2 := inv.one r
            simp only [lpTok] at h2
            have h4 := lp_le_sum (fun l => lpHold r l + lpSendT r l.st) st.loops u l hu
            by_cases h3 : w = u
            · rw [if_pos h3] at hw; cases hw
              have := b1 r
              omega
            · rw [if_neg h3] at hw
              have h5 := lp_le_sum2 (fun l => lpHold r l + lpSendT r l.st) st.loops w u lw l hw hu h3
              omega
        · have hw0 : ∃ lw0, st.loops[w]? = some lw0 ∧ 0 < lpHold r lw0 := by
            by_cases h1 : w = t
            · rw [if_pos h1] at hw; cases hw; subst h1; exact ⟨lt, hlt', by have := b5 r; omega⟩
            · rw [if_neg h1] at hw
              by_cases h2 : w = u
              · rw [if_pos h2] at hw; cases hw; subst h2; exact ⟨l, hu, by have := b1 r; omega⟩
              · rw [if_neg h2] at hw; exact ⟨lw, hw, hh⟩
          obtain ⟨lw0, hw0, hh0⟩ := hw0
          exact inv.order r v lv0 w lw0 hv0 hw0 hpos0 hh0
    · cases h
  · cases h

theorem lpInv_take {rank : Nat → Nat} {st st' : LpState} (inv : LpInv rank st) {u : Nat} {l : LpLoop}
    (hu : st.loops[u]? = some l) (h : lpTake st u l = some st') : LpInv rank st' := by
  unfold lpTake at h
  split at h
  · rename_i ev rest hs hq
    have hevs := inv.evs u l hu
    rw [hq] at hevs
    have hrest : ∀ ev' ∈ rest, lpEvOk rank u ev' := fun ev' hm => hevs ev' (List.mem_cons_of_mem _ hm)
    have hev := hevs ev List.mem_cons_self
    dsimp only at h
    cases ev with
    | msg c =>
      dsimp only at h; cases h
      refine lpInv_local inv hu (l' := ⟨rest, lpStart u true none c⟩) rfl inv.lock (Nat.le_refl _) (fun _ h => h)
        hrest ?_ (lpStart_ok _ _ _ _ _ _ hev) ?_ ?_ ?_
      · intro r hm; rw [hq] at hm; right; simpa using hm
      · intro r
        simp only [lpSet, lpHold, hq, hs, lpStart_serve, lpStart_send, lpStart_await, List.countP_cons]
        simp [lpServe, lpSendT, lpAwait, lpKTok, lpIsRun]
      · intro r
        simp only [lpHold, hq, hs, lpStart_serve, List.countP_cons]
        simp [lpServe, lpKTok, lpIsRun]
      · intro r; left; simp only [lpStart_send, lpStart_await]; omega
    | upd r0 =>
      dsimp only at h; cases h
      refine lpInv_local inv hu (l' := ⟨rest, .idle⟩) rfl inv.lock (Nat.le_refl _)
        (fun _ h => List.mem_cons_of_mem _ h) hrest ?_ trivial ?_ ?_ ?_
      · intro r hm; rw [hq] at hm
        rcases List.mem_cons.mp hm with h | h
        · left; cases h; exact List.mem_cons_self
        · right; exact h
      · intro r; simp [lpSet, lpHold, hq, hs, lpServe, lpSendT, lpAwait, lpIsRun]
      · intro r; simp [lpHold, hq, hs, lpIsRun]
      · intro r; left; simp [hs]
    | run r0 c =>
      dsimp only at h; cases h
      refine lpInv_local inv hu (l' := ⟨rest, lpStart u false (some r0) c⟩) rfl inv.lock (Nat.le_refl _)
        (fun _ h => h) hrest ?_ (lpStart_ok _ _ _ _ _ _ hev) ?_ ?_ ?_
      · intro r hm; rw [hq] at hm; right; simpa using hm
      · intro r
        simp only [lpSet, lpHold, hq, hs, lpStart_serve, lpStart_send, lpStart_await, List.countP_cons]
        simp [lpServe, lpSendT, lpAwait, lpKTok, lpIsRun]
      · intro r
        simp only [lpHold, hq, hs, lpStart_serve, List.countP_cons]
        simp [lpServe, lpKTok, lpIsRun]
      · intro r; left; simp only [lpStart_send, lpStart_await]; omega
    | stop => exact absurd hev (by simp [lpEvOk])
    | bcast =>
      dsimp only at h; cases h
      refine lpInv_local inv hu (l' := ⟨rest, .idle⟩) rfl inv.lock (Nat.le_refl _) (fun _ h => h)
        hrest ?_ trivial ?_ ?_ ?_
      · intro r hm; rw [hq] at hm; right; simpa using hm
      · intro r; simp [lpSet, lpHold, hq, hs, lpServe, lpSendT, lpAwait, lpIsRun]
      · intro r; simp [lpHold, hq, hs, lpIsRun]
      · intro r; left; simp [hs]
  · cases h

/-- A loop ends its command. -/
theorem lpInv_fin {rank : Nat → Nat} {st : LpState} (inv : LpInv rank st) {u : Nat} {l : LpLoop}
    (hu : st.loops[u]? = some l) (k : Option Nat) (hk : ∀ r, lpServe r l.st = lpKTok r k)
    (hb : ∀ r, lpAwait r l.st = 0) : LpInv rank (lpSet st u l (lpFin k)) := by
  refine lpInv_local inv hu (l' := { l with st := lpFin k }) rfl inv.lock (Nat.le_refl _) (fun _ h => h)
    (inv.evs u l hu) (fun r h => Or.inr h) (lpFin_ok ..) ?_ ?_ ?_
  · intro r; simp only [lpHold, lpFin_serve, lpFin_send, lpFin_await, hk, hb, lpSet]; omega
  · intro r; simp only [lpHold, lpFin_serve, hk]; omega
  · intro r; left; simp only [lpFin_send, lpFin_await]; omega

theorem lpInv_look {rank : Nat → Nat} {st st' : LpState} (inv : LpInv rank st) {u : Nat} {l : LpLoop}
    (hu : st.loops[u]? = some l) (h : lpLook st u l = some st') : LpInv rank st' := by
  unfold lpLook at h
  split at h
  · rename_i c timed k hs
    have hok := inv.sts u l hu
    rw [hs] at hok
    rw [inv.lock] at h
    simp only [Option.isSome_none, Bool.false_eq_true, if_false] at h
    have known : ∀ t, lpKnown st t = true → t < st.loops.length := by
      intro t ht
      unfold lpKnown at ht
      split at ht
      · cases ht
      · rename_i l' hl'
        exact (List.getElem?_eq_some_iff.mp hl').1
    have hfin : LpInv rank (lpSet st u l (lpFin k)) :=
      lpInv_fin inv hu k (fun r => by rw [hs]; rfl) (fun r => by rw [hs]; rfl)
    cases c with
    | plain n => simp only [Option.some.injEq] at h; rw [← h]; exact hfin
    | update t =>
      dsimp only at h
      split at h
      · rename_i hk; cases h
        refine lpInv_local inv hu (l' := { l with st := .sending t (.upd st.next) timed k }) rfl inv.lock
          (Nat.le_succ _) (fun _ h => h) (inv.evs u l hu) (fun r h => Or.inr h) ⟨hok, trivial, known t hk⟩ ?_ ?_ ?_
        · intro r; simp [lpHold, hs, lpServe, lpSendT, lpAwait, lpIsRun, lpSet]
        · intro r; simp [lpHold, hs, lpServe]
        · intro r; left; simp [hs, lpSendT, lpAwait, lpIsRun]
      · cases h; exact hfin
    | run t c =>
      dsimp only at h
      split at h
      · rename_i hk; cases h
        refine lpInv_local inv hu (l' := { l with st := .sending t (.run st.next c) timed k }) rfl inv.lock
          (Nat.le_succ _) (fun _ h => h) (inv.evs u l hu) (fun r h => Or.inr h) ⟨hok.1, hok.2, known t hk⟩ ?_ ?_ ?_
        · intro r; simp [lpHold, hs, lpServe, lpSendT, lpAwait, lpIsRun, lpSet]; omega
        · intro r; simp [lpHold, hs, lpServe]
        · intro r
          by_cases hr : r = st.next
          · right; subst hr; simp [lpSendT, lpAwait, lpIsRun]
          · left
            have : ¬ st.next = r := fun h => hr h.symm
            simp [hs, lpSendT, lpAwait, lpIsRun, this]
      · cases h; exact hfin
    | delete t => exact absurd hok (by simp [lpStOk])
    | broadcast svc => exact absurd hok (by simp [lpStOk])
  · cases h

theorem lpInv_giveUp {rank : Nat → Nat} {st st' : LpState} (inv : LpInv rank st) {u : Nat} {l : LpLoop}
    (hu : st.loops[u]? = some l) (h : lpGiveUp st u l = some st') : LpInv rank st' := by
  unfold lpGiveUp at h
  split at h
  · rename_i t ev timed k hs
    split at h
    · cases h; exact lpInv_fin inv hu k (fun r => by rw [hs]; rfl) (fun r => by rw [hs]; rfl)
    · cases h
  · rename_i hs
    have := inv.sts u l hu
    rw [hs] at this; exact absurd this (by simp [lpStOk])
  · cases h

theorem lpInv_answer {rank : Nat → Nat} {st st' : LpState} (inv : LpInv rank st) {u : Nat} {l : LpLoop}
    (hu : st.loops[u]? = some l) (h : lpAnswer st u l = some st') : LpInv rank st' := by
  unfold lpAnswer at h
  split at h
  · rename_i r k hs
    split at h
    · cases h; exact lpInv_fin inv hu k (fun r => by rw [hs]; rfl) (fun r => by rw [hs]; rfl)
    · cases h
  · cases h

theorem lpInv_recv {rank : Nat → Nat} {st st' : LpState} (inv : LpInv rank st) {u : Nat} {l : LpLoop}
    (hu : st.loops[u]? = some l) (h : lpRecv st u l = some st') : LpInv rank st' := by
  unfold lpRecv at h
  split at h
  · rename_i r0 timed k hs
    split at h
    · cases h
    · rename_i final hg
      dsimp only at h
      cases h
      have hc := lpGet_count hg
      cases final with
      | true =>
        refine lpInv_local inv hu (l' := { l with st := lpFin k }) rfl inv.lock (Nat.le_refl _) (fun _ h => h)
          (inv.evs u l hu) (fun r h => Or.inr h) (lpFin_ok ..) ?_ ?_ ?_
        · intro r
          have h1 := hc r
          simp only [lpHold, lpFin_serve, lpFin_send, lpFin_await, hs]
          simp only [lpServe, lpSendT, lpAwait]
          by_cases hr : r = r0
          · subst hr; simp at h1 ⊢; omega
          · have : ¬ r0 = r := fun h => hr h.symm
            simp [hr, this] at h1 ⊢; omega
        · intro r; simp only [lpHold, lpFin_serve, hs]; simp [lpServe]
        · intro r; left; simp only [lpFin_send, lpFin_await]; omega
      | false =>
        refine lpInv_local inv hu (l' := { l with st := .waitRun r0 timed k }) rfl inv.lock (Nat.le_refl _)
          (fun _ h => h) (inv.evs u l hu) (fun r h => Or.inr h) trivial ?_ ?_ ?_
        · intro r
          have h1 := hc r
          simp [lpHold, hs] at h1 ⊢; omega
        · intro r; simp [lpHold, hs]
        · intro r; left; simp [hs]
  · cases h

theorem lpInv_print {rank : Nat → Nat} {st st' : LpState} (inv : LpInv rank st) {u : Nat} {l : LpLoop}
    (hu : st.loops[u]? = some l) (h : lpPrint st u l = some st') : LpInv rank st' := by
  unfold lpPrint at h
  split at h
  · rename_i r0 n hs
    split at h
    · cases h
    · dsimp only at h
      cases h
      by_cases hn : n ≤ 1
      · refine lpInv_local inv hu (l' := { l with st := .idle }) ?_ inv.lock (Nat.le_refl _) (fun _ h => h)
          (inv.evs u l hu) (fun r h => Or.inr h) trivial ?_ ?_ ?_
        · simp [lpSet, hn]
        · intro r
          simp only [lpHold, hs, lpServe, lpSendT, lpAwait, hn, decide_true, List.count_append, List.count_cons,
            List.count_nil]
          by_cases hr : r0 = r
          · subst hr; simp; omega
          · simp [hr]
        · intro r; simp [lpHold, lpServe]
        · intro r; left; simp [lpSendT, lpAwait]
      · refine lpInv_local inv hu (l' := { l with st := .printing r0 (n - 1) }) ?_ inv.lock (Nat.le_refl _)
          (fun _ h => h) (inv.evs u l hu) (fun r h => Or.inr h) (by simp only [lpStOk]; omega) ?_ ?_ ?_
        · simp [lpSet, hn]
        · intro r
          simp [lpHold, hs, lpServe, lpSendT, lpAwait, hn, List.count_append]
        · intro r; simp [lpHold, hs, lpServe]
        · intro r; left; simp [lpSendT, lpAwait]
  · cases h

theorem lpInv_cast {rank : Nat → Nat} {cap : Nat} {st st' : LpState} (inv : LpInv rank st) {u : Nat} {l : LpLoop}
    (hu : st.loops[u]? = some l) (h : lpCast cap st u l = some st') : LpInv rank st' := by
  have := inv.sts u l hu
  unfold lpCast at h
  split at h
  · rename_i hs; rw [hs] at this; exact absurd this (by simp [lpStOk])
  · rename_i hs; rw [hs] at this; exact absurd this (by simp [lpStOk])
  · cases h

theorem lpInv_arrive {rank : Nat → Nat} {cap : Nat} {st st' : LpState} (inv : LpInv rank st) {u : Nat} {c : LpCmd}
    (hc : lpBelow rank u c) (h : lpPush cap st u (.msg c) = some st') : LpInv rank st' := by
  unfold lpPush at h
  split at h
  · cases h
  · rename_i l hu
    split at h
    · cases h
      refine lpInv_local inv hu (l' := { l with queue := l.queue ++ [.msg c] }) rfl inv.lock (Nat.le_refl _)
        (fun _ h => h) ?_ (fun r h => Or.inr (List.mem_append_left _ h)) (inv.sts u l hu) ?_ ?_ ?_
      · intro ev hm
        rcases List.mem_append.mp hm with h | h
        · exact inv.evs u l hu ev h
        · simp at h; subst h; exact hc
      · intro r; simp [lpHold, List.countP_append, lpIsRun]
      · intro r; simp [lpHold, List.countP_append, lpIsRun]
      · intro r; left; exact Nat.le_refl _
    · cases h

theorem lpDone_none {rank : Nat → Nat} {st st' : LpState} (inv : LpInv rank st) {u : Nat} {l : LpLoop}
    (hu : st.loops[u]? = some l) (h : lpDone st u l = some st') : False := by
  have := inv.sts u l hu
  unfold lpDone at h
  split at h
  · rename_i hs; rw [hs] at this; exact this.2.1
  · rename_i hs; rw [hs] at this; exact this
  · cases h

theorem lpInv_step {rank : Nat → Nat} {cap : Nat} {st st' : LpState} (inv : LpInv rank st) {op : LpOp}
    (ha : lpAllowed rank op) (h : lpStep cap st op = some st') : LpInv rank st' := by
  cases op with
  | arrive u c => exact lpInv_arrive inv ha h
  | timeOut u => exact absurd ha (by simp [lpAllowed])
  | crash u => exact absurd ha (by simp [lpAllowed])
  | done u =>
    obtain ⟨l, hu, h⟩ := Option.bind_eq_some_iff.mp h; exact absurd h (fun h => lpDone_none inv hu h)
  | take u =>
    obtain ⟨l, hu, h⟩ := Option.bind_eq_some_iff.mp h; exact lpInv_take inv hu h
  | look u =>
    obtain ⟨l, hu, h⟩ := Option.bind_eq_some_iff.mp h; exact lpInv_look inv hu h
  | send u =>
    obtain ⟨l, hu, h⟩ := Option.bind_eq_some_iff.mp h; exact lpInv_send inv hu h
  | giveUp u =>
    obtain ⟨l, hu, h⟩ := Option.bind_eq_some_iff.mp h; exact lpInv_giveUp inv hu h
  | answer u =>
    obtain ⟨l, hu, h⟩ := Option.bind_eq_some_iff.mp h; exact lpInv_answer inv hu h
  | recv u =>
    obtain ⟨l, hu, h⟩ := Option.bind_eq_some_iff.mp h; exact lpInv_recv inv hu h
  | print u =>
    obtain ⟨l, hu, h⟩ := Option.bind_eq_some_iff.mp h; exact lpInv_print inv hu h
  | cast u =>
    obtain ⟨l, hu, h⟩ := Option.bind_eq_some_iff.mp h; exact lpInv_cast inv hu h

theorem lpInv_init (rank : Nat → Nat) (n : Nat) : LpInv rank (lpInit n) := by
  have hl : ∀ (u : Nat) (l : LpLoop), (lpInit n).loops[u]? = some l → l = ⟨[], .idle⟩ := by
    intro u l h
    have := List.mem_of_getElem? h
    exact List.eq_of_mem_replicate this
  have hsum : ∀ (f : LpLoop → Nat), f ⟨[], .idle⟩ = 0 → ((lpInit n).loops.map f).sum = 0 := by
    intro f hf
    rw [lpInit, List.map_replicate, hf]
    simp
  have hT : ∀ r, lpTok r (lpInit n) = 0 := by
    intro r
    simp only [lpTok]
    rw [hsum _ (by simp [lpHold, lpServe, lpSendT])]
    simp [lpInit]
  refine ⟨rfl, ?_, ?_, ?_, ?_, ?_, ?_⟩
  · intro u l h ev hev; rw [hl u l h] at hev; simp at hev
  · intro u l h; rw [hl u l h]; trivial
  · intro r; rw [hT, lpWaiters, hsum _ (by simp [lpSendT, lpAwait])]
  · intro r; rw [hT]; omega
  · intro r _; exact hT r
  · intro r u lu t lt hu ht hp hh
    rw [hl t lt ht] at hh; simp [lpHold, lpServe] at hh

theorem lpInv_run {rank : Nat → Nat} {cap : Nat} (ops : List LpOp) (st : LpState) (inv : LpInv rank st)
    (ha : ∀ op ∈ ops, lpAllowed rank op) : LpInv rank (lpRun cap st ops) := by
  induction ops generalizing st with
  | nil => exact inv
  | cons op ops ih =>
    simp only [lpRun]
    apply ih _ _ (fun op' h => ha op' (List.mem_cons_of_mem _ h))
    cases h : lpStep cap st op with
    | none => exact inv
    | some st' => exact lpInv_step inv (ha op List.mem_cons_self) h

/-! ## Every step but the arrival of a command leaves less to do -/

theorem lpWork_set {st st' : LpState} {u : Nat} {l l' : LpLoop} (hu : st.loops[u]? = some l)
    (hl : st'.loops = st.loops.set u l') (h : lpLoopW l' + st'.chan.length < lpLoopW l + st.chan.length) :
    lpWork st' < lpWork st := by
  have := lp_sum_set lpLoopW st.loops u l l' hu
  simp only [lpWork, hl]; omega

theorem lpWork_step {rank : Nat → Nat} {cap : Nat} {st st' : LpState} (inv : LpInv rank st) {op : LpOp}
    (ha : ∀ u c, op ≠ .arrive u c) (hb : lpAllowed rank op) (h : lpStep cap st op = some st') :
    lpWork st' < lpWork st := by
  cases op with
  | arrive u c => exact absurd rfl (ha u c)
  | timeOut u => exact absurd hb (by simp [lpAllowed])
  | crash u => exact absurd hb (by simp [lpAllowed])
  | done u =>
    obtain ⟨l, hu, h⟩ := Option.bind_eq_some_iff.mp h; exact absurd h (fun h => lpDone_none inv hu h)
  | take u =>
    obtain ⟨l, hu, h⟩ := Option.bind_eq_some_iff.mp h
    unfold lpTake at h
    split at h
    · rename_i ev rest hs hq
      have hev := inv.evs u l hu ev (by rw [hq]; exact List.mem_cons_self)
      cases ev with
      | msg c =>
        cases h
        refine lpWork_set hu (l' := ⟨rest, lpStart u true none c⟩) rfl ?_
        have := lpStart_w rank u true none c hev
        simp only [lpLoopW, hq, hs, List.map_cons, List.sum_cons, lpEvW, lpSet]
        simp only [lpKW] at this; omega
      | upd r0 =>
        cases h
        refine lpWork_set hu (l' := ⟨rest, .idle⟩) rfl ?_
        simp only [lpLoopW, hq, hs, List.map_cons, List.sum_cons, lpEvW, lpStW, lpSet]; omega
      | run r0 c =>
        cases h
        refine lpWork_set hu (l' := ⟨rest, lpStart u false (some r0) c⟩) rfl ?_
        have := lpStart_w rank u false (some r0) c hev
        simp only [lpLoopW, hq, hs, List.map_cons, List.sum_cons, lpEvW, lpSet]
        simp only [lpKW] at this; omega
      | bcast =>
        cases h
        refine lpWork_set hu (l' := ⟨rest, .idle⟩) rfl ?_
        simp only [lpLoopW, hq, hs, List.map_cons, List.sum_cons, lpEvW, lpStW, lpSet]; omega
      | stop => exact absurd hev (by simp [lpEvOk])
    · cases h
  | look u =>
    obtain ⟨l, hu, h⟩ := Option.bind_eq_some_iff.mp h
    unfold lpLook at h
    split at h
    · rename_i c timed k hs
      have hok := inv.sts u l hu
      rw [hs] at hok
      rw [inv.lock] at h
      simp only [Option.isSome_none, Bool.false_eq_true, if_false] at h
      have hfin : lpWork (lpSet st u l (lpFin k)) < lpWork st := by
        refine lpWork_set hu (l' := { l with st := lpFin k }) rfl ?_
        simp only [lpLoopW, hs, lpSet, lpFin_w]; simp only [lpStW]; omega
      cases c with
      | plain n => cases h; exact hfin
      | update t =>
        dsimp only at h
        split at h
        · cases h
          refine lpWork_set hu (l' := { l with st := .sending t (.upd st.next) timed k }) rfl ?_
          simp [lpLoopW, hs, lpStW, lpSet, lpEvW, lpCmdW]; omega
        · cases h; exact hfin
      | run t c =>
        dsimp only at h
        split at h
        · cases h
          refine lpWork_set hu (l' := { l with st := .sending t (.run st.next c) timed k }) rfl ?_
          simp [lpLoopW, hs, lpStW, lpSet, lpEvW, lpCmdW]
        · cases h; exact hfin
      | delete t => exact absurd hok (by simp [lpStOk])
      | broadcast svc => exact absurd hok (by simp [lpStOk])
    · cases h
  | send u =>
    obtain ⟨l, hu, h⟩ := Option.bind_eq_some_iff.mp h
    unfold lpSend at h
    split at h
    · rename_i t ev timed k hs
      unfold lpPush at h
      split at h
      · cases h
      · rename_i lt ht
        split at h
        · cases h
          have h1 := lp_sum_set lpLoopW st.loops u l { l with st := lpSent t timed k ev } hu
          have h2 := lp_sum_set lpLoopW _ t lt { lt with queue := lt.queue ++ [ev] } ht
          have h3 : lpLoopW { lt with queue := lt.queue ++ [ev] } = lpLoopW lt + lpEvW ev := by
            simp [lpLoopW]; omega
          have h4 : lpLoopW { l with st := lpSent t timed k ev } + lpEvW ev < lpLoopW l := by
            simp only [lpLoopW, hs]
            cases ev <;> simp only [lpSent, lpFin_w] <;> simp only [lpStW] <;> omega
          simp only [lpWork, lpSet] at h1 h2 ⊢
          omega
        · cases h
    · cases h
  | giveUp u =>
    obtain ⟨l, hu, h⟩ := Option.bind_eq_some_iff.mp h
    unfold lpGiveUp at h
    split at h
    · rename_i t ev timed k hs
      split at h
      · cases h
        refine lpWork_set hu (l' := { l with st := lpFin k }) rfl ?_
        simp only [lpLoopW, hs, lpSet, lpFin_w]; simp only [lpStW]; omega
      · cases h
    · rename_i hs
      have := inv.sts u l hu
      rw [hs] at this; exact absurd this (by simp [lpStOk])
    · cases h
  | answer u =>
    obtain ⟨l, hu, h⟩ := Option.bind_eq_some_iff.mp h
    unfold lpAnswer at h
    split at h
    · rename_i r k hs
      split at h
      · cases h
        refine lpWork_set hu (l' := { l with st := lpFin k }) rfl ?_
        simp only [lpLoopW, hs, lpSet, lpFin_w]; simp only [lpStW]; omega
      · cases h
    · cases h
  | recv u =>
    obtain ⟨l, hu, h⟩ := Option.bind_eq_some_iff.mp h
    unfold lpRecv at h
    split at h
    · rename_i r0 timed k hs
      split at h
      · cases h
      · rename_i final hg
        cases h
        have hc := lpGet_length hg
        refine lpWork_set hu (l' := { l with st := if final then lpFin k else .waitRun r0 timed k }) rfl ?_
        cases final <;> simp only [lpLoopW, hs, if_true, Bool.false_eq_true, if_false, lpFin_w] <;>
          simp only [lpStW] <;> omega
    · cases h
  | print u =>
    obtain ⟨l, hu, h⟩ := Option.bind_eq_some_iff.mp h
    unfold lpPrint at h
    split at h
    · rename_i r0 n hs
      have hok := inv.sts u l hu
      rw [hs] at hok
      simp only [lpStOk] at hok
      split at h
      · cases h
      · cases h
        refine lpWork_set hu (l' := { l with st := if n ≤ 1 then .idle else .printing r0 (n - 1) }) rfl ?_
        by_cases hn : n ≤ 1 <;> simp [lpLoopW, hs, lpStW, hn] <;> omega
    · cases h
  | cast u =>
    obtain ⟨l, hu, h⟩ := Option.bind_eq_some_iff.mp h
    have := inv.sts u l hu
    unfold lpCast at h
    split at h
    · rename_i hs; rw [hs] at this; exact absurd this (by simp [lpStOk])
    · rename_i hs; rw [hs] at this; exact absurd this (by simp [lpStOk])
    · cases h

/-! ## As long as something is left to do, a step can be taken -/

theorem lp_min (rank : Nat → Nat) (P : Nat → Prop) (h : ∃ u, P u) : ∃ u, P u ∧ ∀ v, P v → rank u ≤ rank v := by
  obtain ⟨u, hu⟩ := h
  generalize hn : rank u = n
  induction n using Nat.strongRecOn generalizing u with
  | _ n ih =>
    by_cases hex : ∃ v, P v ∧ rank v < n
    · obtain ⟨v, hv, hlt⟩ := hex
      exact ih (rank v) hlt v hv rfl
    · refine ⟨u, hu, fun v hv => ?_⟩
      apply Classical.byContradiction; intro hc
      exact hex ⟨v, hv, by omega⟩

theorem lp_progress {rank : Nat → Nat} {cap : Nat} (hcap : 0 < cap) {st : LpState} (inv : LpInv rank st)
    (h : ∃ l ∈ st.loops, l.st ≠ .idle ∨ l.queue ≠ []) :
    ∃ op, (∀ u c, op ≠ .arrive u c) ∧ lpAllowed rank op ∧ (lpStep cap st op).isSome := by
  have takeOk : ∀ (u : Nat) (l : LpLoop), st.loops[u]? = some l → l.st = .idle → l.queue ≠ [] →
      ∃ op, (∀ u c, op ≠ .arrive u c) ∧ lpAllowed rank op ∧ (lpStep cap st op).isSome := by
    intro u l hu hs hq
    refine ⟨.take u, by simp, trivial, ?_⟩
    obtain ⟨q, s⟩ := l
    cases q with
    | nil => exact absurd rfl hq
    | cons ev rest =>
      dsimp only at hs; subst hs
      simp only [lpStep, hu, Option.bind_some, lpTake]
      cases ev <;> rfl
  by_cases hbusy : ∃ u : Nat, ∃ l, st.loops[u]? = some l ∧ l.st ≠ .idle
  · obtain ⟨u, ⟨l, hu, hs⟩, hmin⟩ := lp_min rank (fun u => ∃ l, st.loops[u]? = some l ∧ l.st ≠ .idle) hbusy
    have low : ∀ (t : Nat) (lt : LpLoop), st.loops[t]? = some lt → rank t < rank u → lt.st = .idle := by
      intro t lt ht hlt
      apply Classical.byContradiction; intro hne
      have := hmin t ⟨lt, ht, hne⟩
      omega
    have hok := inv.sts u l hu
    cases hst : l.st with
    | idle => exact absurd hst hs
    | dead => rw [hst] at hok; exact absurd hok (by simp [lpStOk])
    | casting rest timed k => rw [hst] at hok; exact absurd hok (by simp [lpStOk])
    | waitDone t timed k => rw [hst] at hok; exact absurd hok (by simp [lpStOk])
    | lookup c timed k =>
      refine ⟨.look u, by simp, trivial, ?_⟩
      simp only [lpStep, hu, Option.bind_some, lpLook, hst, inv.lock]
      cases c <;> simp <;> split <;> rfl
    | sending t ev timed k =>
      rw [hst] at hok
      obtain ⟨hr, _, hlt⟩ := hok
      obtain ⟨lt, ht⟩ : ∃ lt, st.loops[t]? = some lt := ⟨_, List.getElem?_eq_getElem hlt⟩
      have htu : t ≠ u := by intro h; subst h; omega
      by_cases hroom : lt.queue.length < cap
      · refine ⟨.send u, by simp, trivial, ?_⟩
        simp only [lpStep, hu, Option.bind_some, lpSend, hst, lpPush, lpSet]
        rw [lp_get_set st.loops u t l _ hu, if_neg htu, ht]
        simp [hroom]
      · exact takeOk t lt ht (low t lt ht hr) (by intro h; rw [h] at hroom; exact hroom hcap)
    | waitUpd r k =>
      rw [hst] at hok
      rcases hok with hok | ⟨t, lt, ht, hr, hm⟩
      · refine ⟨.answer u, by simp, trivial, ?_⟩
        simp [lpStep, hu, lpAnswer, hst, hok]
      · exact takeOk t lt ht (low t lt ht hr) (by intro h; rw [h] at hm; cases hm)
    | waitRun r timed k =>
      by_cases hg : (lpGet st.chan r).isSome
      · refine ⟨.recv u, by simp, trivial, ?_⟩
        obtain ⟨f, hf⟩ := Option.isSome_iff_exists.mp hg
        simp [lpStep, hu, lpRecv, hst, hf]
      · have hW : 0 < lpSendT r l.st + lpAwait r l.st := by rw [hst]; simp [lpAwait]
        have hW' := lp_le_sum (fun l => lpSendT r l.st + lpAwait r l.st) st.loops u l hu
        have hbal := inv.bal r
        have hc : st.chan.count (r, true) = 0 := by
          apply Classical.byContradiction; intro h
          exact hg (lpGet_of_count (by omega))
        have hpos : 0 < (st.loops.map (fun l => lpHold r l + lpSendT r l.st)).sum := by
          simp only [lpTok, lpWaiters] at hbal; omega
        obtain ⟨t, lt, ht, htok⟩ := lp_sum_pos _ _ hpos
        by_cases hh : 0 < lpHold r lt
        · have hr := inv.order r u l t lt hu ht hW hh
          have hidle := low t lt ht hr
          refine takeOk t lt ht hidle ?_
          intro hq
          simp [lpHold, hq, hidle, lpServe] at hh
        · exfalso
          have htu : t ≠ u := by
            intro h; subst h; rw [hu] at ht; cases ht
            rw [hst] at htok; simp only [lpSendT] at htok; omega
          have h2 := lp_le_sum2 (fun l => lpSendT r l.st + lpAwait r l.st) st.loops t u lt l ht hu htu
          have h3 := inv.one r
          simp only [lpWaiters] at hbal; omega
    | printing r n =>
      cases hg : lpGet st.chan r with
      | none =>
        refine ⟨.print u, by simp, trivial, ?_⟩
        simp [lpStep, hu, lpPrint, hst, hg]
      | some f =>
        have hH : 0 < lpHold r l := by simp [lpHold, hst, lpServe]
        have hT := lp_le_sum (fun l => lpHold r l + lpSendT r l.st) st.loops u l hu
        have hbal := inv.bal r
        have hone := inv.one r
        have hpos : 0 < (st.loops.map (fun l => lpSendT r l.st + lpAwait r l.st)).sum := by
          simp only [lpTok, lpWaiters] at hbal; omega
        obtain ⟨w, lw, hw, hwt⟩ := lp_sum_pos _ _ hpos
        have hns : lpSendT r lw.st = 0 := by
          apply Classical.byContradiction; intro hne
          by_cases hwu : w = u
          · subst hwu; rw [hu] at hw; cases hw; rw [hst] at hne; exact hne rfl
          · have := lp_le_sum2 (fun l => lpHold r l + lpSendT r l.st) st.loops w u lw l hw hu hwu
            simp only [lpTok] at hone; omega
        have haw : 0 < lpAwait r lw.st := by omega
        cases hlw : lw.st with
        | waitRun r' timed k =>
          rw [hlw] at haw
          have hr : r' = r := by
            apply Classical.byContradiction; intro hne
            simp [lpAwait, hne] at haw
          subst hr
          refine ⟨.recv w, by simp, trivial, ?_⟩
          simp [lpStep, hw, lpRecv, hlw, hg]
        | _ => rw [hlw] at haw; simp [lpAwait] at haw
  · obtain ⟨l, hl, hq⟩ := h
    obtain ⟨u, hu⟩ := List.getElem?_of_mem hl
    have hidle : l.st = .idle := by
      apply Classical.byContradiction; intro hne; exact hbusy ⟨u, l, hu, hne⟩
    rcases hq with hq | hq
    · exact absurd hidle hq
    · exact takeOk u l hu hidle hq

end Verif.Proof
