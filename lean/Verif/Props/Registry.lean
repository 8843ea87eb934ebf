import Verif.Model.Registry
import Verif.Proof.GoMap
import Verif.Proof.Util

/-! # C54: one event loop per user; C68: a deletion deletes one account

A history is any interleaving of account creations (by administrators or by logging in), ends of event loops (for
any reason), their clean-up, deletions and restarts.  `reuse` tells which database is used (see `rgNewRow`). -/

namespace Verif.Props

open Verif.Model Verif.Proof

/-- The names in the database are unique, as its schema demands. -/
def NamesUnique (db : List (Nat × Str)) : Prop := (db.map (·.2)).Nodup

private structure RgInv (st : RgState) : Prop where
  names : NamesUnique st.db
  objs : (st.loops.map (·.obj)).Nodup
  lt : ∀ l ∈ st.loops, l.obj < st.nextObj
  link : ∀ n o, GoMap.get st.users n = some o ↔ ∃ l ∈ st.loops, l.obj = o ∧ l.name = n ∧ l.phase ≠ .gone

private theorem add_inv {st : RgState} (h : RgInv st) (acc : Nat × Str) (hn : GoMap.get st.users acc.2 = none) :
    RgInv (rgAdd st acc) := by
  refine ⟨h.names, ?_, ?_, ?_⟩
  · simp only [rgAdd, List.map_append, List.map_cons, List.map_nil]
    rw [List.nodup_append]
    refine ⟨h.objs, by simp, ?_⟩
    intro a ha b hb e
    obtain ⟨l, hl, rfl⟩ := List.mem_map.1 ha
    have := h.lt l hl
    simp at hb
    omega
  · intro l hl
    simp only [rgAdd] at hl ⊢
    rcases List.mem_append.1 hl with hl | hl
    · have := h.lt l hl; omega
    · simp at hl; subst hl; simp
  · intro n o
    simp only [rgAdd]
    rw [mget_mset]
    constructor
    · intro hg
      split at hg
      · rename_i e
        cases hg
        exact ⟨_, List.mem_append.2 (.inr (List.mem_singleton.2 rfl)), rfl, e, by simp⟩
      · obtain ⟨l, hl, e⟩ := (h.link n o).1 hg
        exact ⟨l, List.mem_append.2 (.inl hl), e⟩
    · rintro ⟨l, hl, rfl, rfl, hp⟩
      rcases List.mem_append.1 hl with hl | hl
      · have hg := (h.link l.name l.obj).2 ⟨l, hl, rfl, rfl, hp⟩
        split
        · rename_i e
          rw [← e, hn] at hg; cases hg
        · exact hg
      · simp at hl; subst hl; simp

private theorem foldAdd_inv (accs : List (Nat × Str)) {st : RgState} (h : RgInv st)
    (nd : (accs.map (·.2)).Nodup) (hn : ∀ a ∈ accs, GoMap.get st.users a.2 = none) :
    RgInv (accs.foldl rgAdd st) := by
  induction accs generalizing st with
  | nil => exact h
  | cons a accs ih =>
    simp only [List.map_cons, List.nodup_cons] at nd
    refine ih (add_inv h a (hn a (by simp))) nd.2 (fun b hb => ?_)
    simp only [rgAdd]
    rw [mget_mset, if_neg]
    · exact hn b (by simp [hb])
    · intro e
      exact nd.1 (e ▸ List.mem_map_of_mem hb)

private theorem empty_inv (db : List (Nat × Str)) (r o : Nat) (h : NamesUnique db) :
    RgInv { db := db, lastRow := r, users := [], loops := [], nextObj := o } :=
  ⟨h, List.nodup_nil, fun _ h => absurd h List.not_mem_nil,
    fun n o => ⟨fun h => by simp [GoMap.get] at h, fun ⟨_, h, _⟩ => absurd h List.not_mem_nil⟩⟩

private theorem start_inv_rg (db : List (Nat × Str)) (h : NamesUnique db) : RgInv (rgStart db) :=
  foldAdd_inv db (empty_inv db _ _ h) h (fun _ _ => rfl)

private theorem mem_setPhase {loops : List RgLoop} {obj : Nat} {p : RgPhase} {l : RgLoop}
    (h : l ∈ rgSetPhase loops obj p) :
    ∃ d ∈ loops, l.obj = d.obj ∧ l.row = d.row ∧ l.name = d.name ∧
      ((d.obj = obj ∧ l.phase = p) ∨ (d.obj ≠ obj ∧ l.phase = d.phase)) := by
  obtain ⟨d, hd, rfl⟩ := List.mem_map.1 h
  refine ⟨d, hd, ?_⟩
  by_cases e : d.obj = obj
  · rw [if_pos e]; exact ⟨rfl, rfl, rfl, .inl ⟨e, rfl⟩⟩
  · rw [if_neg e]; exact ⟨rfl, rfl, rfl, .inr ⟨e, rfl⟩⟩

private theorem setPhase_mem {loops : List RgLoop} {obj : Nat} {p : RgPhase} {d : RgLoop} (h : d ∈ loops) :
    (d.obj = obj → { d with phase := p } ∈ rgSetPhase loops obj p) ∧ (d.obj ≠ obj → d ∈ rgSetPhase loops obj p) := by
  constructor
  · intro e
    exact List.mem_map.2 ⟨d, h, if_pos e⟩
  · intro e
    exact List.mem_map.2 ⟨d, h, if_neg e⟩

private theorem setPhase_objs (loops : List RgLoop) (obj : Nat) (p : RgPhase) :
    (rgSetPhase loops obj p).map (·.obj) = loops.map (·.obj) := by
  simp only [rgSetPhase, List.map_map]
  apply List.map_congr_left
  intro l _
  simp only [Function.comp]
  split <;> rfl

private theorem names_append {db : List (Nat × Str)} {row : Nat} {name : Str} (h : NamesUnique db)
    (hn : ¬ db.any (fun a => a.2 = name) = true) : NamesUnique (db ++ [(row, name)]) := by
  unfold NamesUnique
  rw [List.map_append, List.nodup_append]
  refine ⟨h, by simp, ?_⟩
  intro a ha b hb e
  obtain ⟨x, hx, rfl⟩ := List.mem_map.1 ha
  simp at hb
  exact hn (List.any_eq_true.2 ⟨x, hx, by simp [e, hb]⟩)

private theorem step_inv_rg (reuse : Bool) {st : RgState} (h : RgInv st) (op : RgOp) : RgInv (rgStep reuse st op) := by
  cases op with
  | create name dbOk =>
    simp only [rgStep, rgCreate]
    split
    · exact h
    · rename_i hg
      split
      · exact h
      · rename_i hc
        have h' : RgInv { st with
            db := st.db ++ [(rgNewRow reuse st, name)], lastRow := Nat.max st.lastRow (rgNewRow reuse st) } :=
          ⟨names_append h.names (fun e => hc (by simp only [e]; simp)), h.objs, h.lt, h.link⟩
        exact add_inv h' (rgNewRow reuse st, name) hg
  | loopEnds obj =>
    simp only [rgStep]
    split
    · rename_i l hf
      split
      · rename_i hp
        refine ⟨h.names, ?_, ?_, ?_⟩
        · dsimp only; rw [setPhase_objs]; exact h.objs
        · intro x hx
          obtain ⟨d, hd, e, _⟩ := mem_setPhase hx
          rw [e]; exact h.lt d hd
        · intro n o
          rw [h.link n o]
          constructor
          · rintro ⟨d, hd, e1, e2, e3⟩
            by_cases e : d.obj = obj
            · exact ⟨_, (setPhase_mem hd).1 e, e1, e2, by simp⟩
            · exact ⟨d, (setPhase_mem hd).2 e, e1, e2, e3⟩
          · rintro ⟨x, hx, e1, e2, e3⟩
            obtain ⟨d, hd, f1, _, f3, ⟨f4, _⟩ | ⟨_, f5⟩⟩ := mem_setPhase hx
            · refine ⟨d, hd, f1 ▸ e1, f3 ▸ e2, ?_⟩
              have hlo : l.obj = obj := by simpa using List.find?_some hf
              have : d = l := eq_of_nodup_map h.objs hd (List.mem_of_find?_eq_some hf) (f4.trans hlo.symm)
              rw [this, hp]; simp
            · exact ⟨d, hd, f1 ▸ e1, f3 ▸ e2, f5 ▸ e3⟩
      · exact h
    · exact h
  | forget obj =>
    simp only [rgStep]
    split
    · rename_i l hf
      split
      · rename_i hp
        have hl : l ∈ st.loops := List.mem_of_find?_eq_some hf
        have hlo : l.obj = obj := by simpa using List.find?_some hf
        have hgl : GoMap.get st.users l.name = some obj :=
          (h.link _ _).2 ⟨l, hl, hlo, rfl, by rw [hp]; simp⟩
        refine ⟨h.names, ?_, ?_, ?_⟩
        · dsimp only; rw [setPhase_objs]; exact h.objs
        · intro x hx
          obtain ⟨d, hd, e, _⟩ := mem_setPhase hx
          rw [e]; exact h.lt d hd
        · intro n o
          dsimp only
          rw [mget_mdel]
          constructor
          · intro hg
            split at hg
            · cases hg
            · rename_i hne
              obtain ⟨d, hd, e1, e2, e3⟩ := (h.link n o).1 hg
              have e : d.obj ≠ obj := by
                intro e
                have : d = l := eq_of_nodup_map h.objs hd hl (e.trans hlo.symm)
                exact hne (this ▸ e2)
              exact ⟨d, (setPhase_mem hd).2 e, e1, e2, e3⟩
          · rintro ⟨x, hx, e1, e2, e3⟩
            obtain ⟨d, hd, f1, _, f3, ⟨_, f5⟩ | ⟨f4, f5⟩⟩ := mem_setPhase hx
            · exact absurd f5 e3
            · have hg : GoMap.get st.users n = some o := (h.link n o).2 ⟨d, hd, f1 ▸ e1, f3 ▸ e2, f5 ▸ e3⟩
              rw [if_neg]
              · exact hg
              · intro e
                rw [← e, hgl] at hg
                cases hg
                exact f4 (f1 ▸ e1)
      · exact h
    · exact h
  | delete obj =>
    simp only [rgStep]
    split
    · split
      · exact h
      · exact ⟨List.Sublist.nodup (List.Sublist.map _ List.filter_sublist) h.names, h.objs, h.lt, h.link⟩
    · exact h
  | restart order =>
    simp only [rgStep]
    split
    · rename_i hp
      have hperm := List.isPerm_iff.1 hp
      refine foldAdd_inv order (empty_inv st.db _ _ h.names) ?_ (fun _ _ => rfl)
      exact (List.Perm.nodup_iff (List.Perm.map _ hperm)).2 h.names
    · exact h

private theorem run_inv_rg (reuse : Bool) (ops : List RgOp) {st : RgState} (h : RgInv st) : RgInv (rgRun reuse st ops) := by
  unfold rgRun
  induction ops generalizing st with
  | nil => exact h
  | cons op ops ih => exact ih (step_inv_rg reuse h op)

/-- C54: after every history at most one goroutine of each name has not ended, so at most one event loop runs for
it. -/
theorem C54_one_loop (reuse : Bool) (db : List (Nat × Str)) (hdb : NamesUnique db) (ops : List RgOp) :
    let st := rgRun reuse (rgStart db) ops
    ∀ a ∈ st.loops, ∀ b ∈ st.loops, a.name = b.name → a.phase ≠ .gone → b.phase ≠ .gone → a = b := by
  intro st a ha b hb hn hpa hpb
  have h : RgInv st := run_inv_rg reuse ops (start_inv_rg db hdb)
  have h1 := (h.link a.name a.obj).2 ⟨a, ha, rfl, rfl, hpa⟩
  have h2 := (h.link a.name b.obj).2 ⟨b, hb, rfl, hn.symm, hpb⟩
  rw [h1] at h2
  exact eq_of_nodup_map h.objs ha hb (Option.some.inj h2)

/-- Two accounts are there, one is created, one loop crashes and the account is deleted and created again. -/
private def registryOps : List RgOp :=
  [.create b!"carol" true, .loopEnds 1, .create b!"bob" true, .forget 1, .create b!"bob" true, .delete 1,
    .create b!"bob" true, .restart [(1, b!"alice"), (3, b!"carol"), (4, b!"bob")]]

example : NamesUnique [(1, b!"alice"), (2, b!"bob")] ∧
    (rgRun true (rgStart [(1, b!"alice"), (2, b!"bob")]) registryOps).loops.map (fun l => (l.obj, l.name, l.phase)) =
      [(4, b!"alice", .running), (5, b!"carol", .running), (6, b!"bob", .running)] := by
  unfold NamesUnique; decide

/-- C54: the table of users lists exactly the goroutines that have not ended; in particular a name whose loop has
ended is not in the table any more, and nobody is handed a user object whose goroutine is gone. -/
theorem C54_forgotten (reuse : Bool) (db : List (Nat × Str)) (hdb : NamesUnique db) (ops : List RgOp) (name : Str)
    (onAuth : Bool) :
    let st := rgRun reuse (rgStart db) ops
    (∀ obj, rgLookup onAuth st name = .user obj →
      ∃ l ∈ st.loops, l.obj = obj ∧ l.name = name ∧ l.phase ≠ .gone) ∧
    ((∀ l ∈ st.loops, l.name = name → l.phase = .gone) → ∀ obj, rgLookup onAuth st name ≠ .user obj) ∧
    (∀ l ∈ st.loops, l.name = name → l.phase = .running → rgLookup onAuth st name = .user l.obj) := by
  intro st
  have h : RgInv st := run_inv_rg reuse ops (start_inv_rg db hdb)
  have h1 : ∀ obj, rgLookup onAuth st name = .user obj →
      ∃ l ∈ st.loops, l.obj = obj ∧ l.name = name ∧ l.phase ≠ .gone := by
    intro obj hl
    unfold rgLookup at hl
    split at hl
    · rename_i o hg
      cases hl
      exact (h.link _ _).1 hg
    · split at hl
      · cases hl
      · split at hl <;> cases hl
  refine ⟨h1, ?_, ?_⟩
  · intro hgone obj hl
    obtain ⟨l, hl, _, e2, e3⟩ := h1 obj hl
    exact e3 (hgone l hl e2)
  · intro l hl hn hp
    have := (h.link name l.obj).2 ⟨l, hl, rfl, hn, by rw [hp]; simp⟩
    simp [rgLookup, this]

private theorem foldAdd_loops (accs : List (Nat × Str)) (st : RgState) :
    (accs.foldl rgAdd st).loops.map (fun l => (l.row, l.name, l.phase)) =
      st.loops.map (fun l => (l.row, l.name, l.phase)) ++ accs.map (fun a => (a.1, a.2, .running)) := by
  induction accs generalizing st with
  | nil => simp
  | cons a accs ih => simp [ih, rgAdd]

/-- C54: after a restart every account has its event loop, whatever has happened before: the goroutines are, one by
one, those of the accounts in the database, and a client that logs in to an account is handed its loop. -/
theorem C54_restart (reuse : Bool) (db : List (Nat × Str)) (hdb : NamesUnique db) (ops : List RgOp)
    (order : List (Nat × Str)) (onAuth : Bool) :
    let before := rgRun reuse (rgStart db) ops
    let st := rgStep reuse before (.restart order)
    order.Perm before.db →
      st.db = before.db ∧
      st.loops.map (fun l => (l.row, l.name, l.phase)) = order.map (fun a => (a.1, a.2, .running)) ∧
      ∀ a ∈ st.db, ∃ l ∈ st.loops, l.row = a.1 ∧ l.name = a.2 ∧ l.phase = .running ∧
        rgLookup onAuth st a.2 = .user l.obj := by
  intro before st hp
  have hi : RgInv before := run_inv_rg reuse ops (start_inv_rg db hdb)
  have hs : RgInv st := step_inv_rg reuse hi (.restart order)
  have hst : st = order.foldl rgAdd
      { db := before.db, lastRow := before.lastRow, users := [], loops := [], nextObj := before.nextObj } := by
    show rgStep reuse before (.restart order) = _
    simp only [rgStep]
    rw [if_pos (List.isPerm_iff.2 hp)]
  have hdbs : ∀ (accs : List (Nat × Str)) (s : RgState), (accs.foldl rgAdd s).db = s.db := by
    intro accs
    induction accs with
    | nil => intro s; rfl
    | cons a accs ih => intro s; rw [List.foldl_cons, ih]; rfl
  have hd : st.db = before.db := by rw [hst, hdbs]
  have hl : st.loops.map (fun l => (l.row, l.name, l.phase)) = order.map (fun a => (a.1, a.2, .running)) := by
    rw [hst, foldAdd_loops]; rfl
  refine ⟨hd, hl, ?_⟩
  intro a ha
  have hm : (a.1, a.2, RgPhase.running) ∈ st.loops.map (fun l => (l.row, l.name, l.phase)) := by
    rw [hl]
    exact List.mem_map.2 ⟨a, hp.mem_iff.2 (hd ▸ ha), rfl⟩
  obtain ⟨l, hl1, e⟩ := List.mem_map.1 hm
  simp only [Prod.mk.injEq] at e
  refine ⟨l, hl1, e.1, e.2.1, e.2.2, ?_⟩
  have := (hs.link a.2 l.obj).2 ⟨l, hl1, rfl, e.2.1, by rw [e.2.2]; simp⟩
  simp [rgLookup, this]

example : List.Perm [(3, b!"carol"), (1, b!"alice")]
    (rgRun true (rgStart [(1, b!"alice"), (2, b!"bob")])
      [.create b!"carol" true, .loopEnds 1, .delete 1]).db := by
  have : (rgRun true (rgStart [(1, b!"alice"), (2, b!"bob")])
      [.create b!"carol" true, .loopEnds 1, .delete 1]).db = [(1, b!"alice"), (3, b!"carol")] := by decide
  rw [this]
  exact List.Perm.swap _ _ _

/-! ## C68 -/

private theorem maxRow_le (db : List (Nat × Str)) : ∀ a ∈ db, a.1 ≤ rgMaxRow db := by
  have gen : ∀ (l : List (Nat × Str)) (m : Nat), m ≤ l.foldl (fun m a => Nat.max m a.1) m ∧
      ∀ a ∈ l, a.1 ≤ l.foldl (fun m a => Nat.max m a.1) m := by
    intro l
    induction l with
    | nil => intro m; exact ⟨Nat.le_refl _, fun a h => absurd h List.not_mem_nil⟩
    | cons b l ih =>
      intro m
      obtain ⟨i1, i2⟩ := ih (Nat.max m b.1)
      simp only [List.foldl_cons]
      refine ⟨Nat.le_trans (Nat.le_max_left _ _) i1, ?_⟩
      intro a ha
      rcases List.mem_cons.1 ha with rfl | ha
      · exact Nat.le_trans (Nat.le_max_right _ _) i1
      · exact i2 a ha
  exact (gen db 0).2

/-- The objects for which the deletion of the account has been executed. -/
def deletions : List RgOp → List Nat
  | [] => []
  | .delete obj :: ops => obj :: deletions ops
  | _ :: ops => deletions ops

/-- What can be said of the rows; `D`: the objects whose account has been deleted. -/
private structure RowInv (reuse : Bool) (st : RgState) (D : List Nat) : Prop where
  rows : (st.db.map (·.1)).Nodup
  last : ∀ a ∈ st.db, a.1 ≤ st.lastRow
  stored : ∀ l ∈ st.loops, (l.phase = .running ∨ l.obj ∉ D) → (l.row, l.name) ∈ st.db
  dist : ∀ l ∈ st.loops, ∀ m ∈ st.loops, (l.phase = .running ∨ l.obj ∉ D) → (m.phase = .running ∨ m.obj ∉ D) →
    l.row = m.row → l.obj = m.obj
  all : reuse = false → (∀ l ∈ st.loops, l.row ≤ st.lastRow) ∧
    ∀ l ∈ st.loops, ∀ m ∈ st.loops, l.row = m.row → l.obj = m.obj
  lt : ∀ o ∈ D, o < st.nextObj

private theorem newRow_fresh {reuse : Bool} {st : RgState} {D : List Nat} (h : RowInv reuse st D) :
    ∀ a ∈ st.db, a.1 < rgNewRow reuse st := by
  intro a ha
  unfold rgNewRow
  split
  · have := maxRow_le st.db a ha; omega
  · have := h.last a ha; omega

private theorem rows_add {reuse : Bool} (accs : List (Nat × Str)) {st : RgState} {D : List Nat}
    (h : RowInv reuse st D) (hdb : ∀ a ∈ accs, a ∈ st.db) (hnd : (accs.map (·.1)).Nodup)
    (hnew : ∀ a ∈ accs, ∀ l ∈ st.loops, l.row ≠ a.1) :
    RowInv reuse (accs.foldl rgAdd st) D := by
  induction accs generalizing st with
  | nil => exact h
  | cons a accs ih =>
    simp only [List.map_cons, List.nodup_cons] at hnd
    refine ih (st := rgAdd st a) ⟨h.rows, h.last, ?_, ?_, ?_, ?_⟩ (fun b hb => hdb b (by simp [hb])) hnd.2 ?_
    · intro l hl hlive
      simp only [rgAdd] at hl ⊢
      rcases List.mem_append.1 hl with hl | hl
      · exact h.stored l hl hlive
      · simp at hl; subst hl; exact hdb a (by simp)
    · intro l hl m hm h1 h2 e
      simp only [rgAdd] at hl hm
      rcases List.mem_append.1 hl with hl | hl <;> rcases List.mem_append.1 hm with hm | hm
      · exact h.dist l hl m hm h1 h2 e
      · simp at hm; subst hm; exact absurd e (hnew a (by simp) l hl)
      · simp at hl; subst hl; exact absurd e.symm (hnew a (by simp) m hm)
      · simp at hl hm; subst hl; subst hm; rfl
    · intro hr
      obtain ⟨a1, a2⟩ := h.all hr
      refine ⟨?_, ?_⟩
      · intro l hl
        simp only [rgAdd] at hl ⊢
        rcases List.mem_append.1 hl with hl | hl
        · exact a1 l hl
        · simp at hl; subst hl; exact h.last a (hdb a (by simp))
      · intro l hl m hm e
        simp only [rgAdd] at hl hm
        rcases List.mem_append.1 hl with hl | hl <;> rcases List.mem_append.1 hm with hm | hm
        · exact a2 l hl m hm e
        · simp at hm; subst hm; exact absurd e (hnew a (by simp) l hl)
        · simp at hl; subst hl; exact absurd e.symm (hnew a (by simp) m hm)
        · simp at hl hm; subst hl; subst hm; rfl
    · intro o ho
      have := h.lt o ho
      simp only [rgAdd]; omega
    · intro b hb l hl
      simp only [rgAdd] at hl
      rcases List.mem_append.1 hl with hl | hl
      · exact hnew b (by simp [hb]) l hl
      · simp at hl; subst hl
        intro e
        have e2 : a.1 = b.1 := e
        exact hnd.1 (by rw [e2]; exact List.mem_map_of_mem hb)

private theorem rows_setPhase {reuse : Bool} {st : RgState} {D : List Nat} (h : RowInv reuse st D) (obj : Nat)
    (p : RgPhase) (hp : p ≠ .running) (users : GoMap Str Nat) :
    RowInv reuse { st with loops := rgSetPhase st.loops obj p, users := users } D := by
  have back : ∀ l ∈ rgSetPhase st.loops obj p, (l.phase = .running ∨ l.obj ∉ D) →
      ∃ d ∈ st.loops, l.obj = d.obj ∧ l.row = d.row ∧ l.name = d.name ∧ (d.phase = .running ∨ d.obj ∉ D) := by
    intro l hl hlive
    obtain ⟨d, hd, f1, f2, f3, ⟨_, f5⟩ | ⟨_, f5⟩⟩ := mem_setPhase hl
    · rcases hlive with h1 | h1
      · exact absurd (f5 ▸ h1) hp
      · exact ⟨d, hd, f1, f2, f3, .inr (f1 ▸ h1)⟩
    · refine ⟨d, hd, f1, f2, f3, ?_⟩
      rcases hlive with h1 | h1
      · exact .inl (f5 ▸ h1)
      · exact .inr (f1 ▸ h1)
  refine ⟨h.rows, h.last, ?_, ?_, ?_, h.lt⟩
  · intro l hl hlive
    obtain ⟨d, hd, _, f2, f3, f4⟩ := back l hl hlive
    rw [f2, f3]; exact h.stored d hd f4
  · intro l hl m hm h1 h2 e
    obtain ⟨d, hd, f1, f2, _, f4⟩ := back l hl h1
    obtain ⟨d', hd', g1, g2, _, g4⟩ := back m hm h2
    rw [f1, g1]
    exact h.dist d hd d' hd' f4 g4 (by rw [← f2, ← g2, e])
  · intro hr
    obtain ⟨a1, a2⟩ := h.all hr
    refine ⟨fun l hl => ?_, fun l hl m hm e => ?_⟩
    · obtain ⟨d, hd, _, f2, _⟩ := mem_setPhase hl
      rw [f2]; exact a1 d hd
    · obtain ⟨d, hd, f1, f2, _⟩ := mem_setPhase hl
      obtain ⟨d', hd', g1, g2, _⟩ := mem_setPhase hm
      rw [f1, g1]
      exact a2 d hd d' hd' (by rw [← f2, ← g2, e])

private theorem rows_step (reuse : Bool) {st : RgState} {D : List Nat} (hi : RgInv st) (h : RowInv reuse st D) (op : RgOp)
    (hr : reuse = true → ∀ o, op = .delete o → o ∉ D) :
    ∃ D', RowInv reuse (rgStep reuse st op) D' ∧
      (∀ o, o ∈ D' → o ∈ D ∨ op = .delete o) := by
  cases op with
  | create name dbOk =>
    refine ⟨D, ?_, fun o ho => .inl ho⟩
    simp only [rgStep, rgCreate]
    split
    · exact h
    · split
      · exact h
      · rename_i hg hc
        have hf := newRow_fresh h
        have h' : RowInv reuse { st with
            db := st.db ++ [(rgNewRow reuse st, name)],
            lastRow := Nat.max st.lastRow (rgNewRow reuse st) } D := by
          refine ⟨?_, ?_, ?_, h.dist, ?_, h.lt⟩
          · rw [List.map_append, List.nodup_append]
            refine ⟨h.rows, by simp, ?_⟩
            intro x hx y hy e
            obtain ⟨a, ha, rfl⟩ := List.mem_map.1 hx
            have := hf a ha
            simp at hy
            omega
          · intro a ha
            rcases List.mem_append.1 ha with ha | ha
            · exact Nat.le_trans (h.last a ha) (Nat.le_max_left _ _)
            · simp at ha; subst ha; exact Nat.le_max_right _ _
          · intro l hl hlive
            exact List.mem_append.2 (.inl (h.stored l hl hlive))
          · intro hre
            obtain ⟨a1, a2⟩ := h.all hre
            exact ⟨fun l hl => Nat.le_trans (a1 l hl) (Nat.le_max_left _ _), a2⟩
        -- a loop whose account has been deleted may have the same row: only if rows are reused
        generalize hrow : rgNewRow reuse st = row at h' hf ⊢
        have hlive : ∀ l ∈ st.loops, (l.phase = .running ∨ l.obj ∉ D) → l.row ≠ row := by
          intro l hl hlv e
          have := hf _ (h.stored l hl hlv)
          simp only at this
          omega
        have hall : reuse = false → ∀ l ∈ st.loops, l.row ≠ row := by
          intro hre l hl e
          have := (h.all hre).1 l hl
          rw [← hrow] at e
          simp [rgNewRow, hre] at e
          omega
        refine ⟨h'.rows, h'.last, ?_, ?_, ?_, ?_⟩
        · intro l hl hlv
          simp only [rgAdd] at hl ⊢
          rcases List.mem_append.1 hl with hl | hl
          · exact h'.stored l hl hlv
          · simp at hl; subst hl; exact List.mem_append.2 (.inr (by simp))
        · intro l hl m hm h1 h2 e
          simp only [rgAdd] at hl hm
          rcases List.mem_append.1 hl with hl | hl <;> rcases List.mem_append.1 hm with hm | hm
          · exact h.dist l hl m hm h1 h2 e
          · simp at hm; subst hm; exact absurd e (hlive l hl h1)
          · simp at hl; subst hl; exact absurd e.symm (hlive m hm h2)
          · simp at hl hm; subst hl; subst hm; rfl
        · intro hre
          obtain ⟨a1, a2⟩ := h'.all hre
          refine ⟨?_, ?_⟩
          · intro l hl
            simp only [rgAdd] at hl ⊢
            rcases List.mem_append.1 hl with hl | hl
            · exact a1 l hl
            · simp at hl; subst hl; exact Nat.le_max_right _ _
          · intro l hl m hm e
            simp only [rgAdd] at hl hm
            rcases List.mem_append.1 hl with hl | hl <;> rcases List.mem_append.1 hm with hm | hm
            · exact a2 l hl m hm e
            · simp at hm; subst hm; exact absurd e (hall hre l hl)
            · simp at hl; subst hl; exact absurd e.symm (hall hre m hm)
            · simp at hl hm; subst hl; subst hm; rfl
        · intro o ho
          have := h.lt o ho
          simp only [rgAdd]; omega
  | loopEnds obj =>
    refine ⟨D, ?_, fun o ho => .inl ho⟩
    simp only [rgStep]
    split
    · split
      · exact rows_setPhase h obj .ended (by simp) st.users
      · exact h
    · exact h
  | forget obj =>
    refine ⟨D, ?_, fun o ho => .inl ho⟩
    simp only [rgStep]
    split
    · split
      · exact rows_setPhase h obj .gone (by simp) _
      · exact h
    · exact h
  | delete obj =>
    simp only [rgStep]
    split
    · rename_i l hf
      have hl : l ∈ st.loops := List.mem_of_find?_eq_some hf
      have hlo : l.obj = obj := by simpa using List.find?_some hf
      split
      · exact ⟨D, h, fun o ho => .inl ho⟩
      · rename_i hp
        -- no live loop has the row of `l`
        have key : ∀ m ∈ st.loops, (m.phase = .running ∨ m.obj ∉ obj :: D) → m.row ≠ l.row ∧
            (m.phase = .running ∨ m.obj ∉ D) := by
          intro m hm hlv
          have hlv' : m.phase = .running ∨ m.obj ∉ D := by
            rcases hlv with h1 | h1
            · exact .inl h1
            · exact .inr (fun h2 => h1 (List.mem_cons_of_mem _ h2))
          refine ⟨fun e => ?_, hlv'⟩
          have hmo : m.obj = obj := by
            cases hre : reuse with
            | true => exact (h.dist m hm l hl hlv' (.inr (hlo ▸ hr hre obj rfl)) e).trans hlo
            | false => exact ((h.all hre).2 m hm l hl e).trans hlo
          have hml : m = l := eq_of_nodup_map hi.objs hm hl (hmo.trans hlo.symm)
          rcases hlv with h1 | h1
          · exact hp (hml ▸ h1)
          · exact h1 (by rw [hmo]; simp)
        refine ⟨obj :: D, ⟨?_, ?_, ?_, ?_, h.all, ?_⟩, ?_⟩
        · exact List.Sublist.nodup (List.Sublist.map _ List.filter_sublist) h.rows
        · intro a ha
          exact h.last a (List.mem_filter.1 ha).1
        · intro m hm hlv
          obtain ⟨k1, k2⟩ := key m hm hlv
          exact List.mem_filter.2 ⟨h.stored m hm k2, by simpa using k1⟩
        · intro m hm m' hm' h1 h2 e
          exact h.dist m hm m' hm' (key m hm h1).2 (key m' hm' h2).2 e
        · intro o ho
          rcases List.mem_cons.1 ho with rfl | ho
          · rw [← hlo]; exact hi.lt l hl
          · exact h.lt o ho
        · intro o ho
          rcases List.mem_cons.1 ho with rfl | ho
          · exact .inr rfl
          · exact .inl ho
    · exact ⟨D, h, fun o ho => .inl ho⟩
  | restart order =>
    simp only [rgStep]
    split
    · rename_i hp
      have hperm := List.isPerm_iff.1 hp
      refine ⟨D, ?_, fun o ho => .inl ho⟩
      have h0 : RowInv reuse
          { db := st.db, lastRow := st.lastRow, users := [], loops := [], nextObj := st.nextObj } D :=
        ⟨h.rows, h.last, fun _ hl => absurd hl List.not_mem_nil, fun _ hl => absurd hl List.not_mem_nil,
          fun _ => ⟨fun _ hl => absurd hl List.not_mem_nil, fun _ hl => absurd hl List.not_mem_nil⟩, h.lt⟩
      refine rows_add order h0 (fun a ha => hperm.mem_iff.1 ha) ?_ (fun _ _ _ hl => absurd hl List.not_mem_nil)
      exact (List.Perm.nodup_iff (List.Perm.map _ hperm)).2 h.rows
    · exact ⟨D, h, fun o ho => .inl ho⟩

private theorem rows_run (reuse : Bool) (ops : List RgOp) {st : RgState} {D : List Nat} (hi : RgInv st)
    (h : RowInv reuse st D) (hr : reuse = true → (deletions ops).Nodup ∧ ∀ o ∈ deletions ops, o ∉ D) :
    ∃ D', RowInv reuse (rgRun reuse st ops) D' := by
  induction ops generalizing st D with
  | nil => exact ⟨D, h⟩
  | cons op ops ih =>
    obtain ⟨D', h', hD⟩ := rows_step reuse hi h op (by
      intro hre o e
      subst e
      exact (hr hre).2 o (by simp [deletions]))
    refine ih (step_inv_rg reuse hi op) h' (fun hre => ?_)
    obtain ⟨n1, n2⟩ := hr hre
    cases op with
    | delete obj =>
      simp only [deletions, List.nodup_cons] at n1 n2
      refine ⟨n1.2, fun o ho ho' => ?_⟩
      rcases hD o ho' with h1 | h1
      · exact n2 o (List.mem_cons_of_mem _ ho) h1
      · cases h1; exact n1.1 ho
    | _ =>
      simp only [deletions] at n1 n2
      refine ⟨n1, fun o ho ho' => ?_⟩
      rcases hD o ho' with h1 | h1
      · exact n2 o ho h1
      · cases h1

private theorem start_rows (reuse : Bool) (db : List (Nat × Str)) (hr : (db.map (·.1)).Nodup) :
    RowInv reuse (rgStart db) [] := by
  refine rows_add db ⟨hr, maxRow_le db, fun _ hl => absurd hl List.not_mem_nil, fun _ hl => absurd hl List.not_mem_nil,
    fun _ => ⟨fun _ hl => absurd hl List.not_mem_nil, fun _ hl => absurd hl List.not_mem_nil⟩,
    fun _ ho => absurd ho List.not_mem_nil⟩ (fun a ha => ha) hr (fun _ _ _ hl => absurd hl List.not_mem_nil)

/-- C68: with PostgreSQL, after every history of creations, deletions (of any object, any number of times), crashes
and restarts, an account whose event loop runs is in the database: no deletion has hit it. -/
theorem C68_postgres (db : List (Nat × Str)) (hn : NamesUnique db) (hr : (db.map (·.1)).Nodup) (ops : List RgOp) :
    let st := rgRun false (rgStart db) ops
    ∀ l ∈ st.loops, l.phase = .running → (l.row, l.name) ∈ st.db := by
  intro st l hl hp
  obtain ⟨D, h⟩ := rows_run false ops (start_inv_rg db hn) (start_rows false db hr) (fun h => by cases h)
  exact h.stored l hl (.inl hp)

/-- C68 (partial): with SQLite, the same, if no two deletions are executed for the same user object. -/
theorem C68_sqlite_partial (db : List (Nat × Str)) (hn : NamesUnique db) (hr : (db.map (·.1)).Nodup) (ops : List RgOp)
    (hd : (deletions ops).Nodup) :
    let st := rgRun true (rgStart db) ops
    ∀ l ∈ st.loops, l.phase = .running → (l.row, l.name) ∈ st.db := by
  intro st l hl hp
  obtain ⟨D, h⟩ := rows_run true ops (start_inv_rg db hn) (start_rows true db hr)
    (fun _ => ⟨hd, fun _ _ => List.not_mem_nil⟩)
  exact h.stored l hl (.inl hp)

example : NamesUnique [(1, b!"alice"), (2, b!"bob")] ∧ (([(1, b!"alice"), (2, b!"bob")] : List (Nat × Str)).map (·.1)).Nodup ∧
    (deletions registryOps).Nodup := by
  unfold NamesUnique; decide

/-- C68 is violated with SQLite: two administrators confirm the deletion of `bob` at the same time; the first
deletion is executed, `bob` is created again and gets the row of the old account; then the second deletion is
executed and deletes the new account, whose event loop runs. -/
theorem C68_sqlite_violated :
    let st := rgRun true (rgStart [(1, b!"alice"), (2, b!"bob")])
      [.loopEnds 1, .forget 1, .delete 1, .create b!"bob" true, .delete 1]
    st.db = [(1, b!"alice")] ∧ (⟨2, 2, b!"bob", .running⟩ : RgLoop) ∈ st.loops := by decide

end Verif.Props
