import Verif.Spec.PgMsg
import Verif.Proof.MsgDb

/-! # Lemmas on the message tables of a PostgreSQL database -/

namespace Verif.Proof
open Verif.Model Verif.Spec

/-- The identifier of the row of a target. -/
def pgTid (T : List MsgTargetRow) (net : Nat) (name : Str) : Nat :=
  (((T.filter (fun t => decide (t.network = net ∧ t.target = name))).map (·.id)).head?).getD 0

/-- The row of a message. -/
def pgRowOf (col : Int → Int) (T : List MsgTargetRow) (k : PgKept) : PgRow :=
  ⟨k.id, pgTid T k.net k.name, k.m.raw, col k.m.t, k.m.sender, k.m.text⟩

structure PgInv (col : Int → Int) (kept : List PgKept) (nets : List Nat) (db : PgMsgDb) : Prop where
  ids : (db.targets.map (·.id)).Nodup
  names : (db.targets.map (fun t => (t.network, t.target))).Nodup
  ltT : ∀ t ∈ db.targets, t.id < db.nextT
  hasT : ∀ k ∈ kept, ∃ t ∈ db.targets, t.network = k.net ∧ t.target = k.name
  rows : db.messages = kept.map (pgRowOf col db.targets)
  nets : ∀ n, n ∈ db.networks ↔ n ∈ nets

theorem pg_find {T : List MsgTargetRow} (names : (T.map (fun t => (t.network, t.target))).Nodup)
    {t : MsgTargetRow} (ht : t ∈ T) :
    T.filter (fun t' => decide (t'.network = t.network ∧ t'.target = t.target)) = [t] := by
  refine filter_singleton t (nodup_of_map names) ht (fun x hx => ?_)
  rw [decide_eq_true_iff]
  refine ⟨fun he => eq_of_nodup_map names hx ht (by simp [he.1, he.2]), fun he => by simp [he]⟩

theorem pg_tid {T : List MsgTargetRow} (names : (T.map (fun t => (t.network, t.target))).Nodup)
    {t : MsgTargetRow} (ht : t ∈ T) : pgTid T t.network t.target = t.id := by
  unfold pgTid
  rw [pg_find names ht]
  rfl

theorem pg_accepts {ok : Str → Bool} {p : PgIn} : (p.timeOK && pgAccepts ok p.m) = true ↔
    (p.timeOK = true ∧ ok p.m.raw = true ∧ ok p.m.sender = true ∧ ∀ x, p.m.text = some x → ok x = true) := by
  unfold pgAccepts
  cases h : p.m.text <;> simp [and_assoc]

/-- The row of a message of a known target. -/
def pgMk (col : Int → Int) (t : MsgTargetRow) (q : Nat × PgIn) : PgRow :=
  ⟨q.1, t.id, q.2.m.raw, col q.2.m.t, q.2.m.sender, q.2.m.text⟩

/-- The loop of `StoreMessages` stores everything, or fails. -/
theorem pg_insert_all (ok : Str → Bool) (col : Int → Int) (net : Nat) (name : Str) (t : MsgTargetRow) :
    ∀ (msgs : List PgIn) (db : PgMsgDb),
      db.targets.filter (fun t => decide (t.network = net ∧ t.target = name)) = [t] →
      ((∀ p ∈ msgs, (p.timeOK && pgAccepts ok p.m) = true) ∧
        pgInsertAll ok col db net name msgs =
          ({ db with
              messages := db.messages ++ ((List.range' db.nextM msgs.length).zip msgs).map (pgMk col t)
              nextM := db.nextM + msgs.length }, some (List.range' db.nextM msgs.length))) ∨
      ((¬ ∀ p ∈ msgs, (p.timeOK && pgAccepts ok p.m) = true) ∧
        ∃ db', pgInsertAll ok col db net name msgs = (db', none) ∧ db.nextM ≤ db'.nextM ∧ db'.nextT = db.nextT) := by
  intro msgs
  induction msgs with
  | nil =>
    intro db _
    left
    refine ⟨fun p hp => (nomatch hp), ?_⟩
    simp [pgInsertAll]
  | cons p ps ih =>
    intro db hf
    by_cases hp : (p.timeOK && pgAccepts ok p.m) = true
    · have e : pgInsertMsg ok col db net name p = ({ db with
          messages := db.messages ++ [pgMk col t (db.nextM, p)]
          nextM := db.nextM + 1 }, some db.nextM) := by
        unfold pgInsertMsg
        rw [if_pos hp, hf]
        rfl
      rcases ih { db with
          messages := db.messages ++ [pgMk col t (db.nextM, p)]
          nextM := db.nextM + 1 } hf with ⟨h1, h2⟩ | ⟨h1, db', h2, h3, h4⟩
      · left
        refine ⟨fun q hq => ?_, ?_⟩
        · rcases List.mem_cons.1 hq with rfl | hq
          · exact hp
          · exact h1 q hq
        · simp only [pgInsertAll, e, h2, List.length_cons, List.range'_succ, List.zip_cons_cons, List.map_cons,
            List.append_assoc, List.cons_append, List.nil_append]
          rw [Nat.add_assoc, Nat.add_comm 1]
      · right
        refine ⟨fun h => h1 (fun q hq => h q (List.mem_cons_of_mem _ hq)), db', ?_, ?_, h4⟩
        · simp only [pgInsertAll, e, h2]
        · simp only at h3; omega
    · right
      refine ⟨fun h => hp (h p (by simp)), db, ?_, Nat.le_refl _, rfl⟩
      have e : pgInsertMsg ok col db net name p = (db, none) := by
        unfold pgInsertMsg
        rw [if_neg hp]
      simp only [pgInsertAll, e]

/-- The row of the target is there after its insertion. -/
theorem pg_insert_target {ok : Str → Bool} {col : Int → Int} {kept : List PgKept} {nets : List Nat} {db db1 : PgMsgDb}
    (hi : PgInv col kept nets db) {net : Nat} {name : Str} (h : pgInsertTarget ok db net name = some db1) :
    PgInv col kept nets db1 ∧ (∃ t ∈ db1.targets, t.network = net ∧ t.target = name) ∧ db1.nextM = db.nextM ∧
      db.nextT ≤ db1.nextT := by
  unfold pgInsertTarget at h
  split at h
  · by_cases hex : ∃ t ∈ db.targets, t.network = net ∧ t.target = name
    · have hany : db.targets.any (fun t => decide (t.network = net ∧ t.target = name)) = true := by
        rw [List.any_eq_true]
        obtain ⟨t, h1, h2⟩ := hex
        exact ⟨t, h1, by simpa using h2⟩
      rw [if_pos hany] at h
      cases h
      exact ⟨⟨hi.ids, hi.names, fun t ht => Nat.lt_succ_of_lt (hi.ltT t ht), hi.hasT, hi.rows, hi.nets⟩, hex, rfl,
        Nat.le_succ _⟩
    · have hany : ¬ db.targets.any (fun t => decide (t.network = net ∧ t.target = name)) = true := by
        rw [List.any_eq_true]
        rintro ⟨t, h1, h2⟩
        exact hex ⟨t, h1, by simpa using h2⟩
      rw [if_neg hany] at h
      cases h
      refine ⟨⟨?_, ?_, ?_, ?_, ?_, hi.nets⟩, ⟨_, by simp; exact .inr rfl, rfl, rfl⟩, rfl, Nat.le_succ _⟩
      · simp only [List.map_append, List.map_cons, List.map_nil, List.nodup_append]
        refine ⟨hi.ids, by simp, ?_⟩
        intro a ha b hb
        simp only [List.mem_singleton] at hb
        subst hb
        obtain ⟨t, ht, rfl⟩ := List.mem_map.1 ha
        exact Nat.ne_of_lt (hi.ltT t ht)
      · simp only [List.map_append, List.map_cons, List.map_nil, List.nodup_append]
        refine ⟨hi.names, by simp, ?_⟩
        intro a ha b hb
        simp only [List.mem_singleton] at hb
        subst hb
        rintro rfl
        obtain ⟨t, h1, h2⟩ := List.mem_map.1 ha
        exact hex ⟨t, h1, by simpa using h2⟩
      · intro t ht
        rcases List.mem_append.1 ht with ht | ht
        · exact Nat.lt_succ_of_lt (hi.ltT t ht)
        · simp only [List.mem_singleton] at ht
          subst ht
          exact Nat.lt_succ_self _
      · intro k hk
        obtain ⟨t, h1, h2⟩ := hi.hasT k hk
        exact ⟨t, by simp [h1], h2⟩
      · rw [hi.rows]
        apply List.map_congr_left
        intro k hk
        obtain ⟨t, g1, g2, g3⟩ := hi.hasT k hk
        have hf := pg_find hi.names g1
        rw [g2, g3] at hf
        simp only [pgRowOf, pgTid, List.filter_append, hf]
        rfl
  · cases h

theorem pg_insert_target_iff {ok : Str → Bool} {db : PgMsgDb} {net : Nat} {name : Str} :
    (∃ db1, pgInsertTarget ok db net name = some db1) ↔ (ok name = true ∧ net ∈ db.networks) := by
  unfold pgInsertTarget
  by_cases h : ok name = true ∧ net ∈ db.networks
  · rw [if_pos (by simpa using h)]
    refine ⟨fun _ => h, fun _ => ?_⟩
    split <;> exact ⟨_, rfl⟩
  · rw [if_neg (by simpa using h)]
    exact ⟨fun ⟨_, h'⟩ => (nomatch h'), fun h' => absurd h' h⟩

/-- What `StoreMessages` does. -/
theorem pg_store {ok : Str → Bool} {col : Int → Int} {kept : List PgKept} {nets : List Nat} {db : PgMsgDb}
    (hi : PgInv col kept nets db) (net : Nat) (name : Str) (msgs : List PgIn) (commit : Bool) :
    (((msgs = [] ∨ PgStorable ok nets net name msgs commit) ∧
        (pgStore ok col db net name msgs commit).2 = some (List.range' db.nextM msgs.length) ∧
        PgInv col (kept ++ ((List.range' db.nextM msgs.length).zip msgs).map (fun p => ⟨p.1, net, name, p.2.m⟩)) nets
          (pgStore ok col db net name msgs commit).1 ∧
        (pgStore ok col db net name msgs commit).1.nextM = db.nextM + msgs.length) ∨
     ((¬ (msgs = [] ∨ PgStorable ok nets net name msgs commit)) ∧
        (pgStore ok col db net name msgs commit).2 = none ∧
        PgInv col kept nets (pgStore ok col db net name msgs commit).1 ∧
        db.nextM ≤ (pgStore ok col db net name msgs commit).1.nextM)) := by
  by_cases h0 : msgs = []
  · subst h0
    left
    refine ⟨.inl rfl, ?_⟩
    unfold pgStore
    simp only [if_true]
    exact ⟨rfl, by simpa using hi, rfl⟩
  · unfold pgStore
    rw [if_neg h0]
    have hnets := hi.nets net
    cases hT : pgInsertTarget ok db net name with
    | none =>
      right
      refine ⟨?_, rfl, hi, Nat.le_refl _⟩
      rintro (h | h)
      · exact h0 h
      · obtain ⟨d, hd⟩ := (pg_insert_target_iff (ok := ok) (db := db)).2 ⟨h.2.1, hnets.2 h.1⟩
        rw [hT] at hd
        cases hd
    | some db1 =>
      have hok := (pg_insert_target_iff (ok := ok) (db := db)).1 ⟨db1, hT⟩
      obtain ⟨hi1, ⟨t, t1, t2, t3⟩, hM, hTn⟩ := pg_insert_target hi hT
      have hf := pg_find hi1.names t1
      rw [t2, t3] at hf
      simp only
      have hroll : ∀ db2 : PgMsgDb, db2.nextT = db1.nextT → PgInv col kept nets (pgRollback db db2) := by
        intro db2 h2
        refine ⟨hi.ids, hi.names, fun t ht => ?_, hi.hasT, hi.rows, hi.nets⟩
        have := hi.ltT t ht
        simp only [pgRollback]
        omega
      rcases pg_insert_all ok col net name t msgs db1 hf with ⟨h1, h2⟩ | ⟨h1, db', h2, h3, h4⟩
      · rw [h2]
        simp only
        rw [hM]
        cases commit with
        | true =>
          left
          refine ⟨.inr ⟨hnets.1 hok.2, hok.1, rfl, fun p hp => pg_accepts.1 (h1 p hp)⟩, rfl, ?_, rfl⟩
          simp only [if_true]
          refine ⟨hi1.ids, hi1.names, hi1.ltT, ?_, ?_, hi1.nets⟩
          · intro k hk
            rcases List.mem_append.1 hk with hk | hk
            · exact hi1.hasT k hk
            · obtain ⟨q, _, rfl⟩ := List.mem_map.1 hk
              exact ⟨t, t1, t2, t3⟩
          · simp only
            rw [hi1.rows, List.map_append, List.map_map]
            congr 1
            apply List.map_congr_left
            intro q _
            have := pg_tid hi1.names t1
            rw [t2, t3] at this
            simp only [Function.comp, pgRowOf, pgMk, this]
        | false =>
          right
          refine ⟨?_, rfl, hroll _ rfl, ?_⟩
          · rintro (h | h)
            · exact h0 h
            · exact absurd h.2.2.1 (by decide)
          · simp only [Bool.false_eq_true, if_false, pgRollback]
            omega
      · rw [h2]
        simp only
        right
        refine ⟨?_, trivial, hroll db' h4, ?_⟩
        · rintro (h | h)
          · exact h0 h
          · exact h1 (fun p hp => pg_accepts.2 (h.2.2.2 p hp))
        · simp only [pgRollback]
          omega

/-- What deleting a network does. -/
theorem pg_delete {col : Int → Int} {kept : List PgKept} {nets : List Nat} {db : PgMsgDb}
    (hi : PgInv col kept nets db) (net : Nat) :
    PgInv col (kept.filter (fun k => decide (k.net ≠ net))) (nets.filter (fun x => decide (x ≠ net)))
      (pgDeleteNetwork db net) := by
  have hsub : List.Sublist (db.targets.filter (fun t => decide (t.network ≠ net))) db.targets := List.filter_sublist
  refine ⟨(hsub.map _).nodup hi.ids, (hsub.map _).nodup hi.names, fun t ht => hi.ltT t (hsub.subset ht), ?_, ?_, ?_⟩
  · intro k hk
    obtain ⟨k1, k2⟩ := List.mem_filter.1 hk
    obtain ⟨t, t1, t2, t3⟩ := hi.hasT k k1
    refine ⟨t, List.mem_filter.2 ⟨t1, ?_⟩, t2, t3⟩
    rw [t2]; exact k2
  · simp only [pgDeleteNetwork]
    rw [hi.rows, List.filter_map]
    have e : kept.filter ((fun m => !(db.targets.any (fun t => decide (t.id = m.target ∧ t.network = net)))) ∘
        pgRowOf col db.targets) = kept.filter (fun k => decide (k.net ≠ net)) := by
      apply List.filter_congr
      intro k hk
      obtain ⟨t, t1, t2, t3⟩ := hi.hasT k hk
      have ht := pg_tid hi.names t1
      rw [t2, t3] at ht
      rw [Bool.eq_iff_iff]
      simp only [Function.comp, Bool.not_eq_true', decide_eq_true_eq, pgRowOf, ht]
      rw [← Bool.not_eq_true, List.any_eq_true]
      constructor
      · intro h hn
        exact h ⟨t, t1, by simp [t2, hn]⟩
      · rintro h ⟨t', g1, g2⟩
        simp only [decide_eq_true_eq] at g2
        have := eq_of_nodup_map hi.ids g1 t1 g2.1
        subst this
        exact h (by rw [← t2]; exact g2.2)
    rw [e]
    apply List.map_congr_left
    intro k hk
    obtain ⟨k1, k2⟩ := List.mem_filter.1 hk
    simp only [decide_eq_true_eq] at k2
    have : (db.targets.filter (fun t => decide (t.network ≠ net))).filter
        (fun t => decide (t.network = k.net ∧ t.target = k.name)) =
        db.targets.filter (fun t => decide (t.network = k.net ∧ t.target = k.name)) := by
      rw [List.filter_filter]
      apply List.filter_congr
      intro t _
      rw [Bool.eq_iff_iff]
      simp only [Bool.and_eq_true, decide_eq_true_eq]
      constructor
      · exact fun h => h.1
      · exact fun h => ⟨h, by rw [h.1]; exact k2⟩
    simp only [pgRowOf, pgTid, this]
  · intro n
    simp only [pgDeleteNetwork, List.mem_filter, hi.nets n]

/-- The rows of a conversation. -/
theorem pg_of_target {col : Int → Int} {kept : List PgKept} {nets : List Nat} {db : PgMsgDb}
    (hi : PgInv col kept nets db) (net : Nat) (name : Str) :
    pgOfTarget db net name =
      some ((kept.filter (fun k => decide (k.net = net ∧ k.name = name))).map (pgRowOf col db.targets)) := by
  unfold pgOfTarget
  by_cases hex : ∃ t ∈ db.targets, t.network = net ∧ t.target = name
  · obtain ⟨t, t1, t2, t3⟩ := hex
    have hf := pg_find hi.names t1
    rw [t2, t3] at hf
    rw [hf]
    simp only
    rw [hi.rows, List.filter_map]
    congr 2
    apply List.filter_congr
    intro k hk
    obtain ⟨t', g1, g2, g3⟩ := hi.hasT k hk
    have ht := pg_tid hi.names g1
    rw [g2, g3] at ht
    simp only [Function.comp, pgRowOf, ht]
    rw [decide_eq_decide]
    constructor
    · intro h
      have := eq_of_nodup_map hi.ids g1 t1 h
      subst this
      exact ⟨g2.symm.trans t2, g3.symm.trans t3⟩
    · rintro ⟨h1, h2⟩
      rw [eq_of_nodup_map hi.names g1 t1 (by simp [g2, g3, h1, h2, t2, t3])]
  · have e1 : db.targets.filter (fun t => decide (t.network = net ∧ t.target = name)) = [] := by
      rw [List.filter_eq_nil_iff]
      intro t ht h
      exact hex ⟨t, ht, by simpa using h⟩
    have e2 : kept.filter (fun k => decide (k.net = net ∧ k.name = name)) = [] := by
      rw [List.filter_eq_nil_iff]
      intro k hk h
      obtain ⟨t', g1, g2, g3⟩ := hi.hasT k hk
      simp only [decide_eq_true_eq] at h
      exact hex ⟨t', g1, g2.trans h.1, g3.trans h.2⟩
    rw [e1, e2]
    rfl

/-- Sorting, cutting and reversing. -/
theorem pg_sorted {ord : Bool → List PgRow → List PgRow} (hord : PgOrd ord) (col : Int → Int) (T : List MsgTargetRow)
    (d : Bool) (l : List PgKept) :
    ∃ sorted : List PgKept, ord d (l.map (pgRowOf col T)) = sorted.map (pgRowOf col T) ∧ sorted.Perm l ∧
      sorted.Pairwise (fun a b => if d then col b.m.t ≤ col a.m.t else col a.m.t ≤ col b.m.t) := by
  obtain ⟨o1, o2⟩ := hord d (l.map (pgRowOf col T))
  obtain ⟨L, l1, l2⟩ := perm_map_inv _ o1 _ rfl
  refine ⟨L, l2, l1, ?_⟩
  rw [l2, List.pairwise_map] at o2
  exact o2

/-- The rows of the join for one target: the time of its latest message, nothing if there is none. -/
theorem pg_lateral {col : Int → Int} {kept : List PgKept} {nets : List Nat} {db : PgMsgDb}
    (hi : PgInv col kept nets db) {ord : Bool → List PgRow → List PgRow} (hord : PgOrd ord) (events : Bool)
    {t : MsgTargetRow} (ht : t ∈ db.targets) :
    ((pgLateral ord db events t) = [] ∧ ∀ k ∈ kept, ¬ PgConv t.network t.target events k) ∨
    ∃ l, pgLateral ord db events t = [l] ∧ PgLatest col kept t.network events t.target l.time := by
  have er : db.messages.filter (fun m => decide (m.target = t.id) && (events || m.text.isSome)) =
      (kept.filter (fun k => decide (PgConv t.network t.target events k))).map (pgRowOf col db.targets) := by
    rw [hi.rows, List.filter_map]
    congr 1
    apply List.filter_congr
    intro k hk
    obtain ⟨t', g1, g2, g3⟩ := hi.hasT k hk
    have htd := pg_tid hi.names g1
    rw [g2, g3] at htd
    rw [Bool.eq_iff_iff]
    simp only [Function.comp, pgRowOf, htd, Bool.and_eq_true, decide_eq_true_eq, Bool.or_eq_true,
      Option.isSome_iff_ne_none]
    unfold PgConv
    constructor
    · rintro ⟨a, b⟩
      have := eq_of_nodup_map hi.ids g1 ht a
      subst this
      exact ⟨g2.symm, g3.symm, b⟩
    · rintro ⟨a, b, c⟩
      rw [eq_of_nodup_map hi.names g1 ht (by simp [g2, g3, a, b])]
      exact ⟨rfl, c⟩
  unfold pgLateral
  rw [er]
  obtain ⟨sorted, s1, s2, s3⟩ := pg_sorted hord col db.targets true
    (kept.filter (fun k => decide (PgConv t.network t.target events k)))
  rw [s1]
  have hmem : ∀ k ∈ kept, PgConv t.network t.target events k → k ∈ sorted := fun k hk hc =>
    s2.mem_iff.2 (List.mem_filter.2 ⟨hk, by simpa using hc⟩)
  cases sorted with
  | nil => exact .inl ⟨rfl, fun k hk hc => by cases hmem k hk hc⟩
  | cons q sorted =>
    right
    have hq := List.mem_filter.1 (s2.subset (List.mem_cons_self ..))
    have hc : PgConv t.network t.target events q := by simpa using hq.2
    have htd := pg_tid hi.names ht
    refine ⟨pgRowOf col db.targets q, ?_, ⟨q, hq.1, hc, rfl⟩, fun k hk hkc => ?_⟩
    · simp only [List.map_cons, List.take_succ_cons, List.take_zero]
      rw [List.filter_cons, if_pos]
      · rfl
      · simp only [pgRowOf, hc.1, hc.2.1, htd, decide_true]
    · rcases List.mem_cons.1 (hmem k hk hkc) with e | e
      · rw [e]; exact Int.le_refl _
      · have := (List.pairwise_cons.1 s3).1 k e
        exact this

/-- The invariant of a sequence of calls. -/
theorem pg_run (ok : Str → Bool) (col : Int → Int) (ops : List PgMsgOp) :
    PgInv col (pgKept (pgRun ok col ops).2) (pgNetworks (pgRun ok col ops).2) (pgRun ok col ops).1 ∧
    (pgIds (pgRun ok col ops).2).Pairwise (· < ·) ∧
    (∀ i ∈ pgIds (pgRun ok col ops).2, 0 < i ∧ i < (pgRun ok col ops).1.nextM) ∧
    ((pgKept (pgRun ok col ops).2).map (·.id)).Sublist (pgIds (pgRun ok col ops).2) ∧ 0 < (pgRun ok col ops).1.nextM := by
  induction ops using snocInd with
  | nil =>
    refine ⟨⟨?_, ?_, ?_, ?_, ?_, ?_⟩, ?_, ?_, ?_, ?_⟩ <;> simp [pgRun, pgKept, pgNetworks, pgIds]
  | snoc ops op ih =>
    obtain ⟨h1, h2, h3, h4, h5⟩ := ih
    have e : pgRun ok col (ops ++ [op]) = ((pgStep ok col (pgRun ok col ops).1 op).1,
        (pgRun ok col ops).2 ++ [(op, (pgStep ok col (pgRun ok col ops).1 op).2)]) := by
      unfold pgRun
      rw [List.foldl_append]
      rfl
    rw [e]
    generalize pgRun ok col ops = st at *
    obtain ⟨db, tr⟩ := st
    simp only at *
    have eI : ∀ r, pgIds (tr ++ [(op, r)]) = pgIds tr ++ r.getD [] := by
      intro r; simp [pgIds]
    cases op with
    | addNetwork n =>
      have eK : ∀ r, pgKept (tr ++ [(.addNetwork n, r)]) = pgKept tr := by
        intro r; unfold pgKept; rw [List.foldl_append]; rfl
      have eN : ∀ r, pgNetworks (tr ++ [(.addNetwork n, r)]) = n :: pgNetworks tr := by
        intro r; unfold pgNetworks; rw [List.foldl_append]; rfl
      simp only [pgStep, eI, eK, eN, Option.getD_some, List.append_nil]
      by_cases hc : db.networks.contains n = true
      · rw [if_pos hc]
        refine ⟨⟨h1.ids, h1.names, h1.ltT, h1.hasT, h1.rows, fun x => ?_⟩, h2, h3, h4, h5⟩
        rw [h1.nets, List.mem_cons]
        refine ⟨.inr, fun h => h.elim (fun h => ?_) id⟩
        rw [h, ← h1.nets]
        simpa using hc
      · rw [if_neg hc]
        refine ⟨⟨h1.ids, h1.names, h1.ltT, h1.hasT, h1.rows, fun x => ?_⟩, h2, h3, h4, h5⟩
        rw [List.mem_append, List.mem_singleton, List.mem_cons, h1.nets]
        exact Or.comm
    | deleteNetwork n =>
      have eK : ∀ r, pgKept (tr ++ [(.deleteNetwork n, r)]) = (pgKept tr).filter (fun k => decide (k.net ≠ n)) := by
        intro r; unfold pgKept; rw [List.foldl_append]; rfl
      have eN : ∀ r, pgNetworks (tr ++ [(.deleteNetwork n, r)]) = (pgNetworks tr).filter (fun x => decide (x ≠ n)) := by
        intro r; unfold pgNetworks; rw [List.foldl_append]; rfl
      simp only [pgStep, eI, eK, eN, Option.getD_some, List.append_nil]
      exact ⟨pg_delete h1 n, h2, h3, (List.filter_sublist.map _).trans h4, h5⟩
    | store net name msgs commit =>
      have eN : ∀ r, pgNetworks (tr ++ [(.store net name msgs commit, r)]) = pgNetworks tr := by
        intro r; unfold pgNetworks; rw [List.foldl_append]; rfl
      simp only [pgStep, eI, eN]
      rcases pg_store (ok := ok) h1 net name msgs commit with ⟨_, g2, g3, g4⟩ | ⟨_, g2, g3, g4⟩
      · have eK : pgKept (tr ++ [(.store net name msgs commit, some (List.range' db.nextM msgs.length))]) =
            pgKept tr ++ ((List.range' db.nextM msgs.length).zip msgs).map (fun p => ⟨p.1, net, name, p.2.m⟩) := by
          unfold pgKept; rw [List.foldl_append]; rfl
        rw [g2, eK]
        refine ⟨g3, ?_, ?_, ?_, by rw [g4]; omega⟩
        · rw [Option.getD_some, List.pairwise_append]
          refine ⟨h2, List.pairwise_lt_range', fun a ha b hb => ?_⟩
          have := (h3 a ha).2
          have := (List.mem_range'_1.1 hb).1
          omega
        · intro i hi
          rw [Option.getD_some] at hi
          rw [g4]
          rcases List.mem_append.1 hi with hi | hi
          · have := h3 i hi; omega
          · have := List.mem_range'_1.1 hi; omega
        · rw [Option.getD_some, List.map_append]
          refine h4.append ?_
          rw [List.map_map]
          have : ((fun k : PgKept => k.id) ∘ fun p : Nat × PgIn => (⟨p.1, net, name, p.2.m⟩ : PgKept)) = Prod.fst := rfl
          rw [this, List.map_fst_zip (by simp)]
          exact List.Sublist.refl _
      · have eK : pgKept (tr ++ [(.store net name msgs commit, none)]) = pgKept tr := by
          unfold pgKept; rw [List.foldl_append]; rfl
        rw [g2, eK]
        simp only [Option.getD_none, List.append_nil]
        exact ⟨g3, h2, fun i hi => ⟨(h3 i hi).1, Nat.lt_of_lt_of_le (h3 i hi).2 g4⟩, h4, by omega⟩

end Verif.Proof
