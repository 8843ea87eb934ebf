import Verif.Props.MsgDb
import Verif.Proof.PgMsg

/-! # C81: the history in a PostgreSQL database -/

namespace Verif.Props
open Verif.Model Verif.Spec Verif.Proof

/-- The messages that should be there after the calls `ops`. -/
private abbrev kept (ok : Str → Bool) (col : Int → Int) (ops : List PgMsgOp) : List PgKept :=
  pgKept (pgRun ok col ops).2

private theorem pg_window {α : Type} (key : α → Int) (all sorted : List α) (limit : Nat) (last : Bool)
    (hp : sorted.Perm all)
    (hs : sorted.Pairwise (fun a b => if last then key b ≤ key a else key a ≤ key b)) :
    IsWindow key all limit last (if last then (sorted.take limit).reverse else sorted.take limit) := by
  have hsplit := List.take_append_drop limit sorted
  rw [← hsplit, List.pairwise_append] at hs
  obtain ⟨s1, _, s3⟩ := hs
  refine ⟨sorted.drop limit, ?_, ?_, ?_, ?_⟩
  · cases last
    · simpa [hsplit] using hp
    · refine List.Perm.trans ?_ hp
      refine ((List.reverse_perm _).append_right _).trans ?_
      rw [hsplit]
  · have : (sorted.take limit).length = min limit all.length := by rw [List.length_take, hp.length_eq]
    cases last
    · exact this
    · simpa using this
  · cases last
    · simpa using s1
    · simp only [if_true] at s1 ⊢
      rw [List.pairwise_reverse]
      exact s1
  · intro a ha b hb
    refine s3 a ?_ b hb
    cases last
    · exact ha
    · simpa using ha

/-- C81: a call to store messages stores all of them or, with an error, none.  It succeeds exactly if there is
nothing to store or everything can be stored; every message gets an identifier, in order. -/
theorem C81_store (ok : Str → Bool) (col : Int → Int) (ops : List PgMsgOp) (net : Nat) (name : Str)
    (msgs : List PgIn) (commit : Bool) :
    ((pgStep ok col (pgRun ok col ops).1 (.store net name msgs commit)).2 ≠ none ↔
      (msgs = [] ∨ PgStorable ok (pgNetworks (pgRun ok col ops).2) net name msgs commit)) ∧
    (∀ ids, (pgStep ok col (pgRun ok col ops).1 (.store net name msgs commit)).2 = some ids →
      ids.length = msgs.length) ∧
    ((pgStep ok col (pgRun ok col ops).1 (.store net name msgs commit)).2 = none →
      kept ok col (ops ++ [.store net name msgs commit]) = kept ok col ops) := by
  obtain ⟨hi, _⟩ := pg_run ok col ops
  have e : pgRun ok col (ops ++ [.store net name msgs commit]) =
      ((pgStep ok col (pgRun ok col ops).1 (.store net name msgs commit)).1, (pgRun ok col ops).2 ++
        [(.store net name msgs commit, (pgStep ok col (pgRun ok col ops).1 (.store net name msgs commit)).2)]) := by
    unfold pgRun
    rw [List.foldl_append]
    rfl
  unfold kept
  rw [e]
  simp only [pgStep]
  rcases pg_store (ok := ok) hi net name msgs commit with ⟨g1, g2, _⟩ | ⟨g1, g2, _⟩
  · rw [g2]
    exact ⟨⟨fun _ => g1, fun _ h => (nomatch h)⟩, fun ids h => by cases h; simp, fun h => (nomatch h)⟩
  · rw [g2]
    refine ⟨⟨fun h => absurd rfl h, fun h => absurd h g1⟩, fun ids h => (nomatch h), fun _ => ?_⟩
    unfold pgKept
    rw [List.foldl_append]
    rfl

/-- C81: the identifiers only grow, whatever fails and whatever is deleted: none is ever given out twice. -/
theorem C81_ids (ok : Str → Bool) (col : Int → Int) (ops : List PgMsgOp) :
    (pgIds (pgRun ok col ops).2).Pairwise (· < ·) ∧ ∀ i ∈ pgIds (pgRun ok col ops).2, 0 < i := by
  obtain ⟨_, h2, h3, _⟩ := pg_run ok col ops
  exact ⟨h2, fun i hi => (h3 i hi).1⟩

/-- C81: a query returns the messages of the conversation that satisfy its conditions, up to the limit: the
first ones or the last ones, in chronological order.  It never fails. -/
theorem C81_query (ok : Str → Bool) (col : Int → Int) (fts : Str → Option Str → Bool)
    (ord : Bool → List PgRow → List PgRow) (hord : PgOrd ord) (ops : List PgMsgOp) (net : Nat) (name : Str)
    (o : MsgOptions) :
    ∃ win, pgListMessages fts col ord (pgRun ok col ops).1 net name o = some (win.map (·.m.raw)) ∧
      IsWindow (fun k => col k.m.t) ((kept ok col ops).filter (PgWanted fts col net name o)) o.limit o.takeLast win := by
  obtain ⟨hi, _⟩ := pg_run ok col ops
  unfold pgListMessages
  rw [pg_of_target hi]
  simp only [Option.map_some]
  have ef : (((kept ok col ops).filter (fun k => decide (k.net = net ∧ k.name = name))).map
      (pgRowOf col (pgRun ok col ops).1.targets)).filter (pgWhere fts col o) =
      ((kept ok col ops).filter (PgWanted fts col net name o)).map (pgRowOf col (pgRun ok col ops).1.targets) := by
    rw [List.filter_map, List.filter_filter]
    congr 1
    apply List.filter_congr
    intro k _
    rw [Bool.eq_iff_iff]
    unfold PgWanted pgWhere pgAbove pgBelow
    simp only [Function.comp, Bool.and_eq_true, Bool.or_eq_true, decide_eq_true_eq, Option.isSome_iff_ne_none]
    unfold PgConv PgAfter PgBefore
    simp only [pgRowOf]
    constructor
    · rintro ⟨⟨⟨⟨⟨⟨a, b⟩, c⟩, d⟩, f⟩, g⟩, h1, h2⟩
      exact ⟨⟨h1, h2, g⟩, a, b, c, d, f⟩
    · rintro ⟨⟨h1, h2, g⟩, a, b, c, d, f⟩
      exact ⟨⟨⟨⟨⟨⟨a, b⟩, c⟩, d⟩, f⟩, g⟩, h1, h2⟩
  rw [ef]
  obtain ⟨sorted, s1, s2, s3⟩ := pg_sorted hord col (pgRun ok col ops).1.targets o.takeLast
    ((kept ok col ops).filter (PgWanted fts col net name o))
  rw [s1]
  refine ⟨_, ?_, pg_window (fun k : PgKept => col k.m.t) _ sorted o.limit o.takeLast s2 s3⟩
  have hr : ∀ l : List PgKept, (l.map (pgRowOf col (pgRun ok col ops).1.targets)).map (·.raw) = l.map (·.m.raw) := by
    intro l; rw [List.map_map]; rfl
  rw [← List.map_take, hr]
  cases o.takeLast
  · rfl
  · simp [List.map_reverse]

private theorem window_congr {α : Type} {key : α → Int} {all : List α} {f g : α → Bool} {limit : Nat} {last : Bool}
    {win : List α} (h : IsWindow key (all.filter f) limit last win) (hfg : ∀ a ∈ all, f a = true ↔ g a = true) :
    IsWindow key (all.filter g) limit last win := by
  have : all.filter f = all.filter g := List.filter_congr (fun a ha => by
    rw [Bool.eq_iff_iff]; exact hfg a ha)
  rwa [this] at h

/-- C81: history before an instant: the last messages strictly between the bounds. -/
theorem C81_before (ok : Str → Bool) (col : Int → Int) (fts : Str → Option Str → Bool)
    (ord : Bool → List PgRow → List PgRow) (hord : PgOrd ord) (ops : List PgMsgOp) (net : Nat) (name : Str)
    (start stop : Int) (limit : Nat) (events : Bool) :
    ∃ win, pgListMessages fts col ord (pgRun ok col ops).1 net name (dbLoadBefore start stop limit events) =
        some (win.map (·.m.raw)) ∧
      IsWindow (fun k => col k.m.t) ((kept ok col ops).filter (fun k =>
        decide (PgConv net name events k ∧ PgBefore col start k.m.t ∧ PgAfter col stop k.m.t))) limit true win := by
  obtain ⟨win, h1, h2⟩ := C81_query ok col fts ord hord ops net name (dbLoadBefore start stop limit events)
  refine ⟨win, h1, window_congr h2 (fun k _ => ?_)⟩
  unfold PgWanted
  simp only [dbLoadBefore, true_or, true_and, and_true, decide_eq_true_eq]
  exact ⟨fun ⟨a, b, c⟩ => ⟨a, c, b⟩, fun ⟨a, b, c⟩ => ⟨a, c, b⟩⟩

/-- C81: history after an instant: the first messages strictly between the bounds. -/
theorem C81_after (ok : Str → Bool) (col : Int → Int) (fts : Str → Option Str → Bool)
    (ord : Bool → List PgRow → List PgRow) (hord : PgOrd ord) (ops : List PgMsgOp) (net : Nat) (name : Str)
    (start stop : Int) (limit : Nat) (events : Bool) :
    ∃ win, pgListMessages fts col ord (pgRun ok col ops).1 net name (dbLoadAfter start stop limit events) =
        some (win.map (·.m.raw)) ∧
      IsWindow (fun k => col k.m.t) ((kept ok col ops).filter (fun k =>
        decide (PgConv net name events k ∧ PgAfter col start k.m.t ∧ PgBefore col stop k.m.t))) limit false win := by
  obtain ⟨win, h1, h2⟩ := C81_query ok col fts ord hord ops net name (dbLoadAfter start stop limit events)
  refine ⟨win, h1, window_congr h2 (fun k _ => ?_)⟩
  unfold PgWanted
  simp only [dbLoadAfter, true_or, true_and, and_true, decide_eq_true_eq]

/-- C81: a search: the last text messages of the conversation from the sender (if one is given) that match the
text (if one is given), strictly between the bounds. -/
theorem C81_search (ok : Str → Bool) (col : Int → Int) (fts : Str → Option Str → Bool)
    (ord : Bool → List PgRow → List PgRow) (hord : PgOrd ord) (ops : List PgMsgOp) (net : Nat) (name : Str)
    (start stop : Int) (limit : Nat) (sender text : Str) :
    ∃ win, pgListMessages fts col ord (pgRun ok col ops).1 net name (dbSearch start stop limit sender text) =
        some (win.map (·.m.raw)) ∧
      IsWindow (fun k => col k.m.t) ((kept ok col ops).filter (fun k =>
        decide (PgConv net name false k ∧ PgAfter col start k.m.t ∧ PgBefore col stop k.m.t ∧
          (sender = [] ∨ k.m.sender = sender) ∧ (text = [] ∨ fts text k.m.text = true)))) limit true win := by
  obtain ⟨win, h1, h2⟩ := C81_query ok col fts ord hord ops net name (dbSearch start stop limit sender text)
  refine ⟨win, h1, window_congr h2 (fun k _ => ?_)⟩
  unfold PgWanted
  simp only [dbSearch, true_or, true_and, decide_eq_true_eq]

private theorem kept_pos {ok : Str → Bool} {col : Int → Int} {ops : List PgMsgOp} :
    ((kept ok col ops).map (·.id)).Pairwise (· < ·) ∧ ∀ k ∈ kept ok col ops, 0 < k.id := by
  obtain ⟨_, h2, h3, h4, _⟩ := pg_run ok col ops
  exact ⟨h2.sublist h4, fun k hk => (h3 _ (h4.subset (List.mem_map_of_mem hk))).1⟩

/-- C81: after a message identifier: the last text messages of the conversation with a larger identifier (all of
them if the identifier is that of an empty conversation). -/
theorem C81_latest (ok : Str → Bool) (col : Int → Int) (fts : Str → Option Str → Bool)
    (ord : Bool → List PgRow → List PgRow) (hord : PgOrd ord) (ops : List PgMsgOp) (net : Nat) (name : Str)
    (id limit : Nat) :
    ∃ win, pgListMessages fts col ord (pgRun ok col ops).1 net name (dbLoadLatest id limit) =
        some (win.map (·.m.raw)) ∧
      IsWindow (fun k => col k.m.t) ((kept ok col ops).filter (fun k =>
        decide (PgConv net name false k ∧ k.id > id))) limit true win := by
  obtain ⟨win, h1, h2⟩ := C81_query ok col fts ord hord ops net name (dbLoadLatest id limit)
  refine ⟨win, h1, window_congr h2 (fun k hk => ?_)⟩
  have hpos := kept_pos.2 k hk
  unfold PgWanted PgAfter PgBefore
  simp only [dbLoadLatest, true_or, and_true, decide_eq_true_eq]
  constructor
  · rintro ⟨a, b⟩; exact ⟨a, by omega⟩
  · rintro ⟨a, b⟩; exact ⟨a, .inr b⟩

/-- C81: the times of messages and bounds come from tags in whole milliseconds; for these "after" and "before" are
exact, and the order of the messages is that of their times. -/
theorem C81_exact (col : Int → Int) (hcol : PgTime col) (a b : Int) (ha : WholeMs a) (hb : WholeMs b) :
    (PgAfter col a b ↔ (a = 0 ∨ a < b)) ∧ (PgBefore col a b ↔ (a = 0 ∨ b < a)) ∧ (col a ≤ col b ↔ a ≤ b) := by
  obtain ⟨i, rfl⟩ := ha
  obtain ⟨j, rfl⟩ := hb
  have e : ∀ k, col (1000000 * k) = 1000 * k := by
    intro k
    have := hcol.exact (1000 * k)
    rwa [← Int.mul_assoc] at this
  unfold PgAfter PgBefore
  rw [e, e]
  refine ⟨?_, ?_, ?_⟩ <;> omega

/-- C81: nothing is left of a network that was deleted, even if there is one with the same identifier later. -/
theorem C81_deleted (ok : Str → Bool) (col : Int → Int) (fts : Str → Option Str → Bool)
    (ord : Bool → List PgRow → List PgRow) (hord : PgOrd ord) (ops : List PgMsgOp) (net : Nat) (name : Str)
    (o : MsgOptions) (again : Bool) :
    pgListMessages fts col ord (pgRun ok col (ops ++ (.deleteNetwork net ::
      if again then [.addNetwork net] else []))).1 net name o = some [] := by
  obtain ⟨win, h1, rest, h2, _⟩ := C81_query ok col fts ord hord (ops ++ (.deleteNetwork net ::
      if again then [.addNetwork net] else [])) net name o
  rw [h1]
  have hk : kept ok col (ops ++ (.deleteNetwork net :: if again then [.addNetwork net] else [])) =
      (kept ok col ops).filter (fun k => decide (k.net ≠ net)) := by
    unfold kept pgRun
    rw [List.foldl_append]
    cases again
    · simp only [Bool.false_eq_true, if_false, List.foldl_cons, List.foldl_nil]
      unfold pgKept
      rw [List.foldl_append]
      rfl
    · simp only [if_true, List.foldl_cons, List.foldl_nil]
      unfold pgKept
      rw [List.foldl_append, List.foldl_append]
      rfl
  rw [hk] at h2
  have he : ((kept ok col ops).filter (fun k => decide (k.net ≠ net))).filter (PgWanted fts col net name o) = [] := by
    rw [List.filter_eq_nil_iff]
    intro k hk hw
    have hn := (List.mem_filter.1 hk).2
    unfold PgWanted at hw
    simp only [decide_eq_true_eq] at hn hw
    exact hn hw.1.1
  rw [he] at h2
  have := h2.eq_nil
  rw [List.append_eq_nil_iff] at this
  rw [this.1]
  rfl

/-- C81: the last message of a conversation is one of those with the latest time. -/
theorem C81_last_id (ok : Str → Bool) (col : Int → Int) (ord : Bool → List PgRow → List PgRow) (hord : PgOrd ord)
    (ops : List PgMsgOp) (net : Nat) (name : Str) :
    (pgLastID ord (pgRun ok col ops).1 net name = some 0 ∧ ∀ k ∈ kept ok col ops, ¬ PgConv net name true k) ∨
    ∃ k ∈ kept ok col ops, pgLastID ord (pgRun ok col ops).1 net name = some k.id ∧ PgConv net name true k ∧
      PgLatest col (kept ok col ops) net true name (col k.m.t) := by
  obtain ⟨hi, _⟩ := pg_run ok col ops
  unfold pgLastID
  rw [pg_of_target hi]
  obtain ⟨sorted, s1, s2, s3⟩ := pg_sorted hord col (pgRun ok col ops).1.targets true
    ((kept ok col ops).filter (fun k => decide (k.net = net ∧ k.name = name)))
  simp only [Option.map_some]
  rw [s1]
  have hmem : ∀ k ∈ kept ok col ops, PgConv net name true k → k ∈ sorted := fun k hk hc =>
    s2.mem_iff.2 (List.mem_filter.2 ⟨hk, by simpa using ⟨hc.1, hc.2.1⟩⟩)
  cases sorted with
  | nil => exact .inl ⟨rfl, fun k hk hc => by cases hmem k hk hc⟩
  | cons q sorted =>
    right
    have hq := List.mem_filter.1 (s2.subset (List.mem_cons_self ..))
    have hc : PgConv net name true q := by
      have h2 : q.net = net ∧ q.name = name := by simpa using hq.2
      exact ⟨h2.1, h2.2, .inl rfl⟩
    refine ⟨q, hq.1, rfl, hc, ⟨q, hq.1, hc, rfl⟩, fun k hk hkc => ?_⟩
    rcases List.mem_cons.1 (hmem k hk hkc) with e | e
    · rw [e]; exact Int.le_refl _
    · exact (List.pairwise_cons.1 s3).1 k e

private theorem latest_one {col : Int → Int} {K : List PgKept} {net : Nat} {events : Bool} {name : Str} {t t' : Int}
    (h1 : PgLatest col K net events name t) (h2 : PgLatest col K net events name t') : t = t' := by
  obtain ⟨⟨p, p1, p2, p3⟩, p4⟩ := h1
  obtain ⟨⟨q, q1, q2, q3⟩, q4⟩ := h2
  have := p4 q q1 q2
  have := q4 p p1 p2
  omega

/-- C81: the list of conversations: those with a message (a text message unless events are asked for) and whose
latest one is strictly between the bounds, each once and with that time, up to the limit: the first ones or the last
ones, in chronological order. -/
theorem C81_targets (ok : Str → Bool) (col : Int → Int) (ord : Bool → List PgRow → List PgRow) (hord : PgOrd ord)
    (ordT : Bool → List (Str × Int) → List (Str × Int)) (hordT : PgOrdT ordT) (ops : List PgMsgOp) (net : Nat)
    (o : MsgOptions) :
    ∃ all : List (Str × Int), (all.map (·.1)).Nodup ∧
      (∀ n t, (n, t) ∈ all ↔ PgLatest col (kept ok col ops) net o.events n t ∧
        (o.afterTime = 0 ∨ col o.afterTime < t) ∧ (o.beforeTime = 0 ∨ t < col o.beforeTime)) ∧
      IsWindow (·.2) all o.limit o.takeLast (pgLastPerTarget col ord ordT (pgRun ok col ops).1 net o) := by
  obtain ⟨hi, _⟩ := pg_run ok col ops
  generalize (pgRun ok col ops).1 = db at hi ⊢
  let T := db.targets.filter (fun t => decide (t.network = net))
  let R := T.flatMap (fun t => (pgLateral ord db o.events t).map (fun l => (t.target, l.time)))
  let A := R.filter (fun p => pgAbove col o.afterTime p.2 && pgBelow col o.beforeTime p.2)
  have hT : ∀ t ∈ T, t ∈ db.targets ∧ t.network = net := fun t ht => by simpa using List.mem_filter.1 ht
  have hR : ∀ n x, (n, x) ∈ R ↔ PgLatest col (kept ok col ops) net o.events n x := by
    intro n x
    constructor
    · intro h
      obtain ⟨t, t1, t2⟩ := List.mem_flatMap.1 h
      obtain ⟨l, l1, l2⟩ := List.mem_map.1 t2
      obtain ⟨g1, g2⟩ := hT t t1
      rcases pg_lateral hi hord o.events g1 with ⟨e, _⟩ | ⟨l', e, hl⟩
      · rw [e] at l1; cases l1
      · rw [e, List.mem_singleton] at l1
        cases l2
        rw [l1, ← g2]
        exact hl
    · intro h
      obtain ⟨⟨k, k1, k2, k3⟩, k4⟩ := h
      obtain ⟨t, t1, t2, t3⟩ := hi.hasT k k1
      have hn : t.network = net := t2.trans k2.1
      have hm : t.target = n := t3.trans k2.2.1
      rcases pg_lateral hi hord o.events t1 with ⟨_, e⟩ | ⟨l', e, hl⟩
      · rw [hn, hm] at e
        exact absurd k2 (e k k1)
      · rw [hn, hm] at hl
        have := latest_one hl ⟨⟨k, k1, k2, k3⟩, k4⟩
        refine List.mem_flatMap.2 ⟨t, List.mem_filter.2 ⟨t1, by simpa using hn⟩, ?_⟩
        rw [e, List.map_cons, hm, this]
        simp
  have hnd : (R.map (·.1)).Nodup := by
    have hs : List.Sublist T db.targets := List.filter_sublist
    have hn : (T.map (·.target)).Nodup := by
      have h0 := (hs.map (fun t => (t.network, t.target))).nodup hi.names
      unfold List.Nodup at h0 ⊢
      rw [List.pairwise_map] at h0 ⊢
      refine h0.imp_of_mem (fun {a b} ha hb hab e => hab ?_)
      rw [(hT a ha).2, (hT b hb).2]
      exact Prod.ext rfl e
    have hsub : ∀ T' : List MsgTargetRow, (∀ t ∈ T', t ∈ db.targets) →
        ((T'.flatMap (fun t => (pgLateral ord db o.events t).map (fun l => (t.target, l.time)))).map (·.1)).Sublist
          (T'.map (·.target)) := by
      intro T'
      induction T' with
      | nil => intro _; exact List.Sublist.refl _
      | cons t T' ih =>
        intro hm
        rw [List.flatMap_cons, List.map_append, List.map_cons]
        have ih' := ih (fun x hx => hm x (by simp [hx]))
        rcases pg_lateral hi hord o.events (hm t (by simp)) with ⟨e, _⟩ | ⟨l', e, _⟩
        · rw [e]
          exact ih'.cons _
        · rw [e]
          exact ih'.cons_cons _
    exact (hsub T (fun t ht => (hT t ht).1)).nodup hn
  refine ⟨A, (List.filter_sublist.map _).nodup hnd, ?_, ?_⟩
  · intro n t
    rw [List.mem_filter, hR]
    unfold pgAbove pgBelow
    simp only [Bool.and_eq_true, Bool.or_eq_true, decide_eq_true_eq]
  · obtain ⟨o1, o2⟩ := hordT o.takeLast A
    exact pg_window (fun p : Str × Int => p.2) A _ o.limit o.takeLast o1 o2

/-- C81, partial: a client that comes back gets what was stored since, provided the times of the messages of the
conversation are in the order in which they were stored (no two the same).  Missing: that it holds without the
condition; `C81_resume_violated` shows that it does not. -/
theorem C81_resume_partial (ok : Str → Bool) (col : Int → Int) (fts : Str → Option Str → Bool)
    (ord : Bool → List PgRow → List PgRow) (hord : PgOrd ord) (ops later : List PgMsgOp)
    (hdel : ∀ n, PgMsgOp.deleteNetwork n ∉ later) (net : Nat) (name : Str) (limit : Nat)
    (hinc : ∀ j ∈ kept ok col ops, ∀ k ∈ kept ok col ops, PgConv net name true j → PgConv net name true k →
      j.id < k.id → col j.m.t < col k.m.t) :
    ∃ id win new, pgLastID ord (pgRun ok col ops).1 net name = some id ∧
      kept ok col (ops ++ later) = kept ok col ops ++ new ∧
      pgListMessages fts col ord (pgRun ok col (ops ++ later)).1 net name (dbLoadLatest id limit) =
        some (win.map (·.m.raw)) ∧
      IsWindow (fun k => col k.m.t) (new.filter (fun k => decide (PgConv net name false k))) limit true win := by
  -- nothing is removed later
  have hnew : ∃ new, kept ok col (ops ++ later) = kept ok col ops ++ new := by
    induction later using snocInd with
    | nil => exact ⟨[], by simp⟩
    | snoc later op ih =>
      obtain ⟨new, hn⟩ := ih (fun n h => hdel n (by simp [h]))
      have e : pgRun ok col (ops ++ (later ++ [op])) = ((pgStep ok col (pgRun ok col (ops ++ later)).1 op).1,
          (pgRun ok col (ops ++ later)).2 ++ [(op, (pgStep ok col (pgRun ok col (ops ++ later)).1 op).2)]) := by
        rw [← List.append_assoc]
        unfold pgRun
        rw [List.foldl_append (l := ops ++ later)]
        rfl
      unfold kept at hn ⊢
      rw [e]
      simp only
      unfold pgKept at hn ⊢
      rw [List.foldl_append (l := (pgRun ok col (ops ++ later)).2), hn]
      cases op with
      | addNetwork n => exact ⟨new, rfl⟩
      | deleteNetwork n => exact absurd (by simp) (hdel n)
      | store n nm ms c =>
        generalize (pgStep ok col (pgRun ok col (ops ++ later)).1 (.store n nm ms c)).2 = r
        cases r with
        | none => exact ⟨new, rfl⟩
        | some ids =>
          simp only [List.foldl_cons, List.foldl_nil]
          exact ⟨new ++ _, List.append_assoc ..⟩
  obtain ⟨new, hnew⟩ := hnew
  have hord2 : ((kept ok col (ops ++ later)).map (·.id)).Pairwise (· < ·) := kept_pos.1
  rw [hnew, List.map_append, List.pairwise_append] at hord2
  obtain ⟨_, _, hlt⟩ := hord2
  have hpos : ∀ k ∈ new, 0 < k.id := fun k hk =>
    kept_pos.2 k (by rw [hnew]; simp [hk])
  have fin : ∀ id, (∀ k ∈ kept ok col ops, PgConv net name false k → k.id ≤ id) →
      (∀ k ∈ new, id < k.id) → ∃ win,
      pgListMessages fts col ord (pgRun ok col (ops ++ later)).1 net name (dbLoadLatest id limit) =
        some (win.map (·.m.raw)) ∧
      IsWindow (fun k => col k.m.t) (new.filter (fun k => decide (PgConv net name false k))) limit true win := by
    intro id h1 h2
    obtain ⟨win, w1, w2⟩ := C81_latest ok col fts ord hord (ops ++ later) net name id limit
    refine ⟨win, w1, ?_⟩
    rw [hnew, List.filter_append] at w2
    have e1 : (kept ok col ops).filter (fun k => decide (PgConv net name false k ∧ k.id > id)) = [] := by
      rw [List.filter_eq_nil_iff]
      intro k hk hc
      simp only [decide_eq_true_eq] at hc
      have := h1 k hk hc.1
      omega
    rw [e1, List.nil_append] at w2
    refine window_congr w2 (fun k hk => ?_)
    have := h2 k hk
    simp only [decide_eq_true_eq]
    exact ⟨fun h => h.1, fun h => ⟨h, this⟩⟩
  rcases C81_last_id ok col ord hord ops net name with ⟨h1, h2⟩ | ⟨q, q1, q2, q3, q4⟩
  · obtain ⟨win, w1, w2⟩ := fin 0 (fun k hk hc => absurd ⟨hc.1, hc.2.1, .inl rfl⟩ (h2 k hk)) hpos
    exact ⟨0, win, new, h1, hnew, w1, w2⟩
  · obtain ⟨win, w1, w2⟩ := fin q.id (fun k hk hc => by
      have hc' : PgConv net name true k := ⟨hc.1, hc.2.1, .inl rfl⟩
      rcases Nat.lt_or_ge q.id k.id with h | h
      · have a := hinc q q1 k hk q3 hc' h
        have b := q4.2 k hk hc'
        omega
      · exact h)
      (fun k hk => hlt _ (List.mem_map_of_mem q1) _ (List.mem_map_of_mem hk))
    exact ⟨q.id, win, new, q2, hnew, w1, w2⟩

/-- A message at an instant. -/
private def msgAt (x : Str) (ms : Int) : PgIn := ⟨⟨x, 1000000 * ms, b!"a", some x⟩, true⟩

/-- The calls of the example: the second batch fails, and the second message stored carries an earlier time. -/
private def exCalls : List PgMsgOp :=
  [.addNetwork 1, .store 1 b!"#c" [msgAt b!"first" 2] true, .store 1 b!"#c" [msgAt b!"bad" 3] false,
   .store 1 b!"#c" [msgAt b!"second" 1] true]

/-- Microseconds. -/
private def micros (t : Int) : Int := t / 1000

example : PgTime micros := ⟨fun a b h => by unfold micros; omega, fun k => by unfold micros; omega⟩
example : (pgRun (fun _ => true) micros exCalls).2.map (·.2) = [some [], some [1], none, some [3]] := by decide +kernel
example : (pgKept (pgRun (fun _ => true) micros exCalls).2).map (fun k => (k.id, k.m.raw)) =
    [(1, b!"first"), (3, b!"second")] := by decide +kernel
/-- A sort by insertion, for the examples. -/
private def insSort (d : Bool) : List PgRow → List PgRow
  | [] => []
  | a :: l => ((insSort d l).takeWhile (fun b => if d then decide (a.time < b.time) else decide (b.time < a.time))) ++
      a :: ((insSort d l).dropWhile (fun b => if d then decide (a.time < b.time) else decide (b.time < a.time)))
example : pgListMessages (fun _ _ => false) micros insSort (pgRun (fun _ => true) micros exCalls).1 1 b!"#c"
    (dbLoadAfter 0 0 10 false) = some [b!"second", b!"first"] := by decide +kernel

/-- C81 fails as stated: the last message is looked up by time, so when the message that arrived last has an earlier
time than one before it, a client that has received everything is sent that message again. -/
theorem C81_resume_violated : ∃ (col : Int → Int) (ops : List PgMsgOp), PgTime col ∧
    ∀ (fts : Str → Option Str → Bool) (ord : Bool → List PgRow → List PgRow), PgOrd ord →
      pgLastID ord (pgRun (fun _ => true) col ops).1 1 b!"#c" = some 1 ∧
      pgListMessages fts col ord (pgRun (fun _ => true) col ops).1 1 b!"#c" (dbLoadLatest 1 10) = some [b!"second"] := by
  refine ⟨micros, exCalls, ⟨fun a b h => by unfold micros; omega, fun k => by unfold micros; omega⟩,
    fun fts ord hord => ?_⟩
  have hk : kept (fun _ => true) micros exCalls =
      [⟨1, 1, b!"#c", (msgAt b!"first" 2).m⟩, ⟨3, 1, b!"#c", (msgAt b!"second" 1).m⟩] := by decide +kernel
  constructor
  · rcases C81_last_id (fun _ => true) micros ord hord exCalls 1 b!"#c" with ⟨_, h2⟩ | ⟨q, q1, q2, q3, q4⟩
    · rw [hk] at h2
      exact absurd ⟨rfl, rfl, .inl rfl⟩ (h2 _ (List.mem_cons_self ..))
    · rw [q2]
      rw [hk] at q1 q4
      rcases List.mem_cons.1 q1 with e | e
      · rw [e]
      · rw [List.mem_singleton] at e
        have := q4.2 _ (List.mem_cons_self ..) ⟨rfl, rfl, .inl rfl⟩
        rw [e] at this
        exact absurd this (by decide)
  · obtain ⟨win, w1, rest, w2, w3, _, _⟩ := C81_latest (fun _ => true) micros fts ord hord exCalls 1 b!"#c" 1 10
    rw [w1]
    have e : (kept (fun _ => true) micros exCalls).filter (fun k => decide (PgConv 1 b!"#c" false k ∧ k.id > 1)) =
        [⟨3, 1, b!"#c", (msgAt b!"second" 1).m⟩] := by rw [hk]; decide
    rw [e] at w2 w3
    have hp := w2.length_eq
    match win, rest, w3, hp with
    | [a], [], _, _ =>
      rw [List.append_nil] at w2
      rw [List.singleton_perm_singleton.1 w2]
      rfl

/-- C81 fails as stated: a message the database does not accept — with the usual encoding, one that is not
well-formed UTF-8, which the bouncer relays all the same — is not stored: the history lacks it. -/
theorem C81_bytes_violated (ok : Str → Bool) (col : Int → Int) (ops : List PgMsgOp) (net : Nat) (name : Str)
    (m : PgIn) (commit : Bool) (hbad : ok m.m.raw = false) :
    (pgStep ok col (pgRun ok col ops).1 (.store net name [m] commit)).2 = none ∧
    kept ok col (ops ++ [.store net name [m] commit]) = kept ok col ops := by
  obtain ⟨h1, _, h3⟩ := C81_store ok col ops net name [m] commit
  have : (pgStep ok col (pgRun ok col ops).1 (.store net name [m] commit)).2 = none := by
    refine Classical.byContradiction (fun h => ?_)
    rcases h1.1 h with h | h
    · cases h
    · have := (h.2.2.2 m (by simp)).2.1
      rw [hbad] at this
      cases this
  exact ⟨this, h3 this⟩

example : ∃ ok : Str → Bool, ok b!"PRIVMSG #c :hi" = true ∧ ok [80, 255] = false :=
  ⟨fun s => s.all (fun b => decide (b < 128)), by decide, by decide⟩

end Verif.Props
