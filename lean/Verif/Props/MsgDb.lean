import Verif.Props.SqlTime
import Verif.Proof.MsgDb

/-! # C35: history queries on the database -/

namespace Verif.Props
open Verif.Model Verif.Proof

/-- A message that was stored for a conversation of a network. -/
structure Stored where
  net : Nat
  name : Str
  m : MsgIn
deriving DecidableEq, Repr

/-- The database after the messages `h` have been stored one after the other. -/
def dbOf (h : List Stored) : MsgDb := h.foldl (fun db s => storeMessage db s.net s.name s.m) {}

/-- The instants can be stored. -/
def StoredOK (h : List Stored) : Prop := ∀ s ∈ h, InYears s.m.t ∧ s.m.t ≠ 0

/-- What `ORDER BY time` (descending if `d`) promises: nothing about rows with equal times. -/
def OrdOK (ord : Bool → List MsgRow → List MsgRow) : Prop :=
  ∀ d l, (ord d l).Perm l ∧ (ord d l).Pairwise (fun a b => if d then ¬ a.time < b.time else ¬ b.time < a.time)

/-- `res` is the window of at most `limit` elements of `all`, in ascending order of `key`: the last ones if
`last`, the first ones otherwise.  Which of several elements with equal keys are returned is left open. -/
def IsWindow {α : Type} (key : α → Int) (all : List α) (limit : Nat) (last : Bool) (res : List α) : Prop :=
  ∃ rest, (res ++ rest).Perm all ∧ res.length = min limit all.length ∧
    res.Pairwise (fun a b => key a ≤ key b) ∧
    ∀ a ∈ res, ∀ b ∈ rest, if last then key b ≤ key a else key a ≤ key b

/-- Strictly after the bound, to the millisecond; no bound if it is the zero time. -/
def After (bound t : Int) : Prop := bound = 0 ∨ toMillis bound < toMillis t

/-- Strictly before the bound. -/
def Before (bound t : Int) : Prop := bound = 0 ∨ toMillis t < toMillis bound

instance (b t : Int) : Decidable (After b t) := by unfold After; infer_instance
instance (b t : Int) : Decidable (Before b t) := by unfold Before; infer_instance

/-- The time of a stored message. -/
def keyOf (p : Stored × Nat) : Int := toMillis p.1.m.t

/-- Is the `k`-th stored message (counted from 1) one the query asks for? -/
def WantedMsg (fts : Str → Option Str → Bool) (net : Nat) (name : Str) (o : MsgOptions) (p : Stored × Nat) : Bool :=
  decide (p.1.net = net ∧ p.1.name = name ∧ (o.afterID = 0 ∨ p.2 > o.afterID) ∧ After o.afterTime p.1.m.t ∧
    Before o.beforeTime p.1.m.t ∧ (o.sender = [] ∨ p.1.m.sender = o.sender) ∧
    (o.text = [] ∨ fts o.text p.1.m.text = true) ∧ (o.events = true ∨ p.1.m.text ≠ none))

/-- The identifier of the row of a target. -/
private def tid (T : List MsgTargetRow) (net : Nat) (name : Str) : Nat :=
  (((T.filter (fun t => decide (t.network = net ∧ t.target = name))).map (·.id)).head?).getD 0

private def rowOf (T : List MsgTargetRow) (p : Stored × Nat) : MsgRow :=
  ⟨p.2, tid T p.1.net p.1.name, p.1.m.raw, sqliteFormat p.1.m.t, p.1.m.sender, p.1.m.text⟩

private structure Inv (h : List Stored) (db : MsgDb) : Prop where
  ids : (db.targets.map (·.id)).Nodup
  names : (db.targets.map (fun t => (t.network, t.target))).Nodup
  exact : ∀ n x, (∃ t ∈ db.targets, t.network = n ∧ t.target = x) ↔ ∃ s ∈ h, s.net = n ∧ s.name = x
  rows : db.messages = (h.zipIdx 1).map (rowOf db.targets)

private theorem find_target {db : MsgDb} (names : (db.targets.map (fun t => (t.network, t.target))).Nodup)
    {t : MsgTargetRow} (ht : t ∈ db.targets) :
    db.targets.filter (fun t' => decide (t'.network = t.network ∧ t'.target = t.target)) = [t] := by
  refine filter_singleton t (nodup_of_map names) ht (fun x hx => ?_)
  rw [decide_eq_true_iff]
  refine ⟨fun he => eq_of_nodup_map names hx ht (by simp [he.1, he.2]), fun he => by simp [he]⟩

private theorem tid_eq {db : MsgDb} (names : (db.targets.map (fun t => (t.network, t.target))).Nodup)
    {t : MsgTargetRow} (ht : t ∈ db.targets) : tid db.targets t.network t.target = t.id := by
  unfold tid
  rw [find_target names ht]
  rfl

private theorem zipIdx_ids (h : List Stored) (T : List MsgTargetRow) :
    ((h.zipIdx 1).map (rowOf T)).map (·.id) = (List.range h.length).map (· + 1) := by
  rw [List.map_map]
  have : (fun (x : MsgRow) => x.id) ∘ rowOf T = Prod.snd := rfl
  rw [this, List.zipIdx_map_snd, List.range'_eq_map_range]
  apply List.map_congr_left
  intro a _
  omega

private theorem inv_store {h : List Stored} {db : MsgDb} (hi : Inv h db) (s : Stored)
    (hs : InYears s.m.t ∧ s.m.t ≠ 0) : Inv (h ++ [s]) (storeMessage db s.net s.name s.m) := by
  have hval : sqliteValue s.m.t = some (sqliteFormat s.m.t) := by unfold sqliteValue; rw [if_neg hs.2]
  -- the target
  have key : ∀ db' : MsgDb, (db'.targets.map (·.id)).Nodup →
      (db'.targets.map (fun t => (t.network, t.target))).Nodup →
      (∀ n x, (∃ t ∈ db'.targets, t.network = n ∧ t.target = x) ↔ ∃ s' ∈ h ++ [s], s'.net = n ∧ s'.name = x) →
      db'.messages = (h.zipIdx 1).map (rowOf db'.targets) →
      insertTarget db s.net s.name = db' →
      Inv (h ++ [s]) (storeMessage db s.net s.name s.m) := by
    intro db' g1 g2 g3 g4 g5
    obtain ⟨t, ht, ht1, ht2⟩ := (g3 s.net s.name).2 ⟨s, by simp, rfl, rfl⟩
    have hf := find_target g2 ht
    rw [ht1, ht2] at hf
    unfold storeMessage insertMessage
    rw [g5, hval]
    simp only [hf, List.foldl_cons, List.foldl_nil, Option.getD_some]
    refine ⟨g1, g2, g3, ?_⟩
    simp only
    rw [g4, zipIdx_ids, nextRowId_range, List.zipIdx_append, List.map_append]
    congr 1
    simp only [List.zipIdx_cons, List.zipIdx_nil, List.map_cons, List.map_nil, rowOf]
    have := tid_eq g2 ht
    rw [ht1, ht2] at this
    rw [this, Nat.add_comm]
  by_cases hex : ∃ t ∈ db.targets, t.network = s.net ∧ t.target = s.name
  · have hany : db.targets.any (fun t => decide (t.network = s.net ∧ t.target = s.name)) = true := by
      rw [List.any_eq_true]
      obtain ⟨t, h1, h2⟩ := hex
      exact ⟨t, h1, by simpa using h2⟩
    refine key db hi.ids hi.names (fun n x => ?_) hi.rows (by unfold insertTarget; rw [if_pos hany])
    rw [hi.exact]
    constructor
    · rintro ⟨s', h1, h2⟩; exact ⟨s', by simp [h1], h2⟩
    · rintro ⟨s', h1, h2⟩
      rcases List.mem_append.1 h1 with h1 | h1
      · exact ⟨s', h1, h2⟩
      · simp only [List.mem_singleton] at h1
        subst h1
        obtain ⟨t, g1, g2⟩ := hex
        rw [← h2.1, ← h2.2]
        exact (hi.exact s'.net s'.name).1 ⟨t, g1, g2⟩
  · have hany : ¬ db.targets.any (fun t => decide (t.network = s.net ∧ t.target = s.name)) = true := by
      rw [List.any_eq_true]
      rintro ⟨t, h1, h2⟩
      exact hex ⟨t, h1, by simpa using h2⟩
    refine key _ ?_ ?_ (fun n x => ?_) ?_ (by unfold insertTarget; rw [if_neg hany])
    · simp only [List.map_append, List.map_cons, List.map_nil, List.nodup_append]
      refine ⟨hi.ids, by simp, ?_⟩
      intro a ha b hb
      simp only [List.mem_singleton] at hb
      subst hb
      exact Nat.ne_of_lt (lt_nextRowId _ a ha)
    · simp only [List.map_append, List.map_cons, List.map_nil, List.nodup_append]
      refine ⟨hi.names, by simp, ?_⟩
      intro a ha b hb
      simp only [List.mem_singleton] at hb
      subst hb
      rintro rfl
      obtain ⟨t, h1, h2⟩ := List.mem_map.1 ha
      exact hex ⟨t, h1, by simpa using h2⟩
    · simp only [List.mem_append, List.mem_singleton]
      constructor
      · rintro ⟨t, h1 | h1, h2⟩
        · obtain ⟨s', g⟩ := (hi.exact n x).1 ⟨t, h1, h2⟩
          exact ⟨s', .inl g.1, g.2⟩
        · subst h1; exact ⟨s, .inr rfl, h2⟩
      · rintro ⟨s', h1 | h1, h2⟩
        · obtain ⟨t, g⟩ := (hi.exact n x).2 ⟨s', h1, h2⟩
          exact ⟨t, .inl g.1, g.2⟩
        · subst h1; exact ⟨_, .inr rfl, h2⟩
    · rw [hi.rows]
      apply List.map_congr_left
      intro p hp
      have hm : p.1 ∈ h := by
        have := List.mem_map_of_mem (f := Prod.fst) hp
        rwa [List.zipIdx_map_fst] at this
      obtain ⟨t, g1, g2, g3⟩ := (hi.exact p.1.net p.1.name).2 ⟨p.1, hm, rfl, rfl⟩
      have hf := find_target hi.names g1
      rw [g2, g3] at hf
      simp only [rowOf, tid, List.filter_append, hf]
      rfl

private theorem inv_all (h : List Stored) (hok : StoredOK h) : Inv h (dbOf h) := by
  induction h using snocInd with
  | nil => exact ⟨by simp [dbOf], by simp [dbOf], by simp [dbOf], rfl⟩
  | snoc h s ih =>
    unfold dbOf
    rw [List.foldl_append]
    exact inv_store (ih (fun x hx => hok x (by simp [hx]))) s (hok s (by simp))

/-- A join of the two tables is a filter on the history. -/
private theorem join_eq {h : List Stored} {db : MsgDb} (hi : Inv h db) (q : MsgRow → MsgTargetRow → Bool)
    (w : Stored × Nat → Bool)
    (hq : ∀ p ∈ h.zipIdx 1, ∀ t ∈ db.targets, q (rowOf db.targets p) t = true ↔
      (t.id = tid db.targets p.1.net p.1.name ∧ w p = true)) :
    db.messages.flatMap (fun m => (db.targets.filter (q m)).map (fun _ => m)) =
      ((h.zipIdx 1).filter w).map (rowOf db.targets) := by
  rw [hi.rows]
  have hmem : ∀ p ∈ h.zipIdx 1, p.1 ∈ h := by
    intro p hp
    have := List.mem_map_of_mem (f := Prod.fst) hp
    rwa [List.zipIdx_map_fst] at this
  generalize h.zipIdx 1 = L at *
  induction L with
  | nil => rfl
  | cons p L ih =>
    simp only [List.map_cons, List.flatMap_cons]
    rw [ih (fun p' h' => hq p' (by simp [h'])) (fun p' h' => hmem p' (by simp [h'])), List.filter_cons]
    obtain ⟨t, g1, g2, g3⟩ := (hi.exact p.1.net p.1.name).2 ⟨p.1, hmem p (by simp), rfl, rfl⟩
    have ht : tid db.targets p.1.net p.1.name = t.id := by rw [← g2, ← g3]; exact tid_eq hi.names g1
    by_cases hw : w p = true
    · rw [if_pos hw]
      have : db.targets.filter (q (rowOf db.targets p)) = [t] := by
        refine filter_singleton t (nodup_of_map hi.ids) g1 (fun x hx => ?_)
        rw [hq p (by simp) x hx]
        refine ⟨fun hh => eq_of_nodup_map hi.ids hx g1 (by rw [hh.1, ht]), fun hh => ⟨by rw [hh, ht], hw⟩⟩
      rw [this]
      rfl
    · rw [if_neg hw]
      have : db.targets.filter (q (rowOf db.targets p)) = [] := by
        rw [List.filter_eq_nil_iff]
        intro x hx hh
        exact hw ((hq p (by simp) x hx).1 hh).2
      rw [this]
      rfl

private theorem tid_iff {h : List Stored} {db : MsgDb} (hi : Inv h db) {p : Stored × Nat} (hp : p ∈ h.zipIdx 1)
    {t : MsgTargetRow} (ht : t ∈ db.targets) :
    (t.id = tid db.targets p.1.net p.1.name) ↔ (t.network = p.1.net ∧ t.target = p.1.name) := by
  have hmem : p.1 ∈ h := by
    have := List.mem_map_of_mem (f := Prod.fst) hp
    rwa [List.zipIdx_map_fst] at this
  obtain ⟨t', g1, g2, g3⟩ := (hi.exact p.1.net p.1.name).2 ⟨p.1, hmem, rfl, rfl⟩
  have ht' : tid db.targets p.1.net p.1.name = t'.id := by rw [← g2, ← g3]; exact tid_eq hi.names g1
  rw [ht']
  constructor
  · intro he
    have := eq_of_nodup_map hi.ids ht g1 he
    subst this
    exact ⟨g2, g3⟩
  · rintro ⟨e1, e2⟩
    have := eq_of_nodup_map hi.names ht g1 (by simp [e1, e2, g2, g3])
    rw [this]

private theorem above_iff {b t : Int} (hb : InYears b) (ht : InYears t) :
    timeAbove b (sqliteFormat t) = true ↔ After b t := by
  unfold timeAbove After sqliteValue
  by_cases h0 : b = 0
  · simp [h0]
  · rw [if_neg h0]
    simp only [decide_eq_true_eq, h0, false_or]
    exact (C34_order b t hb ht).1

private theorem below_iff {b t : Int} (hb : InYears b) (ht : InYears t) :
    timeBelow b (sqliteFormat t) = true ↔ Before b t := by
  unfold timeBelow Before sqliteValue
  by_cases h0 : b = 0
  · simp [h0]
  · rw [if_neg h0]
    simp only [decide_eq_true_eq, h0, false_or]
    exact (C34_order t b ht hb).1

private theorem pair_mem {h : List Stored} {p : Stored × Nat} (hp : p ∈ h.zipIdx 1) : p.1 ∈ h := by
  have := List.mem_map_of_mem (f := Prod.fst) hp
  rwa [List.zipIdx_map_fst] at this

private theorem where_iff {fts : Str → Option Str → Bool} {h : List Stored} {db : MsgDb} (hi : Inv h db)
    (hok : StoredOK h) (net : Nat) (name : Str) (o : MsgOptions) (ha : InYears o.afterTime) (hb : InYears o.beforeTime)
    (p : Stored × Nat) (hp : p ∈ h.zipIdx 1) (t : MsgTargetRow) (ht : t ∈ db.targets) :
    msgWhere fts net name o (rowOf db.targets p) t = true ↔
      (t.id = tid db.targets p.1.net p.1.name ∧ WantedMsg fts net name o p = true) := by
  have hy := (hok p.1 (pair_mem hp)).1
  have e := tid_iff hi hp ht
  unfold msgWhere WantedMsg
  simp only [Bool.and_eq_true, decide_eq_true_eq, Bool.or_eq_true, Option.isSome_iff_ne_none]
  simp only [rowOf, above_iff ha hy, below_iff hb hy]
  constructor
  · rintro ⟨⟨⟨⟨⟨⟨⟨⟨h1, h2⟩, h3⟩, h4⟩, h5⟩, h6⟩, h7⟩, h8⟩, h9⟩
    have hh := e.1 h1.symm
    exact ⟨h1.symm, by rw [← hh.1, h2], by rw [← hh.2, h3], h4, h5, h6, h7, h8, h9⟩
  · rintro ⟨h1, h2, h3, h4, h5, h6, h7, h8, h9⟩
    have hh := e.1 h1
    exact ⟨⟨⟨⟨⟨⟨⟨⟨h1.symm, by rw [hh.1, h2]⟩, by rw [hh.2, h3]⟩, h4⟩, h5⟩, h6⟩, h7⟩, h8⟩, h9⟩

/-- Sorting, cutting and reversing give a window. -/
private theorem window_of {α : Type} (key : α → Int) (all sorted : List α) (limit : Nat) (last : Bool)
    (hp : sorted.Perm all)
    (hs : sorted.Pairwise (fun a b => if last then key b ≤ key a else key a ≤ key b)) :
    IsWindow key all limit last (if last then (sorted.take limit).reverse else sorted.take limit) := by
  have hsplit := List.take_append_drop limit sorted
  rw [← hsplit, List.pairwise_append] at hs
  obtain ⟨s1, _, s3⟩ := hs
  refine ⟨sorted.drop limit, ?_, ?_, ?_, ?_⟩
  · cases last
    · simpa [hsplit] using hp
    · refine List.Perm.trans ?_ hp
      refine ((List.reverse_perm _).append_right _).trans ?_
      rw [hsplit]
  · have : (sorted.take limit).length = min limit all.length := by rw [List.length_take, hp.length_eq]
    cases last
    · exact this
    · simpa using this
  · cases last
    · simpa using s1
    · simp only [if_true] at s1 ⊢
      rw [List.pairwise_reverse]
      exact s1
  · intro a ha b hb
    refine s3 a ?_ b hb
    cases last
    · exact ha
    · simpa using ha

private theorem sorted_times {ord : Bool → List MsgRow → List MsgRow} (hord : OrdOK ord) {h : List Stored}
    (hok : StoredOK h) (T : List MsgTargetRow) (d : Bool) (w : Stored × Nat → Bool) :
    ∃ sorted : List (Stored × Nat), ord d (((h.zipIdx 1).filter w).map (rowOf T)) = sorted.map (rowOf T) ∧
      sorted.Perm ((h.zipIdx 1).filter w) ∧
      sorted.Pairwise (fun a b => if d then keyOf b ≤ keyOf a else keyOf a ≤ keyOf b) := by
  obtain ⟨o1, o2⟩ := hord d (((h.zipIdx 1).filter w).map (rowOf T))
  obtain ⟨L, l1, l2⟩ := perm_map_inv _ o1 _ rfl
  refine ⟨L, l2, l1, ?_⟩
  rw [l2, List.pairwise_map] at o2
  refine List.Pairwise.imp_of_mem ?_ o2
  intro a b ha hb hab
  have ya := (hok a.1 (pair_mem ((List.mem_filter.1 (l1.subset ha)).1))).1
  have yb := (hok b.1 (pair_mem ((List.mem_filter.1 (l1.subset hb)).1))).1
  unfold keyOf
  cases d
  · simp only [Bool.false_eq_true, if_false] at hab ⊢
    have := mt (C34_order b.1.m.t a.1.m.t yb ya).1.2 hab
    omega
  · simp only [if_true] at hab ⊢
    have := mt (C34_order a.1.m.t b.1.m.t ya yb).1.2 hab
    omega

/-- C35: a query returns the messages of the conversation that satisfy its conditions, up to the limit: the
first ones or the last ones, in chronological order. -/
theorem C35_query (fts : Str → Option Str → Bool) (ord : Bool → List MsgRow → List MsgRow) (hord : OrdOK ord)
    (h : List Stored) (hok : StoredOK h) (net : Nat) (name : Str) (o : MsgOptions)
    (ha : InYears o.afterTime) (hb : InYears o.beforeTime) :
    ∃ win, listMessages fts ord (dbOf h) net name o = win.map (·.1.m.raw) ∧
      IsWindow keyOf ((h.zipIdx 1).filter (WantedMsg fts net name o)) o.limit o.takeLast win := by
  have hi := inv_all h hok
  unfold listMessages
  rw [join_eq hi (msgWhere fts net name o) (WantedMsg fts net name o)
    (fun p hp t ht => where_iff hi hok net name o ha hb p hp t ht)]
  obtain ⟨sorted, s1, s2, s3⟩ := sorted_times hord hok (dbOf h).targets o.takeLast (WantedMsg fts net name o)
  simp only [s1]
  refine ⟨_, ?_, window_of keyOf _ sorted o.limit o.takeLast s2 s3⟩
  have hr : ∀ l : List (Stored × Nat), (l.map (rowOf (dbOf h).targets)).map (·.raw) = l.map (·.1.m.raw) := by
    intro l; rw [List.map_map]; rfl
  rw [← List.map_take, hr]
  cases o.takeLast
  · rfl
  · simp [List.map_reverse]

/-- A message of the conversation; only PRIVMSG and NOTICE unless `events`. -/
def InConv (net : Nat) (name : Str) (events : Bool) (p : Stored × Nat) : Prop :=
  p.1.net = net ∧ p.1.name = name ∧ (events = true ∨ p.1.m.text ≠ none)

instance (net : Nat) (name : Str) (events : Bool) (p : Stored × Nat) : Decidable (InConv net name events p) := by
  unfold InConv; infer_instance

/-- C35: history before an instant: the last messages strictly between the bounds. -/
theorem C35_before (fts : Str → Option Str → Bool) (ord : Bool → List MsgRow → List MsgRow) (hord : OrdOK ord)
    (h : List Stored) (hok : StoredOK h) (net : Nat) (name : Str) (start stop : Int) (limit : Nat) (events : Bool)
    (hs : InYears start) (he : InYears stop) :
    ∃ win, listMessages fts ord (dbOf h) net name (dbLoadBefore start stop limit events) = win.map (·.1.m.raw) ∧
      IsWindow keyOf ((h.zipIdx 1).filter (fun p =>
        decide (InConv net name events p ∧ Before start p.1.m.t ∧ After stop p.1.m.t))) limit true win := by
  obtain ⟨win, h1, h2⟩ := C35_query fts ord hord h hok net name (dbLoadBefore start stop limit events) he hs
  refine ⟨win, h1, ?_⟩
  have e : ((h.zipIdx 1).filter (WantedMsg fts net name (dbLoadBefore start stop limit events))) =
      ((h.zipIdx 1).filter (fun p =>
        decide (InConv net name events p ∧ Before start p.1.m.t ∧ After stop p.1.m.t))) := by
    apply List.filter_congr
    intro p _
    unfold WantedMsg InConv
    rw [decide_eq_decide]
    simp only [dbLoadBefore, true_or, true_and]
    constructor
    · rintro ⟨a, b, c, d, e⟩; exact ⟨⟨a, b, e⟩, d, c⟩
    · rintro ⟨⟨a, b, e⟩, d, c⟩; exact ⟨a, b, c, d, e⟩
  rw [e] at h2
  exact h2

/-- C35: history after an instant: the first messages strictly between the bounds. -/
theorem C35_after (fts : Str → Option Str → Bool) (ord : Bool → List MsgRow → List MsgRow) (hord : OrdOK ord)
    (h : List Stored) (hok : StoredOK h) (net : Nat) (name : Str) (start stop : Int) (limit : Nat) (events : Bool)
    (hs : InYears start) (he : InYears stop) :
    ∃ win, listMessages fts ord (dbOf h) net name (dbLoadAfter start stop limit events) = win.map (·.1.m.raw) ∧
      IsWindow keyOf ((h.zipIdx 1).filter (fun p =>
        decide (InConv net name events p ∧ After start p.1.m.t ∧ Before stop p.1.m.t))) limit false win := by
  obtain ⟨win, h1, h2⟩ := C35_query fts ord hord h hok net name (dbLoadAfter start stop limit events) hs he
  refine ⟨win, h1, ?_⟩
  have e : ((h.zipIdx 1).filter (WantedMsg fts net name (dbLoadAfter start stop limit events))) =
      ((h.zipIdx 1).filter (fun p =>
        decide (InConv net name events p ∧ After start p.1.m.t ∧ Before stop p.1.m.t))) := by
    apply List.filter_congr
    intro p _
    unfold WantedMsg InConv
    rw [decide_eq_decide]
    simp only [dbLoadAfter, true_or, true_and]
    constructor
    · rintro ⟨a, b, c, d, e⟩; exact ⟨⟨a, b, e⟩, c, d⟩
    · rintro ⟨⟨a, b, e⟩, c, d⟩; exact ⟨a, b, c, d, e⟩
  rw [e] at h2
  exact h2

/-- C35: a search: the last text messages of the conversation from the sender (if one is given) that match the
text (if one is given), strictly between the bounds. -/
theorem C35_search (fts : Str → Option Str → Bool) (ord : Bool → List MsgRow → List MsgRow) (hord : OrdOK ord)
    (h : List Stored) (hok : StoredOK h) (net : Nat) (name : Str) (start stop : Int) (limit : Nat) (sender text : Str)
    (hs : InYears start) (he : InYears stop) :
    ∃ win, listMessages fts ord (dbOf h) net name (dbSearch start stop limit sender text) = win.map (·.1.m.raw) ∧
      IsWindow keyOf ((h.zipIdx 1).filter (fun p =>
        decide (InConv net name false p ∧ After start p.1.m.t ∧ Before stop p.1.m.t ∧
          (sender = [] ∨ p.1.m.sender = sender) ∧ (text = [] ∨ fts text p.1.m.text = true)))) limit true win := by
  obtain ⟨win, h1, h2⟩ := C35_query fts ord hord h hok net name (dbSearch start stop limit sender text) hs he
  refine ⟨win, h1, ?_⟩
  have e : ((h.zipIdx 1).filter (WantedMsg fts net name (dbSearch start stop limit sender text))) =
      ((h.zipIdx 1).filter (fun p =>
        decide (InConv net name false p ∧ After start p.1.m.t ∧ Before stop p.1.m.t ∧
          (sender = [] ∨ p.1.m.sender = sender) ∧ (text = [] ∨ fts text p.1.m.text = true)))) := by
    apply List.filter_congr
    intro p _
    unfold WantedMsg InConv
    rw [decide_eq_decide]
    simp only [dbSearch, true_or, true_and]
    constructor
    · rintro ⟨a, b, c, d, f, g, e⟩; exact ⟨⟨a, b, e⟩, c, d, f, g⟩
    · rintro ⟨⟨a, b, e⟩, c, d, f, g⟩; exact ⟨a, b, c, d, f, g, e⟩
  rw [e] at h2
  exact h2

/-- C35: after a message identifier: the last text messages of the conversation stored after that message
(all of them if the identifier is that of an empty conversation). -/
theorem C35_latest (fts : Str → Option Str → Bool) (ord : Bool → List MsgRow → List MsgRow) (hord : OrdOK ord)
    (h : List Stored) (hok : StoredOK h) (net : Nat) (name : Str) (id limit : Nat) :
    ∃ win, listMessages fts ord (dbOf h) net name (dbLoadLatest id limit) = win.map (·.1.m.raw) ∧
      IsWindow keyOf ((h.zipIdx 1).filter (fun p => decide (InConv net name false p ∧ p.2 > id))) limit true win := by
  have hz : InYears 0 := by unfold InYears dayNanos; omega
  obtain ⟨win, h1, h2⟩ := C35_query fts ord hord h hok net name (dbLoadLatest id limit) hz hz
  refine ⟨win, h1, ?_⟩
  have e : ((h.zipIdx 1).filter (WantedMsg fts net name (dbLoadLatest id limit))) =
      ((h.zipIdx 1).filter (fun p => decide (InConv net name false p ∧ p.2 > id))) := by
    apply List.filter_congr
    intro p hp
    have hpos : p.2 ≥ 1 := by
      have := List.mem_zipIdx (x := p.1) (i := p.2) hp
      omega
    unfold WantedMsg InConv
    rw [decide_eq_decide]
    simp only [dbLoadLatest, true_or, true_and, After, Before]
    constructor
    · rintro ⟨a, b, c, d⟩; exact ⟨⟨a, b, d⟩, by omega⟩
    · rintro ⟨⟨a, b, d⟩, c⟩; exact ⟨a, b, .inr c, d⟩
  rw [e] at h2
  exact h2

private theorem last_rows {h : List Stored} {db : MsgDb} (hi : Inv h db) (net : Nat) (name : Str) :
    db.messages.flatMap (fun m => (db.targets.filter (fun t =>
      decide (t.network = net ∧ t.target = name ∧ m.target = t.id))).map (fun _ => m)) =
    ((h.zipIdx 1).filter (fun p => decide (InConv net name true p))).map (rowOf db.targets) := by
  refine join_eq hi (fun m t => decide (t.network = net ∧ t.target = name ∧ m.target = t.id)) _ ?_
  intro p hp t ht
  have e := tid_iff hi hp ht
  rw [decide_eq_true_iff, decide_eq_true_iff]
  simp only [InConv, rowOf, true_or, and_true]
  constructor
  · rintro ⟨a, b, c⟩
    have := e.1 c.symm
    exact ⟨c.symm, by rw [← this.1, a], by rw [← this.2, b]⟩
  · rintro ⟨a, b, c⟩
    have := e.1 a
    exact ⟨by rw [this.1, b], by rw [this.2, c], a.symm⟩

/-- C35: the last message of a conversation is one of those with the latest time. -/
theorem C35_last_id (ord : Bool → List MsgRow → List MsgRow) (hord : OrdOK ord) (h : List Stored)
    (hok : StoredOK h) (net : Nat) (name : Str) :
    (getMessageLastID ord (dbOf h) net name = 0 ∧ ∀ p ∈ h.zipIdx 1, ¬ InConv net name true p) ∨
    ∃ s, (s, getMessageLastID ord (dbOf h) net name) ∈ h.zipIdx 1 ∧ s.net = net ∧ s.name = name ∧
      ∀ p ∈ h.zipIdx 1, InConv net name true p → keyOf p ≤ toMillis s.m.t := by
  have hi := inv_all h hok
  unfold getMessageLastID
  rw [last_rows hi]
  obtain ⟨sorted, s1, s2, s3⟩ := sorted_times hord hok (dbOf h).targets true (fun p => decide (InConv net name true p))
  simp only [s1]
  have hmem : ∀ p ∈ h.zipIdx 1, InConv net name true p → p ∈ sorted := fun p hp hc =>
    s2.mem_iff.2 (List.mem_filter.2 ⟨hp, by simpa using hc⟩)
  cases sorted with
  | nil => exact .inl ⟨rfl, fun p hp hc => by cases hmem p hp hc⟩
  | cons q sorted =>
    right
    have hq := List.mem_filter.1 (s2.subset (List.mem_cons_self ..))
    have hc : InConv net name true q := by simpa using hq.2
    refine ⟨q.1, hq.1, hc.1, hc.2.1, fun p hp hpc => ?_⟩
    rcases List.mem_cons.1 (hmem p hp hpc) with e | e
    · rw [e]; exact Int.le_refl _
    · exact (List.pairwise_cons.1 s3).1 p e

/-- C35, partial: a client that comes back gets what was stored since, provided the times of the messages of
the conversation are in the order in which they were stored (no two in the same millisecond).  Missing: that
it holds without the condition; `C35_resume_violated` shows that it does not. -/
theorem C35_resume_partial (fts : Str → Option Str → Bool) (ord : Bool → List MsgRow → List MsgRow)
    (hord : OrdOK ord) (h h2 : List Stored) (hok : StoredOK (h ++ h2)) (net : Nat) (name : Str) (limit : Nat)
    (hinc : ∀ p ∈ h.zipIdx 1, ∀ q ∈ h.zipIdx 1, InConv net name true p → InConv net name true q → p.2 < q.2 →
      keyOf p < keyOf q) :
    ∃ win, listMessages fts ord (dbOf (h ++ h2)) net name
        (dbLoadLatest (getMessageLastID ord (dbOf h) net name) limit) = win.map (·.1.m.raw) ∧
      IsWindow keyOf ((h2.zipIdx (1 + h.length)).filter (fun p => decide (InConv net name false p))) limit true win := by
  obtain ⟨win, w1, w2⟩ := C35_latest fts ord hord (h ++ h2) hok net name
    (getMessageLastID ord (dbOf h) net name) limit
  refine ⟨win, w1, ?_⟩
  have hl := C35_last_id ord hord h (fun s hs => hok s (by simp [hs])) net name
  generalize getMessageLastID ord (dbOf h) net name = id at *
  have hle : id ≤ h.length := by
    rcases hl with hl | ⟨s, hl, _⟩
    · omega
    · have := List.mem_zipIdx hl; omega
  have e : ((h ++ h2).zipIdx 1).filter (fun p => decide (InConv net name false p ∧ p.2 > id)) =
      (h2.zipIdx (1 + h.length)).filter (fun p => decide (InConv net name false p)) := by
    rw [List.zipIdx_append, List.filter_append]
    have e1 : (h.zipIdx 1).filter (fun p => decide (InConv net name false p ∧ p.2 > id)) = [] := by
      rw [List.filter_eq_nil_iff]
      intro p hp hc
      simp only [decide_eq_true_eq] at hc
      have hc' : InConv net name true p := ⟨hc.1.1, hc.1.2.1, .inl rfl⟩
      rcases hl with hl | ⟨s, l1, l2, l3, l4⟩
      · exact hl.2 p hp hc'
      · have := hinc _ l1 p hp ⟨l2, l3, .inl rfl⟩ hc' hc.2
        have := l4 p hp hc'
        unfold keyOf at *
        simp only at *
        omega
    rw [e1, List.nil_append]
    apply List.filter_congr
    intro p hp
    have : p.2 ≥ 1 + h.length := by
      have := List.mem_zipIdx (x := p.1) (i := p.2) hp
      omega
    rw [decide_eq_decide]
    constructor
    · exact fun hc => hc.1
    · exact fun hc => ⟨hc, by omega⟩
  rw [e] at w2
  exact w2

/-- The two messages of the counterexample: the second one carries an earlier time. -/
private def late : List Stored :=
  [⟨1, b!"#c", ⟨b!"first", 2000000, b!"a", some b!"first"⟩⟩, ⟨1, b!"#c", ⟨b!"second", 1000000, b!"b", some b!"second"⟩⟩]

/-- C35 fails as stated: the last message is looked up by time, so when the message that arrived last has an
earlier time than one before it (or, at the database's choice, the same time), a client that has received
everything is sent that message again. -/
theorem C35_resume_violated : ∃ h : List Stored, StoredOK h ∧
    ∀ (fts : Str → Option Str → Bool) (ord : Bool → List MsgRow → List MsgRow), OrdOK ord →
      listMessages fts ord (dbOf h) 1 b!"#c" (dbLoadLatest (getMessageLastID ord (dbOf h) 1 b!"#c") 10) =
        [b!"second"] := by
  have hok : StoredOK late := by
    intro s hs
    simp only [late, List.mem_cons, List.not_mem_nil, or_false] at hs
    rcases hs with rfl | rfl <;> (unfold InYears dayNanos; exact ⟨by constructor <;> decide, by decide⟩)
  refine ⟨late, hok, fun fts ord hord => ?_⟩
  have hid : getMessageLastID ord (dbOf late) 1 b!"#c" = 1 := by
    rcases C35_last_id ord hord late hok 1 b!"#c" with ⟨_, hl⟩ | ⟨s, hl, _, _, hmax⟩
    · exact absurd (⟨rfl, rfl, .inl rfl⟩ : InConv 1 b!"#c" true (late[0], 1)) (hl _ (by simp [late]))
    · generalize getMessageLastID ord (dbOf late) 1 b!"#c" = k at *
      simp only [late, List.zipIdx_cons, List.zipIdx_nil, List.mem_cons, List.not_mem_nil, or_false,
        Prod.mk.injEq] at hl
      rcases hl with ⟨_, rfl⟩ | ⟨rfl, rfl⟩
      · rfl
      · exact absurd (hmax (late[0], 1) (by simp [late]) ⟨rfl, rfl, .inl rfl⟩) (by decide)
  rw [hid]
  obtain ⟨win, w1, rest, w2, w3, _, _⟩ := C35_latest fts ord hord late hok 1 b!"#c" 1 10
  rw [w1]
  have e : (late.zipIdx 1).filter (fun p => decide (InConv 1 b!"#c" false p ∧ p.2 > 1)) = [(late[1], 2)] := by decide
  rw [e] at w2 w3
  have hp := w2.length_eq
  match win, rest, w3, hp with
  | [a], [], _, _ =>
    rw [List.append_nil] at w2
    rw [List.singleton_perm_singleton.1 w2]
    rfl

/-- `t` is the time of the latest message of a conversation (of the latest text message unless `events`). -/
def IsLatest (h : List Stored) (net : Nat) (events : Bool) (name : Str) (t : Int) : Prop :=
  (∃ p ∈ h.zipIdx 1, InConv net name events p ∧ keyOf p = t) ∧
  ∀ p ∈ h.zipIdx 1, InConv net name events p → keyOf p ≤ t

/-- What `ORDER BY latest` promises for rows that have a latest message. -/
def OrdTOK (ordT : Bool → List (Str × Option Str) → List (Str × Option Str)) : Prop :=
  ∀ d l, (ordT d l).Perm l ∧ (ordT d l).Pairwise (fun a b => ∀ x y, a.2 = some x → b.2 = some y →
    if d then ¬ x < y else ¬ y < x)

private theorem latest_rows {h : List Stored} {db : MsgDb} (hi : Inv h db) (events : Bool) (t : MsgTargetRow)
    (ht : t ∈ db.targets) :
    db.messages.filter (fun m => decide (m.target = t.id) && (events || m.text.isSome)) =
    ((h.zipIdx 1).filter (fun p => decide (InConv t.network t.target events p))).map (rowOf db.targets) := by
  rw [hi.rows, List.filter_map]
  congr 1
  apply List.filter_congr
  intro p hp
  have e := tid_iff hi hp ht
  rw [Bool.eq_iff_iff]
  simp only [Function.comp, Bool.and_eq_true, decide_eq_true_eq, Bool.or_eq_true, Option.isSome_iff_ne_none]
  simp only [InConv, rowOf]
  constructor
  · rintro ⟨a, b⟩
    have := e.1 a.symm
    exact ⟨this.1.symm, this.2.symm, b⟩
  · rintro ⟨a, b, c⟩
    exact ⟨(e.2 ⟨a.symm, b.symm⟩).symm, c⟩

/-- The subquery gives the time of the latest message, NULL if there is none. -/
private theorem latest_spec {ord : Bool → List MsgRow → List MsgRow} (hord : OrdOK ord) {h : List Stored}
    (hok : StoredOK h) (events : Bool) (t : MsgTargetRow) (ht : t ∈ (dbOf h).targets) :
    (latestTime ord (dbOf h) events t.id = none ∧ ∀ p ∈ h.zipIdx 1, ¬ InConv t.network t.target events p) ∨
    ∃ p ∈ h.zipIdx 1, latestTime ord (dbOf h) events t.id = some (sqliteFormat p.1.m.t) ∧
      InConv t.network t.target events p ∧ IsLatest h t.network events t.target (keyOf p) := by
  have hi := inv_all h hok
  unfold latestTime
  rw [latest_rows hi events t ht]
  obtain ⟨sorted, s1, s2, s3⟩ := sorted_times hord hok (dbOf h).targets true
    (fun p => decide (InConv t.network t.target events p))
  rw [s1]
  have hmem : ∀ p ∈ h.zipIdx 1, InConv t.network t.target events p → p ∈ sorted := fun p hp hc =>
    s2.mem_iff.2 (List.mem_filter.2 ⟨hp, by simpa using hc⟩)
  cases sorted with
  | nil => exact .inl ⟨rfl, fun p hp hc => by cases hmem p hp hc⟩
  | cons q sorted =>
    right
    have hq := List.mem_filter.1 (s2.subset (List.mem_cons_self ..))
    have hc : InConv t.network t.target events q := by simpa using hq.2
    refine ⟨q, hq.1, rfl, hc, ⟨q, hq.1, hc, rfl⟩, fun p hp hpc => ?_⟩
    rcases List.mem_cons.1 (hmem p hp hpc) with e | e
    · rw [e]; exact Int.le_refl _
    · exact (List.pairwise_cons.1 s3).1 p e

private theorem latest_unique {h : List Stored} {net : Nat} {events : Bool} {name : Str} {t t' : Int}
    (h1 : IsLatest h net events name t) (h2 : IsLatest h net events name t') : t = t' := by
  obtain ⟨⟨p, p1, p2, p3⟩, p4⟩ := h1
  obtain ⟨⟨q, q1, q2, q3⟩, q4⟩ := h2
  have := p4 q q1 q2
  have := q4 p p1 p2
  omega

/-- C35: the list of conversations with a bound: those whose latest message (event) is strictly between the
bounds, each with that time, up to the limit: the first ones or the last ones, in chronological order. -/
theorem C35_targets (ord : Bool → List MsgRow → List MsgRow) (hord : OrdOK ord)
    (ordT : Bool → List (Str × Option Str) → List (Str × Option Str)) (hordT : OrdTOK ordT)
    (h : List Stored) (hok : StoredOK h) (net : Nat) (o : MsgOptions)
    (ha : InYears o.afterTime) (hb : InYears o.beforeTime) (hbound : o.afterTime ≠ 0 ∨ o.beforeTime ≠ 0) :
    ∃ all win : List (Str × Int), (all.map (·.1)).Nodup ∧
      (∀ n t, (n, t) ∈ all ↔ IsLatest h net o.events n t ∧ After o.afterTime t ∧ Before o.beforeTime t) ∧
      IsWindow (·.2) all o.limit o.takeLast win ∧
      (listLastPerTarget ord ordT (dbOf h) net o).map (fun p => (p.1, sqliteScan p.2)) =
        win.map (fun p => (p.1, some p.2)) := by
  have hi := inv_all h hok
  have hmm : ∀ x : Int, toMillis (toMillis x) = toMillis x := by intro x; unfold toMillis; omega
  have hbounds : ∀ p ∈ h.zipIdx 1, (nullAbove o.afterTime (some (sqliteFormat p.1.m.t)) &&
      nullBelow o.beforeTime (some (sqliteFormat p.1.m.t))) = true ↔
      After o.afterTime (keyOf p) ∧ Before o.beforeTime (keyOf p) := by
    intro p hp
    have hy := (hok p.1 (pair_mem hp)).1
    have e1 := above_iff ha hy
    have e2 := below_iff hb hy
    unfold nullAbove nullBelow
    simp only [Bool.and_eq_true, Bool.or_eq_true, decide_eq_true_eq]
    rw [e1, e2]
    unfold After Before keyOf
    rw [hmm]
    constructor
    · rintro ⟨a, b⟩; exact ⟨a.elim .inl id, b.elim .inl id⟩
    · rintro ⟨a, b⟩; exact ⟨.inr a, .inr b⟩
  have hnone : (nullAbove o.afterTime none && nullBelow o.beforeTime none) = false := by
    unfold nullAbove nullBelow
    rcases hbound with h0 | h0 <;> simp [h0]
  let lat : MsgTargetRow → Option Str := fun t => latestTime ord (dbOf h) o.events t.id
  let T := ((dbOf h).targets.filter (fun t => decide (t.network = net))).filter
    (fun t => nullAbove o.afterTime (lat t) && nullBelow o.beforeTime (lat t))
  have hTmem : ∀ t ∈ T, t ∈ (dbOf h).targets ∧ t.network = net ∧
      (nullAbove o.afterTime (lat t) && nullBelow o.beforeTime (lat t)) = true := by
    intro t ht
    have h1 := List.mem_filter.1 ht
    have h2 := List.mem_filter.1 h1.1
    exact ⟨h2.1, by simpa using h2.2, h1.2⟩
  have hTspec : ∀ t ∈ T, ∃ p ∈ h.zipIdx 1, lat t = some (sqliteFormat p.1.m.t) ∧
      IsLatest h net o.events t.target (keyOf p) ∧ After o.afterTime (keyOf p) ∧ Before o.beforeTime (keyOf p) := by
    intro t ht
    obtain ⟨h1, h2, h3⟩ := hTmem t ht
    rcases latest_spec hord hok o.events t h1 with ⟨g, _⟩ | ⟨p, hp, g1, _, g3⟩
    · have : lat t = none := g
      rw [this, hnone] at h3
      cases h3
    · have : lat t = some (sqliteFormat p.1.m.t) := g1
      rw [this, hbounds p hp] at h3
      rw [h2] at g3
      exact ⟨p, hp, g1, g3, h3⟩
  -- the value of a row
  let val : Str × Option Str → Str × Int := fun r => (r.1, (sqliteScan r.2).getD 0)
  let R := T.map (fun t => (t.target, lat t))
  have hscan : ∀ p ∈ h.zipIdx 1, sqliteScan (some (sqliteFormat p.1.m.t)) = some (keyOf p) := fun p hp =>
    C34_roundtrip _ (hok p.1 (pair_mem hp)).1
  have hR : ∀ r ∈ R, ∃ p ∈ h.zipIdx 1, r.2 = some (sqliteFormat p.1.m.t) ∧ (val r).2 = keyOf p ∧
      IsLatest h net o.events r.1 (keyOf p) ∧ After o.afterTime (keyOf p) ∧ Before o.beforeTime (keyOf p) := by
    intro r hr
    obtain ⟨t, ht, rfl⟩ := List.mem_map.1 hr
    obtain ⟨p, hp, h1, h2⟩ := hTspec t ht
    refine ⟨p, hp, h1, ?_, h2⟩
    simp only [val, h1, hscan p hp, Option.getD_some]
  have hnd : (T.map (·.target)).Nodup := by
    have hs : List.Sublist T (dbOf h).targets := List.filter_sublist.trans List.filter_sublist
    have hn := (hs.map (fun t => (t.network, t.target))).nodup hi.names
    unfold List.Nodup at hn ⊢
    rw [List.pairwise_map] at hn ⊢
    refine hn.imp_of_mem (fun {a b} ha hb hab e => hab ?_)
    rw [(hTmem a ha).2.1, (hTmem b hb).2.1]
    exact Prod.ext rfl e
  refine ⟨R.map val, (if o.takeLast then (((ordT o.takeLast R).map val).take o.limit).reverse
    else ((ordT o.takeLast R).map val).take o.limit), ?_, ?_, ?_, ?_⟩
  · have : (R.map val).map (·.1) = T.map (·.target) := by
      simp only [R, List.map_map]; rfl
    rw [this]; exact hnd
  · intro n t
    constructor
    · intro hm
      obtain ⟨r, hr, e⟩ := List.mem_map.1 hm
      obtain ⟨p, hp, h1, h2, h3, h4⟩ := hR r hr
      have e1 : n = r.1 := by rw [show r.1 = (val r).1 from rfl, e]
      have e2 : t = keyOf p := by rw [← h2, e]
      rw [e1, e2]
      exact ⟨h3, h4⟩
    · rintro ⟨hl, hbo⟩
      obtain ⟨⟨p, p1, p2, p3⟩, p4⟩ := hl
      obtain ⟨t', t1, t2, t3⟩ := (hi.exact net n).2 ⟨p.1, pair_mem p1, p2.1, p2.2.1⟩
      rcases latest_spec hord hok o.events t' t1 with ⟨_, g⟩ | ⟨q, hq, g1, _, g3⟩
      · rw [t2, t3] at g
        exact absurd p2 (g p p1)
      · rw [t2, t3] at g3
        have hkey := latest_unique g3 ⟨⟨p, p1, p2, p3⟩, p4⟩
        have hT : t' ∈ T := by
          refine List.mem_filter.2 ⟨List.mem_filter.2 ⟨t1, by simpa using t2⟩, ?_⟩
          have : lat t' = some (sqliteFormat q.1.m.t) := g1
          rw [this, hbounds q hq, hkey]
          exact hbo
        refine List.mem_map.2 ⟨(t'.target, lat t'), List.mem_map.2 ⟨t', hT, rfl⟩, ?_⟩
        have : lat t' = some (sqliteFormat q.1.m.t) := g1
        simp only [val, this, hscan q hq, Option.getD_some, hkey, t3]
  · obtain ⟨o1, o2⟩ := hordT o.takeLast R
    refine window_of (fun p : Str × Int => p.2) _ _ _ _ (o1.map val) ?_
    rw [List.pairwise_map]
    refine List.Pairwise.imp_of_mem ?_ o2
    intro a b ha hb hab
    obtain ⟨p, hp, a1, a2, _⟩ := hR a (o1.subset ha)
    obtain ⟨q, hq, b1, b2, _⟩ := hR b (o1.subset hb)
    have hc := hab _ _ a1 b1
    have yp := (hok p.1 (pair_mem hp)).1
    have yq := (hok q.1 (pair_mem hq)).1
    rw [a2, b2]
    unfold keyOf
    generalize o.takeLast = last at hc ⊢
    cases last
    · simp only [Bool.false_eq_true, if_false] at hc ⊢
      have := mt (C34_order _ _ yq yp).1.2 hc
      omega
    · simp only [if_true] at hc ⊢
      have := mt (C34_order _ _ yp yq).1.2 hc
      omega
  · have hl : listLastPerTarget ord ordT (dbOf h) net o =
        (if o.takeLast then ((ordT o.takeLast R).take o.limit).reverse else (ordT o.takeLast R).take o.limit) := by
      unfold listLastPerTarget
      simp only
      have : (((dbOf h).targets.filter (fun t => decide (t.network = net))).map
          (fun t => (t.target, latestTime ord (dbOf h) o.events t.id))).filter
          (fun p => nullAbove o.afterTime p.2 && nullBelow o.beforeTime p.2) = R := by
        rw [List.filter_map]; rfl
      rw [this]
    rw [hl]
    obtain ⟨o1, _⟩ := hordT o.takeLast R
    have hval : ∀ l : List (Str × Option Str), (∀ r ∈ l, r ∈ R) →
        l.map (fun p => (p.1, sqliteScan p.2)) = (l.map val).map (fun p => (p.1, some p.2)) := by
      intro l hl
      rw [List.map_map]
      apply List.map_congr_left
      intro r hr
      obtain ⟨p, hp, h1, h2, _⟩ := hR r (hl r hr)
      simp only [Function.comp, h2, h1, hscan p hp]
      rfl
    generalize o.takeLast = last at o1 ⊢
    cases last
    · simp only [Bool.false_eq_true, if_false]
      rw [hval _ (fun r hr => o1.subset (List.mem_of_mem_take hr)), List.map_take]
    · simp only [if_true]
      rw [hval _ (fun r hr => o1.subset (List.mem_of_mem_take (List.mem_reverse.1 hr))), List.map_reverse, List.map_take]

/-- C35: listing the conversations between two distinct instants, whichever comes first: those whose latest
message is strictly between them, up to the limit, taken from the side of the first instant. -/
theorem C35_list_targets (ord : Bool → List MsgRow → List MsgRow) (hord : OrdOK ord)
    (ordT : Bool → List (Str × Option Str) → List (Str × Option Str)) (hordT : OrdTOK ordT)
    (h : List Stored) (hok : StoredOK h) (net : Nat) (start stop : Int) (limit : Nat) (events : Bool)
    (ha : InYears start) (hb : InYears stop) (hne : start ≠ stop) :
    ∃ all win : List (Str × Int), (all.map (·.1)).Nodup ∧
      (∀ n t, (n, t) ∈ all ↔ IsLatest h net events n t ∧
        After (if start < stop then start else stop) t ∧ Before (if start < stop then stop else start) t) ∧
      IsWindow (·.2) all limit (decide (stop < start)) win ∧
      (listLastPerTarget ord ordT (dbOf h) net (dbListTargets start stop limit events)).map
        (fun p => (p.1, sqliteScan p.2)) = win.map (fun p => (p.1, some p.2)) := by
  by_cases hlt : start < stop
  · have hd : dbListTargets start stop limit events =
        { afterTime := start, beforeTime := stop, limit := limit, events := events } := by
      unfold dbListTargets; rw [if_pos hlt]
    have := C35_targets ord hord ordT hordT h hok net (dbListTargets start stop limit events)
    rw [hd] at this ⊢
    rw [if_pos hlt, if_pos hlt]
    have hdec : decide (stop < start) = false := by rw [decide_eq_false_iff_not]; omega
    rw [hdec]
    exact this ha hb (by dsimp only; omega)
  · have hd : dbListTargets start stop limit events =
        { afterTime := stop, beforeTime := start, limit := limit, events := events, takeLast := true } := by
      unfold dbListTargets; rw [if_neg hlt]
    have := C35_targets ord hord ordT hordT h hok net (dbListTargets start stop limit events)
    rw [hd] at this ⊢
    rw [if_neg hlt, if_neg hlt]
    have hdec : decide (stop < start) = true := by rw [decide_eq_true_iff]; omega
    rw [hdec]
    exact this hb ha (by dsimp only; omega)

/-- Sorting functions with these specifications exist. -/
example : ∃ ord, OrdOK ord := by
  refine ⟨fun d l => l.mergeSort (fun a b => if d then decide (¬ a.time < b.time) else decide (¬ b.time < a.time)),
    fun d l => ⟨List.mergeSort_perm _ _, ?_⟩⟩
  refine List.Pairwise.imp ?_ (List.pairwise_mergeSort ?_ ?_ l)
  · intro a b hab; cases d <;> simpa using hab
  · intro a b c h1 h2
    cases d
    · simp only [Bool.false_eq_true, if_false, decide_eq_true_eq, List.not_lt] at *
      exact List.le_trans h1 h2
    · simp only [if_true, decide_eq_true_eq, List.not_lt] at *
      exact List.le_trans h2 h1
  · intro a b
    cases d
    · simp only [Bool.false_eq_true, if_false, Bool.or_eq_true, decide_eq_true_eq, List.not_lt]
      exact List.le_total _ _
    · simp only [if_true, Bool.or_eq_true, decide_eq_true_eq, List.not_lt]
      exact List.le_total _ _

/-- Two conversations with three messages; a history query, the last message and the list of conversations. -/
example :
    let h : List Stored := [⟨1, b!"#c", ⟨b!"m1", 1000000, b!"a", some b!"x"⟩⟩, ⟨1, b!"#d", ⟨b!"m2", 2000000, b!"a", none⟩⟩,
      ⟨1, b!"#c", ⟨b!"m3", 3000000, b!"b", some b!"y"⟩⟩, ⟨2, b!"#c", ⟨b!"m4", 4000000, b!"b", some b!"y"⟩⟩]
    let ord : Bool → List MsgRow → List MsgRow := fun d l => if d then l.reverse else l
    let ordT : Bool → List (Str × Option Str) → List (Str × Option Str) := fun d l => if d then l.reverse else l
    listMessages (fun _ _ => true) ord (dbOf h) 1 b!"#c" (dbLoadBefore 3000000 0 10 true) = [b!"m1"] ∧
    listMessages (fun _ _ => true) ord (dbOf h) 1 b!"#c" (dbLoadAfter 0 0 1 true) = [b!"m1"] ∧
    listMessages (fun _ _ => true) ord (dbOf h) 1 b!"#c" (dbSearch 0 0 5 b!"b" []) = [b!"m3"] ∧
    getMessageLastID ord (dbOf h) 1 b!"#c" = 3 ∧
    (listLastPerTarget ord ordT (dbOf h) 1 (dbListTargets 1500000 9000000 10 true)).map (·.1) = [b!"#c", b!"#d"] ∧
    (listLastPerTarget ord ordT (dbOf h) 1 (dbListTargets 1500000 9000000 10 false)).map (·.1) = [b!"#c"] := by
  decide +kernel

end Verif.Props
