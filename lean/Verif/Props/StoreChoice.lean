import Verif.Model.StoreChoice
import Verif.Proof.Util
import Mathlib.Tactic.SplitIfs
import Mathlib.Tactic.Tauto

/-! # C123: where history is kept -/

namespace Verif.Props
open Verif.Model Verif.Proof

/-- A store is where the configuration says the messages of a user are kept. -/
def HkPlace (cfg : Str × Str) (user : Str) : HkStore → Prop
  | .fs root u => cfg.1 = b!"fs" ∧ root = cfg.2 ∧ u = user
  | .db => cfg.1 = b!"db"
  | .memory _ => cfg.1 = b!"memory"

/-- A step does not bring another message store: it is not a reload, or one that fails, or one with the same message store. -/
def HkSame (cfg : Str × Str) (op : HkOp) : Prop :=
  ∀ params, op = .reload params → hkLoad params = none ∨ hkLoad params = some cfg

/-- A step does not stop a user. -/
def HkStays (name : Str) (op : HkOp) : Prop := ∀ n, op = .gone n → n ≠ name

private theorem run_snoc (st : HkState) (ops : List HkOp) (op : HkOp) : hkRun st (ops ++ [op]) = hkStep (hkRun st ops) op := by
  simp [hkRun]

private theorem load_cases {p : Option (List Str)} {cfg : Str × Str} (h : hkLoad p = some cfg) :
    cfg.1 = b!"fs" ∨ cfg.1 = b!"db" ∨ cfg.1 = b!"memory" := by
  cases p with
  | none => simp only [hkLoad, Option.some.injEq] at h; subst h; exact .inr (.inr rfl)
  | some ps =>
    simp only [hkLoad, loadMsgStore, Option.bind_eq_some_iff] at h
    obtain ⟨ds, _, h⟩ := h
    unfold checkDriver at h
    split_ifs at h with h1 h2 h3 h4
    · cases h; simp only [List.mem_cons, List.not_mem_nil, or_false] at h1; tauto
    · cases h; simp only [List.mem_cons, List.not_mem_nil, or_false] at h3; tauto

private theorem newStore_some {p : Option (List Str)} {cfg : Str × Str} (h : hkLoad p = some cfg) (n : Str) (f : Nat) :
    ∃ s, hkNewStore cfg n f = some s ∧ HkPlace cfg n s ∧ hkAnswers (some s) = hkOffers cfg := by
  unfold hkNewStore hkOffers
  rcases load_cases h with e | e | e
  · exact ⟨_, if_pos e, ⟨e, rfl, rfl⟩, by simp [hkAnswers, e]⟩
  · refine ⟨.db, ?_, e, by simp [hkAnswers, e]⟩
    rw [if_neg (by rw [e]; decide), if_pos e]
  · refine ⟨.memory f, ?_, e, ?_⟩
    · rw [if_neg (by rw [e]; decide), if_neg (by rw [e]; decide), if_pos e]
    · simp only [hkAnswers, e]; decide

/-- Every user has a store, at the place the configuration says. -/
private structure Inv (cfg : Str × Str) (st : HkState) : Prop where
  conf : st.cfg = cfg
  users : ∀ u ∈ st.users, ∃ s, u.store = some s ∧ HkPlace cfg u.name s ∧ hkAnswers (some s) = hkOffers cfg
  clients : ∀ c ∈ st.clients, c.offered = hkOffers cfg ∧
    ∀ u, c.user = some u → ∃ s, u.store = some s ∧ HkPlace cfg u.name s ∧ hkAnswers (some s) = hkOffers cfg
  kept : ∀ e ∈ st.kept, HkPlace cfg e.1 e.2.1

private theorem inv_add {p : Option (List Str)} {cfg : Str × Str} (h : hkLoad p = some cfg) (st : HkState) (n : Str)
    (i : Inv cfg st) : Inv cfg (hkAdd st n) := by
  refine ⟨i.conf, ?_, i.clients, i.kept⟩
  intro u hu
  simp only [hkAdd, List.mem_append, List.mem_singleton] at hu
  rcases hu with hu | rfl
  · exact i.users u hu
  · rw [i.conf]; exact newStore_some h n st.fresh

private theorem find_name {st : HkState} {n : Str} {u : HkUser} (h : hkUser st n = some u) : u ∈ st.users ∧ u.name = n := by
  unfold hkUser at h
  exact ⟨List.mem_of_find?_eq_some h, by simpa using List.find?_some h⟩

private theorem inv_step {p : Option (List Str)} {cfg : Str × Str} (h : hkLoad p = some cfg) (st : HkState) (op : HkOp)
    (hs : HkSame cfg op) (i : Inv cfg st) : Inv cfg (hkStep st op) := by
  cases op with
  | reload ps =>
    rcases hs ps rfl with e | e
    · simpa only [hkStep, e] using i
    · simp only [hkStep, e]; exact ⟨rfl, i.users, i.clients, i.kept⟩
  | create n =>
    simp only [hkStep]
    split
    · exact i
    · exact inv_add h st n i
  | gone n =>
    exact ⟨i.conf, fun u hu => i.users u (List.mem_filter.1 hu).1, fun c hc => i.clients c (List.mem_filter.1 hc).1, i.kept⟩
  | connect id =>
    simp only [hkStep]
    split
    · exact i
    · refine ⟨i.conf, i.users, ?_, i.kept⟩
      intro c hc
      simp only [List.mem_append, List.mem_singleton] at hc
      rcases hc with hc | rfl
      · exact i.clients c hc
      · exact ⟨by rw [i.conf], fun u hu => by cases hu⟩
  | enable id =>
    refine ⟨i.conf, i.users, ?_, i.kept⟩
    intro c hc
    simp only [hkStep, List.mem_map] at hc
    obtain ⟨c', hc', rfl⟩ := hc
    have := i.clients c' hc'
    split <;> exact this
  | login id n =>
    simp only [hkStep]
    split
    · exact i
    · rename_i u hu
      refine ⟨i.conf, i.users, ?_, i.kept⟩
      intro c hc
      simp only [List.mem_map] at hc
      obtain ⟨c', hc', rfl⟩ := hc
      have := i.clients c' hc'
      split
      · refine ⟨this.1, fun v hv => ?_⟩
        cases hv
        exact i.users _ (find_name hu).1
      · exact this
  | close id =>
    exact ⟨i.conf, i.users, fun c hc => i.clients c (List.mem_filter.1 hc).1, i.kept⟩
  | message n m =>
    simp only [hkStep]
    split
    · exact i
    · rename_i u hu
      split
      · exact i
      · rename_i s hs'
        refine ⟨i.conf, i.users, i.clients, ?_⟩
        intro e he
        simp only [List.mem_append, List.mem_singleton] at he
        rcases he with he | rfl
        · exact i.kept e he
        · obtain ⟨hm, hn⟩ := find_name hu
          obtain ⟨s', e1, e2, _⟩ := i.users u hm
          rw [hs'] at e1; cases e1
          rw [← hn]; exact e2

private theorem inv_start {p : Option (List Str)} {cfg : Str × Str} (h : hkLoad p = some cfg) (names : List Str) :
    Inv cfg (hkStart cfg names) := by
  unfold hkStart
  have : ∀ st, Inv cfg st → Inv cfg (names.foldl hkAdd st) := by
    induction names with
    | nil => exact fun st i => i
    | cons n ns ih => exact fun st i => ih _ (inv_add h st n i)
  refine this _ ⟨rfl, ?_, ?_, ?_⟩ <;> (intro _ hx; cases hx)

private theorem inv_run {p : Option (List Str)} {cfg : Str × Str} (h : hkLoad p = some cfg) (names : List Str) (ops : List HkOp)
    (hs : ∀ op ∈ ops, HkSame cfg op) : Inv cfg (hkRun (hkStart cfg names) ops) := by
  induction ops using snocInd with
  | nil => exact inv_start h names
  | snoc ops op ih =>
    rw [run_snoc]
    exact inv_step h _ op (hs op (by simp)) (ih (fun o ho => hs o (by simp [ho])))

/-- C123: messages are kept where the configuration said when the bouncer was started, in all histories.  Missing: histories in
which the configuration is reloaded with another message store (`C123_reload_violated`). -/
theorem C123_place_partial (params : Option (List Str)) (cfg : Str × Str) (h : hkLoad params = some cfg) (names : List Str)
    (ops : List HkOp) (hs : ∀ op ∈ ops, HkSame cfg op) :
    ∀ e ∈ (hkRun (hkStart cfg names) ops).kept, HkPlace cfg e.1 e.2.1 :=
  (inv_run h names ops hs).kept

example : hkLoad (some [b!"fs", b!"/var/logs"]) = some (b!"fs", b!"/var/logs") ∧
    (hkRun (hkStart (b!"fs", b!"/var/logs") [b!"ann"]) [.create b!"bob", .message b!"bob" 7, .message b!"ann" 8]).kept =
      [(b!"bob", .fs b!"/var/logs" b!"bob", 7), (b!"ann", .fs b!"/var/logs" b!"ann", 8)] := by
  refine ⟨by decide, by decide⟩

/-- C123: as long as the message store is not changed, every message of a running user is kept, once. -/
theorem C123_kept (params : Option (List Str)) (cfg : Str × Str) (h : hkLoad params = some cfg) (names : List Str)
    (ops : List HkOp) (hs : ∀ op ∈ ops, HkSame cfg op) (name : Str) (m : Nat) (u : HkUser)
    (hu : hkUser (hkRun (hkStart cfg names) ops) name = some u) :
    ∃ s, (hkStep (hkRun (hkStart cfg names) ops) (.message name m)).kept =
      (hkRun (hkStart cfg names) ops).kept ++ [(name, s, m)] := by
  obtain ⟨s, e, _⟩ := (inv_run h names ops hs).users u (find_name hu).1
  exact ⟨s, by simp only [hkStep, hu, e]⟩

example : hkUser (hkRun (hkStart (b!"db", []) [b!"ann"]) [.connect 1]) b!"ann" = some ⟨b!"ann", some .db⟩ := by decide

/-- C123: a client is offered the history exactly if its requests are answered from the store of its user; and the history of a
client that does not take it in this way is sent as a backlog.  Missing: histories in which the configuration is reloaded with
another message store (`C123_offered_violated`). -/
theorem C123_offered_partial (params : Option (List Str)) (cfg : Str × Str) (h : hkLoad params = some cfg) (names : List Str)
    (ops : List HkOp) (hs : ∀ op ∈ ops, HkSame cfg op) (c : HkClient) (hc : c ∈ (hkRun (hkStart cfg names) ops).clients)
    (u : HkUser) (hu : c.user = some u) :
    ∃ s, u.store = some s ∧ (c.offered = true ↔ hkReply u = .found s) ∧ (c.offered = false ↔ hkReply u = .unknownCommand) ∧
      (c.enabled = false → hkBacklog c u = some s) := by
  obtain ⟨h1, h2⟩ := (inv_run h names ops hs).clients c hc
  obtain ⟨s, e, _, ha⟩ := h2 u hu
  refine ⟨s, e, ?_, ?_, ?_⟩
  · rw [h1, ← ha]; unfold hkReply; rw [e]; cases ea : hkAnswers (some s) <;> simp [ea]
  · rw [h1, ← ha]; unfold hkReply; rw [e]; cases ea : hkAnswers (some s) <;> simp [ea]
  · intro hn; simp [hkBacklog, hn, e]

example : (hkRun (hkStart (b!"db", []) [b!"ann"]) [.connect 1, .enable 1, .login 1 b!"ann"]).clients =
    [⟨1, true, true, some ⟨b!"ann", some .db⟩⟩] := by decide

private theorem enabled_offered (st : HkState) (op : HkOp) (i : ∀ c ∈ st.clients, c.enabled = true → c.offered = true) :
    ∀ c ∈ (hkStep st op).clients, c.enabled = true → c.offered = true := by
  intro c hc
  cases op <;> simp only [hkStep] at hc
  case reload => split at hc <;> exact i c hc
  case create => split at hc <;> exact i c hc
  case gone => exact i c (List.mem_filter.1 hc).1
  case connect =>
    split at hc
    · exact i c hc
    · simp only [List.mem_append, List.mem_singleton] at hc
      rcases hc with hc | rfl
      · exact i c hc
      · intro h; cases h
  case enable =>
    simp only [List.mem_map] at hc
    obtain ⟨c', hc', rfl⟩ := hc
    split
    · exact fun h => h
    · exact i c' hc'
  case login =>
    split at hc
    · exact i c hc
    · simp only [List.mem_map] at hc
      obtain ⟨c', hc', rfl⟩ := hc
      split <;> exact i c' hc'
  case close => exact i c (List.mem_filter.1 hc).1
  case message =>
    split at hc
    · exact i c hc
    · split at hc <;> exact i c hc

private theorem start_clients (cfg : Str × Str) (names : List Str) : (hkStart cfg names).clients = [] := by
  unfold hkStart
  have : ∀ st : HkState, (names.foldl hkAdd st).clients = st.clients := by
    induction names with
    | nil => exact fun st => rfl
    | cons n ns ih => exact fun st => (ih _).trans rfl
  rw [this]

/-- C123: no client is left without history, as long as the message store is not changed: a client gets it with the requests it
has enabled, or it is sent the backlog. -/
theorem C123_reach_partial (params : Option (List Str)) (cfg : Str × Str) (h : hkLoad params = some cfg) (names : List Str)
    (ops : List HkOp) (hs : ∀ op ∈ ops, HkSame cfg op) (c : HkClient) (hc : c ∈ (hkRun (hkStart cfg names) ops).clients)
    (u : HkUser) (hu : c.user = some u) :
    ∃ s, u.store = some s ∧ (if c.enabled then hkReply u = .found s else hkBacklog c u = some s) := by
  obtain ⟨s, e, h1, _, h3⟩ := C123_offered_partial params cfg h names ops hs c hc u hu
  refine ⟨s, e, ?_⟩
  split
  · rename_i he
    refine h1.1 ?_
    have : ∀ c ∈ (hkRun (hkStart cfg names) ops).clients, c.enabled = true → c.offered = true := by
      clear hs hc h1 h3
      induction ops using snocInd with
      | nil => intro c hc; rw [show hkRun (hkStart cfg names) [] = hkStart cfg names from rfl, start_clients] at hc; cases hc
      | snoc ops op ih => rw [run_snoc]; exact enabled_offered _ op ih
    exact this c hc he
  · rename_i he
    exact h3 (by simpa using he)

example : hkBacklog ⟨1, false, false, some ⟨b!"ann", some (.memory 0)⟩⟩ ⟨b!"ann", some (.memory 0)⟩ = some (.memory 0) := by decide

/-- C123: a user keeps its store until it is stopped, whatever else happens: it is not changed by a reload. -/
theorem C123_fixed (st : HkState) (name : Str) (u : HkUser) (hu : hkUser st name = some u) (ops : List HkOp)
    (hs : ∀ op ∈ ops, HkStays name op) : hkUser (hkRun st ops) name = some u := by
  induction ops using snocInd with
  | nil => exact hu
  | snoc ops op ih =>
    rw [run_snoc]
    have ih := ih (fun o ho => hs o (by simp [ho]))
    have ho := hs op (by simp)
    generalize hkRun st ops = s at ih
    cases op <;> simp only [hkStep]
    case reload => split <;> exact ih
    case create n =>
      split
      · exact ih
      · unfold hkUser hkAdd
        unfold hkUser at ih
        simp only [List.find?_append, ih, Option.some_or]
    case gone n =>
      have hn := ho n rfl
      unfold hkUser at ih ⊢
      simp only [List.find?_filter]
      rw [← ih]
      congr 1
      funext v
      by_cases e : v.name = name
      · subst e; simp [Ne.symm hn]
      · simp [e]
    case connect => split <;> exact ih
    case enable => exact ih
    case login => split <;> exact ih
    case close => exact ih
    case message => split; exact ih; split <;> exact ih

example : hkUser (hkStart (b!"fs", b!"/a") [b!"ann"]) b!"ann" = some ⟨b!"ann", some (.fs b!"/a" b!"ann")⟩ ∧
    HkStays b!"ann" (.reload (some [b!"fs", b!"/b"])) ∧
    hkLoad (some [b!"fs", b!"/b"]) = some (b!"fs", b!"/b") :=
  ⟨by decide, fun n h => (by cases h), by decide⟩

/-- C123: the clients of a user read what is written for the user: in all histories, reloads included, the next message is given
to the store that the answers and the backlog of a client of the user come from. -/
theorem C123_readback (cfg : Str × Str) (names : List Str) (ops : List HkOp) (c : HkClient)
    (hc : c ∈ (hkRun (hkStart cfg names) ops).clients) (u : HkUser) (hu : c.user = some u) :
    hkUser (hkRun (hkStart cfg names) ops) u.name = some u ∧
    ∀ m s, ((u.name, s, m) ∈ (hkStep (hkRun (hkStart cfg names) ops) (.message u.name m)).kept.drop
        (hkRun (hkStart cfg names) ops).kept.length ↔ u.store = some s) ∧
      (hkReply u = .found s ∨ hkBacklog c u = some s → u.store = some s) := by
  have key : hkUser (hkRun (hkStart cfg names) ops) u.name = some u := by
    induction ops using snocInd generalizing c u with
    | nil => rw [show hkRun (hkStart cfg names) [] = hkStart cfg names from rfl, start_clients] at hc; cases hc
    | snoc ops op ih =>
      rw [run_snoc] at hc ⊢
      generalize hkRun (hkStart cfg names) ops = s at ih hc
      cases op with
      | reload ps => simp only [hkStep] at hc ⊢; split at hc <;> exact ih c hc u hu
      | create n =>
        have hc' : c ∈ s.clients := by simp only [hkStep] at hc; split at hc <;> exact hc
        exact C123_fixed s u.name u (ih c hc' u hu) [.create n] (by
          intro op ho n' h'; simp only [List.mem_singleton] at ho; subst ho; cases h')
      | gone n =>
        obtain ⟨hc1, hc2⟩ := List.mem_filter.1 hc
        refine C123_fixed s u.name u (ih c hc1 u hu) [.gone n] ?_
        intro op ho n' h'
        simp only [List.mem_singleton] at ho
        subst ho; cases h'
        intro e
        simp [hu, e] at hc2
      | connect id =>
        simp only [hkStep] at hc ⊢
        split at hc
        · exact ih c hc u hu
        · simp only [List.mem_append, List.mem_singleton] at hc
          rcases hc with hc | rfl
          · exact ih c hc u hu
          · cases hu
      | enable id =>
        simp only [hkStep, List.mem_map] at hc
        obtain ⟨c', hc', rfl⟩ := hc
        refine ih c' hc' u ?_
        split at hu <;> exact hu
      | login id n =>
        simp only [hkStep] at hc ⊢
        split at hc
        · exact ih c hc u hu
        · rename_i v hv
          simp only [List.mem_map] at hc
          obtain ⟨c', hc', rfl⟩ := hc
          split at hu
          · simp only [Option.some.injEq] at hu
            subst hu
            have e := (find_name hv).2
            rw [← e] at hv
            exact hv
          · exact ih c' hc' u hu
      | close id => exact ih c (List.mem_filter.1 hc).1 u hu
      | message n m =>
        simp only [hkStep] at hc ⊢
        split at hc
        · exact ih c hc u hu
        · split at hc <;> exact ih c hc u hu
  refine ⟨key, fun m s => ⟨?_, ?_⟩⟩
  · simp only [hkStep, key]
    cases e : u.store with
    | none => simp
    | some t => simp [eq_comm]
  · rintro (h | h)
    · unfold hkReply at h
      split at h
      · rename_i t e
        split at h
        · cases h; exact e
        · cases h
      · cases h
    · unfold hkBacklog at h
      split at h
      · cases h
      · exact h

example : (hkRun (hkStart (b!"memory", []) [b!"ann"]) [.connect 1, .login 1 b!"ann", .reload (some [b!"db"])]).clients =
    [⟨1, false, false, some ⟨b!"ann", some (.memory 0)⟩⟩] := by decide

/-- Users have their own files and their own objects in memory. -/
private structure Own (st : HkState) : Prop where
  files : ∀ u ∈ st.users, ∀ r n, u.store = some (.fs r n) → n = u.name
  old : ∀ u ∈ st.users, ∀ k, u.store = some (.memory k) → k < st.fresh
  mem : ∀ u ∈ st.users, ∀ v ∈ st.users, ∀ k, u.store = some (.memory k) → v.store = some (.memory k) → u = v

private theorem new_fs {cfg : Str × Str} {n : Str} {f : Nat} {r m : Str} (h : hkNewStore cfg n f = some (.fs r m)) : m = n := by
  unfold hkNewStore at h; split_ifs at h <;> cases h; rfl

private theorem new_mem {cfg : Str × Str} {n : Str} {f k : Nat} (h : hkNewStore cfg n f = some (.memory k)) : k = f := by
  unfold hkNewStore at h; split_ifs at h <;> cases h; rfl

private theorem own_add (st : HkState) (n : Str) (i : Own st) : Own (hkAdd st n) := by
  have hm : ∀ u ∈ (hkAdd st n).users, u ∈ st.users ∨ u = ⟨n, hkNewStore st.cfg n st.fresh⟩ := by
    intro u hu; simpa [hkAdd] using hu
  refine ⟨?_, ?_, ?_⟩
  · intro u hu r m e
    rcases hm u hu with h | rfl
    · exact i.files u h r m e
    · exact new_fs e
  · intro u hu k e
    show k < st.fresh + 1
    rcases hm u hu with h | rfl
    · have := i.old u h k e; omega
    · have := new_mem e; omega
  · intro u hu v hv k eu ev
    rcases hm u hu with h | rfl <;> rcases hm v hv with h' | rfl
    · exact i.mem u h v h' k eu ev
    · have := i.old u h k eu; have := new_mem ev; omega
    · have := i.old v h' k ev; have := new_mem eu; omega
    · rfl

private theorem own_run (cfg : Str × Str) (names : List Str) (ops : List HkOp) : Own (hkRun (hkStart cfg names) ops) := by
  induction ops using snocInd with
  | nil =>
    show Own (hkStart cfg names)
    unfold hkStart
    have : ∀ st, Own st → Own (names.foldl hkAdd st) := by
      induction names with
      | nil => exact fun st i => i
      | cons n ns ih => exact fun st i => ih _ (own_add st n i)
    refine this _ ⟨?_, ?_, ?_⟩ <;> (intro _ hx; cases hx)
  | snoc ops op ih =>
    rw [run_snoc]
    generalize hkRun (hkStart cfg names) ops = s at ih
    cases op <;> simp only [hkStep]
    case reload => split <;> exact ⟨ih.files, ih.old, ih.mem⟩
    case create n =>
      split
      · exact ih
      · exact own_add s n ih
    case gone n =>
      refine ⟨fun u hu => ih.files u (List.mem_filter.1 hu).1, fun u hu => ih.old u (List.mem_filter.1 hu).1,
        fun u hu v hv => ih.mem u (List.mem_filter.1 hu).1 v (List.mem_filter.1 hv).1⟩
    case connect => split <;> exact ⟨ih.files, ih.old, ih.mem⟩
    case enable => exact ⟨ih.files, ih.old, ih.mem⟩
    case login => split <;> exact ⟨ih.files, ih.old, ih.mem⟩
    case close => exact ⟨ih.files, ih.old, ih.mem⟩
    case message =>
      split
      · exact ih
      · split <;> exact ⟨ih.files, ih.old, ih.mem⟩

/-- C123: two users share nothing but the database, in all histories, reloads included. -/
theorem C123_separate (cfg : Str × Str) (names : List Str) (ops : List HkOp) (n m : Str) (u v : HkUser) (hne : n ≠ m)
    (hu : hkUser (hkRun (hkStart cfg names) ops) n = some u) (hv : hkUser (hkRun (hkStart cfg names) ops) m = some v)
    (s : HkStore) (hs : u.store = some s) (ht : v.store = some s) : s = .db := by
  have i := own_run cfg names ops
  obtain ⟨hu1, hu2⟩ := find_name hu
  obtain ⟨hv1, hv2⟩ := find_name hv
  cases s with
  | db => rfl
  | fs r x =>
    exact absurd (hu2.symm.trans ((i.files u hu1 r x hs).symm.trans ((i.files v hv1 r x ht).trans hv2))) hne
  | memory k =>
    have := i.mem u hu1 v hv1 k hs ht
    subst this
    exact absurd (hu2.symm.trans hv2) hne

example : (hkRun (hkStart (b!"memory", []) [b!"ann", b!"bob"]) [.gone b!"ann", .create b!"ann"]).users =
    [⟨b!"bob", some (.memory 1)⟩, ⟨b!"ann", some (.memory 2)⟩] := by decide

private theorem find_filter (l : List HkClient) (p q : HkClient → Bool) (c : HkClient) (h : l.find? p = some c) (hq : q c = true) :
    (l.filter q).find? p = some c := by
  induction l with
  | nil => cases h
  | cons a l ih =>
    rw [List.find?_cons] at h
    rw [List.filter_cons]
    cases ep : p a with
    | true => rw [ep] at h; cases h; rw [if_pos hq, List.find?_cons, ep]
    | false =>
      rw [ep] at h
      split
      · rw [List.find?_cons, ep]; exact ih h
      · exact ih h

private theorem find_map (l : List HkClient) (f : HkClient → HkClient) (hf : ∀ c, (f c).id = c.id) (id : Nat) (c : HkClient)
    (h : l.find? (fun c => decide (c.id = id)) = some c) :
    (l.map f).find? (fun c => decide (c.id = id)) = some (f c) := by
  rw [List.find?_map]
  have : ((fun c => decide (c.id = id)) ∘ f) = (fun c : HkClient => decide (c.id = id)) := by funext c; simp [hf]
  rw [this, h]; rfl

/-- C123: a client is only affected by what it does itself: it stays as long as it does not go and its user is not stopped, it is
logged in only by its own login, as the user it names, and once; and it enables the history requests only itself. -/
theorem C123_client (st : HkState) (op : HkOp) (id : Nat) (c : HkClient) (hc : hkClient st id = some c) (hid : op ≠ .close id)
    (hg : ∀ n, op = .gone n → c.user.map (·.name) ≠ some n) :
    ∃ c', hkClient (hkStep st op) id = some c' ∧ c'.offered = c.offered ∧ (∀ u, c.user = some u → c'.user = some u) ∧
      (c'.user ≠ c.user → ∃ n, op = .login id n ∧ c'.user = hkUser st n) ∧ (c'.enabled ≠ c.enabled → op = .enable id) := by
  have same : ∀ st' : HkState, st'.clients = st.clients →
      ∃ c', hkClient st' id = some c' ∧ c'.offered = c.offered ∧ (∀ u, c.user = some u → c'.user = some u) ∧
      (c'.user ≠ c.user → ∃ n, op = .login id n ∧ c'.user = hkUser st n) ∧ (c'.enabled ≠ c.enabled → op = .enable id) := by
    intro st' e
    exact ⟨c, by unfold hkClient; rw [e]; exact hc, rfl, fun u h => h, fun h => absurd rfl h, fun h => absurd rfl h⟩
  have hcid : c.id = id := by unfold hkClient at hc; simpa using List.find?_some hc
  unfold hkClient at hc
  cases op with
  | reload ps => refine same _ ?_; simp only [hkStep]; split <;> rfl
  | create n => refine same _ ?_; simp only [hkStep]; split <;> rfl
  | gone n =>
    exact ⟨c, find_filter _ _ _ c hc (by simpa using hg n rfl), rfl, fun u h => h, fun h => absurd rfl h, fun h => absurd rfl h⟩
  | connect i =>
    refine ⟨c, ?_, rfl, fun u h => h, fun h => absurd rfl h, fun h => absurd rfl h⟩
    simp only [hkStep]
    split
    · exact hc
    · unfold hkClient; simp only [List.find?_append, hc, Option.some_or]
  | enable i =>
    refine ⟨_, find_map _ _ (fun c => ?_) id c hc, ?_, ?_, ?_, ?_⟩
    · split <;> rfl
    · split <;> rfl
    · intro u h; split <;> exact h
    · intro h; refine absurd ?_ h; split <;> rfl
    · intro h
      split at h
      · rename_i e; rw [← e, hcid]
      · exact absurd rfl h
  | login i n =>
    cases hu : hkUser st n with
    | none => refine same _ ?_; simp only [hkStep, hu]
    | some u =>
      simp only [hkStep, hu]
      refine ⟨_, find_map _ _ (fun c => ?_) id c hc, ?_, ?_, ?_, ?_⟩
      · split <;> rfl
      · split <;> rfl
      · intro v h
        split
        · rename_i e; rw [e.2] at h; cases h
        · exact h
      · intro h
        split at h
        · rename_i e
          exact ⟨n, by rw [← e.1, hcid], by rw [if_pos e, hu]⟩
        · exact absurd rfl h
      · intro h
        split at h <;> exact absurd rfl h
  | close i =>
    refine ⟨c, find_filter _ _ _ c hc ?_, rfl, fun u h => h, fun h => absurd rfl h, fun h => absurd rfl h⟩
    have : id ≠ i := fun e => hid (by rw [e])
    simp [hcid, this]
  | message n m =>
    refine same _ ?_
    simp only [hkStep]
    split
    · rfl
    · split <;> rfl

example : hkClient (hkRun (hkStart (b!"db", []) [b!"ann", b!"bob"]) [.connect 1, .connect 2, .login 2 b!"bob"]) 1 =
    some ⟨1, true, false, none⟩ := by decide

/-- C123: a new client is served, and one that goes is gone. -/
theorem C123_come_and_go (st : HkState) (id : Nat) :
    (hkClient st id = none → hkClient (hkStep st (.connect id)) id = some ⟨id, hkOffers st.cfg, false, none⟩) ∧
    hkClient (hkStep st (.close id)) id = none := by
  refine ⟨fun h => ?_, ?_⟩
  · simp only [hkStep, h]
    unfold hkClient at h ⊢
    simp [h]
  · unfold hkClient
    simp only [hkStep, List.find?_eq_none, List.mem_filter]
    intro c hc
    simpa using hc.2

example : hkClient (hkStart (b!"db", []) [b!"ann"]) 1 = none := by decide

/-- C123 is violated: the manual says that the message store cannot be reloaded, but after a reload the messages of new users go
to another place than those of the others, and than the bouncer was started with. -/
theorem C123_reload_violated : ∃ (params : Option (List Str)) (cfg : Str × Str) (names : List Str) (ops : List HkOp)
    (e : Str × HkStore × Nat), hkLoad params = some cfg ∧ e ∈ (hkRun (hkStart cfg names) ops).kept ∧ ¬ HkPlace cfg e.1 e.2.1 :=
  ⟨some [b!"fs", b!"/a"], (b!"fs", b!"/a"), [b!"ann"],
    [.reload (some [b!"fs", b!"/b"]), .create b!"bob", .message b!"bob" 1], (b!"bob", .fs b!"/b" b!"bob", 1),
    by decide, by decide, fun h => absurd h.2.1 (by decide)⟩

/-- C123 is violated: after a reload a client can be offered the history of a user whose store does not answer requests for it.
The client that accepts the offer gets an error, is sent no backlog, and so misses the message that was kept for it. -/
theorem C123_offered_violated : ∃ (params : Option (List Str)) (cfg : Str × Str) (names : List Str) (ops : List HkOp)
    (c : HkClient) (u : HkUser) (s : HkStore) (m : Nat), hkLoad params = some cfg ∧
      c ∈ (hkRun (hkStart cfg names) ops).clients ∧ c.user = some u ∧ u.store = some s ∧
      (u.name, s, m) ∈ (hkRun (hkStart cfg names) ops).kept ∧
      c.offered = true ∧ hkReply u = .unknownCommand ∧ hkBacklog c u = none :=
  ⟨none, (b!"memory", []), [b!"ann"],
    [.message b!"ann" 1, .reload (some [b!"db"]), .connect 1, .enable 1, .login 1 b!"ann"],
    ⟨1, true, true, some ⟨b!"ann", some (.memory 0)⟩⟩, ⟨b!"ann", some (.memory 0)⟩, .memory 0, 1,
    by decide, by decide, rfl, rfl, by decide, rfl, by decide, by decide⟩

end Verif.Props
