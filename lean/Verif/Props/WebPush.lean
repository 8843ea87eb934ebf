import Verif.Model.WebPush
import Verif.Proof.GoMap
import Verif.Proof.Util

/-! # C57: push subscriptions; C66: push endpoints -/

namespace Verif.Props
open Verif.Model Verif.Proof

/-- What tells subscriptions apart for their user. -/
private def subKey (s : PushSub) : Nat × Nat × Str := (s.user, s.net, s.endpoint)

private theorem le_nextRowid (tbl : List PushSub) : ∀ s ∈ tbl, s.id < nextRowid tbl := by
  have aux : ∀ (l : List PushSub) (m : Nat), m ≤ l.foldl (fun m s => max m s.id) m ∧
      ∀ s ∈ l, s.id ≤ l.foldl (fun m s => max m s.id) m := by
    intro l
    induction l with
    | nil => intro m; simp
    | cons a l ih =>
      intro m
      simp only [List.foldl_cons]
      have := ih (max m a.id)
      refine ⟨by omega, ?_⟩
      intro s hs
      rcases List.mem_cons.1 hs with rfl | hs
      · have := this.1; omega
      · exact this.2 s hs
  intro s hs
  have := (aux tbl 0).2 s hs
  unfold nextRowid
  omega

/-- The invariant of the system. -/
private structure PushInv (w : PushWorld) : Prop where
  ids : (w.tbl.map (·.id)).Nodup
  pos : ∀ s ∈ w.tbl, s.id ≠ 0
  keys : (w.tbl.map subKey).Nodup
  bound : ∀ u n, (listSubs w.tbl u n).length ≤ 26
  pending : ∀ u n sub, GoMap.get w.pend u = some (.store n sub) → sub.id = 0 →
    (listSubs w.tbl u n).length ≤ 25 ∧ ∀ s ∈ listSubs w.tbl u n, s.endpoint ≠ sub.endpoint

private theorem inv_filter {w : PushWorld} {p : PushSub → Bool} {pend : GoMap Nat PushPend}
    {bc : List (List PushSub)} (h : PushInv w)
    (hp : ∀ u n sub, GoMap.get pend u = some (.store n sub) → GoMap.get w.pend u = some (.store n sub)) :
    PushInv ⟨w.tbl.filter p, pend, bc⟩ := by
  have hsub : ∀ u n, (listSubs (w.tbl.filter p) u n).Sublist (listSubs w.tbl u n) := by
    intro u n; exact List.filter_sublist.filter _
  refine ⟨h.ids.sublist (List.filter_sublist.map _), fun s hs => h.pos s (List.mem_filter.1 hs).1,
    h.keys.sublist (List.filter_sublist.map _), ?_, ?_⟩
  · intro u n; exact Nat.le_trans (hsub u n).length_le (h.bound u n)
  · intro u n sub hg hid
    have := h.pending u n sub (hp u n sub hg) hid
    exact ⟨Nat.le_trans (hsub u n).length_le this.1, fun s hs => this.2 s ((hsub u n).subset hs)⟩

private theorem listSubs_map (tbl : List PushSub) (f : PushSub → PushSub)
    (hf : ∀ s, subKey (f s) = subKey s) (u n : Nat) :
    listSubs (tbl.map f) u n = (listSubs tbl u n).map f := by
  unfold listSubs
  rw [List.filter_map]
  congr 1
  refine List.filter_congr ?_
  intro s _
  have := hf s
  simp only [subKey, Prod.mk.injEq] at this
  simp [Function.comp, this.1, this.2.1]

private theorem inv_map {w : PushWorld} {f : PushSub → PushSub} {pend : GoMap Nat PushPend}
    (h : PushInv w) (hf : ∀ s, subKey (f s) = subKey s) (hi : ∀ s, (f s).id = s.id)
    (hp : ∀ u n sub, GoMap.get pend u = some (.store n sub) → GoMap.get w.pend u = some (.store n sub)) :
    PushInv ⟨w.tbl.map f, pend, w.bcasts⟩ := by
  have hk : (w.tbl.map f).map subKey = w.tbl.map subKey := by
    rw [List.map_map]; exact List.map_congr_left (fun s _ => hf s)
  have hid : (w.tbl.map f).map (·.id) = w.tbl.map (·.id) := by
    rw [List.map_map]; exact List.map_congr_left (fun s _ => hi s)
  refine ⟨by rw [hid]; exact h.ids, ?_, by rw [hk]; exact h.keys, ?_, ?_⟩
  · intro s hs
    obtain ⟨t, ht, rfl⟩ := List.mem_map.1 hs
    rw [hi]; exact h.pos t ht
  · intro u n; rw [listSubs_map _ _ hf]; simpa using h.bound u n
  · intro u n sub hg hs
    rw [listSubs_map _ _ hf]
    have := h.pending u n sub (hp u n sub hg) hs
    refine ⟨by simpa using this.1, ?_⟩
    intro s hsm
    obtain ⟨t, ht, rfl⟩ := List.mem_map.1 hsm
    have he := hf t
    simp only [subKey, Prod.mk.injEq] at he
    rw [he.2.2]; exact this.2 t ht

private theorem pend_del {p : GoMap Nat PushPend} {u u' : Nat} {n : Nat} {sub : PushSub}
    (h : GoMap.get (GoMap.del p u) u' = some (.store n sub)) :
    u ≠ u' ∧ GoMap.get p u' = some (.store n sub) := by
  rw [mget_mdel] at h
  split at h
  · cases h
  · exact ⟨by assumption, h⟩

private theorem find_none {subs : List PushSub} {e : Str} (h : findSub subs e = none) :
    ∀ s ∈ subs, s.endpoint ≠ e := by
  intro s hs
  simpa using List.find?_eq_none.1 h s hs

private theorem mem_listSubs {tbl : List PushSub} {u n : Nat} {s : PushSub} :
    s ∈ listSubs tbl u n ↔ s ∈ tbl ∧ s.user = u ∧ s.net = n := by
  simp [listSubs]

private theorem inv_insert {w : PushWorld} (h : PushInv w) {u n : Nat} {sub : PushSub} {now : Int}
    (hc : (listSubs w.tbl u n).length ≤ 25)
    (hne : ∀ s ∈ listSubs w.tbl u n, s.endpoint ≠ sub.endpoint) {pend : GoMap Nat PushPend}
    (hp : ∀ u' n' sub', GoMap.get pend u' = some (.store n' sub') →
      u ≠ u' ∧ GoMap.get w.pend u' = some (.store n' sub')) :
    PushInv ⟨w.tbl ++ [{ sub with id := nextRowid w.tbl, user := u, net := n, updated := now }], pend,
      w.bcasts⟩ := by
  generalize hs0 : ({ sub with id := nextRowid w.tbl, user := u, net := n, updated := now } : PushSub)
    = s0
  have h1 : s0.id = nextRowid w.tbl := by rw [← hs0]
  have h2 : s0.user = u := by rw [← hs0]
  have h3 : s0.net = n := by rw [← hs0]
  have h4 : s0.endpoint = sub.endpoint := by rw [← hs0]
  have hl : ∀ u' n', listSubs (w.tbl ++ [s0]) u' n' =
      listSubs w.tbl u' n' ++ (if u = u' ∧ n = n' then [s0] else []) := by
    intro u' n'
    simp only [listSubs, List.filter_append]
    congr 1
    simp only [List.filter_cons, List.filter_nil, h2, h3, decide_eq_true_eq]
  refine ⟨?_, ?_, ?_, ?_, ?_⟩
  · simp only [List.map_append, List.map_cons, List.map_nil]
    refine List.nodup_append.2 ⟨h.ids, by simp, ?_⟩
    intro a ha b hb hab
    obtain ⟨s, hs, rfl⟩ := List.mem_map.1 ha
    simp only [List.mem_singleton] at hb
    have := le_nextRowid w.tbl s hs
    omega
  · intro s hs
    rcases List.mem_append.1 hs with hs | hs
    · exact h.pos s hs
    · simp only [List.mem_singleton] at hs
      subst hs; rw [h1]; unfold nextRowid; omega
  · simp only [List.map_append, List.map_cons, List.map_nil]
    refine List.nodup_append.2 ⟨h.keys, by simp, ?_⟩
    intro a ha b hb hab
    obtain ⟨s, hs, rfl⟩ := List.mem_map.1 ha
    simp only [List.mem_singleton] at hb
    rw [hb] at hab
    simp only [subKey, Prod.mk.injEq, h2, h3, h4] at hab
    exact hne s (mem_listSubs.2 ⟨hs, hab.1, hab.2.1⟩) hab.2.2
  · intro u' n'
    rw [hl]
    split
    · rename_i hh
      obtain ⟨rfl, rfl⟩ := hh
      simp only [List.length_append, List.length_singleton]; omega
    · simpa using h.bound u' n'
  · intro u' n' sub' hg hid
    obtain ⟨huu, hg⟩ := hp u' n' sub' hg
    rw [hl, if_neg (fun hh => huu hh.1)]
    simpa using h.pending u' n' sub' hg hid

private theorem inv_step {w : PushWorld} (h : PushInv w) (op : PushOp) : PushInv (pushStep w op) := by
  cases op with
  | register u n e a p v now =>
    simp only [pushStep]
    split
    · exact h
    · rename_i hnone
      split
      · rename_i sub hd
        refine ⟨h.ids, h.pos, h.keys, h.bound, ?_⟩
        intro u' n' sub' hg hid
        simp only [mget_mset] at hg
        split at hg
        · rename_i huu
          cases hg
          subst huu
          unfold registerDecide at hd
          dsimp only at hd
          split at hd
          · cases hd
          · rename_i hlen
            split at hd
            · rename_i hf
              cases hd
              exact ⟨Nat.le_of_not_lt hlen, find_none hf⟩
            · rename_i old hf
              split at hd
              · cases hd
                have hm := List.mem_of_find?_eq_some hf
                exact absurd hid (h.pos old (mem_listSubs.1 hm).1)
              · cases hd
        · exact h.pending u' n' sub' hg hid
      · exact h
  | unregister u n e =>
    simp only [pushStep]
    split
    · exact h
    · split
      · exact h
      · refine ⟨h.ids, h.pos, h.keys, h.bound, ?_⟩
        intro u' n' sub' hg hid
        simp only [mget_mset] at hg
        split at hg
        · cases hg
        · exact h.pending u' n' sub' hg hid
  | resume u good now =>
    simp only [pushStep]
    split
    · exact h
    · rename_i n sub hg
      have hsame : PushInv ⟨w.tbl, GoMap.del w.pend u, w.bcasts⟩ :=
        ⟨h.ids, h.pos, h.keys, h.bound,
          fun u' n' sub' hg' hid => h.pending u' n' sub' (pend_del hg').2 hid⟩
      cases good with
      | false => exact hsame
      | true =>
        simp only [if_true]
        cases hst : storeSub w.tbl u n sub now with
        | none => exact hsame
        | some t =>
          unfold storeSub at hst
          simp only [Option.getD_some]
          split at hst
          · simp only [Option.some.injEq] at hst
            rw [← hst]
            refine inv_map h ?_ ?_ (fun u' n' sub' hg' => (pend_del hg').2)
            · intro s; split <;> rfl
            · intro s; split <;> rfl
          · rename_i hid
            split at hst
            · cases hst
            · simp only [Option.some.injEq] at hst
              rw [← hst]
              have := h.pending u n sub hg (Classical.not_not.1 hid)
              exact inv_insert h this.1 this.2 (fun u' n' sub' hg' => pend_del hg')
    · exact inv_filter h (fun u' n' sub' hg' => (pend_del hg').2)
  | bcast u n => exact ⟨h.ids, h.pos, h.keys, h.bound, h.pending⟩
  | deliver i r now =>
    simp only [pushStep]
    split
    · have hsame : ∀ bc, PushInv ⟨w.tbl, w.pend, bc⟩ := fun bc =>
        ⟨h.ids, h.pos, h.keys, h.bound, h.pending⟩
      cases r with
      | ok => exact hsame _
      | expired => exact inv_filter h (fun _ _ _ hg => hg)
      | failed =>
        simp only [bcastOne]
        split
        · exact inv_filter h (fun _ _ _ hg => hg)
        · exact hsame _
    · exact h
  | delNet n =>
    simp only [pushStep]
    split
    · exact h
    · exact inv_filter h (fun _ _ _ hg => hg)
  | delUser u => exact inv_filter h (fun u' n' sub' hg' => (pend_del hg').2)

private theorem inv_run {w : PushWorld} (h : PushInv w) (ops : List PushOp) :
    PushInv (pushRun w ops) := by
  unfold pushRun
  induction ops generalizing w with
  | nil => exact h
  | cons op ops ih => exact ih (inv_step h op)

private theorem inv_empty : PushInv {} := by
  refine ⟨by simp, by simp, by simp, by simp [listSubs], ?_⟩
  intro u n sub hg; simp [GoMap.get] at hg

/-- C57: whatever commands, deliveries and deletions interleave, a user never has more than 26 push
subscriptions for a network. -/
theorem C57_bounded (ops : List PushOp) (u n : Nat) :
    ((pushRun {} ops).tbl.filter (fun s => s.user = u ∧ s.net = n)).length ≤ 26 :=
  (inv_run inv_empty ops).bound u n

/-- C57: nor two subscriptions for the same endpoint of a network. -/
theorem C57_unique (ops : List PushOp) (s t : PushSub) (hs : s ∈ (pushRun {} ops).tbl)
    (ht : t ∈ (pushRun {} ops).tbl) (hu : s.user = t.user) (hn : s.net = t.net)
    (he : s.endpoint = t.endpoint) : s = t :=
  eq_of_nodup_map (inv_run inv_empty ops).keys hs ht (by simp [subKey, hu, hn, he])

example : (pushRun {} [.register 1 2 b!"https://a" b!"x" b!"y" b!"v" 0, .resume 1 true 1,
    .register 1 2 b!"https://a" b!"x2" b!"y" b!"v" 5, .bcast 1 2, .resume 1 true 6,
    .deliver 0 .ok 7]).tbl = [⟨1, 1, 2, b!"https://a", b!"x2", b!"y", b!"v", 6⟩] := by decide

/-- The states the system reaches. -/
def PushReach (tbl : List PushSub) : Prop := ∃ ops, (pushRun {} ops).tbl = tbl

/-- C57: a registration that is acknowledged, with nothing happening beside it, leaves exactly one
subscription for the endpoint, with the keys given, and the others as they were. -/
theorem C57_registered (tbl : List PushSub) (hr : PushReach tbl) (u n : Nat)
    (endpoint auth p256 vapid : Str) (now : Int) (good : Bool) (tbl' : List PushSub)
    (h : registerAlone tbl u n endpoint auth p256 vapid now good = (tbl', true)) :
    (∃ s ∈ tbl', s.user = u ∧ s.net = n ∧ s.endpoint = endpoint ∧ s.auth = auth ∧ s.p256 = p256 ∧
      s.vapid = vapid) ∧
    ∀ s, ¬ (s.user = u ∧ s.net = n ∧ s.endpoint = endpoint) → (s ∈ tbl' ↔ s ∈ tbl) := by
  obtain ⟨ops, rfl⟩ := hr
  have hinv := inv_run inv_empty ops
  generalize pushRun {} ops = w at hinv h ⊢
  unfold registerAlone registerDecide at h
  dsimp only at h
  by_cases hlen : (listSubs w.tbl u n).length > 25
  · rw [if_pos hlen] at h; simp at h
  · rw [if_neg hlen] at h
    cases hf : findSub (listSubs w.tbl u n) endpoint with
    | none =>
      rw [hf] at h
      dsimp only at h
      cases good with
      | false => simp at h
      | true =>
        simp only [if_true, storeSub, ne_eq, not_true_eq_false, if_false] at h
        split at h
        · simp at h
        · rename_i t hst
          split at hst
          · cases hst
          · simp only [Option.some.injEq] at hst
            simp only [Prod.mk.injEq, and_true] at h
            subst h
            subst hst
            refine ⟨⟨_, List.mem_append_right _ List.mem_cons_self, rfl, rfl, rfl, rfl, rfl, rfl⟩, ?_⟩
            intro s hs
            simp only [List.mem_append, List.mem_singleton]
            refine ⟨fun hh => hh.resolve_right ?_, .inl⟩
            rintro rfl
            exact hs ⟨rfl, rfl, rfl⟩
    | some old =>
      rw [hf] at h
      dsimp only at h
      have hmem := mem_listSubs.1 (List.mem_of_find?_eq_some hf)
      have hep : old.endpoint = endpoint := by simpa using List.find?_some hf
      by_cases hc : now - old.updated > pushCheckDelay ∨
          (old.auth, old.p256, old.vapid) ≠ (auth, p256, vapid)
      · rw [if_pos hc] at h
        dsimp only at h
        cases good with
        | false => simp at h
        | true =>
          simp only [if_true, storeSub, ne_eq, hinv.pos old hmem.1, not_false_eq_true] at h
          simp only [Prod.mk.injEq, and_true] at h
          subst h
          have hidu : ∀ s ∈ w.tbl, s.id = old.id → s = old := fun s hs he =>
            eq_of_nodup_map hinv.ids hs hmem.1 he
          refine ⟨⟨{ old with updated := now, auth := auth, p256 := p256, vapid := vapid },
            List.mem_map.2 ⟨old, hmem.1, by rw [if_pos rfl]⟩, hmem.2.1, hmem.2.2, hep, rfl, rfl,
            rfl⟩, ?_⟩
          intro s hs
          constructor
          · intro hm
            obtain ⟨t, ht, hts⟩ := List.mem_map.1 hm
            split at hts
            · rename_i hid
              have := hidu t ht hid
              subst this
              subst hts
              exact absurd ⟨hmem.2.1, hmem.2.2, hep⟩ hs
            · subst hts; exact ht
          · intro hm
            refine List.mem_map.2 ⟨s, hm, ?_⟩
            rw [if_neg]
            intro hid
            have := hidu s hm hid
            subst this
            exact hs ⟨hmem.2.1, hmem.2.2, hep⟩
      · rw [if_neg hc] at h
        simp only [Prod.mk.injEq, and_true] at h
        subst h
        have hc2 : (old.auth, old.p256, old.vapid) = (auth, p256, vapid) :=
          Classical.not_not.1 (fun hh => hc (.inr hh))
        simp only [Prod.mk.injEq] at hc2
        exact ⟨⟨old, hmem.1, hmem.2.1, hmem.2.2, hep, hc2.1, hc2.2.1, hc2.2.2⟩, fun _ _ => Iff.rfl⟩

example : registerAlone [] 1 2 b!"https://a" b!"x" b!"y" b!"v" 5 true =
    ([⟨1, 1, 2, b!"https://a", b!"x", b!"y", b!"v", 5⟩], true) := by decide

/-- C57: after UNREGISTER, with nothing happening beside it, the endpoint is gone and the rest is as it
was. -/
theorem C57_unregistered (tbl : List PushSub) (hr : PushReach tbl) (u n : Nat) (endpoint : Str)
    (s : PushSub) : s ∈ unregisterAlone tbl u n endpoint ↔
      s ∈ tbl ∧ ¬ (s.user = u ∧ s.net = n ∧ s.endpoint = endpoint) := by
  obtain ⟨ops, rfl⟩ := hr
  have hinv := inv_run inv_empty ops
  generalize pushRun {} ops = w at hinv ⊢
  unfold unregisterAlone
  split
  · rename_i hf
    refine ⟨fun h => ⟨h, fun hh => ?_⟩, fun h => h.1⟩
    exact find_none hf s (mem_listSubs.2 ⟨h, hh.1, hh.2.1⟩) hh.2.2
  · rename_i old hf
    have hmem := mem_listSubs.1 (List.mem_of_find?_eq_some hf)
    have hep : old.endpoint = endpoint := by simpa using List.find?_some hf
    simp only [deleteSub, List.mem_filter, ne_eq, decide_not, Bool.not_eq_true', decide_eq_false_iff_not]
    refine and_congr_right (fun hs => not_congr ⟨?_, ?_⟩)
    · intro hid
      have := eq_of_nodup_map hinv.ids hs hmem.1 hid
      subst this
      exact ⟨hmem.2.1, hmem.2.2, hep⟩
    · rintro ⟨h1, h2, h3⟩
      have : s = old := eq_of_nodup_map hinv.keys hs hmem.1
        (by simp [subKey, h1, h2, h3, hmem.2.1, hmem.2.2, hep])
      rw [this]

example : unregisterAlone [⟨1, 1, 2, b!"a", [], [], [], 5⟩, ⟨2, 1, 2, b!"b", [], [], [], 5⟩] 1 2 b!"a" =
    [⟨2, 1, 2, b!"b", [], [], [], 5⟩] := by decide

/-- C57: a broadcast, with nothing happening beside it, removes exactly the subscriptions it was sent to
that have expired, or that fail and were not refreshed for 30 days. -/
theorem C57_expired (tbl : List PushSub) (hr : PushReach tbl) (u n : Nat) (res : PushSub → SendResult)
    (now : Int) (s : PushSub) :
    s ∈ broadcastAlone tbl u n res now ↔
      s ∈ tbl ∧ ¬ (s.user = u ∧ s.net = n ∧
        (res s = .expired ∨ (res s = .failed ∧ now - s.updated > 30 * 24 * 3600))) := by
  obtain ⟨ops, rfl⟩ := hr
  have hinv := inv_run inv_empty ops
  generalize pushRun {} ops = w at hinv ⊢
  have hbad : ∀ (t : List PushSub) (a : PushSub) (x : PushSub), x ∈ bcastOne t a (res a) now ↔
      x ∈ t ∧ ¬ (x.id = a.id ∧
        (res a = .expired ∨ (res a = .failed ∧ now - a.updated > 30 * 24 * 3600))) := by
    intro t a x
    unfold bcastOne
    cases hra : res a with
    | ok => simp
    | expired => simp [deleteSub]
    | failed =>
      dsimp only
      split
      · rename_i hh
        simp only [pushPruneDelay] at hh
        simp only [deleteSub, List.mem_filter]
        simp [hh, -gt_iff_lt, -Int.reduceMul]
      · rename_i hh
        simp only [pushPruneDelay] at hh
        simp [hh, -gt_iff_lt, -Int.reduceMul]
  have hfold : ∀ (l : List PushSub) (t : List PushSub) (x : PushSub),
      x ∈ l.foldl (fun t s => bcastOne t s (res s) now) t ↔
        x ∈ t ∧ ∀ a ∈ l, ¬ (x.id = a.id ∧
          (res a = .expired ∨ (res a = .failed ∧ now - a.updated > 30 * 24 * 3600))) := by
    intro l
    induction l with
    | nil => intro t x; simp
    | cons a l ih =>
      intro t x
      simp only [List.foldl_cons]
      rw [ih, hbad]
      simp only [List.mem_cons, forall_eq_or_imp]
      exact and_assoc
  unfold broadcastAlone
  rw [hfold]
  refine and_congr_right (fun hs => ?_)
  constructor
  · rintro h ⟨h1, h2, h3⟩
    exact h s (mem_listSubs.2 ⟨hs, h1, h2⟩) ⟨rfl, h3⟩
  · rintro h a ha ⟨hid, hbad⟩
    have hm := mem_listSubs.1 ha
    have := eq_of_nodup_map hinv.ids hs hm.1 hid
    subst this
    exact h ⟨hm.2.1, hm.2.2, hbad⟩

example : PushReach [⟨1, 1, 2, b!"a", b!"x", b!"y", b!"v", 1⟩] :=
  ⟨[.register 1 2 b!"a" b!"x" b!"y" b!"v" 0, .resume 1 true 1], by decide⟩

/-- C57 does not hold beside a running broadcast: row identifiers are reused, so a broadcast that finds
an old endpoint expired removes the subscription registered since, which is in good health. -/
theorem C57_reused_violated :
    ∃ ops, (pushRun {} ops).tbl = [] ∧
      ops = [.register 1 2 b!"https://old" b!"x" b!"y" b!"v" 0, .resume 1 true 0, .bcast 1 2,
        .unregister 1 2 b!"https://old", .resume 1 true 1,
        .register 1 2 b!"https://new" b!"x" b!"y" b!"v" 2, .resume 1 true 2,
        .deliver 0 .expired 3] := by
  exact ⟨_, by decide, rfl⟩

/-- C57 does not hold beside a running broadcast: a subscription refreshed while a broadcast finds it
expired is acknowledged and not there. -/
theorem C57_refresh_violated :
    ∃ ops, (pushRun {} ops).tbl = [] ∧
      ops = [.register 1 2 b!"https://a" b!"x" b!"y" b!"v" 0, .resume 1 true 0, .bcast 1 2,
        .register 1 2 b!"https://a" b!"x2" b!"y2" b!"v" 5, .deliver 0 .expired 6,
        .resume 1 true 7] := by
  exact ⟨_, by decide, rfl⟩

/-! ## C66 -/

/-- The address is the IPv4 address `a.b.c.d`, possibly written `::ffff:a.b.c.d`. -/
def IsV4 (ip : List Byte) (a b c d : Byte) : Prop :=
  ip = [a, b, c, d] ∨ ip = [0, 0, 0, 0, 0, 0, 0, 0, 0, 0, 255, 255, a, b, c, d]

/-- A loopback, private or multicast address: 127.0.0.0/8, 10.0.0.0/8, 172.16.0.0/12, 192.168.0.0/16, 224.0.0.0/4,
::1, fc00::/7, ff00::/8. -/
def LocalIp (ip : List Byte) : Prop :=
  (∃ a b c d, IsV4 ip a b c d ∧
    (a = 127 ∨ a = 10 ∨ (a = 172 ∧ 16 ≤ b ∧ b ≤ 31) ∨ (a = 192 ∧ b = 168) ∨ (224 ≤ a ∧ a ≤ 239))) ∨
  ip = [0, 0, 0, 0, 0, 0, 0, 0, 0, 0, 0, 0, 0, 0, 0, 1] ∨
  (ip.length = 16 ∧ (ip.head? = some 252 ∨ ip.head? = some 253 ∨ ip.head? = some 255))

/-- An address of the machine itself or of its own network: loopback, private or multicast, unspecified (0.0.0.0, ::)
or link-local (169.254.0.0/16, fe80::/10). -/
def InternalIp (ip : List Byte) : Prop :=
  LocalIp ip ∨ (∀ b ∈ ip, b = 0) ∨ (∃ c d, IsV4 ip 169 254 c d) ∨
  (ip.length = 16 ∧ ∃ b, ip.take 2 = [254, b] ∧ 128 ≤ b ∧ b < 192)

private theorem local_iff {ip : List Byte} (hl : ip.length = 4 ∨ ip.length = 16) :
    (ipIsLoopback ip || ipIsMulticast ip || ipIsPrivate ip) = true ↔ LocalIp ip := by
  rcases hl with hl | hl
  · match ip, hl with
    | [a, b, c, d], _ =>
      have h4 : ipTo4 [a, b, c, d] = some [a, b, c, d] := rfl
      simp only [ipIsLoopback, ipIsMulticast, ipIsPrivate, h4]
      simp only [List.head?_cons, Option.some.injEq, Option.any_some, Bool.or_eq_true, decide_eq_true_eq]
      constructor
      · intro h
        refine .inl ⟨a, b, c, d, .inl rfl, ?_⟩
        omega
      · rintro (⟨a', b', c', d', h | h, hc⟩ | h | ⟨h, _⟩)
        · simp only [List.cons.injEq, and_true] at h
          obtain ⟨rfl, rfl, rfl, rfl⟩ := h
          omega
        · simp at h
        · simp at h
        · simp at h
  · by_cases hp : ip.take 12 = [0, 0, 0, 0, 0, 0, 0, 0, 0, 0, 255, 255]
    · have h4 : ipTo4 ip = some (ip.drop 12) := by
        unfold ipTo4; rw [if_neg (by omega), if_pos ⟨hl, hp⟩]
      obtain ⟨a, b, c, d, hd⟩ : ∃ a b c d, ip.drop 12 = [a, b, c, d] := by
        have : (ip.drop 12).length = 4 := by simp [hl]
        match ip.drop 12, this with
        | [a, b, c, d], _ => exact ⟨a, b, c, d, rfl⟩
      have hip : ip = [0, 0, 0, 0, 0, 0, 0, 0, 0, 0, 255, 255, a, b, c, d] := by
        rw [← List.take_append_drop 12 ip, hp, hd]; rfl
      simp only [ipIsLoopback, ipIsMulticast, ipIsPrivate, h4, hd]
      simp only [List.head?_cons, Option.some.injEq, Option.any_some, Bool.or_eq_true, decide_eq_true_eq]
      constructor
      · intro h
        refine .inl ⟨a, b, c, d, .inr hip, ?_⟩
        omega
      · rintro (⟨a', b', c', d', h | h, hc⟩ | h | ⟨_, h⟩)
        · rw [h] at hl; simp at hl
        · rw [hip] at h
          simp only [List.cons.injEq, and_true, true_and] at h
          obtain ⟨rfl, rfl, rfl, rfl⟩ := h
          omega
        · rw [hip] at h; simp at h
        · rw [hip] at h; simp at h
    · have h4 : ipTo4 ip = none := by
        unfold ipTo4; rw [if_neg (by omega), if_neg (fun h => hp h.2)]
      simp only [ipIsLoopback, ipIsMulticast, ipIsPrivate, h4]
      simp only [Bool.or_eq_true, decide_eq_true_eq, hl, true_and]
      constructor
      · rintro ((h | h) | h | h)
        · exact .inr (.inl h)
        · exact .inr (.inr ⟨hl, .inr (.inr h)⟩)
        · exact .inr (.inr ⟨hl, .inl h⟩)
        · exact .inr (.inr ⟨hl, .inr (.inl h)⟩)
      · rintro (⟨a', b', c', d', h | h, hc⟩ | h | ⟨_, h⟩)
        · rw [h] at hl; simp at hl
        · exact absurd (by rw [h]; rfl) hp
        · exact .inl (.inl h)
        · rcases h with h | h | h
          · exact .inr (.inl h)
          · exact .inr (.inr h)
          · exact .inl (.inr h)

/-- C66: an endpoint is accepted exactly if it is an HTTPS URL whose host has addresses none of which is a
loopback, private or multicast address.  Partial: unspecified and link-local addresses are accepted
(`C66_internal_violated`). -/
theorem C66_accepted_partial (lib : UrlLib) (lookup : Str → Option (List (List Byte))) (endpoint : Str)
    (hlen : ∀ host ips, lookup host = some ips → ∀ ip ∈ ips, ip.length = 4 ∨ ip.length = 16) :
    sanityCheckPush lib lookup endpoint = true ↔
      ∃ u ips, urlParse lib endpoint = some u ∧ u.scheme = b!"https" ∧ lookup u.host = some ips ∧ ∀ ip ∈ ips, ¬ LocalIp ip := by
  unfold sanityCheckPush
  cases hu : urlParse lib endpoint with
  | none => simp
  | some u =>
    dsimp only
    by_cases hs : u.scheme = b!"https"
    · rw [if_neg (by simp [hs])]
      cases hl : lookup u.host with
      | none =>
        simp only [Bool.false_eq_true, false_iff]
        rintro ⟨u', ips, h1, _, h3, _⟩
        cases h1; rw [hl] at h3; cases h3
      | some ips =>
        simp only [Bool.not_eq_true', List.any_eq_false]
        constructor
        · intro h
          exact ⟨u, ips, rfl, hs, hl, fun ip hip hloc => h ip hip ((local_iff (hlen _ _ hl ip hip)).2 hloc)⟩
        · rintro ⟨u', ips', h1, _, h3, h4⟩ ip hip hloc
          cases h1; rw [hl] at h3; cases h3
          exact h4 ip hip ((local_iff (hlen _ _ hl ip hip)).1 hloc)
    · rw [if_pos hs]
      simp only [Bool.false_eq_true, false_iff]
      rintro ⟨u', ips, h1, h2, _⟩
      cases h1; exact hs h2

/-- C66: every loopback address (127.0.0.0/8, ::1) is refused, whatever else the host resolves to. -/
theorem C66_loopback (lib : UrlLib) (lookup : Str → Option (List (List Byte))) (endpoint : Str)
    (u : Url) (hu : urlParse lib endpoint = some u) (ips : List (List Byte))
    (hl : lookup u.host = some ips) (ip : List Byte) (hip : ip ∈ ips)
    (h : (ip.length = 4 ∧ ip.head? = some 127) ∨
      ip = [0, 0, 0, 0, 0, 0, 0, 0, 0, 0, 0, 0, 0, 0, 0, 1]) :
    sanityCheckPush lib lookup endpoint = false := by
  have hloop : ipIsLoopback ip = true := by
    rcases h with ⟨h1, h2⟩ | rfl
    · simp [ipIsLoopback, ipTo4, h1, h2]
    · decide
  unfold sanityCheckPush
  rw [hu]
  dsimp only
  split
  · rfl
  · rw [hl]
    dsimp only
    simp only [Bool.not_eq_false', List.any_eq_true]
    exact ⟨ip, hip, by simp [hloop]⟩

private def exLib : UrlLib := ⟨fun h => some h, fun _ => true⟩

example : sanityCheckPush exLib (fun _ => some [[93, 184, 216, 34]]) b!"https://push.example/x" = true ∧
    sanityCheckPush exLib (fun _ => some [[93, 184, 216, 34], [127, 0, 0, 1]]) b!"https://push.example/x"
      = false := by decide +kernel

/-- C66 does not hold of the unspecified address and of link-local addresses: a client can have the
bouncer connect to the machine itself (0.0.0.0) or to the metadata service of its cloud. -/
theorem C66_internal_violated :
    ∃ (lib : UrlLib) (endpoint : Str) (ip1 ip2 : List Byte), InternalIp ip1 ∧ InternalIp ip2 ∧
      ip1 = [0, 0, 0, 0] ∧ ip2 = [169, 254, 169, 254] ∧
      sanityCheckPush lib (fun _ => some [ip1]) endpoint = true ∧
      sanityCheckPush lib (fun _ => some [ip2]) endpoint = true := by
  refine ⟨exLib, b!"https://h/x", _, _, ?_, ?_, rfl, rfl, by decide +kernel, by decide +kernel⟩
  · exact .inr (.inl (by decide))
  · exact .inr (.inr (.inl ⟨169, 254, .inl rfl⟩))

end Verif.Props
