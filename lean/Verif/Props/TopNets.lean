import Verif.Model.TopNets
import Verif.Proof.Util
import Verif.Props.NetAttrs
import Verif.Props.WebSocket
import Mathlib.Algebra.BigOperators.Group.List.Lemmas
import Mathlib.Data.List.Perm.Basic

/-! # C122: the numbers of networks that are published -/

namespace Verif.Props
open Verif.Model Verif.Proof

/-- The number of networks on a host. -/
def TnCount (lib : UrlLib) (networks : List NetworkRow) (host : Str) : Nat :=
  networks.countP (fun r => decide (tnHostname lib r.addr = host))

/-- A host that may be named: it has ten networks at least. -/
def TnNamed (lib : UrlLib) (networks : List NetworkRow) (host : Str) : Prop :=
  10 ≤ TnCount lib networks host ∧ host ≠ [] ∧ host ≠ b!"*"

instance (lib : UrlLib) (networks : List NetworkRow) (host : Str) : Decidable (TnNamed lib networks host) := by
  unfold TnNamed; infer_instance

/-- The number of networks on hosts that may not be named. -/
def TnHidden (lib : UrlLib) (networks : List NetworkRow) : Nat :=
  networks.countP (fun r => !decide (TnNamed lib networks (tnHostname lib r.addr)))

private def total (m : List (Str × Nat)) (h : Str) : Nat := ((m.filter (fun e => decide (e.1 = h))).map (·.2)).sum

private theorem total_add (m : List (Str × Nat)) (h : Str) (n : Nat) (h' : Str) :
    total (tnAdd m h n) h' = total m h' + if h = h' then n else 0 := by
  induction m with
  | nil =>
    unfold tnAdd total
    by_cases e : h = h' <;> simp [e]
  | cons e m ih =>
    obtain ⟨k, v⟩ := e
    unfold tnAdd
    by_cases ek : k = h
    · subst ek
      rw [if_pos rfl]
      unfold total
      by_cases e : k = h'
      · simp [e]; omega
      · simp [e]
    · rw [if_neg ek]
      unfold total at ih ⊢
      by_cases e : k = h'
      · simp only [List.filter_cons, e, decide_true, if_true, List.map_cons, List.sum_cons]
        rw [ih]
        omega
      · simp only [List.filter_cons, e, decide_false, Bool.false_eq_true, if_false]
        exact ih

private theorem keys_add (m : List (Str × Nat)) (h : Str) (n : Nat) :
    (∀ x, x ∈ (tnAdd m h n).map (·.1) ↔ x ∈ m.map (·.1) ∨ x = h) ∧
    ((m.map (·.1)).Nodup → ((tnAdd m h n).map (·.1)).Nodup) := by
  induction m with
  | nil => simp [tnAdd]
  | cons e m ih =>
    obtain ⟨k, v⟩ := e
    unfold tnAdd
    by_cases ek : k = h
    · subst ek
      rw [if_pos rfl]
      refine ⟨fun x => ?_, fun hn => hn⟩
      simp only [List.map_cons, List.mem_cons]
      constructor
      · exact fun h => .inl h
      · rintro (h | rfl)
        · exact h
        · exact .inl rfl
    · rw [if_neg ek]
      refine ⟨fun x => ?_, fun hn => ?_⟩
      · simp only [List.map_cons, List.mem_cons, ih.1]
        exact or_assoc.symm
      · simp only [List.map_cons, List.nodup_cons] at hn ⊢
        refine ⟨?_, ih.2 hn.2⟩
        rw [ih.1]
        rintro (h | h)
        · exact hn.1 h
        · exact ek h

private theorem group_snoc (lib : UrlLib) (l : List (Str × Nat)) (a : Str × Nat) :
    tnGroup lib (l ++ [a]) = tnAdd (tnGroup lib l) (tnHostname lib a.1) a.2 := by
  unfold tnGroup
  rw [List.foldl_append]
  rfl

private theorem group_total (lib : UrlLib) (l : List (Str × Nat)) (h : Str) :
    total (tnGroup lib l) h = ((l.filter (fun a => decide (tnHostname lib a.1 = h))).map (·.2)).sum := by
  induction l using snocInd with
  | nil => rfl
  | snoc l a ih =>
    rw [group_snoc, total_add, ih]
    by_cases e : tnHostname lib a.1 = h <;> simp [e]

private theorem group_keys (lib : UrlLib) (l : List (Str × Nat)) :
    (∀ x, x ∈ (tnGroup lib l).map (·.1) ↔ ∃ a ∈ l, tnHostname lib a.1 = x) ∧ ((tnGroup lib l).map (·.1)).Nodup := by
  induction l using snocInd with
  | nil => simp [tnGroup]
  | snoc l a ih =>
    rw [group_snoc]
    refine ⟨fun x => ?_, (keys_add _ _ _).2 ih.2⟩
    rw [(keys_add _ _ _).1, ih.1]
    constructor
    · rintro (⟨y, hy, e⟩ | rfl)
      · exact ⟨y, by simp [hy], e⟩
      · exact ⟨a, by simp, rfl⟩
    · rintro ⟨y, hy, e⟩
      rw [List.mem_append, List.mem_singleton] at hy
      rcases hy with hy | rfl
      · exact .inl ⟨y, hy, e⟩
      · exact .inr e.symm

private theorem total_of_mem (m : List (Str × Nat)) (hn : (m.map (·.1)).Nodup) (e : Str × Nat) (he : e ∈ m) :
    total m e.1 = e.2 := by
  induction m with
  | nil => simp at he
  | cons x m ih =>
    simp only [List.map_cons, List.nodup_cons] at hn
    unfold total at ih ⊢
    rcases List.mem_cons.1 he with rfl | he
    · have : m.filter (fun y => decide (y.1 = e.1)) = [] := by
        rw [List.filter_eq_nil_iff]
        intro y hy hd
        rw [decide_eq_true_eq] at hd
        exact hn.1 (hd ▸ List.mem_map_of_mem hy)
      simp [this]
    · have hx : x.1 ≠ e.1 := fun h => hn.1 (h ▸ List.mem_map_of_mem he)
      simp only [List.filter_cons, hx, decide_false, Bool.false_eq_true, if_false]
      exact ih hn.2 he

private theorem count_sum (networks : List NetworkRow) (f : NetworkRow → Str) (p : Str → Bool) :
    (((networks.map f).dedup.filter p).map (fun x => networks.countP (fun r => decide (f r = x)))).sum =
      networks.countP (fun r => p (f r)) := by
  have h := List.sum_map_count_dedup_filter_eq_countP p (networks.map f)
  have e : ∀ x, @List.count Str instBEqOfDecidableEq x (networks.map f) = networks.countP (fun r => decide (f r = x)) := by
    intro x
    unfold List.count
    rw [List.countP_map]
    rfl
  simp only [e] at h
  rw [h, List.countP_map]
  rfl

/-- What the rows of the query come to, for the networks on hosts with some quality. -/
private theorem rows_sum (networks : List NetworkRow) (rows : List (Str × Nat)) (hp : rows.Perm (tnTopAddrs networks)) (p : Str → Bool) :
    ((rows.filter (fun a => p a.1)).map (·.2)).sum = networks.countP (fun r => p r.addr) := by
  have h1 := ((hp.filter (fun a => p a.1)).map (·.2)).sum_eq
  rw [h1]
  unfold tnTopAddrs
  rw [List.filter_map, List.map_map]
  exact count_sum networks (·.addr) p

private theorem group_count (lib : UrlLib) (networks : List NetworkRow) (rows : List (Str × Nat))
    (hp : rows.Perm (tnTopAddrs networks)) (e : Str × Nat) (he : e ∈ tnGroup lib rows) : e.2 = TnCount lib networks e.1 := by
  rw [← total_of_mem _ (group_keys lib rows).2 e he, group_total]
  exact rows_sum networks rows hp (fun a => decide (tnHostname lib a = e.1))

private theorem group_mem (lib : UrlLib) (networks : List NetworkRow) (rows : List (Str × Nat))
    (hp : rows.Perm (tnTopAddrs networks)) (h : Str) :
    h ∈ (tnGroup lib rows).map (·.1) ↔ h ∈ networks.map (fun r => tnHostname lib r.addr) := by
  rw [(group_keys lib rows).1]
  constructor
  · rintro ⟨a, ha, rfl⟩
    have ha := hp.mem_iff.1 ha
    simp only [tnTopAddrs, List.mem_map, List.mem_dedup] at ha ⊢
    obtain ⟨_, ⟨r, hr, rfl⟩, rfl⟩ := ha
    exact ⟨r, hr, rfl⟩
  · intro hh
    rw [List.mem_map] at hh
    obtain ⟨r, hr, rfl⟩ := hh
    refine ⟨(r.addr, networks.countP (fun r' => decide (r'.addr = r.addr))), hp.mem_iff.2 ?_, rfl⟩
    simp only [tnTopAddrs, List.mem_map, List.mem_dedup]
    exact ⟨r.addr, ⟨r, hr, rfl⟩, rfl⟩

/-- The sum of the numbers of the hosts that may not be named. -/
private theorem hidden_sum (lib : UrlLib) (networks : List NetworkRow) (rows m : List (Str × Nat))
    (hp : rows.Perm (tnTopAddrs networks)) (hm : m.Perm (tnGroup lib rows)) :
    ((m.filter (fun e => !decide (TnNamed lib networks e.1))).map (·.2)).sum = TnHidden lib networks := by
  rw [((hm.filter _).map (·.2)).sum_eq]
  have h2 := count_sum networks (fun r => tnHostname lib r.addr) (fun h => !decide (TnNamed lib networks h))
  have hperm : ((tnGroup lib rows).map (·.1)).Perm (networks.map (fun r => tnHostname lib r.addr)).dedup :=
    (List.perm_ext_iff_of_nodup (group_keys lib rows).2 (List.nodup_dedup _)).2 (fun a => by
      rw [List.mem_dedup]; exact group_mem lib networks rows hp a)
  have h3 := ((hperm.filter (fun h => !decide (TnNamed lib networks h))).map
    (fun x => networks.countP (fun r => decide (tnHostname lib r.addr = x)))).sum_eq
  rw [h2] at h3
  unfold TnHidden
  refine Eq.trans ?_ h3
  rw [List.filter_map, List.map_map]
  congr 1
  refine List.map_congr_left (fun e he => ?_)
  have he := (List.mem_filter.1 he).1
  rw [group_count lib networks rows hp e he]
  rfl

private theorem publish_iff (named : Str → Prop) [DecidablePred named] (l : List (Str × Nat))
    (hl : ∀ e ∈ l, (e.2 ≥ 10 ∧ e.1 ≠ [] ∧ e.1 ≠ b!"*") ↔ named e.1) (g : Nat) :
    tnPublish g l = if ∀ e ∈ l, named e.1 → utf8Valid e.1 = true then
      some (l.filter (fun e => decide (named e.1)) ++
        if 0 < g + ((l.filter (fun e => !decide (named e.1))).map (·.2)).sum
        then [(b!"*", g + ((l.filter (fun e => !decide (named e.1))).map (·.2)).sum)] else [])
      else none := by
  induction l generalizing g with
  | nil => simp [tnPublish]
  | cons e l ih =>
    obtain ⟨h, n⟩ := e
    have ih := ih (fun e he => hl e (List.mem_cons_of_mem _ he))
    have h0 := hl (h, n) List.mem_cons_self
    unfold tnPublish
    by_cases hn : named h
    · rw [if_pos (h0.2 hn)]
      by_cases hv : utf8Valid h = true
      · rw [if_pos hv, ih]
        by_cases ha : ∀ e ∈ l, named e.1 → utf8Valid e.1 = true
        · have ha' : ∀ e ∈ (h, n) :: l, named e.1 → utf8Valid e.1 = true := by
            intro e he
            rcases List.mem_cons.1 he with rfl | he
            · exact fun _ => hv
            · exact ha e he
          rw [if_pos ha, if_pos ha']
          simp [hn]
        · have ha' : ¬ ∀ e ∈ (h, n) :: l, named e.1 → utf8Valid e.1 = true :=
            fun hh => ha (fun e he => hh e (List.mem_cons_of_mem _ he))
          rw [if_neg ha, if_neg ha']
          rfl
      · have ha' : ¬ ∀ e ∈ (h, n) :: l, named e.1 → utf8Valid e.1 = true :=
          fun hh => hv (hh (h, n) List.mem_cons_self hn)
        rw [if_neg hv, if_neg ha']
    · rw [if_neg (fun hh => hn (h0.1 hh)), ih]
      have hiff : (∀ e ∈ (h, n) :: l, named e.1 → utf8Valid e.1 = true) ↔ ∀ e ∈ l, named e.1 → utf8Valid e.1 = true := by
        constructor
        · exact fun hh e he => hh e (List.mem_cons_of_mem _ he)
        · intro hh e he
          rcases List.mem_cons.1 he with rfl | he
          · exact fun h => absurd h hn
          · exact hh e he
      have hs : ((((h, n) :: l).filter (fun e => !decide (named e.1))).map (·.2)).sum =
          n + ((l.filter (fun e => !decide (named e.1))).map (·.2)).sum := by simp [hn]
      have hf : ((h, n) :: l).filter (fun e => decide (named e.1)) = l.filter (fun e => decide (named e.1)) := by simp [hn]
      simp only [hiff, hs, hf, Nat.add_assoc]

private theorem collect_eq (lib : UrlLib) (networks : List NetworkRow) (rows : List (Str × Nat))
    (hp : rows.Perm (tnTopAddrs networks)) (range : List (Str × Nat) → List (Str × Nat)) (hr : ∀ m, (range m).Perm m) :
    tnCollect lib range rows = if ∀ e ∈ range (tnGroup lib rows), TnNamed lib networks e.1 → utf8Valid e.1 = true then
      some ((range (tnGroup lib rows)).filter (fun e => decide (TnNamed lib networks e.1)) ++
        if 0 < TnHidden lib networks then [(b!"*", TnHidden lib networks)] else []) else none := by
  have h := publish_iff (TnNamed lib networks) (range (tnGroup lib rows)) (fun e he => by
    have he := (hr _).mem_iff.1 he
    rw [group_count lib networks rows hp e he]
    exact Iff.rfl) 0
  rw [hidden_sum lib networks rows _ hp (hr _), Nat.zero_add] at h
  exact h

private theorem named_mem (lib : UrlLib) (networks : List NetworkRow) (rows : List (Str × Nat))
    (hp : rows.Perm (tnTopAddrs networks)) (range : List (Str × Nat) → List (Str × Nat)) (hr : ∀ m, (range m).Perm m) (h : Str) (n : Nat) :
    ((h, n) ∈ range (tnGroup lib rows) ∧ TnNamed lib networks h) ↔ (TnNamed lib networks h ∧ n = TnCount lib networks h) := by
  constructor
  · rintro ⟨hm, hn⟩
    exact ⟨hn, group_count lib networks rows hp _ ((hr _).mem_iff.1 hm)⟩
  · rintro ⟨hn, rfl⟩
    refine ⟨(hr _).mem_iff.2 ?_, hn⟩
    have hc : 0 < TnCount lib networks h := by
      have := hn.1
      omega
    unfold TnCount at hc
    rw [List.countP_pos_iff] at hc
    obtain ⟨r, hr', e⟩ := hc
    rw [decide_eq_true_eq] at e
    have hk : h ∈ (tnGroup lib rows).map (·.1) := by
      rw [group_mem lib networks rows hp, List.mem_map]
      exact ⟨r, hr', e⟩
    rw [List.mem_map] at hk
    obtain ⟨x, hx, rfl⟩ := hk
    have := group_count lib networks rows hp x hx
    rw [← this]
    exact hx

/-- C122: what is published: each host with ten networks at least and the number of its networks, and under `*` the
number of the other networks; nothing else, and nothing twice. -/
theorem C122_published (lib : UrlLib) (networks : List NetworkRow) (rows : List (Str × Nat))
    (hp : rows.Perm (tnTopAddrs networks)) (range : List (Str × Nat) → List (Str × Nat)) (hr : ∀ m, (range m).Perm m)
    (out : List (Str × Nat)) (h : tnCollect lib range rows = some out) :
    (∀ host n, (host, n) ∈ out ↔
      (TnNamed lib networks host ∧ n = TnCount lib networks host) ∨ (host = b!"*" ∧ n = TnHidden lib networks ∧ 0 < n)) ∧
    (out.map (·.1)).Nodup := by
  rw [collect_eq lib networks rows hp range hr] at h
  split at h
  · have h := Option.some.inj h
    subst h
    constructor
    · intro host n
      rw [List.mem_append, List.mem_filter, decide_eq_true_eq, named_mem lib networks rows hp range hr]
      refine or_congr Iff.rfl ?_
      split
      · rename_i hpos
        simp only [List.mem_singleton, Prod.mk.injEq]
        constructor
        · rintro ⟨rfl, rfl⟩
          exact ⟨rfl, rfl, hpos⟩
        · rintro ⟨rfl, rfl, _⟩
          exact ⟨rfl, rfl⟩
      · rename_i hpos
        constructor
        · intro hh; cases hh
        · rintro ⟨_, rfl, hh⟩
          exact absurd hh hpos
    · rw [List.map_append]
      have hnd : ((range (tnGroup lib rows)).map (·.1)).Nodup :=
        (((hr (tnGroup lib rows)).map (·.1)).nodup_iff).2 (group_keys lib rows).2
      have hsub : (((range (tnGroup lib rows)).filter (fun e => decide (TnNamed lib networks e.1))).map (·.1)).Nodup :=
        hnd.sublist (List.Sublist.map _ List.filter_sublist)
      refine List.nodup_append.2 ⟨hsub, ?_, ?_⟩
      · split <;> simp
      · intro a ha b hb
        rw [List.mem_map] at ha
        obtain ⟨x, hx, rfl⟩ := ha
        have hx := (List.mem_filter.1 hx).2
        rw [decide_eq_true_eq] at hx
        split at hb
        · simp only [List.map_cons, List.map_nil, List.mem_singleton] at hb
          subst hb
          exact hx.2.2
        · cases hb
  · cases h

/-- C122: a host with fewer than ten networks is not named. -/
theorem C122_rare (lib : UrlLib) (networks : List NetworkRow) (rows : List (Str × Nat))
    (hp : rows.Perm (tnTopAddrs networks)) (range : List (Str × Nat) → List (Str × Nat)) (hr : ∀ m, (range m).Perm m)
    (out : List (Str × Nat)) (h : tnCollect lib range rows = some out) (host : Str) (hh : host ≠ b!"*")
    (hrare : (networks.filter (fun r => decide (tnHostname lib r.addr = host))).length < 10) : ∀ n, (host, n) ∉ out := by
  intro n hm
  rw [← List.countP_eq_length_filter] at hrare
  rcases ((C122_published lib networks rows hp range hr out h).1 host n).1 hm with ⟨hn, _⟩ | ⟨e, _⟩
  · have := hn.1
    unfold TnCount at this
    omega
  · exact hh e

/-- C122: the numbers published add up to the number of networks. -/
theorem C122_total (lib : UrlLib) (networks : List NetworkRow) (rows : List (Str × Nat))
    (hp : rows.Perm (tnTopAddrs networks)) (range : List (Str × Nat) → List (Str × Nat)) (hr : ∀ m, (range m).Perm m)
    (out : List (Str × Nat)) (h : tnCollect lib range rows = some out) : (out.map (·.2)).sum = networks.length := by
  rw [collect_eq lib networks rows hp range hr] at h
  split at h
  · have h := Option.some.inj h
    subst h
    rw [List.map_append, List.sum_append]
    have e1 : ((if 0 < TnHidden lib networks then [(b!"*", TnHidden lib networks)] else []).map (fun x : Str × Nat => x.2)).sum =
        TnHidden lib networks := by
      split <;> simp
      omega
    rw [e1, ← hidden_sum lib networks rows _ hp (hr (tnGroup lib rows))]
    have hsplit : ∀ (m : List (Str × Nat)) (p : Str × Nat → Bool),
        ((m.filter p).map (·.2)).sum + ((m.filter (fun e => !p e)).map (·.2)).sum = (m.map (·.2)).sum := by
      intro m p
      induction m with
      | nil => rfl
      | cons e m ih =>
        by_cases hpe : p e = true
        · simp only [List.filter_cons, hpe, if_true, List.map_cons, List.sum_cons, Bool.not_true, Bool.false_eq_true, if_false]
          omega
        · simp only [Bool.not_eq_true] at hpe
          simp only [List.filter_cons, hpe, Bool.false_eq_true, if_false, Bool.not_false, if_true, List.map_cons, List.sum_cons]
          omega
    rw [hsplit, (((hr (tnGroup lib rows))).map (·.2)).sum_eq]
    have hg : ∀ l : List (Str × Nat), ((tnGroup lib l).map (·.2)).sum = (l.map (·.2)).sum := by
      intro l
      have hadd : ∀ (m : List (Str × Nat)) k n, ((tnAdd m k n).map (·.2)).sum = (m.map (·.2)).sum + n := by
        intro m k n
        induction m with
        | nil => simp [tnAdd]
        | cons e m ih =>
          obtain ⟨a, b⟩ := e
          unfold tnAdd
          split
          · simp only [List.map_cons, List.sum_cons]; omega
          · simp only [List.map_cons, List.sum_cons, ih]; omega
      induction l using snocInd with
      | nil => rfl
      | snoc l a ih => rw [group_snoc, hadd, ih]; simp
    rw [hg]
    have := rows_sum networks rows hp (fun _ => true)
    simpa using this
  · cases h

/-- The library's check accepts exactly the texts in UTF-8. -/
theorem utf8Valid_iff (s : Str) : utf8Valid s = true ↔ ValidUtf8 s := by
  constructor
  · intro h
    induction hn : s.length using Nat.strong_induction_on generalizing s with
    | _ n ih =>
      cases s with
      | nil => exact ⟨[], by simp, rfl⟩
      | cons c s =>
        rw [utf8Valid] at h
        split at h
        · rename_i hc
          obtain ⟨cps, h1, h2⟩ := ih s.length (by rw [← hn]; simp) s h rfl
          refine ⟨c :: cps, ?_, ?_⟩
          · intro cp hcp
            rcases List.mem_cons.1 hcp with rfl | hcp
            · unfold Scalar; omega
            · exact h1 cp hcp
          · rw [List.flatMap_cons, ← h2]
            unfold utf8Encode
            rw [if_pos hc]; rfl
        · simp only [Bool.and_eq_true, decide_eq_true_eq] at h
          obtain ⟨cp, t, hs, _, he, ht, hd⟩ := width_char c s h.1
          have hl : (s.drop (utf8Width (c :: s) - 1)).length < n := by rw [← hn]; simp; omega
          obtain ⟨cps, h1, h2⟩ := ih _ hl _ h.2 rfl
          refine ⟨cp :: cps, ?_, ?_⟩
          · intro x hx
            rcases List.mem_cons.1 hx with rfl | hx
            · exact hs
            · exact h1 x hx
          · rw [List.flatMap_cons, ← h2, he, List.cons_append, List.take_append_drop]
  · rintro ⟨cps, h1, rfl⟩
    induction cps with
    | nil => rw [List.flatMap_nil, utf8Valid]
    | cons cp cps ih =>
      have ih := ih (fun x hx => h1 x (List.mem_cons_of_mem _ hx))
      rw [List.flatMap_cons]
      by_cases hc : cp < 128
      · have : utf8Encode cp = [cp] := by unfold utf8Encode; rw [if_pos hc]
        rw [this, List.singleton_append, utf8Valid, if_pos hc]
        exact ih
      · obtain ⟨c, r, e, hc', hw, hr, _⟩ := width_encode cp (h1 cp (by simp)) (by omega) (cps.flatMap utf8Encode)
        rw [e, List.cons_append, utf8Valid, if_neg (by omega), hw]
        simp only [Nat.add_sub_cancel, List.drop_left, ih, Bool.and_true, decide_eq_true_eq]
        omega

/-- C122: the numbers are published if the host names that may be named are well-formed.  Missing: other host names, for
which the bouncer crashes (`C122_crash_violated`). -/
theorem C122_survives_partial (lib : UrlLib) (networks : List NetworkRow) (rows : List (Str × Nat))
    (hp : rows.Perm (tnTopAddrs networks)) (range : List (Str × Nat) → List (Str × Nat)) (hr : ∀ m, (range m).Perm m) :
    (tnCollect lib range rows).isSome = true ↔ ∀ host, TnNamed lib networks host → ValidUtf8 host := by
  simp only [← utf8Valid_iff]
  rw [collect_eq lib networks rows hp range hr]
  have hiff : (∀ e ∈ range (tnGroup lib rows), TnNamed lib networks e.1 → utf8Valid e.1 = true) ↔
      ∀ host, TnNamed lib networks host → utf8Valid host = true := by
    constructor
    · intro h host hn
      exact h (host, _) ((named_mem lib networks rows hp range hr host _).2 ⟨hn, rfl⟩).1 hn
    · exact fun h e _ hn => h e.1 hn
  split
  · rename_i h
    simpa using hiff.1 h
  · rename_i h
    simp only [Option.isSome_none, Bool.false_eq_true, false_iff]
    exact fun hh => h (hiff.2 hh)

private theorem cut_absent {x : Byte} {s : Str} (h : x ∉ s) : cutLast x s = none := by
  cases hc : cutLast x s with
  | none => rfl
  | some r => obtain ⟨a, b⟩ := r; exact absurd (by rw [(cutLast_some hc).1]; simp) h

private theorem cut_at {x : Byte} {a b : Str} (h : x ∉ b) : cutLast x (a ++ x :: b) = some (a, b) := by
  induction a with
  | nil => simp [cutLast, cut_absent h]
  | cons c a ih => rw [List.cons_append, cutLast, ih]

/-- C122: the networks of one host are counted together, with and without a port, and whatever the scheme. -/
theorem C122_host (lib : UrlLib) (name : Str) (port : Option Str) (hn : name ≠ [] ∧ ∀ c ∈ name, HostChar c)
    (hp : ∀ p, port = some p → p ≠ [] ∧ ∀ c ∈ p, 48 ≤ c ∧ c ≤ 57)
    (host : Str) (hh : host = name ++ (port.map (58 :: ·)).getD []) (hl : lib.parseHost host = some host)
    (addr : Str) (ha : addr = host ∨ addr = b!"ircs://" ++ host ∨ addr = b!"irc+insecure://" ++ host) :
    tnHostname lib addr = name := by
  have p : PlainHost host := by
    cases port with
    | none => exact .inl (by simpa [hh] using hn)
    | some q =>
      refine .inr ⟨name, q, by simp [hh], hn.1, (hp q rfl).1, hn.2, fun c hc => ?_⟩
      have := (hp q rfl).2 c hc
      unfold HostChar
      omega
  obtain ⟨-, hc⟩ := plain_host_chars p
  have hu : ∃ scheme, netUrl lib addr = some ⟨scheme, false, host, [], [], []⟩ := by
    unfold netUrl
    dsimp only
    rcases ha with ha | ha | ha
    · refine ⟨b!"ircs", ?_⟩
      rw [ha, no_scheme (fun c hm => (hc c hm).2.2.1), Option.isNone_none, if_pos rfl]
      rw [show b!"ircs://" ++ host = b!"ircs" ++ b!"://" ++ host from rfl, parse_plain_host p hl b!"ircs" (.inl rfl)]
      rfl
    · refine ⟨b!"ircs", ?_⟩
      have : (cutStr b!"://" (b!"ircs://" ++ host)).isNone = false := by simp [cutStr]
      rw [ha, this, if_neg (by simp)]
      rw [show b!"ircs://" ++ host = b!"ircs" ++ b!"://" ++ host from rfl, parse_plain_host p hl b!"ircs" (.inl rfl)]
      rfl
    · refine ⟨b!"irc+insecure", ?_⟩
      have : (cutStr b!"://" (b!"irc+insecure://" ++ host)).isNone = false := by simp [cutStr]
      rw [ha, this, if_neg (by simp)]
      rw [show b!"irc+insecure://" ++ host = b!"irc+insecure" ++ b!"://" ++ host from rfl,
        parse_plain_host p hl b!"irc+insecure" (.inr rfl)]
      rfl
  obtain ⟨scheme, hu⟩ := hu
  unfold tnHostname
  rw [hu]
  have hbare : stripBrackets name = name := by
    unfold stripBrackets
    obtain ⟨h0, h1⟩ := hn
    cases name with
    | nil => exact absurd rfl h0
    | cons c name =>
      have hc91 : c ≠ 91 := (h1 c List.mem_cons_self).2.2.2.2.2.2.2.1
      have : hasPrefix b!"[" (c :: name) = false := by
        simp [hasPrefix, List.isPrefixOf, Ne.symm hc91]
      rw [this]
      rfl
  have hno : 58 ∉ name := fun hm => (hn.2 58 hm).2.2.2.2.2.2.1 rfl
  unfold urlHostname stripOptionalPort
  cases port with
  | none =>
    have e : host = name := by simpa using hh
    dsimp only
    rw [e, cut_absent hno]
    exact hbare
  | some q =>
    have hq := (hp q rfl).2
    have e : host = name ++ 58 :: q := by simpa using hh
    have hv : validOptionalPort (58 :: q) = true := by
      simp only [validOptionalPort, decide_true, Bool.true_and, List.all_eq_true]
      intro c hc
      simpa [isDigit] using hq c hc
    dsimp only
    rw [e, cut_at (fun hm => by have := hq 58 hm; omega)]
    dsimp only
    rw [if_pos hv]
    exact hbare

example : ∀ c ∈ b!"irc.libera.chat", HostChar c := by unfold HostChar; decide
example : ∀ c ∈ b!"6697", 48 ≤ c ∧ c ≤ 57 := by decide

/-- The decoding of host names, as for paths. -/
def tnUrlLib : UrlLib := ⟨pctDecode, fun _ => true⟩

/-- One user adds ten networks with this address, under ten names. -/
private def tenNetworks (addr : Str) : List PdOp :=
  .storeUser 1 { username := b!"mallory" } ::
    [65, 66, 67, 68, 69, 70, 71, 72, 73, 74].map (fun c => .storeNetwork 1 { name := [c], addr := addr })

private def tenRows (addr : Str) : List NetworkRow := (pdRun (fun _ _ => true) (fun t => t) (tenNetworks addr)).1.networks

example : tnCollect tnUrlLib id (tnTopAddrs (tenRows b!"irc.libera.chat" ++ tenRows b!"ircs://irc.libera.chat:6697" ++
    (tenRows b!"irc.example.org").take 9)) = some [(b!"irc.libera.chat", 20), (b!"*", 9)] := by decide +kernel
example : ∀ host ∈ [b!"irc.libera.chat", b!"irc.example.org"], utf8Valid host = true := by decide +kernel

/-- C122 is violated if it is to hide what few users do: one user who is no administrator has ten networks on a host of
their own, each of which is accepted, and the host is published. -/
theorem C122_private_violated : ∃ (ops : List PdOp) (host : Str) (db : PdDb), db = (pdRun (fun _ _ => true) (fun t => t) ops).1 ∧
    db.users.length = 1 ∧ (∀ u ∈ db.users, u.admin = false) ∧
    (∀ r ∈ db.networks, checkNetwork tnUrlLib ⟨b!"mallory", [], [], false, -1, -1, []⟩ (pdNetOf r) = true) ∧
    tnCollect tnUrlLib id (tnTopAddrs db.networks) = some [(host, 10)] :=
  ⟨tenNetworks b!"home.example.org", b!"home.example.org", _, rfl, by decide +kernel⟩

/-- C122 is violated: one user who is no administrator has ten networks whose host name is not UTF-8 when it is
decoded, each of which is accepted, and the bouncer crashes when the numbers are to be published. -/
theorem C122_crash_violated : ∃ (ops : List PdOp) (db : PdDb), db = (pdRun (fun _ _ => true) (fun t => t) ops).1 ∧
    db.users.length = 1 ∧ (∀ u ∈ db.users, u.admin = false) ∧
    (∀ r ∈ db.networks, r.addr = b!"ircs://%ff" ∧ checkNetwork tnUrlLib ⟨b!"mallory", [], [], false, -1, -1, []⟩ (pdNetOf r) = true) ∧
    tnCollect tnUrlLib id (tnTopAddrs db.networks) = none :=
  ⟨tenNetworks b!"ircs://%ff", _, rfl, by decide +kernel⟩

end Verif.Props
