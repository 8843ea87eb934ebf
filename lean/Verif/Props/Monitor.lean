import Verif.Model.Monitor
import Verif.Proof.GoMap
import Verif.Proof.Util

/-! # C24: MONITOR lists are bounded and merged correctly -/

namespace Verif.Props
open Verif.Model Verif.Proof

/-! ## Specification -/

/-- An IRC server that allows `limit` monitored nicks.  Result: its list, and the nicks of the command it
accepted and will report on. -/
def serverMonAdd (limit : Nat) (srv : List Str) : List Str → List Str × List Str
  | [] => (srv, [])
  | n :: ns =>
    if n ∈ srv then let r := serverMonAdd limit srv ns; (r.1, n :: r.2)
    else if srv.length < limit then let r := serverMonAdd limit (srv ++ [n]) ns; (r.1, n :: r.2)
    else serverMonAdd limit srv ns

/-- The server processes one command. -/
def serverMon (limit : Nat) (srv : List Str) : MonCmd → List Str × List Str
  | .add ns => serverMonAdd limit srv ns
  | .remove ns => (srv.filter (fun n => decide (n ∉ ns)), [])
  | .clear => ([], [])

/-- The server processes commands in order. -/
def serverMons (limit : Nat) (srv : List Str) : List MonCmd → List Str × List Str
  | [] => (srv, [])
  | c :: cs =>
    let r := serverMon limit srv c
    let r' := serverMons limit r.1 cs
    (r'.1, r.2 ++ r'.2)

/-- What the server knows when an event is processed: nothing if the connection is new. -/
def serverKept (srv : List Str) : MonOp → List Str
  | .reconnect => []
  | _ => srv

/-- An event, processed by the server and answered before the next one. -/
def monSync (limit : Nat) (online : Str → Bool) (st : MonState × List Str) (op : MonOp) : MonState × List Str :=
  let r := monStep st.1 op
  let s := serverMons limit (serverKept st.2 op) r.2
  (s.2.foldl (fun m n => monReply m [n] (online n)) r.1, s.1)

/-- Some client monitors the nick (which is not the bouncer's service, whose status the bouncer knows). -/
def Wanted (st : MonState) (n : Str) : Prop :=
  n ≠ serviceNickCM ∧ ∃ id l, GoMap.get st.clients id = some l ∧ n ∈ l

/-! ## Lists of clients -/

private theorem monAdd_spec {l : List Str} {n : Str} (h : l.length ≤ monitorLimit ∧ l.Nodup) :
    (monAdd l n).1.length ≤ monitorLimit ∧ (monAdd l n).1.Nodup := by
  unfold monAdd
  split
  · exact h
  · rename_i hl
    simp only
    split
    · exact h
    · rename_i hn
      refine ⟨by simp; omega, ?_⟩
      rw [List.nodup_append]
      refine ⟨h.2, by simp, ?_⟩
      intro a ha b hb
      simp only [List.mem_singleton] at hb
      rintro rfl
      exact hn (hb ▸ ha)

private theorem monDel_spec {l : List Str} {n : Str} (h : l.length ≤ monitorLimit ∧ l.Nodup) :
    (monDel l n).length ≤ monitorLimit ∧ (monDel l n).Nodup :=
  ⟨Nat.le_trans (List.length_filter_le _ _) h.1, h.2.filter _⟩

private theorem um_clients (st : MonState) : (updateMonitor st).1.clients = st.clients := rfl

/-- The events of the network, in any order. -/
inductive MonEvent where
  | client (op : MonOp)
  | reply (nicks : List Str) (online : Bool)
  | nick (nick : Str) (hasDesiredNick : Bool)

/-- Any sequence of events. -/
def monEvents (st : MonState) : List MonEvent → MonState
  | [] => st
  | .client op :: es => monEvents (monStep st op).1 es
  | .reply ns o :: es => monEvents (monReply st ns o) es
  | .nick n d :: es => monEvents (updateMonitor { st with nick := n, hasDesiredNick := d }).1 es

/-- **C24** (bounded): whatever the clients and the server send, in whatever order, the list of a client never has
more than 1000 nicks, and none twice. -/
theorem C24_bounded (es : List MonEvent) : ∀ (st : MonState),
    (∀ id l, GoMap.get st.clients id = some l → l.length ≤ monitorLimit ∧ l.Nodup) →
    ∀ id l, GoMap.get (monEvents st es).clients id = some l → l.length ≤ 1000 ∧ l.Nodup := by
  induction es with
  | nil => intro st h id l hl; exact h id l hl
  | cons e es ih =>
    intro st h
    have hof : ∀ id, (st.listOf id).length ≤ monitorLimit ∧ (st.listOf id).Nodup := by
      intro id
      unfold MonState.listOf
      cases hg : GoMap.get st.clients id with
      | none => simp
      | some l => exact h id l hg
    have hset : ∀ id (l : List Str), l.length ≤ monitorLimit ∧ l.Nodup →
        ∀ id' l', GoMap.get (GoMap.set st.clients id l) id' = some l' → l'.length ≤ monitorLimit ∧ l'.Nodup := by
      intro id l hl id' l' hg
      rw [mget_mset] at hg
      split at hg
      · simp only [Option.some.injEq] at hg; subst hg; exact hl
      · exact h id' l' hg
    cases e with
    | reply ns o => exact ih (monReply st ns o) h
    | nick n d => exact ih (updateMonitor { st with nick := n, hasDesiredNick := d }).1 h
    | client op =>
      apply ih
      cases op with
      | connect id =>
        simp only [monStep]; split
        · exact h
        · exact hset id [] (by simp)
      | disconnect id =>
        simp only [monStep, um_clients, mget_mdel]
        intro id' l hl
        split at hl
        · cases hl
        · exact h id' l hl
      | add id ns =>
        simp only [monStep]; split
        · exact h
        · rw [um_clients]
          refine hset id _ ?_
          have := hof id
          generalize st.listOf id = l at this
          induction ns generalizing l with
          | nil => exact this
          | cons n ns ihn => exact ihn _ (monAdd_spec this)
      | reconnect => exact h
      | del id ns =>
        simp only [monStep]; split
        · exact h
        · rw [um_clients]
          refine hset id _ ?_
          have := hof id
          generalize st.listOf id = l at this
          induction ns generalizing l with
          | nil => exact this
          | cons n ns ihn => exact ihn _ (monDel_spec this)
      | clear id =>
        simp only [monStep]; split
        · exact h
        · rw [um_clients]; exact hset id [] (by simp)

/-! ## Merging -/

private theorem collect_spec (mon : GoMap Str Bool) (ts : List Str) : ∀ (add seen : List Str), add.Nodup →
    (monCollect mon ts (add, seen)).1.Nodup ∧
    (∀ n, n ∈ (monCollect mon ts (add, seen)).1 ↔ n ∈ add ∨ (n ∈ ts ∧ n ≠ serviceNickCM ∧ GoMap.get mon n = none)) ∧
    (∀ n, n ∈ (monCollect mon ts (add, seen)).2 ↔ n ∈ seen ∨ (n ∈ ts ∧ n ≠ serviceNickCM ∧ GoMap.get mon n ≠ none)) := by
  induction ts with
  | nil => intro add seen h; simp [monCollect, h]
  | cons t ts ih =>
    intro add seen h
    simp only [monCollect]
    split
    · rename_i ht
      obtain ⟨h1, h2, h3⟩ := ih add seen h
      refine ⟨h1, fun n => ?_, fun n => ?_⟩
      · rw [h2 n]
        constructor
        · rintro (h | ⟨h, h', h''⟩)
          · exact Or.inl h
          · exact Or.inr ⟨List.mem_cons_of_mem _ h, h', h''⟩
        · rintro (h | ⟨h, h', h''⟩)
          · exact Or.inl h
          · rcases List.mem_cons.1 h with rfl | h
            · exact absurd ht h'
            · exact Or.inr ⟨h, h', h''⟩
      · rw [h3 n]
        constructor
        · rintro (h | ⟨h, h', h''⟩)
          · exact Or.inl h
          · exact Or.inr ⟨List.mem_cons_of_mem _ h, h', h''⟩
        · rintro (h | ⟨h, h', h''⟩)
          · exact Or.inl h
          · rcases List.mem_cons.1 h with rfl | h
            · exact absurd ht h'
            · exact Or.inr ⟨h, h', h''⟩
    · rename_i ht
      split
      · rename_i hm
        have hm : GoMap.get mon t = none := by simpa using hm
        have hnd : (if t ∈ add then add else add ++ [t]).Nodup := by
          split
          · exact h
          · rename_i hta
            rw [List.nodup_append]
            refine ⟨h, by simp, ?_⟩
            intro a ha b hb
            simp only [List.mem_singleton] at hb
            rintro rfl
            exact hta (hb ▸ ha)
        have hmem : ∀ n, n ∈ (if t ∈ add then add else add ++ [t]) ↔ n ∈ add ∨ n = t := by
          intro n
          split
          · rename_i hta
            constructor
            · exact Or.inl
            · rintro (h | rfl)
              · exact h
              · exact hta
          · simp
        obtain ⟨h1, h2, h3⟩ := ih _ seen hnd
        refine ⟨h1, fun n => ?_, fun n => ?_⟩
        · rw [h2 n, hmem]
          constructor
          · rintro ((h | rfl) | ⟨h, h', h''⟩)
            · exact Or.inl h
            · exact Or.inr ⟨List.mem_cons_self, ht, hm⟩
            · exact Or.inr ⟨List.mem_cons_of_mem _ h, h', h''⟩
          · rintro (h | ⟨h, h', h''⟩)
            · exact Or.inl (Or.inl h)
            · rcases List.mem_cons.1 h with rfl | h
              · exact Or.inl (Or.inr rfl)
              · exact Or.inr ⟨h, h', h''⟩
        · rw [h3 n]
          constructor
          · rintro (h | ⟨h, h', h''⟩)
            · exact Or.inl h
            · exact Or.inr ⟨List.mem_cons_of_mem _ h, h', h''⟩
          · rintro (h | ⟨h, h', h''⟩)
            · exact Or.inl h
            · rcases List.mem_cons.1 h with rfl | h
              · exact absurd hm h''
              · exact Or.inr ⟨h, h', h''⟩
      · rename_i hm
        have hm : GoMap.get mon t ≠ none := by simpa using hm
        obtain ⟨h1, h2, h3⟩ := ih add (t :: seen) h
        refine ⟨h1, fun n => ?_, fun n => ?_⟩
        · rw [h2 n]
          constructor
          · rintro (h | ⟨h, h', h''⟩)
            · exact Or.inl h
            · exact Or.inr ⟨List.mem_cons_of_mem _ h, h', h''⟩
          · rintro (h | ⟨h, h', h''⟩)
            · exact Or.inl h
            · rcases List.mem_cons.1 h with rfl | h
              · exact absurd h'' hm
              · exact Or.inr ⟨h, h', h''⟩
        · rw [h3 n]
          constructor
          · rintro (h | ⟨h, h', h''⟩)
            · rcases List.mem_cons.1 h with rfl | h
              · exact Or.inr ⟨List.mem_cons_self, ht, hm⟩
              · exact Or.inl h
            · exact Or.inr ⟨List.mem_cons_of_mem _ h, h', h''⟩
          · rintro (h | ⟨h, h', h''⟩)
            · exact Or.inl (List.mem_cons_of_mem _ h)
            · rcases List.mem_cons.1 h with rfl | h
              · exact Or.inl List.mem_cons_self
              · exact Or.inr ⟨h, h', h''⟩

private theorem serverMonAdd_spec (limit : Nat) (ns : List Str) : ∀ (srv : List Str), srv.Nodup → srv.length ≤ limit →
    (serverMonAdd limit srv ns).1.Nodup ∧ (serverMonAdd limit srv ns).1.length ≤ limit ∧
    (∀ n, n ∈ (serverMonAdd limit srv ns).1 ↔ n ∈ srv ∨ n ∈ (serverMonAdd limit srv ns).2) ∧
    (∀ n, n ∈ (serverMonAdd limit srv ns).2 → n ∈ ns) ∧
    ((∀ n ∈ ns, n ∈ (serverMonAdd limit srv ns).2) ∨ (serverMonAdd limit srv ns).1.length = limit) := by
  induction ns with
  | nil => intro srv h1 h2; simp [serverMonAdd, h1, h2]
  | cons n ns ih =>
    intro srv h1 h2
    simp only [serverMonAdd]
    split
    · rename_i hm
      obtain ⟨a, b, c, d, e⟩ := ih srv h1 h2
      refine ⟨a, b, fun x => ?_, fun x hx => ?_, ?_⟩
      · simp only [List.mem_cons, c x]
        constructor
        · rintro (h | h)
          · exact Or.inl h
          · exact Or.inr (Or.inr h)
        · rintro (h | rfl | h)
          · exact Or.inl h
          · exact Or.inl hm
          · exact Or.inr h
      · rcases List.mem_cons.1 hx with rfl | hx
        · exact List.mem_cons_self
        · exact List.mem_cons_of_mem _ (d x hx)
      · rcases e with e | e
        · left
          intro x hx
          rcases List.mem_cons.1 hx with rfl | hx
          · exact List.mem_cons_self
          · exact List.mem_cons_of_mem _ (e x hx)
        · exact Or.inr e
    · rename_i hm
      split
      · rename_i hl
        have h1' : (srv ++ [n]).Nodup := by
          rw [List.nodup_append]
          refine ⟨h1, by simp, ?_⟩
          intro a ha b hb
          simp only [List.mem_singleton] at hb
          rintro rfl
          exact hm (hb ▸ ha)
        obtain ⟨a, b, c, d, e⟩ := ih (srv ++ [n]) h1' (by simp; omega)
        refine ⟨a, b, fun x => ?_, fun x hx => ?_, ?_⟩
        · simp only [List.mem_cons, c x, List.mem_append, List.not_mem_nil, or_false, or_assoc]
        · rcases List.mem_cons.1 hx with rfl | hx
          · exact List.mem_cons_self
          · exact List.mem_cons_of_mem _ (d x hx)
        · rcases e with e | e
          · left
            intro x hx
            rcases List.mem_cons.1 hx with rfl | hx
            · exact List.mem_cons_self
            · exact List.mem_cons_of_mem _ (e x hx)
          · exact Or.inr e
      · rename_i hl
        have hfull : srv.length = limit := by omega
        -- the server is full: nothing is added any more
        have full : ∀ (ns : List Str), (serverMonAdd limit srv ns).1 = srv := by
          intro ns
          induction ns with
          | nil => rfl
          | cons m ns ihn =>
            simp only [serverMonAdd]
            split
            · exact ihn
            · first | exact ihn | (rw [if_neg (by omega)]; exact ihn)
        obtain ⟨a, b, c, d, e⟩ := ih srv h1 h2
        refine ⟨a, b, c, fun x hx => List.mem_cons_of_mem _ (d x hx), Or.inr ?_⟩
        rw [full]; exact hfull

/-- The bouncer and the server agree, and the server monitors what the clients want, as far as it can. -/
structure MonAgree (limit : Nat) (st : MonState) (srv : List Str) : Prop where
  /-- the bouncer knows what the server monitors -/
  known : ∀ n, n ∈ srv ↔ n ∈ st.monitored.map (·.1)
  /-- the server monitors only what some client wants -/
  only : ∀ n ∈ srv, Wanted st n
  /-- everything some client wants is monitored, unless the server is full -/
  all : (∀ n, Wanted st n → n ∈ srv) ∨ srv.length = limit

private structure Base (limit : Nat) (st : MonState) (srv : List Str) : Prop where
  nd : (st.monitored.map (·.1)).Nodup
  ndc : (st.clients.map (·.1)).Nodup
  nds : srv.Nodup
  le : srv.length ≤ limit
  known : ∀ n, n ∈ srv ↔ n ∈ st.monitored.map (·.1)
  des : st.hasDesiredNick = true

private theorem foldl_del (ns : List Str) : ∀ (m : GoMap Str Bool), (m.map (·.1)).Nodup →
    ((ns.foldl (fun m n => GoMap.del m n) m).map (·.1)).Nodup ∧
    ∀ k, GoMap.get (ns.foldl (fun m n => GoMap.del m n) m) k = if k ∈ ns then none else GoMap.get m k := by
  induction ns with
  | nil => intro m h; simp [h]
  | cons n ns ih =>
    intro m h
    obtain ⟨h1, h2⟩ := ih (GoMap.del m n) (mdel_nodup h n)
    refine ⟨h1, fun k => ?_⟩
    simp only [List.foldl_cons]
    rw [h2 k, mget_mdel]
    by_cases hk : k ∈ ns
    · simp [hk]
    · by_cases hn : n = k
      · subst hn; simp
      · have : k ≠ n := fun h => hn h.symm
        simp [hk, hn, this]

private theorem foldl_reply (online : Str → Bool) (ns : List Str) : ∀ (st : MonState), (st.monitored.map (·.1)).Nodup →
    ((ns.foldl (fun m n => monReply m [n] (online n)) st).monitored.map (·.1)).Nodup ∧
    (∀ k, k ∈ (ns.foldl (fun m n => monReply m [n] (online n)) st).monitored.map (·.1) ↔ k ∈ ns ∨ k ∈ st.monitored.map (·.1)) ∧
    (ns.foldl (fun m n => monReply m [n] (online n)) st).clients = st.clients ∧
    (ns.foldl (fun m n => monReply m [n] (online n)) st).hasDesiredNick = st.hasDesiredNick := by
  induction ns with
  | nil => intro st h; simp [h]
  | cons n ns ih =>
    intro st h
    have hk : ∀ k, k ∈ (GoMap.set st.monitored n (online n)).map (·.1) ↔ k = n ∨ k ∈ st.monitored.map (·.1) := by
      intro k
      by_cases hg : GoMap.get (GoMap.set st.monitored n (online n)) k = none
      · have h1 := mget_none_iff.1 hg
        rw [mget_mset] at hg
        split at hg
        · cases hg
        · rename_i hne
          have h2 := mget_none_iff.1 hg
          constructor
          · intro h; exact absurd h h1
          · rintro (rfl | h)
            · exact absurd rfl hne
            · exact absurd h h2
      · have h1 : k ∈ (GoMap.set st.monitored n (online n)).map (·.1) := by
          refine Classical.byContradiction fun h => hg (mget_none_iff.2 h)
        rw [mget_mset] at hg
        constructor
        · intro _
          split at hg
          · rename_i h; exact Or.inl h.symm
          · right; refine Classical.byContradiction fun h => hg (mget_none_iff.2 h)
        · intro _; exact h1
    obtain ⟨a, b, c, d⟩ := ih (monReply st [n] (online n)) (mset_nodup h n _)
    refine ⟨a, fun k => ?_, c, d⟩
    simp only [List.foldl_cons]
    rw [b k]
    show k ∈ ns ∨ k ∈ (GoMap.set st.monitored n (online n)).map (·.1) ↔ _
    rw [hk k]
    simp only [List.mem_cons]
    constructor
    · rintro (h | h | h)
      · exact Or.inl (Or.inr h)
      · exact Or.inl (Or.inl h)
      · exact Or.inr h
    · rintro ((h | h) | h)
      · exact Or.inr (Or.inl h)
      · exact Or.inl h
      · exact Or.inr (Or.inr h)

private theorem wanted_iff (st : MonState) (ndc : (st.clients.map (·.1)).Nodup) (n : Str) :
    Wanted st n ↔ n ∈ st.clients.flatMap (·.2) ∧ n ≠ serviceNickCM := by
  unfold Wanted
  rw [List.mem_flatMap]
  constructor
  · rintro ⟨h1, id, l, h2, h3⟩
    exact ⟨⟨(id, l), mget_some_mem h2, h3⟩, h1⟩
  · rintro ⟨⟨⟨id, l⟩, h1, h2⟩, h3⟩
    exact ⟨h3, id, l, mget_of_mem ndc h1, h2⟩

private theorem update_sync {limit : Nat} {online : Str → Bool} {st : MonState} {srv : List Str} (h : Base limit st srv) :
    let r := updateMonitor st
    let s := serverMons limit srv r.2
    let st' := s.2.foldl (fun m n => monReply m [n] (online n)) r.1
    Base limit st' s.1 ∧ MonAgree limit st' s.1 := by
  intro r s st'
  obtain ⟨c1, c2, c3⟩ := collect_spec st.monitored (st.clients.flatMap (·.2)) [] [] (by simp)
  generalize hcol : monCollect st.monitored (st.clients.flatMap (·.2)) ([], []) = col at c1 c2 c3
  have hw := wanted_iff st h.ndc
  have hget : ∀ n, GoMap.get st.monitored n = none ↔ n ∉ srv := by
    intro n; rw [mget_none_iff, h.known n]
  have hadd : ∀ n, n ∈ col.1 ↔ Wanted st n ∧ n ∉ srv := by
    intro n
    rw [c2 n, hw n, hget n]
    constructor
    · rintro (h | ⟨h1, h2, h3⟩)
      · simp at h
      · exact ⟨⟨h1, h2⟩, h3⟩
    · rintro ⟨⟨h1, h2⟩, h3⟩
      exact Or.inr ⟨h1, h2, h3⟩
  have hseen : ∀ n, n ∈ col.2 ↔ Wanted st n ∧ n ∈ srv := by
    intro n
    rw [c3 n, hw n]
    have : GoMap.get st.monitored n ≠ none ↔ n ∈ srv := by
      rw [ne_eq, hget n, Classical.not_not]
    rw [this]
    constructor
    · rintro (h | ⟨h1, h2, h3⟩)
      · simp at h
      · exact ⟨⟨h1, h2⟩, h3⟩
    · rintro ⟨⟨h1, h2⟩, h3⟩
      exact Or.inr ⟨h1, h2, h3⟩
  -- the commands
  generalize hrem : (st.monitored.map (·.1)).filter (fun n => decide (n ∉ col.2)) = remove
  have hremm : ∀ n, n ∈ remove ↔ n ∈ srv ∧ ¬ Wanted st n := by
    intro n
    rw [← hrem, List.mem_filter, ← h.known n]
    simp only [decide_eq_true_eq]
    rw [hseen n]
    constructor
    · rintro ⟨h1, h2⟩; exact ⟨h1, fun h => h2 ⟨h, h1⟩⟩
    · rintro ⟨h1, h2⟩; exact ⟨h1, fun h => h2 h.1⟩
  have hr2 : r.2 = if ((st.monitored.map (·.1)).all (fun n => decide (n ∉ col.2)) && decide (col.1 = []) && decide (remove ≠ [])) = true
      then [MonCmd.clear]
      else (if remove = [] then [] else [MonCmd.remove remove]) ++ (if col.1 = [] then [] else [MonCmd.add col.1]) := by
    show (updateMonitor st).2 = _
    unfold updateMonitor
    simp only [hcol, hrem]
    rw [if_neg (fun hx : st.wantNick ∉ col.1 ∧ (GoMap.get st.monitored st.wantNick).isNone ∧ st.wantNick ≠ st.nick ∧
      st.hasDesiredNick = false => by rw [h.des] at hx; simp at hx)]
  have hr1 : r.1 = { st with monitored := remove.foldl (fun m n => GoMap.del m n) st.monitored } := by
    show (updateMonitor st).1 = _
    unfold updateMonitor
    simp only [hcol, hrem]
  -- the server removes, then adds
  have hs : s = serverMonAdd limit (srv.filter (fun n => decide (n ∉ remove))) col.1 := by
    show serverMons limit srv r.2 = _
    rw [hr2]
    split
    · rename_i hall
      simp only [Bool.and_eq_true, List.all_eq_true, decide_eq_true_eq] at hall
      obtain ⟨⟨hall, hnil⟩, _⟩ := hall
      have : srv.filter (fun n => decide (n ∉ remove)) = [] := by
        rw [List.filter_eq_nil_iff]
        intro n hn
        simp only [decide_eq_true_eq, Classical.not_not]
        rw [hremm]
        refine ⟨hn, fun hw => ?_⟩
        exact hall n ((h.known n).1 hn) ((hseen n).2 ⟨hw, hn⟩)
      rw [this, hnil]
      rfl
    · by_cases hre : remove = []
      · have : srv.filter (fun n => decide (n ∉ remove)) = srv := by
          rw [List.filter_eq_self]; intro n _; simp [hre]
        rw [this]
        by_cases hce : col.1 = []
        · simp [hre, hce, serverMons, serverMonAdd]
        · simp [hre, hce, serverMons, serverMon]
      · by_cases hce : col.1 = []
        · simp [hre, hce, serverMons, serverMon, serverMonAdd]
        · simp [hre, hce, serverMons, serverMon]
  have hnd1 : (srv.filter (fun n => decide (n ∉ remove))).Nodup := h.nds.filter _
  have hle1 : (srv.filter (fun n => decide (n ∉ remove))).length ≤ limit :=
    Nat.le_trans (List.length_filter_le _ _) h.le
  have hmem1 : ∀ n, n ∈ srv.filter (fun n => decide (n ∉ remove)) ↔ n ∈ srv ∧ Wanted st n := by
    intro n
    rw [List.mem_filter]
    simp only [decide_eq_true_eq]
    rw [hremm n]
    constructor
    · rintro ⟨h1, h2⟩
      exact ⟨h1, Classical.byContradiction fun h => h2 ⟨h1, h⟩⟩
    · rintro ⟨h1, h2⟩
      exact ⟨h1, fun h => h.2 h2⟩
  obtain ⟨a, b, c, d, e⟩ := serverMonAdd_spec limit col.1 _ hnd1 hle1
  rw [← hs] at a b c d e
  obtain ⟨f1, f2⟩ := foldl_del remove st.monitored h.nd
  obtain ⟨g1, g2, g3, g4⟩ := foldl_reply online s.2 r.1 (by rw [hr1]; exact f1)
  have hknown : ∀ n, n ∈ s.1 ↔ n ∈ st'.monitored.map (·.1) := by
    intro n
    rw [g2 n, c n, hmem1 n, hr1]
    have : n ∈ (remove.foldl (fun m n => GoMap.del m n) st.monitored).map (·.1) ↔ n ∈ srv ∧ Wanted st n := by
      rw [← hmem1 n, List.mem_filter]
      simp only [decide_eq_true_eq]
      have h1 : n ∉ (remove.foldl (fun m n => GoMap.del m n) st.monitored).map (·.1) ↔ _ := mget_none_iff.symm
      rw [f2 n] at h1
      rw [← Classical.not_not (a := n ∈ (remove.foldl (fun m n => GoMap.del m n) st.monitored).map (·.1)), h1]
      by_cases hn : n ∈ remove
      · simp [hn]
      · simp only [hn, if_false, not_false_eq_true, and_true, h.known n]
        rw [mget_none_iff, Classical.not_not]
    rw [this]
    constructor
    · rintro (h | h)
      · exact Or.inr h
      · exact Or.inl h
    · rintro (h | h)
      · exact Or.inr h
      · exact Or.inl h
  have hwant : ∀ n, Wanted st' n ↔ Wanted st n := by
    intro n
    unfold Wanted
    rw [show st'.clients = st.clients from g3.trans (by rw [hr1])]
  refine ⟨⟨g1, ?_, a, b, hknown, ?_⟩, hknown, ?_, ?_⟩
  · rw [show st'.clients = st.clients from g3.trans (by rw [hr1])]; exact h.ndc
  · rw [show st'.hasDesiredNick = st.hasDesiredNick from g4.trans (by rw [hr1])]; exact h.des
  · intro n hn
    rw [hwant]
    rcases (c n).1 hn with hn | hn
    · exact ((hmem1 n).1 hn).2
    · exact ((hadd n).1 (d n hn)).1
  · rcases e with e | e
    · left
      intro n hn
      rw [hwant] at hn
      rw [c n]
      by_cases hsrv : n ∈ srv
      · exact Or.inl ((hmem1 n).2 ⟨hsrv, hn⟩)
      · exact Or.inr (e n ((hadd n).2 ⟨hn, hsrv⟩))
    · exact Or.inr e

private theorem base_step {limit : Nat} {online : Str → Bool} {st : MonState} {srv : List Str} (h : Base limit st srv)
    (ag : MonAgree limit st srv) (op : MonOp) :
    Base limit (monSync limit online (st, srv) op).1 (monSync limit online (st, srv) op).2 ∧
    MonAgree limit (monSync limit online (st, srv) op).1 (monSync limit online (st, srv) op).2 := by
  have upd : ∀ cl : GoMap Nat (List Str), (cl.map (·.1)).Nodup → Base limit { st with clients := cl } srv :=
    fun cl hcl => ⟨h.nd, hcl, h.nds, h.le, h.known, h.des⟩
  have same : Base limit st srv ∧ MonAgree limit st srv := ⟨h, ag⟩
  cases op with
  | connect id =>
    unfold monSync
    simp only [monStep]
    split
    · exact same
    · rename_i hno
      simp only [serverMons, List.foldl_nil]
      have hw : ∀ n, Wanted { st with clients := GoMap.set st.clients id [] } n ↔ Wanted st n := by
        intro n
        unfold Wanted
        constructor
        · rintro ⟨h1, id', l, h2, h3⟩
          simp only [mget_mset] at h2
          split at h2
          · simp only [Option.some.injEq] at h2; subst h2; simp at h3
          · exact ⟨h1, id', l, h2, h3⟩
        · rintro ⟨h1, id', l, h2, h3⟩
          refine ⟨h1, id', l, ?_, h3⟩
          simp only [mget_mset]
          rw [if_neg]
          · exact h2
          · rintro rfl; rw [h2] at hno; simp at hno
      refine ⟨upd _ (mset_nodup h.ndc _ _), ag.known, fun n hn => (hw n).2 (ag.only n hn), ?_⟩
      rcases ag.all with ha | ha
      · exact Or.inl fun n hn => ha n ((hw n).1 hn)
      · exact Or.inr ha
  | disconnect id =>
    unfold monSync
    exact update_sync (upd _ (mdel_nodup h.ndc _))
  | add id ns =>
    unfold monSync
    simp only [monStep]
    split
    · exact same
    · exact update_sync (upd _ (mset_nodup h.ndc _ _))
  | del id ns =>
    unfold monSync
    simp only [monStep]
    split
    · exact same
    · exact update_sync (upd _ (mset_nodup h.ndc _ _))
  | clear id =>
    unfold monSync
    simp only [monStep]
    split
    · exact same
    · exact update_sync (upd _ (mset_nodup h.ndc _ _))
  | reconnect =>
    unfold monSync
    exact update_sync ⟨by simp, h.ndc, by simp [serverKept], by simp [serverKept], by simp [serverKept], h.des⟩

/-- **C24** (partial: the user has the nick it wants, and the server answers each command before the next client
event, see the witnesses below): after any sequence of MONITOR commands, connections and disconnections of any
number of clients and new connections to the server, the server monitors exactly the nicks some client monitors, or as many of them as it
allows. -/
theorem C24_merged_partial (limit : Nat) (online : Str → Bool) (nick want : Str) (ops : List MonOp) :
    let r := ops.foldl (monSync limit online) (⟨[], [], nick, want, true⟩, [])
    MonAgree limit r.1 r.2 := by
  intro r
  have gen : ∀ (ops : List MonOp) (st : MonState) (srv : List Str), Base limit st srv → MonAgree limit st srv →
      MonAgree limit (ops.foldl (monSync limit online) (st, srv)).1 (ops.foldl (monSync limit online) (st, srv)).2 := by
    intro ops
    induction ops with
    | nil => intro st srv _ h; exact h
    | cons op ops ih =>
      intro st srv h ag
      obtain ⟨h1, h2⟩ := base_step (online := online) h ag op
      exact ih _ _ h1 h2
  refine gen ops _ _ ⟨by simp, by simp, by simp, by simp, by simp, rfl⟩ ⟨by simp, by simp, Or.inl ?_⟩
  rintro n ⟨_, id, l, h, _⟩
  simp [GoMap.get] at h

/-- With two clients and a server that allows two nicks. -/
example :
    let r := [MonOp.connect 1, .connect 2, .add 1 [b!"a", b!"b"], .add 2 [b!"b", b!"c", b!"bouncerserv"], .del 1 [b!"a"],
      .disconnect 1, .reconnect].foldl (monSync 2 (fun _ => true)) (⟨[], [], b!"me", b!"me", true⟩, [])
    r.2 = [b!"b", b!"c"] := by decide

private theorem add_grows (ns : List Str) : ∀ (l : List Str) (n : Str), n ∈ l → n ∈ ns.foldl (fun l n => (monAdd l n).1) l := by
  induction ns with
  | nil => intro l n h; exact h
  | cons m ns ih =>
    intro l n h
    refine ih _ n ?_
    show n ∈ (monAdd l m).1
    unfold monAdd
    split
    · exact h
    · dsimp only
      split
      · exact h
      · exact List.mem_append_left _ h

private theorem add_told (m : GoMap Str Bool) (ns : List Str) : ∀ (l : List Str) (n : Str), n ∈ ns →
    .full n ∈ monAddTell m l ns ∨ (n ∈ ns.foldl (fun l n => (monAdd l n).1) l ∧
      ((∃ o, .status n o ∈ monAddTell m l ns) ∨ (n ≠ serviceNickCM ∧ GoMap.get m n = none))) := by
  induction ns with
  | nil => intro l n h; cases h
  | cons x ns ih =>
    intro l n h
    rw [monAddTell, List.foldl_cons]
    rcases List.mem_cons.1 h with rfl | h
    · by_cases hr : (monAdd l n).2 = false
      · left
        rw [if_pos hr]
        exact List.mem_append_left _ (List.mem_singleton.2 rfl)
      · right
        rw [if_neg hr]
        refine ⟨add_grows ns _ n ?_, ?_⟩
        · unfold monAdd at hr ⊢
          split
          · rename_i hl; rw [if_pos hl] at hr; exact absurd rfl hr
          · dsimp only
            split
            · assumption
            · exact List.mem_append_right _ (List.mem_singleton.2 rfl)
        · by_cases hsv : n = serviceNickCM
          · left
            rw [if_pos hsv]
            exact ⟨true, List.mem_append_left _ (List.mem_singleton.2 rfl)⟩
          · rw [if_neg hsv]
            cases hg : GoMap.get m n with
            | none => exact .inr ⟨hsv, rfl⟩
            | some o => exact .inl ⟨o, List.mem_append_left _ (List.mem_singleton.2 rfl)⟩
    · rcases ih (monAdd l x).1 n h with h | ⟨h, ⟨o, h'⟩ | h'⟩
      · exact .inl (List.mem_append_right _ h)
      · exact .inr ⟨h, .inl ⟨o, List.mem_append_right _ h'⟩⟩
      · exact .inr ⟨h, .inr h'⟩

private theorem update_asks (st : MonState) (n : Str) (h1 : n ∈ st.clients.flatMap (·.2)) (h2 : n ≠ serviceNickCM)
    (h3 : GoMap.get st.monitored n = none) : ∃ ns, .add ns ∈ (updateMonitor st).2 ∧ n ∈ ns := by
  obtain ⟨-, c2, -⟩ := collect_spec st.monitored (st.clients.flatMap (·.2)) [] [] (by simp)
  have hn := (c2 n).2 (.inr ⟨h1, h2, h3⟩)
  unfold updateMonitor
  dsimp only
  generalize monCollect st.monitored (st.clients.flatMap (·.2)) ([], []) = col at hn
  generalize hadd : (if st.wantNick ∉ col.1 ∧ (GoMap.get st.monitored st.wantNick).isNone = true ∧ st.wantNick ≠ st.nick ∧
      st.hasDesiredNick = false then col.1 ++ [st.wantNick] else col.1) = add
  have ha : n ∈ add := by
    rw [← hadd]
    split
    · exact List.mem_append_left _ hn
    · exact hn
  have hne : add ≠ [] := by rintro rfl; cases ha
  refine ⟨add, ?_, ha⟩
  simp [hne]

/-- **C24**: every nick of a `MONITOR +` is answered, whatever has happened before: the client is told that its list is
full, or the nick is on its list and it is told at once whether the nick is online or the server is asked. -/
theorem C24_answered (st : MonState) (id : Nat) (l nicks : List Str) (n : Str) (hc : GoMap.get st.clients id = some l)
    (hn : n ∈ nicks) :
    let told := monAddTell st.monitored l nicks
    let r := monStep st (.add id nicks)
    .full n ∈ told ∨ (n ∈ r.1.listOf id ∧ ((∃ o, .status n o ∈ told) ∨ ∃ ns, .add ns ∈ r.2 ∧ n ∈ ns)) := by
  intro told r
  have hr : r = updateMonitor { st with clients := GoMap.set st.clients id (nicks.foldl (fun l n => (monAdd l n).1) l) } := by
    show monStep st (.add id nicks) = _
    simp only [monStep, hc, MonState.listOf]
    rfl
  rcases add_told st.monitored nicks l n hn with h | ⟨h, h'⟩
  · exact .inl h
  · right
    refine ⟨?_, ?_⟩
    · rw [hr]
      unfold MonState.listOf
      rw [um_clients]
      simp only [mget_mset, if_true, Option.getD_some]
      exact h
    · rcases h' with h' | ⟨h2, h3⟩
      · exact .inl h'
      · right
        rw [hr]
        refine update_asks _ n ?_ h2 h3
        rw [List.mem_flatMap]
        refine ⟨(id, nicks.foldl (fun l n => (monAdd l n).1) l), ?_, h⟩
        refine mget_some_mem ?_
        rw [mget_mset, if_pos rfl]

example :
    let st : MonState := ⟨[(1, []), (2, [b!"bob"])], [(b!"bob", true)], b!"me", b!"me", true⟩
    monAddTell st.monitored [] [b!"amy", b!"bob"] = [.status b!"bob" true] ∧
    (monStep st (.add 1 [b!"amy", b!"bob"])).2 = [.add [b!"amy"]] := by decide

/-- **C24**: each nick the server refuses is reported, with the limit of the server, to exactly the clients that monitor
it. -/
theorem C24_refused (l : List Str) (limit : Str) (nicks : List Str) (m : MonMsg) :
    m ∈ monRefuse l limit nicks ↔ ∃ n ∈ nicks, n ∈ l ∧ m = .refused limit n := by
  unfold monRefuse
  rw [List.mem_map]
  constructor
  · rintro ⟨n, hn, rfl⟩
    have := List.mem_filter.1 hn
    exact ⟨n, this.1, by simpa using this.2, rfl⟩
  · rintro ⟨n, h1, h2, rfl⟩
    exact ⟨n, List.mem_filter.2 ⟨h1, by simpa using h2⟩, rfl⟩

example : monRefuse [b!"amy", b!"bob"] b!"2" [b!"bob", b!"carl"] = [.refused b!"2" b!"bob"] := by decide

/-- The full claim fails for the user's desired nick: each update of the list drops it again when no client
monitors it, so that it is monitored only every other time. -/
theorem C24_desired_nick_violated :
    let st0 : MonState := ⟨[(1, [])], [], b!"me_", b!"me", false⟩
    let r1 := monSync 100 (fun _ => true) (st0, []) (.add 1 [b!"a"])
    let r2 := monSync 100 (fun _ => true) r1 (.add 1 [b!"b"])
    r1.2 = [b!"a", b!"me"] ∧ r2.2 = [b!"a", b!"b"] := by decide

/-- It also fails when the server's report is still on its way: a nick removed by the last client that monitors
it is recorded again when the report arrives, and a client that adds it then gets nothing sent to the server,
although the server does not monitor the nick any more. -/
theorem C24_race_violated :
    let st0 : MonState := ⟨[(1, []), (2, [b!"b"])], [(b!"b", true)], b!"me", b!"me", true⟩
    let r1 := monStep st0 (.add 1 [b!"a"])
    let s1 := serverMons 100 [b!"b"] r1.2
    -- the server reports on `a`; then the report and the removal cross
    let st1 := monReply r1.1 [b!"a"] false
    let r2 := monStep st1 (.del 1 [b!"a"])
    let s2 := serverMons 100 s1.1 r2.2
    let st2 := monReply r2.1 [b!"a"] true
    let r3 := monStep st2 (.add 1 [b!"a"])
    s2.1 = [b!"b"] ∧ r3.2 = [] := by decide

end Verif.Props
