import Verif.Model.Folding
import Verif.Proof.Casemap

/-! # C92: the bouncer takes names for the same exactly if the server does -/

namespace Verif.Props
open Verif.Model Verif.Spec Verif.Proof

/-! ## Specification -/

/-- The mapping a server uses that announces `CASEMAPPING=value`; without a value, or with one that is not known,
that of RFC 1459. -/
def announcedSys (value : Option Str) : CaseSys :=
  if value = some b!"ascii" then .ascii
  else if value = some b!"rfc1459-strict" then .rfc1459Strict
  else .rfc1459

/-- What the server has said: whether a connection is being opened, and once it is accepted, the mapping, if it is
known. -/
structure ServerView where
  dialing : Bool
  said : Option (Option CaseSys)
deriving DecidableEq

/-- What the server has said after an event.  A server that ends its greeting without a word on its mapping uses that
of RFC 1459. -/
def viewAfter (v : ServerView) : FoldOp → ServerView
  | .dialed => { v with dialing := true }
  | .welcome => if v.dialing then ⟨false, some none⟩ else v
  | .announce x => if v.said.isSome then { v with said := some (some (announcedSys x)) } else v
  | .endOfMotd => if v.said = some none then { v with said := some (some .rfc1459) } else v
  | .disconnected => { v with said := none }
  | .updated => ⟨false, none⟩
  | .restarted => ⟨false, none⟩
  | _ => v

/-- What the server has said after a history. -/
def serverView (ops : List FoldOp) : ServerView := ops.foldl viewAfter ⟨false, none⟩

/-- A table takes names for the same exactly if the server does: when it is searched, when it is changed, and in
what it lists. -/
def FoldsLike {V : Type} (s : CaseSys) (t : CMMap V) : Prop :=
  (∀ q, t.has q = true ↔ ∃ k ∈ t.forEach.map (·.1), SameName s k q) ∧
  t.forEach.Pairwise (fun a b => ¬ SameName s a.1 b.1) ∧
  (∀ n q v, (t.set n v).get q = if SameName s n q then some v else t.get q) ∧
  (∀ n q, (t.del n).get q = if SameName s n q then none else t.get q)

/-! ## Tables -/

private def TableOK {V : Type} (cm : CaseMapping) (t : CMMap V) : Prop := CMInv t ∧ t.cm = cm

private theorem table_new {V : Type} (cm : CaseMapping) : TableOK cm (CMMap.new cm : CMMap V) := ⟨cmInv_new cm, rfl⟩

private theorem table_recase {V : Type} (cm : CaseMapping) (t : CMMap V) (o) : TableOK cm (t.setCaseMapping o cm) :=
  ⟨cmInv_setCaseMapping _ _ _, rfl⟩

private theorem table_set {V : Type} {cm : CaseMapping} {t : CMMap V} (h : TableOK cm t) (n : Str) (v : V) :
    TableOK cm (t.set n v) := ⟨cmInv_set h.1 n v, by rw [set_cm]; exact h.2⟩

private theorem table_del {V : Type} {cm : CaseMapping} {t : CMMap V} (h : TableOK cm t) (n : Str) :
    TableOK cm (t.del n) := ⟨cmInv_del h.1 n, h.2⟩

private theorem table_folds {V : Type} {cm : CaseMapping} {t : CMMap V} (h : TableOK cm t) : FoldsLike (sysOf cm) t := by
  obtain ⟨inv, hcm⟩ := h
  refine ⟨?_, ?_, ?_, ?_⟩
  · intro q
    unfold CMMap.has
    rw [Option.isSome_iff_exists, hcm]
    constructor
    · rintro ⟨e, he⟩
      have hm := mget_some_mem he
      refine ⟨e.originalKey, List.mem_map.2 ⟨(e.originalKey, e.value), List.mem_map.2 ⟨_, hm, rfl⟩, rfl⟩, ?_⟩
      rw [← casemap_eq_iff]
      have := inv.2 _ hm
      rw [hcm] at this
      exact this.symm
    · rintro ⟨k, hk, hs⟩
      obtain ⟨x, hx, rfl⟩ := List.mem_map.1 hk
      obtain ⟨p, hp, rfl⟩ := List.mem_map.1 hx
      have hk := inv.2 p hp
      rw [hcm] at hk
      refine ⟨p.2, ?_⟩
      have := mget_of_mem (k := p.1) inv.1 (show (p.1, p.2) ∈ t.m from hp)
      rw [hk, (casemap_eq_iff cm _ _).2 hs] at this
      exact this
  · unfold CMMap.forEach
    rw [List.pairwise_map]
    have nd := inv.1
    rw [List.Nodup, List.pairwise_map] at nd
    refine List.Pairwise.imp_of_mem ?_ nd
    intro a b ha hb hne hs
    apply hne
    rw [inv.2 a ha, inv.2 b hb, hcm]
    exact (casemap_eq_iff cm _ _).2 hs
  · intro n q v
    unfold CMMap.get
    rw [set_cm, mget_set, hcm]
    simp only [casemap_eq_iff]
    split
    · cases GoMap.get t.m (casemap cm q) <;> simp
    · rfl
  · intro n q
    unfold CMMap.get CMMap.del
    simp only [mget_mdel, hcm, casemap_eq_iff]
    split <;> simp

/-! ## The invariant -/

private structure ConnOK (cm : CaseMapping) (uc : FoldConn) : Prop where
  channels : TableOK cm uc.channels
  members : ∀ p ∈ uc.channels.m, TableOK cm p.2.value
  users : TableOK cm uc.users
  monitored : TableOK cm uc.monitored

private structure ClientOK (cm : CaseMapping) (dc : FoldClient) : Prop where
  map : dc.cm = cm
  nick : dc.nickCM = casemap cm dc.nick
  monitored : TableOK cm dc.monitored

private structure Agree (cm : CaseMapping) (st : FoldNet) : Prop where
  map : st.cm = cm
  channels : TableOK cm st.channels
  delivered : TableOK cm st.delivered
  pushTargets : TableOK cm st.pushTargets
  conn : ∀ uc, st.conn = some uc → ConnOK cm uc
  clients : ∀ dc ∈ st.clients, ClientOK cm dc

private theorem client_ok (ord : FoldOrder) (cm : CaseMapping) (dc : FoldClient) : ClientOK cm (foldClient ord cm dc) :=
  ⟨rfl, rfl, table_recase cm dc.monitored _⟩

private theorem conn_ok (ord : FoldOrder) (cm : CaseMapping) (uc : FoldConn) : ConnOK cm (foldConn ord cm uc) := by
  have h := table_recase cm uc.channels (ord.chans uc.channels.m)
  refine ⟨⟨⟨?_, ?_⟩, h.2⟩, ?_, table_recase cm uc.users _, table_recase cm uc.monitored _⟩
  · show ((_ : List _).map _).Nodup
    unfold foldConn foldMembers
    dsimp only
    rw [List.map_map]
    exact h.1.1
  · intro p hp
    unfold foldConn foldMembers at hp ⊢
    dsimp only at hp ⊢
    obtain ⟨q, hq, rfl⟩ := List.mem_map.1 hp
    exact h.1.2 q hq
  · intro p hp
    unfold foldConn foldMembers at hp
    dsimp only at hp
    obtain ⟨q, hq, rfl⟩ := List.mem_map.1 hp
    exact table_recase cm q.2.value _

private theorem update_agree (ord : FoldOrder) (st : FoldNet) (cm : CaseMapping) : Agree cm (foldUpdate ord st cm) := by
  refine ⟨rfl, table_recase cm st.channels _, table_recase cm st.delivered _, table_recase cm st.pushTargets _, ?_, ?_⟩
  · intro uc h
    obtain ⟨uc', _, rfl⟩ := Option.map_eq_some_iff.1 (show st.conn.map (foldConn ord cm) = some uc from h)
    exact conn_ok ord cm uc'
  · intro dc h
    obtain ⟨dc', _, rfl⟩ := List.mem_map.1 (show dc ∈ st.clients.map (foldClient ord cm) from h)
    exact client_ok ord cm dc'

private theorem parse_sys (v : Option Str) : sysOf (foldParse v) = announcedSys v := by
  unfold foldParse announcedSys parseCaseMapping
  cases v with
  | none => rfl
  | some v =>
    simp only [Option.getD_some, Option.some.injEq]
    by_cases h1 : v = b!"ascii"
    · rw [if_pos h1, if_pos h1]; rfl
    · rw [if_neg h1, if_neg h1]
      by_cases h2 : v = b!"rfc1459"
      · rw [if_pos h2, if_neg (by rw [h2]; decide)]; rfl
      · rw [if_neg h2]
        by_cases h3 : v = b!"rfc1459-strict"
        · rw [if_pos h3, if_pos h3]; rfl
        · rw [if_neg h3, if_neg h3]; rfl

private theorem sysOf_inj {a b : CaseMapping} (h : sysOf a = sysOf b) : a = b := by
  cases a <;> cases b <;> first | rfl | cases h

private structure FInv (st : FoldNet) (v : ServerView) : Prop where
  dialing : v.dialing = st.dialed.isSome
  dialed : ∀ uc, st.dialed = some uc → uc.announced = false ∧ uc.gotMotd = false
  said : v.said.isSome = st.conn.isSome
  silent : v.said = some none → ∀ uc, st.conn = some uc → uc.announced = false ∧ uc.gotMotd = false
  known : ∀ s, v.said = some (some s) → ∃ cm, sysOf cm = s ∧ Agree cm st ∧
    ∀ uc, st.conn = some uc → uc.announced = false → cm = .rfc1459

/-- An event that changes neither the mapping nor what is known about it. -/
private theorem finv_keep {st st' : FoldNet} {v : ServerView} (h : FInv st v) (hd : st'.dialed = st.dialed)
    (hc : st'.conn.map (fun uc => (uc.announced, uc.gotMotd)) = st.conn.map (fun uc => (uc.announced, uc.gotMotd)))
    (ha : ∀ cm, Agree cm st → Agree cm st') : FInv st' v := by
  have hflags : ∀ uc', st'.conn = some uc' → ∃ uc, st.conn = some uc ∧ uc.announced = uc'.announced ∧
      uc.gotMotd = uc'.gotMotd := by
    intro uc' e
    rw [e] at hc
    cases h0 : st.conn with
    | none => rw [h0] at hc; cases hc
    | some uc =>
      rw [h0] at hc
      simp only [Option.map_some, Option.some.injEq, Prod.mk.injEq] at hc
      exact ⟨uc, rfl, hc.1.symm, hc.2.symm⟩
  refine ⟨by rw [hd]; exact h.dialing, fun uc e => h.dialed uc (hd ▸ e), ?_, ?_, ?_⟩
  · rw [h.said]
    cases h1 : st.conn <;> cases h2 : st'.conn <;> rw [h1, h2] at hc <;> first | rfl | cases hc
  · intro hs uc' e
    obtain ⟨uc, e', h1, h2⟩ := hflags uc' e
    have := h.silent hs uc e'
    rw [h1, h2] at this
    exact this
  · intro s hs
    obtain ⟨cm, h1, h2, h3⟩ := h.known s hs
    refine ⟨cm, h1, ha cm h2, ?_⟩
    intro uc' e ha
    obtain ⟨uc, e', h4, -⟩ := hflags uc' e
    exact h3 uc e' (h4.trans ha)

private theorem agree_conn {cm : CaseMapping} {st : FoldNet} (h : Agree cm st) (f : FoldConn → FoldConn)
    (hf : ∀ uc, st.conn = some uc → ConnOK cm uc → ConnOK cm (f uc)) : Agree cm { st with conn := st.conn.map f } := by
  refine ⟨h.map, h.channels, h.delivered, h.pushTargets, ?_, h.clients⟩
  intro uc e
  obtain ⟨uc', e', rfl⟩ := Option.map_eq_some_iff.1 (show st.conn.map f = some uc from e)
  exact hf uc' e' (h.conn uc' e')

private theorem agree_on {cm : CaseMapping} {st : FoldNet} (h : Agree cm st) (id : Nat) (f : FoldClient → FoldClient)
    (hf : ∀ dc, ClientOK cm dc → ClientOK cm (f dc)) : Agree cm (foldOn st id f) := by
  refine ⟨h.map, h.channels, h.delivered, h.pushTargets, h.conn, ?_⟩
  intro dc hd
  obtain ⟨dc', hd', rfl⟩ := List.mem_map.1 (show dc ∈ st.clients.map _ from hd)
  split
  · exact hf _ (h.clients dc' hd')
  · exact h.clients dc' hd'

private theorem agree_table {cm : CaseMapping} {st : FoldNet} (h : Agree cm st) (t : FoldTable)
    (f : CMMap Unit → CMMap Unit) (hf : ∀ c, TableOK cm c → TableOK cm (f c)) : Agree cm (st.onTable t f) := by
  cases t with
  | channels => exact ⟨h.map, hf _ h.channels, h.delivered, h.pushTargets, h.conn, h.clients⟩
  | delivered => exact ⟨h.map, h.channels, hf _ h.delivered, h.pushTargets, h.conn, h.clients⟩
  | pushTargets => exact ⟨h.map, h.channels, h.delivered, hf _ h.pushTargets, h.conn, h.clients⟩
  | users => exact agree_conn h _ (fun uc _ k => ⟨k.channels, k.members, hf _ k.users, k.monitored⟩)
  | monitored => exact agree_conn h _ (fun uc _ k => ⟨k.channels, k.members, k.users, hf _ k.monitored⟩)

private theorem table_flags (st : FoldNet) (t : FoldTable) (f : CMMap Unit → CMMap Unit) :
    (st.onTable t f).dialed = st.dialed ∧
    (st.onTable t f).conn.map (fun uc => (uc.announced, uc.gotMotd)) = st.conn.map (fun uc => (uc.announced, uc.gotMotd)) := by
  cases t <;> refine ⟨rfl, ?_⟩ <;> first | rfl | (unfold FoldNet.onTable FoldConn.onTable; cases st.conn <;> rfl)

private theorem set_members {cm : CaseMapping} {t : CMMap (CMMap Unit)} (h : ∀ p ∈ t.m, TableOK cm p.2.value) (n : Str)
    (ms : CMMap Unit) (hm : TableOK cm ms) : ∀ p ∈ (t.set n ms).m, TableOK cm p.2.value := by
  intro p hp
  unfold CMMap.set at hp
  dsimp only at hp
  split at hp <;> dsimp only at hp <;> rcases mem_mset hp with rfl | hp
  · exact hm
  · exact h p hp
  · exact hm
  · exact h p hp

private theorem get_members {cm : CaseMapping} {t : CMMap (CMMap Unit)} (h : ∀ p ∈ t.m, TableOK cm p.2.value) {n : Str}
    {ms : CMMap Unit} (hg : t.get n = some ms) : TableOK cm ms := by
  unfold CMMap.get at hg
  obtain ⟨e, he, rfl⟩ := Option.map_eq_some_iff.1 hg
  exact h _ (mget_some_mem he)

private theorem conn_flags (st : FoldNet) (f : FoldConn → FoldConn)
    (hf : ∀ uc, ((f uc).announced, (f uc).gotMotd) = (uc.announced, uc.gotMotd)) :
    (st.conn.map f).map (fun uc => (uc.announced, uc.gotMotd)) = st.conn.map (fun uc => (uc.announced, uc.gotMotd)) := by
  cases st.conn with
  | none => rfl
  | some uc => simp only [Option.map_some, hf]

private theorem finv_step (ord : FoldOrder) {st : FoldNet} {v : ServerView} (h : FInv st v) (op : FoldOp)
    (hno : ∀ x, op ≠ .early x) : FInv (foldStep ord st op) (viewAfter v op) := by
  cases op with
  | put t n =>
    exact finv_keep h (table_flags st t _).1 (table_flags st t _).2 (fun cm k => agree_table k t _ (fun c hc => table_set hc n ()))
  | drop t n =>
    exact finv_keep h (table_flags st t _).1 (table_flags st t _).2 (fun cm k => agree_table k t _ (fun c hc => table_del hc n))
  | joined ch =>
    refine finv_keep h rfl (conn_flags st _ (fun _ => rfl)) (fun cm k => agree_conn k _ (fun uc _ c => ?_))
    have hn : TableOK cm (CMMap.new st.cm : CMMap Unit) := by rw [k.map]; exact table_new cm
    exact ⟨table_set c.channels ch _, set_members c.members ch _ hn, c.users, c.monitored⟩
  | left ch =>
    refine finv_keep h rfl (conn_flags st _ (fun _ => rfl)) (fun cm k => agree_conn k _ (fun uc _ c => ?_))
    exact ⟨table_del c.channels ch, fun p hp => c.members p (List.mem_filter.1 hp).1, c.users, c.monitored⟩
  | member ch nick =>
    refine finv_keep h rfl (conn_flags st _ (fun uc => by split <;> rfl)) (fun cm k => agree_conn k _ (fun uc _ c => ?_))
    split
    · rename_i ms hg
      have hm := table_set (get_members c.members hg) nick ()
      exact ⟨table_set c.channels ch _, set_members c.members ch _ hm, c.users, c.monitored⟩
    · exact c
  | noMember ch nick =>
    refine finv_keep h rfl (conn_flags st _ (fun uc => by split <;> rfl)) (fun cm k => agree_conn k _ (fun uc _ c => ?_))
    split
    · rename_i ms hg
      have hm := table_del (get_members c.members hg) nick
      exact ⟨table_set c.channels ch _, set_members c.members ch _ hm, c.users, c.monitored⟩
    · exact c
  | login id nick =>
    refine finv_keep h rfl rfl (fun cm k => ?_)
    refine ⟨k.map, k.channels, k.delivered, k.pushTargets, k.conn, ?_⟩
    intro dc hd
    rcases List.mem_append.1 (show dc ∈ st.clients ++ _ from hd) with hd | hd
    · exact k.clients dc hd
    · rw [List.mem_singleton.1 hd, k.map]
      exact client_ok ord cm _
  | logout id =>
    refine finv_keep h rfl rfl (fun cm k => ?_)
    exact ⟨k.map, k.channels, k.delivered, k.pushTargets, k.conn, fun dc hd => k.clients dc (List.mem_filter.1 hd).1⟩
  | nick id nick =>
    exact finv_keep h rfl rfl (fun cm k => agree_on k id _ (fun dc c => ⟨c.map, by dsimp only; rw [c.map], c.monitored⟩))
  | monitor id n =>
    exact finv_keep h rfl rfl (fun cm k => agree_on k id _ (fun dc c => ⟨c.map, c.nick, table_set c.monitored n ()⟩))
  | unmonitor id n =>
    exact finv_keep h rfl rfl (fun cm k => agree_on k id _ (fun dc c => ⟨c.map, c.nick, table_del c.monitored n⟩))
  | clear id =>
    exact finv_keep h rfl rfl (fun cm k => agree_on k id _ (fun dc c => ⟨c.map, c.nick, by rw [k.map]; exact table_new cm⟩))
  | dialed =>
    refine ⟨rfl, ?_, h.said, h.silent, ?_⟩
    · intro uc e
      cases (show some foldNewConn = some uc from e)
      exact ⟨rfl, rfl⟩
    · intro s hs
      obtain ⟨cm, h1, h2, h3⟩ := h.known s hs
      exact ⟨cm, h1, ⟨h2.map, h2.channels, h2.delivered, h2.pushTargets, h2.conn, h2.clients⟩, h3⟩
  | early x => exact absurd rfl (hno x)
  | welcome =>
    have hd := h.dialing
    cases e : st.dialed with
    | none =>
      rw [e] at hd
      rw [show foldStep ord st .welcome = st by simp only [foldStep, e],
        show viewAfter v .welcome = v from if_neg (by rw [hd]; simp)]
      exact h
    | some uc =>
      rw [e] at hd
      rw [show foldStep ord st .welcome =
          { st with conn := some uc, dialed := none, clients := st.clients.map (foldClient ord st.cm) } by
            simp only [foldStep, e],
        show viewAfter v .welcome = ⟨false, some none⟩ from if_pos (by rw [hd]; rfl)]
      refine ⟨rfl, fun _ h' => (nomatch h'), rfl, ?_, fun s hs => (nomatch hs)⟩
      intro _ uc' e'
      cases (show some uc = some uc' from e')
      exact h.dialed uc e
  | announce x =>
    have hsd := h.said
    cases e : st.conn with
    | none =>
      rw [e] at hsd
      rw [show foldStep ord st (.announce x) = st by simp only [foldStep, e],
        show viewAfter v (.announce x) = v from if_neg (by rw [hsd]; simp)]
      exact h
    | some uc =>
      rw [e] at hsd
      rw [show foldStep ord st (.announce x) =
          foldUpdate ord { st with conn := some { uc with announced := x.isSome } } (foldParse x) by simp only [foldStep, e],
        show viewAfter v (.announce x) = { v with said := some (some (announcedSys x)) } from if_pos (by rw [hsd]; rfl)]
      refine ⟨h.dialing, h.dialed, rfl, fun h' => (nomatch h'), ?_⟩
      intro s hs
      refine ⟨foldParse x, ?_, update_agree ord _ _, ?_⟩
      · rw [parse_sys]
        simpa using hs
      · intro uc' e' ha
        have : uc'.announced = x.isSome := by
          cases (show some (foldConn ord (foldParse x) { uc with announced := x.isSome }) = some uc' from e')
          rfl
        rw [ha] at this
        cases x with
        | none => rfl
        | some y => cases this
  | endOfMotd =>
    have hsd := h.said
    cases e : st.conn with
    | none =>
      rw [e] at hsd
      rw [show foldStep ord st .endOfMotd = st by simp only [foldStep, e],
        show viewAfter v .endOfMotd = v from if_neg (by intro h'; rw [h'] at hsd; cases hsd)]
      exact h
    | some uc =>
      have hstep : foldStep ord st .endOfMotd = if uc.gotMotd then st
          else if uc.announced then { st with conn := some { uc with gotMotd := true } }
          else foldUpdate ord { st with conn := some { uc with gotMotd := true } } stdCaseMapping := by
        simp only [foldStep, e]
      rw [hstep]
      by_cases hs : v.said = some none
      · obtain ⟨h1, h2⟩ := h.silent hs uc e
        rw [show viewAfter v .endOfMotd = { v with said := some (some .rfc1459) } from if_pos hs]
        rw [if_neg (by rw [h2]; decide), if_neg (by rw [h1]; decide)]
        refine ⟨h.dialing, h.dialed, rfl, fun h' => (nomatch h'), ?_⟩
        intro s hs'
        refine ⟨.rfc1459, ?_, update_agree ord _ _, fun _ _ _ => rfl⟩
        simpa [sysOf] using hs'
      · rw [show viewAfter v .endOfMotd = v from if_neg hs]
        split
        · exact h
        · split
          · rename_i hm ha
            refine ⟨h.dialing, h.dialed, by rw [hsd, e]; rfl, fun h' => absurd h' hs, ?_⟩
            intro s hs'
            obtain ⟨cm, h1, h2, h3⟩ := h.known s hs'
            refine ⟨cm, h1, ⟨h2.map, h2.channels, h2.delivered, h2.pushTargets, ?_, h2.clients⟩, ?_⟩
            · intro uc' e'
              cases (show some { uc with gotMotd := true } = some uc' from e')
              have := h2.conn uc e
              exact ⟨this.channels, this.members, this.users, this.monitored⟩
            · intro uc' e' ha'
              cases (show some { uc with gotMotd := true } = some uc' from e')
              exact h3 uc e ha'
          · rename_i hm ha
            refine ⟨h.dialing, h.dialed, by rw [hsd, e]; rfl, fun h' => absurd h' hs, ?_⟩
            intro s hs'
            obtain ⟨cm, h1, h2, h3⟩ := h.known s hs'
            have : cm = .rfc1459 := h3 uc e (by simpa using ha)
            subst this
            exact ⟨.rfc1459, h1, update_agree ord _ _, fun _ _ _ => rfl⟩
  | disconnected => exact ⟨h.dialing, h.dialed, rfl, fun h' => (nomatch h'), fun s hs => (nomatch hs)⟩
  | updated => exact ⟨rfl, fun _ h' => (nomatch h'), rfl, fun h' => (nomatch h'), fun s hs => (nomatch hs)⟩
  | restarted => exact ⟨rfl, fun _ h' => (nomatch h'), rfl, fun h' => (nomatch h'), fun s hs => (nomatch hs)⟩

private theorem finv_run (ord : FoldOrder) (ops : List FoldOp) : ∀ (st : FoldNet) (v : ServerView), FInv st v →
    (∀ x, .early x ∉ ops) → FInv (foldRun ord st ops) (ops.foldl viewAfter v) := by
  induction ops with
  | nil => intro st v h _; exact h
  | cons op ops ih =>
    intro st v h hno
    exact ih _ _ (finv_step ord h op (fun x e => hno x (e ▸ List.mem_cons_self)))
      (fun x hx => hno x (List.mem_cons_of_mem _ hx))

private theorem finv_start (channels : List Str) : FInv (foldNewNet channels) ⟨false, none⟩ :=
  ⟨rfl, fun _ h => (nomatch h), rfl, fun h => (nomatch h), fun _ h => (nomatch h)⟩

/-! ## Theorems -/

/-- C92: after every history, once the server has said how it compares names (or has ended its greeting without), every
table in which the bouncer keeps names for the network, its connection, its channels and its clients compares names in
this way, whenever and under whatever mapping the table and its entries were made; and a name is taken for the nick of
a client exactly if it is the same to the server.

Missing: the time between the connection and the announcement (`C92_unknown_violated`); announcements before the
connection is accepted (`C92_early_violated`). -/
theorem C92_same_partial (ord : FoldOrder) (channels : List Str) (ops : List FoldOp) (hno : ∀ x, .early x ∉ ops)
    (s : CaseSys) (hs : (serverView ops).said = some (some s)) :
    let st := foldRun ord (foldNewNet channels) ops
    FoldsLike s st.channels ∧ FoldsLike s st.delivered ∧ FoldsLike s st.pushTargets ∧
    (∃ uc, st.conn = some uc ∧ FoldsLike s uc.channels ∧ FoldsLike s uc.users ∧ FoldsLike s uc.monitored ∧
      ∀ e ∈ uc.channels.forEach, FoldsLike s e.2) ∧
    (∀ dc ∈ st.clients, FoldsLike s dc.monitored ∧ ∀ q, casemap dc.cm q = dc.nickCM ↔ SameName s q dc.nick) ∧
    (∀ a b, casemap st.cm a = casemap st.cm b ↔ SameName s a b) := by
  intro st
  have inv := finv_run ord ops _ _ (finv_start channels) hno
  obtain ⟨cm, rfl, ag, -⟩ := inv.known s hs
  refine ⟨table_folds ag.channels, table_folds ag.delivered, table_folds ag.pushTargets, ?_, ?_, ?_⟩
  · have hsd := inv.said
    rw [show (ops.foldl viewAfter ⟨false, none⟩).said = _ from hs] at hsd
    obtain ⟨uc, e⟩ := Option.isSome_iff_exists.1 hsd.symm
    have k := ag.conn uc e
    refine ⟨uc, e, table_folds k.channels, table_folds k.users, table_folds k.monitored, ?_⟩
    intro x hx
    obtain ⟨p, hp, rfl⟩ := List.mem_map.1 hx
    exact table_folds (k.members p hp)
  · intro dc hd
    have k := ag.clients dc hd
    refine ⟨table_folds k.monitored, fun q => ?_⟩
    rw [k.map, k.nick]
    exact casemap_eq_iff cm _ _
  · intro a b
    rw [show st.cm = cm from ag.map]
    exact casemap_eq_iff cm _ _

/-- A history: the server is connected to, a client logs in before the mapping is known, the mapping is announced, names
are kept, the connection is lost and another one ends its greeting without a mapping. -/
private def foldHistory : List FoldOp :=
  [.dialed, .welcome, .login 1 b!"al[", .monitor 1 b!"bob[", .announce (some b!"ascii"), .put .channels b!"#a{",
   .joined b!"#a[", .member b!"#a[" b!"Bob", .disconnected, .dialed, .welcome, .joined b!"#a[", .member b!"#a[" b!"Bob{",
   .nick 1 b!"al{"]

private def listOrder : FoldOrder := ⟨id, id⟩

example : (serverView foldHistory).said = some none ∧
    (serverView (foldHistory ++ [.endOfMotd])).said = some (some .rfc1459) ∧
    (serverView (foldHistory.take 8)).said = some (some .ascii) := by decide

example : ∀ x, FoldOp.early x ∉ foldHistory ++ [.endOfMotd] := by intro x h; simp [foldHistory] at h

example : let st := foldRun listOrder (foldNewNet [b!"#b"]) (foldHistory ++ [.endOfMotd])
    st.channels.has b!"#A[" = true ∧ st.clients.map (fun dc => dc.monitored.has b!"BOB{") = [true] ∧
    (st.conn.map (fun uc => (uc.channels.get b!"#A{").map (fun ms => ms.has b!"bob["))) = some (some true) := by
  decide +kernel

example : let st := foldRun listOrder (foldNewNet [b!"#b"]) (foldHistory.take 8)
    st.channels.has b!"#A[" = false ∧ st.clients.map (fun dc => dc.monitored.has b!"BOB{") = [false] := by
  decide +kernel

/-! ## What is monitored stays monitored -/

private theorem recase_has {V : Type} {cm : CaseMapping} {t : CMMap V} (h : TableOK cm t) {o : List (Str × CMEntry V)}
    (ho : o.Perm t.m) (q : Str) : (t.setCaseMapping o cm).has q = t.has q := by
  have hid : o.map (fun p => (casemap cm p.2.originalKey, p.2)) = o := by
    rw [List.map_congr_left (g := id)]
    · exact List.map_id o
    · intro p hp
      have := h.1.2 p (ho.mem_iff.1 hp)
      rw [h.2] at this
      rw [← this]
      rfl
  have hm : (t.setCaseMapping o cm).m = o := by
    have nd : ((o.map (fun p => (casemap cm p.2.originalKey, p.2))).map (·.1)).Nodup := by
      rw [hid]; exact (ho.map (·.1)).nodup_iff.2 h.1.1
    rw [List.map_map] at nd
    have := rebuild_eq cm o [] (by simpa [Function.comp_def] using nd)
    rw [hid] at this
    simpa [CMMap.setCaseMapping] using this
  unfold CMMap.has
  rw [hm, show (t.setCaseMapping o cm).cm = cm from rfl, h.2]
  have nd : (o.map (·.1)).Nodup := (ho.map (·.1)).nodup_iff.2 h.1.1
  cases e : GoMap.get t.m (casemap cm q) with
  | none =>
    rw [mget_none_iff] at e
    rw [mget_none_iff.2 (fun hx => e ((ho.map (·.1)).mem_iff.1 hx))]
  | some x =>
    rw [mget_of_mem nd (ho.mem_iff.2 (mget_some_mem e))]

/-- What a history may hold for a client to keep a nick in the list of those it monitors: the client does not remove
the nick, the server keeps its mapping, and the settings of the network are not changed. -/
def KeepsMonitored (s : CaseSys) (id : Nat) (n : Str) (v : ServerView) : FoldOp → Prop
  | .unmonitor i m => i = id → ¬ SameName s m n
  | .clear i => i ≠ id
  | .login i _ => i ≠ id
  | .announce x => v.said.isSome = true → announcedSys x = s
  | .endOfMotd => v.said = some none → s = .rfc1459
  | .early _ => False
  | .updated => False
  | .restarted => False
  | _ => True

private structure Kept (cm : CaseMapping) (id : Nat) (n : Str) (st : FoldNet) : Prop where
  map : st.cm = cm
  client : ∀ dc ∈ st.clients, dc.id = id → TableOK cm dc.monitored ∧ dc.monitored.has n = true

private theorem kept_client {cm : CaseMapping} {id : Nat} {n : Str} {ord : FoldOrder} (hord : ∀ l, (ord.names l).Perm l)
    {cs : List FoldClient} (h : ∀ dc ∈ cs, dc.id = id → TableOK cm dc.monitored ∧ dc.monitored.has n = true) :
    ∀ dc ∈ cs.map (foldClient ord cm), dc.id = id → TableOK cm dc.monitored ∧ dc.monitored.has n = true := by
  intro dc hd hi
  obtain ⟨c, hc, rfl⟩ := List.mem_map.1 hd
  have k := h c hc hi
  exact ⟨table_recase cm c.monitored _, (recase_has k.1 (hord _) n).trans k.2⟩

private theorem kept_on {cm : CaseMapping} {id : Nat} {n : Str} {st : FoldNet} (h : Kept cm id n st) (i : Nat)
    (f : FoldClient → FoldClient) (hf : ∀ dc, (f dc).id = dc.id)
    (hk : ∀ dc ∈ st.clients, dc.id = id → i = id → TableOK cm dc.monitored → dc.monitored.has n = true →
      TableOK cm (f dc).monitored ∧ (f dc).monitored.has n = true) : Kept cm id n (foldOn st i f) := by
  refine ⟨h.map, ?_⟩
  intro dc hd hi
  obtain ⟨c, hc, rfl⟩ := List.mem_map.1 (show dc ∈ st.clients.map _ from hd)
  split at hi
  · rename_i hci
    rw [if_pos hci]
    rw [hf] at hi
    have k := h.client c hc hi
    exact hk c hc hi (hci.symm.trans hi) k.1 k.2
  · rename_i hci
    rw [if_neg hci]
    exact h.client c hc hi

private theorem kept_step (ord : FoldOrder) (hord : ∀ l, (ord.names l).Perm l) {st : FoldNet} {v : ServerView}
    (inv : FInv st v) {cm : CaseMapping} {id : Nat} {n : Str} (h : Kept cm id n st) (op : FoldOp)
    (hop : KeepsMonitored (sysOf cm) id n v op) : Kept cm id n (foldStep ord st op) := by
  have hupd : ∀ st' : FoldNet, st'.clients = st.clients → Kept cm id n (foldUpdate ord st' cm) := by
    intro st' e
    refine ⟨rfl, ?_⟩
    show ∀ dc ∈ st'.clients.map (foldClient ord cm), _
    rw [e]
    exact kept_client hord h.client
  cases op with
  | put t m => cases t <;> exact ⟨h.map, h.client⟩
  | drop t m => cases t <;> exact ⟨h.map, h.client⟩
  | joined ch => exact ⟨h.map, h.client⟩
  | left ch => exact ⟨h.map, h.client⟩
  | member ch nick => exact ⟨h.map, h.client⟩
  | noMember ch nick => exact ⟨h.map, h.client⟩
  | login i nick =>
    refine ⟨h.map, ?_⟩
    intro dc hd hi
    rcases List.mem_append.1 (show dc ∈ st.clients ++ _ from hd) with hd | hd
    · exact h.client dc hd hi
    · rw [List.mem_singleton.1 hd] at hi
      exact absurd hi hop
  | logout i => exact ⟨h.map, fun dc hd hi => h.client dc (List.mem_filter.1 hd).1 hi⟩
  | nick i nick => exact kept_on h i _ (fun _ => rfl) (fun dc _ _ _ k1 k2 => ⟨k1, k2⟩)
  | monitor i m =>
    refine kept_on h i _ (fun _ => rfl) (fun dc _ _ _ k1 k2 => ⟨table_set k1 m (), ?_⟩)
    have := (table_folds k1).2.2.1 m n ()
    unfold CMMap.has CMMap.get at *
    rw [← Option.isSome_map (f := (·.value)), this]
    split
    · rfl
    · rw [Option.isSome_map]; exact k2
  | unmonitor i m =>
    refine kept_on h i _ (fun _ => rfl) (fun dc _ _ hi k1 k2 => ⟨table_del k1 m, ?_⟩)
    have := (table_folds k1).2.2.2 m n
    unfold CMMap.has CMMap.get at *
    rw [← Option.isSome_map (f := (·.value)), this, if_neg (hop hi), Option.isSome_map]
    exact k2
  | clear i => exact kept_on h i _ (fun _ => rfl) (fun dc _ _ hi _ _ => absurd hi hop)
  | dialed => exact ⟨h.map, h.client⟩
  | early x => exact hop.elim
  | welcome =>
    cases e : st.dialed with
    | none =>
      rw [show foldStep ord st .welcome = st by simp only [foldStep, e]]
      exact h
    | some uc =>
      rw [show foldStep ord st .welcome =
          { st with conn := some uc, dialed := none, clients := st.clients.map (foldClient ord st.cm) } by
            simp only [foldStep, e]]
      refine ⟨h.map, ?_⟩
      show ∀ dc ∈ st.clients.map (foldClient ord st.cm), _
      rw [h.map]
      exact kept_client hord h.client
  | announce x =>
    cases e : st.conn with
    | none =>
      rw [show foldStep ord st (.announce x) = st by simp only [foldStep, e]]
      exact h
    | some uc =>
      rw [show foldStep ord st (.announce x) =
          foldUpdate ord { st with conn := some { uc with announced := x.isSome } } (foldParse x) by simp only [foldStep, e]]
      have hp : foldParse x = cm := sysOf_inj ((parse_sys x).trans (hop (by rw [inv.said, e]; rfl)))
      rw [hp]
      exact hupd _ rfl
  | endOfMotd =>
    cases e : st.conn with
    | none =>
      rw [show foldStep ord st .endOfMotd = st by simp only [foldStep, e]]
      exact h
    | some uc =>
      rw [show foldStep ord st .endOfMotd = if uc.gotMotd then st
          else if uc.announced then { st with conn := some { uc with gotMotd := true } }
          else foldUpdate ord { st with conn := some { uc with gotMotd := true } } stdCaseMapping by
        simp only [foldStep, e]]
      split
      · exact h
      · split
        · exact ⟨h.map, h.client⟩
        · rename_i ha
          have hcm : stdCaseMapping = cm := by
            have hsd := inv.said
            rw [e] at hsd
            obtain ⟨o, ho⟩ := Option.isSome_iff_exists.1 hsd
            cases o with
            | none => exact sysOf_inj (hop ho).symm
            | some s' =>
              obtain ⟨cm', -, h2, h3⟩ := inv.known s' ho
              have := h3 uc e (by simpa using ha)
              rw [← h.map, h2.map, this]
              rfl
          rw [hcm]
          exact hupd _ rfl
  | disconnected => exact ⟨h.map, h.client⟩
  | updated => exact hop.elim
  | restarted => exact hop.elim

/-- C92: a nick that a client monitors stays in its list until the client removes it, whatever happens meanwhile to the
connection and however often the server announces its mapping again.

Missing: a server that changes its mapping, see `C02_recase_collision_loses_entry`; changes of the settings of the
network, see `C92_monitored_violated`. -/
theorem C92_monitored_partial (ord : FoldOrder) (hord : ∀ l, (ord.names l).Perm l) (channels : List Str)
    (ops1 ops2 : List FoldOp) (hno : ∀ x, .early x ∉ ops1) (s : CaseSys)
    (hs : (serverView ops1).said = some (some s)) (id : Nat) (n : Str)
    (hin : ∀ dc ∈ (foldRun ord (foldNewNet channels) ops1).clients, dc.id = id → dc.monitored.has n = true)
    (hops : ∀ a op b, ops2 = a ++ op :: b → KeepsMonitored s id n (serverView (ops1 ++ a)) op) :
    ∀ dc ∈ (foldRun ord (foldNewNet channels) (ops1 ++ ops2)).clients, dc.id = id → dc.monitored.has n = true := by
  have inv := finv_run ord ops1 _ _ (finv_start channels) hno
  obtain ⟨cm, rfl, ag, -⟩ := inv.known s hs
  have k : Kept cm id n (foldRun ord (foldNewNet channels) ops1) :=
    ⟨ag.map, fun dc hd hi => ⟨(ag.clients dc hd).monitored, hin dc hd hi⟩⟩
  have hrun : foldRun ord (foldNewNet channels) (ops1 ++ ops2) = foldRun ord (foldRun ord (foldNewNet channels) ops1) ops2 := by
    unfold foldRun; rw [List.foldl_append]
  rw [hrun]
  have gen : ∀ (ops : List FoldOp) (st : FoldNet) (v : ServerView), FInv st v → Kept cm id n st →
      (∀ a op b, ops = a ++ op :: b → KeepsMonitored (sysOf cm) id n (a.foldl viewAfter v) op) →
      Kept cm id n (foldRun ord st ops) := by
    intro ops
    induction ops with
    | nil => intro st v _ k _; exact k
    | cons op ops ih =>
      intro st v i k hk
      have h0 := hk [] op ops rfl
      have hne : ∀ x, op ≠ .early x := by
        rintro x rfl
        exact h0
      exact ih _ _ (finv_step ord i op hne) (kept_step ord hord i k op h0)
        (fun a o b e => hk (op :: a) o b (by rw [e]; rfl))
  have := gen ops2 _ _ inv k (fun a op b e => by
    have := hops a op b e
    unfold serverView at this
    rw [List.foldl_append] at this
    exact this)
  exact fun dc hd hi => (this.client dc hd hi).2

/-- The connection is lost and made again, with the same mapping, while the client monitors further nicks. -/
private def foldAgain : List FoldOp :=
  [.monitor 1 b!"bob{", .disconnected, .dialed, .welcome, .announce (some b!"ascii"), .endOfMotd, .unmonitor 1 b!"bob{"]

private theorem foldAgain_keeps (n : Str) (hn : n = b!"bob[") : ∀ a op b, foldAgain = a ++ op :: b →
    KeepsMonitored .ascii 1 n (serverView (foldHistory.take 8 ++ a)) op := by
  subst hn
  intro a op b e
  have hlen : a.length < 7 := by
    have := congrArg List.length e
    simp [foldAgain] at this
    omega
  have ha : a = foldAgain.take a.length := by rw [e]; simp
  have hop : foldAgain[a.length]? = some op := by rw [e]; simp
  generalize a.length = k at ha hop hlen
  subst ha
  match k, hlen with
  | 0, _ | 1, _ | 2, _ | 3, _ | 4, _ | 5, _ | 6, _ =>
    all_goals
      cases hop
      unfold KeepsMonitored
      first | trivial | decide

example : (∀ l, (listOrder.names l).Perm l) ∧
    (∀ dc ∈ (foldRun listOrder (foldNewNet []) (foldHistory.take 8)).clients, dc.id = 1 → dc.monitored.has b!"bob[" = true) ∧
    ((foldRun listOrder (foldNewNet []) (foldHistory.take 8 ++ foldAgain)).clients.map (·.id)) = [1] :=
  ⟨fun l => List.Perm.refl l, by decide +kernel, by decide +kernel⟩

example : ∀ a op b, foldAgain = a ++ op :: b →
    KeepsMonitored .ascii 1 b!"bob[" (serverView (foldHistory.take 8 ++ a)) op := foldAgain_keeps _ rfl

/-- C92 (disagreement): on a server with the mapping `ascii`, a client that monitors both `bob[` and `bob{` loses one of
them when the settings of the network are changed: until the server has announced its mapping on the new connection they
are taken for the same. -/
theorem C92_monitored_violated :
    let before := foldRun listOrder (foldNewNet [])
      [.dialed, .welcome, .announce (some b!"ascii"), .login 1 b!"al", .monitor 1 b!"bob[", .monitor 1 b!"bob{"]
    let after := foldRun listOrder before [.updated, .dialed, .welcome, .announce (some b!"ascii"), .endOfMotd]
    before.clients.map (fun dc => (dc.monitored.has b!"bob[", dc.monitored.has b!"bob{")) = [(true, true)] ∧
    after.clients.map (fun dc => (dc.monitored.has b!"bob[", dc.monitored.has b!"bob{")) = [(false, true)] := by
  decide +kernel

/-- C92 (disagreement): while the server is connected again and has not announced its mapping yet, two tables of the
connection compare names differently: `#a{` and `#a[` are one channel, but `bob{` and `bob[` are two of its members. -/
theorem C92_unknown_violated :
    let st := foldRun listOrder (foldNewNet [])
      [.dialed, .welcome, .announce (some b!"ascii"), .disconnected, .dialed, .welcome, .joined b!"#a{", .joined b!"#a[",
       .member b!"#a[" b!"bob{", .member b!"#a[" b!"bob["]
    (st.conn.map (fun uc => (uc.channels.len, (uc.channels.get b!"#a[").map CMMap.len))) = some (1, some 2) := by
  decide +kernel

/-- C92 (disagreement): a server that announces its mapping before it accepts the connection is never understood: the
tables of the connection keep the mapping of RFC 1459, two channels are taken for one and the members of the first are
forgotten, also after the end of the greeting. -/
theorem C92_early_violated :
    let st := foldRun listOrder (foldNewNet [])
      [.dialed, .early (some b!"ascii"), .welcome, .endOfMotd, .joined b!"#a{", .member b!"#a{" b!"bob", .joined b!"#a["]
    st.cm = .ascii ∧
    (st.conn.map (fun uc => (uc.channels.len, (uc.channels.get b!"#a{").map CMMap.len))) = some (1, some 0) := by
  decide +kernel

end Verif.Props
