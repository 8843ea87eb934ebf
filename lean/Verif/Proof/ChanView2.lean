import Verif.Proof.ChanView

/-! The invariant behind C75: the channels of the bouncer are what a direct client knows, and every
client of the bouncer knows the same about the channels that are not detached. -/

namespace Verif.Proof
open Verif.Model Verif.Spec

/-- The stored channel `ch` is what a direct client knows. -/
structure ChOk (cm : CaseMapping) (avail : List Model.Membership) (ch : VcChan) (d : View) : Prop where
  joined : d.joined = true
  listed : d.listed = ch.complete
  topic : d.topic = ch.topic
  members : ∀ x, d.members x = (ch.members.get x).isSome
  wf : ∀ e ∈ ch.members, MemOk cm avail e

structure DirRel (cm : CaseMapping) (avail : List Model.Membership) (k : Str) (conn : VcConn) (d : View) :
    Prop where
  nick : d.nick = conn.nick
  nodup : (conn.chans.map (·.1)).Nodup
  keys : ∀ e ∈ conn.chans, e.1 = casemap cm e.2.name
  chan : ∀ ch, conn.chans.get k = some ch → ChOk cm avail ch d
  absent : conn.chans.get k = none → d.joined = false

def CliRel (a : Calm) (cm : CaseMapping) (syms k : Str) (on det : Bool) (d : View) (c : VcClient) : Prop :=
  (viewOf cm syms k c.out).nick = c.nick ∧
    (on = true → d.nick = c.nick ∧
      (det = false → c.noNames = false → VR a d (viewOf cm syms k c.out)))

/-- The channel `k` is saved as detached. -/
def detK (k : Str) (st : VcState) : Bool :=
  match st.records.get k with
  | some r => r.2
  | none => false

theorem vcDetached_k {cm : CaseMapping} {k : Str} {st : VcState} {name : Str} (h : casemap cm name = k) :
    vcDetached cm st name = detK k st := by
  subst h
  unfold vcDetached detK
  cases st.records.get (casemap cm name) <;> rfl

structure VInv (a : Calm) (cm : CaseMapping) (avail : List Model.Membership) (k : Str) (st : VcState)
    (d : View) : Prop where
  recs : ∀ e ∈ st.records, e.1 = casemap cm e.2.1
  dir : ∀ conn, st.conn = some conn → DirRel cm avail k conn d
  cli : ∀ c ∈ st.clients, CliRel a cm (avail.map (·.pfx)) k st.conn.isSome (detK k st) d c

variable {a : Calm} {cm : CaseMapping} {avail : List Model.Membership} {syms k : Str}

theorem VR_joined {a : Calm} {d v : View} (h : VR a d v) (hj : d.joined = false) (hs : a.stay) :
    v.joined = false := by
  cases hv : v.joined
  · rfl
  · rw [h.2 hs hv] at hj; cases hj

theorem mget_map {V W : Type} (l : GoMap Str V) (f : V → W) (x : Str) :
    GoMap.get (l.map fun e => (e.1, f e.2)) x = (GoMap.get l x).map f := by
  induction l with
  | nil => rfl
  | cons e l ih =>
    obtain ⟨q, w⟩ := e
    simp only [List.map_cons, GoMap.get]
    split
    · rfl
    · exact ih

theorem dir_set {conn : VcConn} {d d' : View} {name : Str} {ch : VcChan} (h : DirRel cm avail k conn d)
    (hn : d'.nick = d.nick) (hname : casemap cm ch.name = casemap cm name)
    (hk : casemap cm name = k → ChOk cm avail ch d') (ho : casemap cm name ≠ k → d' = d) :
    DirRel cm avail k { conn with chans := conn.chans.set (casemap cm name) ch } d' := by
  refine ⟨hn.trans h.nick, mset_nodup h.nodup _ _, fun e he => ?_, fun ch' hc => ?_, fun hc => ?_⟩
  · rcases mem_mset he with he | he
    · rw [he]; exact hname.symm
    · exact h.keys e he
  · dsimp only at hc
    rw [mget_mset] at hc
    split at hc
    · rename_i hk'
      cases hc
      exact hk hk'
    · rename_i hk'
      rw [ho hk']; exact h.chan ch' hc
  · dsimp only at hc
    rw [mget_mset] at hc
    split at hc
    · cases hc
    · rename_i hk'
      rw [ho hk']; exact h.absent hc

theorem dir_del {conn : VcConn} {d d' : View} {name : Str} (h : DirRel cm avail k conn d)
    (hn : d'.nick = d.nick) (hk : casemap cm name = k → d'.joined = false)
    (ho : casemap cm name ≠ k → d' = d) :
    DirRel cm avail k { conn with chans := conn.chans.del (casemap cm name) } d' := by
  refine ⟨hn.trans h.nick, mdel_nodup h.nodup _, fun e he => ?_, fun ch' hc => ?_, fun hc => ?_⟩
  · exact h.keys e (List.mem_filter.1 he).1
  · dsimp only at hc
    rw [mget_mdel] at hc
    split at hc
    · cases hc
    · rename_i hk'
      rw [ho hk']; exact h.chan ch' hc
  · dsimp only at hc
    rw [mget_mdel] at hc
    split at hc
    · rename_i hk'; exact hk hk'
    · rename_i hk'
      rw [ho hk']; exact h.absent hc

theorem dir_map {conn : VcConn} {d d' : View} {f : VcChan → VcChan} {n : Str}
    (h : DirRel cm avail k conn d) (hn : d'.nick = n) (hname : ∀ ch, (f ch).name = ch.name)
    (hch : ∀ ch, ChOk cm avail ch d → ChOk cm avail (f ch) d') (hj : d'.joined = d.joined) :
    DirRel cm avail k ⟨n, conn.chans.map fun e => (e.1, f e.2)⟩ d' := by
  refine ⟨hn, ?_, fun e he => ?_, fun ch' hc => ?_, fun hc => ?_⟩
  · rw [List.map_map]; exact h.nodup
  · obtain ⟨e', he', rfl⟩ := List.mem_map.1 he
    dsimp only
    rw [hname]; exact h.keys e' he'
  · dsimp only at hc
    rw [mget_map] at hc
    obtain ⟨ch, hg, rfl⟩ := Option.map_eq_some_iff.1 hc
    exact hch ch (h.chan ch hg)
  · dsimp only at hc
    rw [mget_map] at hc
    rw [hj]
    exact h.absent (Option.map_eq_none_iff.1 hc)

/-! ### Clients -/

theorem cli_send {det : Bool} {d : View} {c : VcClient} (h : CliRel a cm syms k true det d c) (m : VMsg)
    (h1 : m.command ≠ b!"001") (h2 : m.command = b!"NICK" → casemap cm m.source ≠ casemap cm d.nick)
    (h3 : m.command = b!"366" → d.joined = false) :
    CliRel a cm syms k true det (readMsg cm syms k d m) (c.send m) := by
  obtain ⟨hv, hd⟩ := h
  obtain ⟨hd, hr⟩ := hd rfl
  have hkeep : ∀ w : View, w.nick = c.nick → (readMsg cm syms k w m).nick = w.nick := by
    intro w hw
    by_cases hm : m.command = b!"NICK"
    · obtain ⟨s, c', ps⟩ := m
      dsimp only at hm
      subst hm
      cases ps with
      | nil => rfl
      | cons p ps =>
        rw [read_nick]
        dsimp only
        rw [if_neg]
        rw [hw, ← hd]; exact h2 rfl
    · exact read_nick_field h1 hm
  refine ⟨?_, fun _ => ⟨?_, fun hdet hnn => ?_⟩⟩
  · rw [view_send, hkeep _ hv, send_nick, hv]
  · rw [hkeep _ hd, send_nick, hd]
  · rw [view_send]
    rw [send_noNames] at hnn
    exact VR_read (hr hdet hnn) (hd.trans hv.symm) m h1 h3

/-- The direct client leaves the channel, or learns about one it is not in. -/
theorem cli_out {on det : Bool} {d d' : View} {c : VcClient} (h : CliRel a cm syms k on det d c)
    (hn : d'.nick = d.nick) (hj : d'.joined = false) (hj' : d.joined = false) :
    CliRel a cm syms k on det d' c :=
  ⟨h.1, fun ho => ⟨hn.trans (h.2 ho).1, fun h1 h2 => VR_of_not hj (VR_joined ((h.2 ho).2 h1 h2) hj')⟩⟩

theorem cli_det {d d' : View} {c : VcClient} {on : Bool} (h : CliRel a cm syms k on true d c)
    (hn : d'.nick = d.nick) : CliRel a cm syms k on true d' c :=
  ⟨h.1, fun ho => ⟨hn.trans (h.2 ho).1, fun hd => nomatch hd⟩⟩

theorem forward_cli {det : Bool} {st : VcState} {d : View} {m : VMsg}
    (h : ∀ c ∈ st.clients, CliRel a cm syms k true det d c)
    (h1 : m.command ≠ b!"001") (h2 : m.command = b!"NICK" → casemap cm m.source ≠ casemap cm d.nick)
    (h3 : m.command = b!"366" → d.joined = false) :
    ∀ c ∈ (vcForward st 0 m).clients, CliRel a cm syms k true det (readMsg cm syms k d m) c := by
  intro c hc
  simp only [vcForward, List.mem_map] at hc
  obtain ⟨c', hc', rfl⟩ := hc
  rw [if_neg (by simp)]
  exact cli_send (h c' hc') m h1 h2 h3

theorem produce_fields (st : VcState) (name : Str) (m : VMsg) :
    (vcProduce cm st name m).conn = st.conn ∧ (vcProduce cm st name m).records = st.records := by
  unfold vcProduce; split <;> exact ⟨rfl, rfl⟩

theorem produce_cli {st : VcState} {d : View} {name : Str} {m : VMsg}
    (h : ∀ c ∈ st.clients, CliRel a cm syms k true (detK k st) d c)
    (h1 : m.command ≠ b!"001") (h2 : m.command ≠ b!"NICK") (h3 : m.command ≠ b!"366")
    (ho : casemap cm name ≠ k → readMsg cm syms k d m = d) :
    ∀ c ∈ (vcProduce cm st name m).clients,
      CliRel a cm syms k true (detK k st) (readMsg cm syms k d m) c := by
  unfold vcProduce
  split
  · rename_i hd
    intro c hc
    by_cases hk : casemap cm name = k
    · rw [vcDetached_k hk] at hd
      rw [hd] at h ⊢
      exact cli_det (h c hc) (read_nick_field h1 h2)
    · rw [ho hk]; exact h c hc
  · exact forward_cli h h1 (fun h => absurd h h2) (fun h => absurd h h3)

/-! ### Messages of the server -/

theorem mem_member {members : GoMap Str (Str × MembershipSet)} {n : Str} {ms : MembershipSet}
    {e : Str × Str × MembershipSet} (h : e ∈ vcMember cm members n ms) :
    (e.1 = casemap cm n ∧ e.2.2 = ms ∧ (e.2.1 = n ∨ ∃ f ∈ members, f.1 = casemap cm n ∧ e.2.1 = f.2.1)) ∨ e ∈ members := by
  unfold vcMember at h
  rcases mem_mset h with h | h
  · left
    rw [h]
    refine ⟨rfl, rfl, ?_⟩
    dsimp only
    split
    · rename_i e' he
      exact .inr ⟨_, mget_some_mem he, rfl, rfl⟩
    · exact .inl rfl
  · exact .inr h

theorem get_member {members : GoMap Str (Str × MembershipSet)} {n : Str} {ms : MembershipSet} (x : Str) :
    ((vcMember cm members n ms).get x).isSome = if casemap cm n = x then true else (members.get x).isSome := by
  unfold vcMember
  rw [mget_mset]
  split <;> rfl

theorem chOk_rename {ch : VcChan} {d : View} (s n : Str) (r : List Str) (h : ChOk cm avail ch d)
    (hn : NickOk (avail.map (·.pfx)) n) :
    ChOk cm avail (vcRename cm s n ch) (readMsg cm syms k d ⟨s, b!"NICK", n :: r⟩) := by
  rw [read_nick]
  unfold vcRename
  cases hg : ch.members.get (casemap cm s) with
  | none =>
    refine ⟨h.joined, h.listed, h.topic, fun x => ?_, h.wf⟩
    dsimp only
    have hs : d.members (casemap cm s) = false := by rw [h.members, hg]; rfl
    split
    · rw [hs, Bool.false_or, h.members]
    · split
      · rename_i h'; rw [h', hg]; rfl
      · rw [h.members]
  | some e =>
    refine ⟨h.joined, h.listed, h.topic, fun x => ?_, fun e' he' => ?_⟩
    · dsimp only
      have hs : d.members (casemap cm s) = true := by rw [h.members, hg]; rfl
      rw [get_member, mget_mdel]
      by_cases h1 : x = casemap cm n
      · rw [if_pos h1, if_pos h1.symm, hs]; rfl
      · rw [if_neg h1, if_neg (Ne.symm h1)]
        by_cases h2 : x = casemap cm s
        · rw [if_pos h2, if_pos h2.symm]; rfl
        · rw [if_neg h2, if_neg (Ne.symm h2), h.members]
    · rcases mem_member he' with ⟨h1, h2, h3⟩ | he'
      · have hw := (h.wf _ (mget_some_mem hg)).2.2
        rcases h3 with h3 | ⟨f, hf, h4, h3⟩
        · exact ⟨by rw [h1, h3], by rw [h3]; exact hn, by rw [h2]; exact hw⟩
        · have hwf := h.wf f (List.mem_filter.1 hf).1
          exact ⟨by rw [h1, h3, ← h4]; exact hwf.1, by rw [h3]; exact hwf.2.1, by rw [h2]; exact hw⟩
      · exact h.wf e' (List.mem_filter.1 he').1

theorem chOk_del {ch : VcChan} {d : View} (x : Str) (h : ChOk cm avail ch d) :
    ChOk cm avail { ch with members := ch.members.del x }
      { d with members := fun y => if y = x then false else d.members y } := by
  refine ⟨h.joined, h.listed, h.topic, fun y => ?_, fun e he => h.wf e (List.mem_filter.1 he).1⟩
  dsimp only
  rw [mget_mdel]
  by_cases hy : y = x
  · rw [if_pos hy, if_pos hy.symm]; rfl
  · rw [if_neg hy, if_neg (Ne.symm hy), h.members]

theorem chOk_add {ch : VcChan} {d : View} (n : Str) (ms : MembershipSet) (h : ChOk cm avail ch d)
    (hn : NickOk (avail.map (·.pfx)) n) (hm : ∀ m ∈ ms, m ∈ avail) :
    ChOk cm avail { ch with members := vcMember cm ch.members n ms }
      { d with members := fun y => if y = casemap cm n then true else d.members y } := by
  refine ⟨h.joined, h.listed, h.topic, fun y => ?_, fun e he => ?_⟩
  · dsimp only
    rw [get_member]
    by_cases hy : y = casemap cm n
    · rw [if_pos hy, if_pos hy.symm]
    · rw [if_neg hy, if_neg (Ne.symm hy), h.members]
  · rcases mem_member he with ⟨h1, h2, h3⟩ | he
    · rcases h3 with h3 | ⟨f, hf, h4, h3⟩
      · exact ⟨by rw [h1, h3], by rw [h3]; exact hn, by rw [h2]; exact hm⟩
      · have hwf := h.wf f hf
        exact ⟨by rw [h1, h3, ← h4]; exact hwf.1, by rw [h3]; exact hwf.2.1, by rw [h2]; exact hm⟩
    · exact h.wf e he

theorem chOk_names {ch : VcChan} {d : View} (words : List Str) (h : ChOk cm avail ch d)
    (hw : ∀ w ∈ words, ∃ ranks n, w = ranks ++ n ∧ ranks.Sublist (avail.map (·.pfx)) ∧
      NickOk (avail.map (·.pfx)) n) :
    ChOk cm avail (vcAddNames cm avail ch words)
      { d with members := fun x =>
        (d.members x || words.any fun y => casemap cm (bareName (avail.map (·.pfx)) y) = x) } := by
  induction words generalizing ch d with
  | nil => simpa [vcAddNames] using h
  | cons w words ih =>
    obtain ⟨ranks, n, rfl, hr, hn⟩ := hw w (by simp)
    obtain ⟨hp, hm⟩ := parse_ranks hr hn
    have hb := bareName_ranks (fun c hc => hr.subset hc) hn
    have := ih (chOk_add n _ h hn hm) (fun w hw' => hw w (by simp [hw']))
    unfold vcAddNames at this ⊢
    rw [List.foldl_cons]
    dsimp only
    rw [hp]
    refine Eq.mp ?_ this
    congr 1
    simp only [View.mk.injEq, true_and, List.any_cons, hb]
    funext x
    by_cases hx : x = casemap cm n
    · subst hx; simp
    · simp [hx, Ne.symm hx]

theorem detK_conn (st : VcState) (o : Option VcConn) : detK k { st with conn := o } = detK k st := rfl

theorem read_away_join (d : View) (s n : Str) (r : List Str) (h : casemap cm n ≠ k) :
    readMsg cm syms k d ⟨s, b!"JOIN", n :: r⟩ = d := by rw [read_join, if_neg h]

theorem read_away_part (d : View) (s n : Str) (r : List Str) (h : casemap cm n ≠ k) :
    readMsg cm syms k d ⟨s, b!"PART", n :: r⟩ = d := by rw [read_part, if_neg h]

theorem read_away_kick (d : View) (s n u : Str) (r : List Str) (h : casemap cm n ≠ k) :
    readMsg cm syms k d ⟨s, b!"KICK", n :: u :: r⟩ = d := by rw [read_kick, if_neg h]

theorem read_away_topic (d : View) (s n : Str) (r : List Str) (h : casemap cm n ≠ k) :
    readMsg cm syms k d ⟨s, b!"TOPIC", n :: r⟩ = d := by rw [read_topic, if_neg (fun h' => h h'.1)]

/-- A message passed on with `produce`, after a change of the channels. -/
theorem inv_produce {st : VcState} {d : View} {conn conn' : VcConn} {name : Str} {m : VMsg}
    (h : VInv a cm avail k st d) (hc : st.conn = some conn)
    (h1 : m.command ≠ b!"001") (h2 : m.command ≠ b!"NICK") (h3 : m.command ≠ b!"366")
    (ho : casemap cm name ≠ k → readMsg cm (avail.map (·.pfx)) k d m = d)
    (hdir : DirRel cm avail k conn' (readMsg cm (avail.map (·.pfx)) k d m)) :
    VInv a cm avail k (vcProduce cm { st with conn := some conn' } name m)
      (readMsg cm (avail.map (·.pfx)) k d m) := by
  obtain ⟨hf1, hf2⟩ := produce_fields (cm := cm) { st with conn := some conn' } name m
  have hdet : detK k (vcProduce cm { st with conn := some conn' } name m) = detK k st := by
    unfold detK; rw [hf2]
  refine ⟨?_, ?_, ?_⟩
  · rw [hf2]; exact h.recs
  · rw [hf1]
    intro c hc; cases hc; exact hdir
  · rw [hf1, hdet]
    have := h.cli
    rw [hc] at this
    exact produce_cli (st := { st with conn := some conn' }) this h1 h2 h3 ho

/-- Nothing changes at the bouncer. -/
theorem inv_out {st : VcState} {d d' : View} {conn : VcConn} (h : VInv a cm avail k st d)
    (hc : st.conn = some conn) (hg : conn.chans.get k = none) (hn : d'.nick = d.nick)
    (hj : d'.joined = d.joined) : VInv a cm avail k st d' := by
  have hd := h.dir conn hc
  have hj' : d'.joined = false := hj.trans (hd.absent hg)
  refine ⟨h.recs, fun c' hc' => ?_, fun c hcm => cli_out (h.cli c hcm) hn hj' (hd.absent hg)⟩
  rw [hc] at hc'; cases hc'
  exact ⟨hn.trans hd.nick, hd.nodup, hd.keys, fun ch hch => (by rw [hg] at hch; cases hch), fun _ => hj'⟩

local macro "cmd" : tactic => `(tactic| (dsimp only; decide))

theorem vc_nick {st : VcState} {d : View} {conn : VcConn} {m : VMsg}
    (h : VInv a cm avail k st d) (hc : st.conn = some conn) (hm : m.command = b!"NICK")
    (hor : Orderly cm (avail.map (·.pfx)) k d m) :
    VInv a cm avail k (vcNick cm st conn m) (readMsg cm (avail.map (·.pfx)) k d m) := by
  obtain ⟨n, rest, hp, hn⟩ := hor.nick hm
  obtain ⟨s, c, ps⟩ := m
  dsimp only at hm hp
  subst hm hp
  have hd := h.dir conn hc
  have hcli := h.cli
  rw [hc] at hcli
  have hdir : ∀ n', (readMsg cm (avail.map (·.pfx)) k d ⟨s, b!"NICK", n :: rest⟩).nick = n' →
      DirRel cm avail k ⟨n', conn.chans.map fun e => (e.1, vcRename cm s n e.2)⟩
        (readMsg cm (avail.map (·.pfx)) k d ⟨s, b!"NICK", n :: rest⟩) := by
    intro n' hn'
    refine dir_map hd hn' (fun ch => ?_) (fun ch hch => chOk_rename s n rest hch hn) (by rw [read_nick])
    unfold vcRename; split <;> rfl
  unfold vcNick
  dsimp only
  by_cases hme : casemap cm conn.nick = casemap cm s
  · rw [if_pos (by simpa using hme)]
    refine ⟨h.recs, fun c hc => ?_, fun c hcm => ?_⟩
    · cases hc
      refine hdir n ?_
      rw [read_nick, hd.nick]
      exact if_pos hme.symm
    · obtain ⟨c', hc', rfl⟩ := List.mem_map.1 hcm
      obtain ⟨hv, hr⟩ := hcli c' hc'
      obtain ⟨hdn, hr⟩ := hr rfl
      have hkey : casemap cm c'.nick = casemap cm s := by rw [← hdn, hd.nick]; exact hme
      unfold vcUpdateNick
      split
      · rename_i heq
        -- the nick does not change
        have hsame : readMsg cm (avail.map (·.pfx)) k d ⟨s, b!"NICK", n :: rest⟩ = d := by
          rw [read_nick, if_pos (by rw [hdn, hkey])]
          have : d.nick = n := hdn.trans heq.symm
          obtain ⟨dn, dj, dl, dt, dm⟩ := d
          dsimp only at this ⊢
          subst this
          congr 1
          funext x
          by_cases hx : x = casemap cm dn
          · rw [if_pos hx, hx, heq, hkey, Bool.or_self]
          · rw [if_neg hx, if_neg (by rw [← hkey, ← heq]; exact hx)]
        rw [hsame]
        exact ⟨hv, fun _ => ⟨hdn, hr⟩⟩
      · refine ⟨?_, fun _ => ⟨?_, fun hdet hnn => ?_⟩⟩
        · dsimp only
          rw [view_send, read_nick]
          dsimp only
          rw [if_pos (by rw [hv])]
        · rw [read_nick]
          dsimp only
          rw [if_pos (by rw [hdn, hkey])]
        · dsimp only at hnn ⊢
          rw [view_send]
          rw [send_noNames] at hnn
          rw [read_nick, read_nick, hkey]
          exact VR_members (hr hdet hnn) _ _ (fun a x => if x = casemap cm n then a (casemap cm s) || a x
            else if x = casemap cm s then false else a x) (fun a b hab x hx => by grind)
  · rw [if_neg (by simpa using hme)]
    refine ⟨h.recs, fun c hc => ?_, ?_⟩
    · cases hc
      refine hdir conn.nick ?_
      rw [read_nick, hd.nick]
      exact if_neg (Ne.symm hme)
    · exact forward_cli (st := { st with conn := _ }) hcli (by cmd)
        (fun _ => by rw [hd.nick]; exact Ne.symm hme) (fun h => absurd h (by cmd))

theorem vc_join {st : VcState} {d : View} {conn : VcConn} {s name : Str} {rest : List Str}
    (h : VInv a cm avail k st d) (hc : st.conn = some conn)
    (hs : NickOk (avail.map (·.pfx)) s) :
    VInv a cm avail k (vcJoinLoop cm ⟨s, b!"JOIN", name :: rest⟩ [name] st conn)
      (readMsg cm (avail.map (·.pfx)) k d ⟨s, b!"JOIN", name :: rest⟩) := by
  have hd := h.dir conn hc
  simp only [vcJoinLoop, List.drop_succ_cons, List.drop_zero]
  have hnick : (readMsg cm (avail.map (·.pfx)) k d ⟨s, b!"JOIN", name :: rest⟩).nick = d.nick :=
    read_nick_field (by cmd) (by cmd)
  split
  · rename_i hme
    refine inv_produce h hc (by cmd) (by cmd) (by cmd) (read_away_join _ _ _ _)
      (dir_set hd hnick rfl (fun hk => ?_) (read_away_join _ _ _ _))
    rw [read_join, if_pos hk, hd.nick, if_pos hme.symm]
    exact ⟨rfl, rfl, rfl, fun x => rfl, fun e he => by cases he⟩
  · rename_i hme
    split
    · rename_i ch hg
      refine inv_produce h hc (by cmd) (by cmd) (by cmd) (read_away_join _ _ _ _)
        (dir_set hd hnick (hd.keys _ (mget_some_mem hg)).symm (fun hk => ?_) (read_away_join _ _ _ _))
      rw [hk] at hg
      have hch := hd.chan ch hg
      rw [read_join, if_pos hk, hd.nick, if_neg (Ne.symm hme), if_pos hch.joined]
      have := chOk_add s [] hch hs (by simp)
      rw [hd.nick] at this
      exact this
    · rename_i hg
      by_cases hk : casemap cm name = k
      · rw [hk] at hg
        refine inv_out h hc hg hnick ?_
        rw [read_join, if_pos hk, hd.nick, if_neg (Ne.symm hme), if_neg (by rw [hd.absent hg]; simp)]
      · rw [read_away_join _ _ _ _ hk]; exact h

theorem vc_part {st : VcState} {d : View} {conn : VcConn} {s name : Str} {rest : List Str}
    (h : VInv a cm avail k st d) (hc : st.conn = some conn) :
    VInv a cm avail k (vcPartLoop cm ⟨s, b!"PART", name :: rest⟩ [name] st conn)
      (readMsg cm (avail.map (·.pfx)) k d ⟨s, b!"PART", name :: rest⟩) := by
  have hd := h.dir conn hc
  simp only [vcPartLoop, List.drop_succ_cons, List.drop_zero]
  have hnick : (readMsg cm (avail.map (·.pfx)) k d ⟨s, b!"PART", name :: rest⟩).nick = d.nick :=
    read_nick_field (by cmd) (by cmd)
  split
  · rename_i hme
    refine inv_produce h hc (by cmd) (by cmd) (by cmd) (read_away_part _ _ _ _)
      (dir_del hd hnick (fun hk => ?_) (read_away_part _ _ _ _))
    rw [read_part, if_pos hk, hd.nick, if_pos hme.symm]
  · rename_i hme
    split
    · rename_i ch hg
      refine inv_produce h hc (by cmd) (by cmd) (by cmd) (read_away_part _ _ _ _)
        (dir_set hd hnick (hd.keys _ (mget_some_mem hg)).symm (fun hk => ?_) (read_away_part _ _ _ _))
      rw [hk] at hg
      have hch := hd.chan ch hg
      rw [read_part, if_pos hk, hd.nick, if_neg (Ne.symm hme)]
      have := chOk_del (casemap cm s) hch
      rw [hd.nick] at this
      exact this
    · rename_i hg
      by_cases hk : casemap cm name = k
      · rw [hk] at hg
        refine inv_out h hc hg hnick ?_
        rw [read_part, if_pos hk, hd.nick, if_neg (Ne.symm hme)]
      · rw [read_away_part _ _ _ _ hk]; exact h

theorem vc_kick {st : VcState} {d : View} {conn : VcConn} {m : VMsg}
    (h : VInv a cm avail k st d) (hc : st.conn = some conn) (hm : m.command = b!"KICK") :
    VInv a cm avail k (vcKick cm st conn m) (readMsg cm (avail.map (·.pfx)) k d m) := by
  have hd := h.dir conn hc
  obtain ⟨s, c, ps⟩ := m
  dsimp only at hm
  subst hm
  unfold vcKick
  cases ps with
  | nil => exact h
  | cons name ps =>
  cases ps with
  | nil => exact h
  | cons user rest =>
  dsimp only
  have hnick : (readMsg cm (avail.map (·.pfx)) k d ⟨s, b!"KICK", name :: user :: rest⟩).nick = d.nick :=
    read_nick_field (by cmd) (by cmd)
  split
  · rename_i hme
    refine inv_produce h hc (by cmd) (by cmd) (by cmd) (read_away_kick _ _ _ _ _)
      (dir_del hd hnick (fun hk => ?_) (read_away_kick _ _ _ _ _))
    rw [read_kick, if_pos hk, hd.nick, if_pos hme.symm]
  · rename_i hme
    split
    · rename_i ch hg
      refine inv_produce h hc (by cmd) (by cmd) (by cmd) (read_away_kick _ _ _ _ _)
        (dir_set hd hnick (hd.keys _ (mget_some_mem hg)).symm (fun hk => ?_) (read_away_kick _ _ _ _ _))
      rw [hk] at hg
      have hch := hd.chan ch hg
      rw [read_kick, if_pos hk, hd.nick, if_neg (Ne.symm hme)]
      have := chOk_del (casemap cm user) hch
      rw [hd.nick] at this
      exact this
    · rename_i hg
      by_cases hk : casemap cm name = k
      · rw [hk] at hg
        refine inv_out h hc hg hnick ?_
        rw [read_kick, if_pos hk, hd.nick, if_neg (Ne.symm hme)]
      · rw [read_away_kick _ _ _ _ _ hk]; exact h

theorem vc_quit {st : VcState} {d : View} {conn : VcConn} {m : VMsg}
    (h : VInv a cm avail k st d) (hc : st.conn = some conn) (hm : m.command = b!"QUIT")
    (hor : Orderly cm (avail.map (·.pfx)) k d m) :
    VInv a cm avail k (vcQuit cm st conn m) (readMsg cm (avail.map (·.pfx)) k d m) := by
  have hd := h.dir conn hc
  have hq := hor.quit hm
  have hcli := h.cli
  rw [hc] at hcli
  obtain ⟨s, c, ps⟩ := m
  dsimp only at hm hq
  subst hm
  unfold vcQuit
  dsimp only
  rw [if_pos (by intro h; rw [h, hd.nick] at hq; exact hq rfl)]
  refine ⟨h.recs, fun c hc => ?_, ?_⟩
  · cases hc
    refine dir_map (f := fun ch => { ch with members := ch.members.del (casemap cm s) }) hd ?_
      (fun _ => rfl) (fun ch hch => ?_) ?_
    · rw [read_quit]; exact hd.nick
    · rw [read_quit]; exact chOk_del _ hch
    · rw [read_quit]
  · exact forward_cli (st := { st with conn := _ }) hcli (by cmd) (fun h => absurd h (by cmd))
      (fun h => absurd h (by cmd))

theorem vc_topic {st : VcState} {d : View} {conn : VcConn} {m : VMsg}
    (h : VInv a cm avail k st d) (hc : st.conn = some conn) (hm : m.command = b!"TOPIC") :
    VInv a cm avail k (vcTopic cm st conn m) (readMsg cm (avail.map (·.pfx)) k d m) := by
  have hd := h.dir conn hc
  obtain ⟨s, c, ps⟩ := m
  dsimp only at hm
  subst hm
  unfold vcTopic
  cases ps with
  | nil => exact h
  | cons name rest =>
  dsimp only
  have hnick : (readMsg cm (avail.map (·.pfx)) k d ⟨s, b!"TOPIC", name :: rest⟩).nick = d.nick :=
    read_nick_field (by cmd) (by cmd)
  split
  · rename_i hg
    have : readMsg cm (avail.map (·.pfx)) k d ⟨s, b!"TOPIC", name :: rest⟩ = d := by
      rw [read_topic, if_neg]
      rintro ⟨hk, hj⟩
      rw [hk] at hg
      rw [hd.absent hg] at hj; cases hj
    rw [this]; exact h
  · rename_i ch hg
    have hname := hd.keys _ (mget_some_mem hg)
    dsimp only at hname
    refine inv_produce h hc (by cmd) (by cmd) (by cmd)
      (fun hne => read_away_topic _ _ _ _ (by rw [hname]; exact hne))
      (dir_set hd hnick hname.symm (fun hk => ?_) (read_away_topic _ _ _ _))
    rw [hk] at hg
    have hch := hd.chan ch hg
    rw [read_topic, if_pos ⟨hk, hch.joined⟩]
    refine ⟨hch.joined, hch.listed, ?_, hch.members, hch.wf⟩
    cases rest <;> rfl

/-- A reply about a channel the bouncer is not in is passed on as it is. -/
theorem vc_reply_out {st : VcState} {d : View} {conn : VcConn} {m : VMsg} {name : Str} (dc : Nat)
    (h : VInv a cm avail k st d) (hc : st.conn = some conn)
    (hg : conn.chans.get (casemap cm name) = none) (h1 : m.command ≠ b!"001") (h2 : m.command ≠ b!"NICK")
    (ho : casemap cm name ≠ k → ∀ v, readMsg cm (avail.map (·.pfx)) k v m = v)
    (hj : ∀ v, v.joined = false → readMsg cm (avail.map (·.pfx)) k v m = v) :
    VInv a cm avail k (vcForward st dc m) (readMsg cm (avail.map (·.pfx)) k d m) := by
  have hd := h.dir conn hc
  have hsame : readMsg cm (avail.map (·.pfx)) k d m = d := by
    by_cases hk : casemap cm name = k
    · rw [hk] at hg; exact hj d (hd.absent hg)
    · exact ho hk d
  rw [hsame]
  refine ⟨h.recs, h.dir, fun c hcm => ?_⟩
  simp only [vcForward, List.mem_map] at hcm
  obtain ⟨c', hc', rfl⟩ := hcm
  have hcl := h.cli c' hc'
  show CliRel a cm _ k st.conn.isSome (detK k st) d _
  split
  · exact hcl
  · by_cases hk : casemap cm name = k
    · rw [hk] at hg
      refine ⟨?_, fun ho' => ⟨?_, fun h1 h2 => VR_of_not (hd.absent hg) fun hs => ?_⟩⟩
      · rw [view_send, read_nick_field h1 h2, send_nick]; exact hcl.1
      · rw [send_nick]; exact (hcl.2 ho').1
      · rw [send_noNames] at h2
        have := VR_joined ((hcl.2 ho').2 h1 h2) (hd.absent hg) hs
        rw [view_send, hj _ this]; exact this
    · obtain ⟨ha, hb⟩ := hcl
      refine ⟨?_, fun ho' => ⟨?_, fun h' hn => ?_⟩⟩
      · rw [view_send, ho hk, send_nick]; exact ha
      · rw [send_nick]; exact (hb ho').1
      · rw [view_send, ho hk]
        rw [send_noNames] at hn
        exact (hb ho').2 h' hn

/-- A reply that changes the stored channel and is not passed on. -/
theorem vc_reply_in {st : VcState} {d d' : View} {conn : VcConn} {name : Str} {ch' : VcChan}
    (h : VInv a cm avail k st d) (hc : st.conn = some conn) (hn : d'.nick = d.nick)
    (hname : casemap cm ch'.name = casemap cm name)
    (hk : casemap cm name = k → ChOk cm avail ch' d' ∧ ∀ v, VR a d v → VR a d' v)
    (ho : casemap cm name ≠ k → d' = d) :
    VInv a cm avail k
      { st with conn := some { conn with chans := conn.chans.set (casemap cm name) ch' } } d' := by
  have hd := h.dir conn hc
  refine ⟨h.recs, fun c hc => ?_, fun c hcm => ?_⟩
  · cases hc
    exact dir_set hd hn hname (fun hk' => (hk hk').1) ho
  · obtain ⟨ha, hb⟩ := h.cli c hcm
    rw [hc] at hb
    obtain ⟨hb, hr⟩ := hb rfl
    refine ⟨ha, fun _ => ⟨hn.trans hb, fun h1 h2 => ?_⟩⟩
    by_cases hk' : casemap cm name = k
    · exact (hk hk').2 _ (hr h1 h2)
    · rw [ho hk']; exact hr h1 h2

theorem vc_topicReply {st : VcState} {d : View} {conn : VcConn} {m : VMsg} (dc : Nat)
    (h : VInv a cm avail k st d) (hc : st.conn = some conn)
    (hm : m.command = b!"331" ∨ m.command = b!"332") (hor : Orderly cm (avail.map (·.pfx)) k d m) :
    VInv a cm avail k (vcTopicReply cm st conn m dc) (readMsg cm (avail.map (·.pfx)) k d m) := by
  have hd := h.dir conn hc
  have h331 := hor.notopic
  have h332 := hor.topic
  obtain ⟨s, c, ps⟩ := m
  dsimp only at hm h331 h332
  rcases hm with rfl | rfl
  · obtain ⟨me, name, text, rest, rfl, hor'⟩ := h331 rfl
    unfold vcTopicReply
    dsimp only
    split
    · rename_i hg
      exact vc_reply_out dc h hc hg (by cmd) (by cmd) (fun hk v => by rw [read_331, if_neg (fun h => hk h.1)])
        (fun v hv => by rw [read_331, if_neg (fun h => by rw [hv] at h; exact nomatch h.2)])
    · rename_i ch hg
      refine vc_reply_in h hc (read_nick_field (by cmd) (by cmd)) (hd.keys _ (mget_some_mem hg)).symm
        (fun hk => ?_) (fun hk => by rw [read_331, if_neg (fun h => hk h.1)])
      rw [hk] at hg
      have hch := hd.chan ch hg
      obtain ⟨hl, ht⟩ := hor' hk hch.joined
      rw [if_neg (by decide), read_331, if_pos ⟨hk, hch.joined⟩]
      refine ⟨⟨hch.joined, hch.listed, rfl, hch.members, hch.wf⟩, fun v hv => ⟨fun hj => ?_, hv.2⟩⟩
      obtain ⟨hv1, hv2⟩ := hv.1 hj
      refine ⟨hv1, fun hv' => ?_⟩
      have := hv2 hv'
      rw [if_neg (by rw [hl]; simp)] at this
      dsimp only
      rw [if_neg (by rw [hl]; simp)]
      exact ⟨fun _ => this.1 ht, this.2⟩
  · obtain ⟨me, name, text, rest, rfl, hor'⟩ := h332 rfl
    unfold vcTopicReply
    dsimp only
    split
    · rename_i hg
      exact vc_reply_out dc h hc hg (by cmd) (by cmd) (fun hk v => by rw [read_332, if_neg (fun h => hk h.1)])
        (fun v hv => by rw [read_332, if_neg (fun h => by rw [hv] at h; exact nomatch h.2)])
    · rename_i ch hg
      refine vc_reply_in h hc (read_nick_field (by cmd) (by cmd)) (hd.keys _ (mget_some_mem hg)).symm
        (fun hk => ?_) (fun hk => by rw [read_332, if_neg (fun h => hk h.1)])
      rw [hk] at hg
      have hch := hd.chan ch hg
      obtain ⟨hl, ht⟩ := hor' hk hch.joined
      rw [if_pos rfl, read_332, if_pos ⟨hk, hch.joined⟩]
      refine ⟨⟨hch.joined, hch.listed, rfl, hch.members, hch.wf⟩, fun v hv => ⟨fun hj => ?_, hv.2⟩⟩
      obtain ⟨hv1, hv2⟩ := hv.1 hj
      refine ⟨hv1, fun hv' => ?_⟩
      have := hv2 hv'
      rw [if_neg (by rw [hl]; simp)] at this
      dsimp only
      rw [if_neg (by rw [hl]; simp)]
      exact ⟨fun h => absurd h ht, this.2⟩

theorem addNames_name (ch : VcChan) (words : List Str) : (vcAddNames cm avail ch words).name = ch.name := by
  unfold vcAddNames
  induction words generalizing ch with
  | nil => rfl
  | cons w words ih => rw [List.foldl_cons, ih]

theorem vc_namReply {st st' : VcState} {d : View} {conn : VcConn} {m : VMsg} (dc : Nat)
    (h : VInv a cm avail k st d) (hc : st.conn = some conn) (hm : m.command = b!"353")
    (hor : Orderly cm (avail.map (·.pfx)) k d m) (hs : vcNamReply cm avail st conn m dc = some st') :
    VInv a cm avail k st' (readMsg cm (avail.map (·.pfx)) k d m) := by
  have hd := h.dir conn hc
  have hnm := hor.names hm
  obtain ⟨s, c, ps⟩ := m
  dsimp only at hm hnm
  subst hm
  obtain ⟨me, status, name, words, rest, rfl, hst, hl, hw⟩ := hnm
  unfold vcNamReply at hs
  dsimp only at hs
  split at hs
  · rename_i hg
    cases hs
    exact vc_reply_out dc h hc hg (by cmd) (by cmd) (fun hk v => by rw [read_353, if_neg (fun h => hk h.1)])
      (fun v hv => by rw [read_353, if_neg (fun h => by rw [hv] at h; exact nomatch h.2)])
  · rename_i ch hg
    unfold parseChannelStatus at hs
    dsimp only at hs
    rw [if_pos hst] at hs
    dsimp only at hs
    cases hs
    refine vc_reply_in h hc (read_nick_field (by cmd) (by cmd)) ?_
      (fun hk => ?_) (fun hk => by rw [read_353, if_neg (fun h => hk h.1)])
    · rw [addNames_name]
      exact (hd.keys _ (mget_some_mem hg)).symm
    rw [hk] at hg
    have hch := hd.chan ch hg
    have hl := hl hk hch.joined
    rw [read_353, if_pos ⟨hk, hch.joined⟩, splitSpace_eq]
    refine ⟨chOk_names _ ⟨hch.joined, hch.listed, hch.topic, hch.members, hch.wf⟩ hw, fun v hv => ⟨fun hj => ?_, hv.2⟩⟩
    obtain ⟨hv1, hv2⟩ := hv.1 hj
    refine ⟨hv1, fun hv' => ?_⟩
    have := hv2 hv'
    rw [if_neg (by rw [hl]; simp)] at this
    dsimp only
    rw [if_neg (by rw [hl]; simp)]
    exact ⟨this.1, fun x hx => by rw [this.2 x hx]; rfl⟩

theorem vc_endOfNames {st : VcState} {d : View} {conn : VcConn} {m : VMsg} (dc : Nat)
    (hsp : 32 ∉ avail.map (·.pfx))
    (h : VInv a cm avail k st d) (hc : st.conn = some conn) (hm : m.command = b!"366") :
    VInv a cm avail k (vcEndOfNames cm st conn m dc) (readMsg cm (avail.map (·.pfx)) k d m) := by
  have hd := h.dir conn hc
  obtain ⟨s, c, ps⟩ := m
  dsimp only at hm
  subst hm
  unfold vcEndOfNames
  cases ps with
  | nil => exact h
  | cons me ps =>
  cases ps with
  | nil => exact h
  | cons name rest =>
  dsimp only
  split
  · rename_i hg
    exact vc_reply_out dc h hc hg (by cmd) (by cmd) (fun hk v => by rw [read_366, if_neg (fun h => hk h.1)])
      (fun v hv => by rw [read_366, if_neg (fun h => by rw [hv] at h; exact nomatch h.2)])
  · rename_i ch hg
    have hname := hd.keys _ (mget_some_mem hg)
    dsimp only at hname
    split
    · rename_i hcompl
      have : readMsg cm (avail.map (·.pfx)) k d ⟨s, b!"366", me :: name :: rest⟩ = d := by
        rw [read_366]
        split
        · rename_i hk
          rw [hk.1] at hg
          have := (hd.chan ch hg).listed
          rw [hcompl] at this
          obtain ⟨dn, dj, dl, dt, dm⟩ := d
          dsimp only at this
          subst this
          rfl
        · rfl
      rw [this]; exact h
    · rename_i hcompl
      have hk' : casemap cm name = k → ChOk cm avail { ch with complete := true }
          (readMsg cm (avail.map (·.pfx)) k d ⟨s, b!"366", me :: name :: rest⟩) := by
        intro hk
        rw [hk] at hg
        have hch := hd.chan ch hg
        rw [read_366, if_pos ⟨hk, hch.joined⟩]
        exact ⟨hch.joined, rfl, hch.topic, hch.members, hch.wf⟩
      have ho : casemap cm name ≠ k →
          readMsg cm (avail.map (·.pfx)) k d ⟨s, b!"366", me :: name :: rest⟩ = d :=
        fun hk => by rw [read_366, if_neg (fun h => hk h.1)]
      have hnick : (readMsg cm (avail.map (·.pfx)) k d ⟨s, b!"366", me :: name :: rest⟩).nick = d.nick :=
        read_nick_field (by cmd) (by cmd)
      split
      · rename_i hdet
        refine ⟨h.recs, fun c hc => ?_, fun c hcm => ?_⟩
        · cases hc
          exact dir_set hd hnick hname.symm hk' ho
        · have hcl := h.cli c hcm
          rw [hc] at hcl
          by_cases hk : casemap cm name = k
          · rw [vcDetached_k hk] at hdet
            show CliRel a cm _ k true (detK k st) _ c
            rw [hdet] at hcl ⊢
            exact cli_det hcl hnick
          · rw [ho hk]; exact hcl
      · refine ⟨h.recs, fun c hc => ?_, fun c hcm => ?_⟩
        · cases hc
          exact dir_set hd hnick hname.symm hk' ho
        · obtain ⟨c', hc', rfl⟩ := List.mem_map.1 hcm
          obtain ⟨ha, hb⟩ := h.cli c' hc'
          rw [hc] at hb
          obtain ⟨hb, hr⟩ := hb rfl
          obtain ⟨hs1, hs2, hs3⟩ := view_sendAll (cm := cm) (syms := avail.map (·.pfx)) (k := k) c'
            (vcChannelMsgs c' { ch with complete := true })
          have hwf : casemap cm ch.name = k → ∀ e ∈ ch.members, MemOk cm avail e := by
            intro hk
            rw [← hname] at hk
            rw [hk] at hg
            exact (hd.chan ch hg).wf
          rw [fold_channel avail hsp c' { ch with complete := true } _ hwf] at hs1
          refine ⟨?_, fun _ => ⟨?_, fun h1 h2 => ?_⟩⟩
          · rw [hs1, hs2]
            split <;> exact ha
          · rw [hs2, hnick]; exact hb
          · rw [hs1]
            rw [hs3] at h2
            have hr := hr h1 h2
            dsimp only
            by_cases hk : casemap cm name = k
            · have hch := hk' hk
              rw [hk] at hg
              have hch0 := hd.chan ch hg
              rw [read_366, if_pos ⟨hk, hch0.joined⟩] at hch ⊢
              rw [hname] at hk
              have hl : d.listed = false := by rw [hch0.listed]; simpa using hcompl
              obtain ⟨hr1, hr2⟩ := hr.1 hch0.joined
              by_cases hv : (viewOf cm (avail.map (·.pfx)) k c'.out).joined = true
              · rw [if_pos ⟨hk, hv⟩]
                refine ⟨fun _ => ?_, fun _ _ => hch0.joined⟩
                refine ⟨fun _ => hv, fun _ => ?_⟩
                have hr2 := hr2 hv
                rw [if_neg (by rw [hl]; simp)] at hr2
                dsimp only
                rw [if_pos rfl, h2]
                refine ⟨by simp, ?_, fun x => ?_⟩
                · by_cases ht : ch.topic = []
                  · rw [if_neg (by simpa using ht), hch0.topic, ht]
                    exact hr2.1 (hch0.topic.trans ht)
                  · rw [if_pos ht, hch0.topic]
                · rw [if_neg (by simp), ← hch0.members]
                  have := hr2.2 x
                  cases hvx : (viewOf cm (avail.map (·.pfx)) k c'.out).members x
                  · simp
                  · rw [this hvx]; rfl
              · rw [if_neg (fun h => hv h.2)]
                exact ⟨fun _ => ⟨hr1, fun h' => absurd h' hv⟩, fun _ h' => absurd h' hv⟩
            · rw [ho hk]
              rw [hname] at hk
              rw [if_neg (fun h => hk h.1)]
              exact hr

theorem server_inv {st st' : VcState} {d : View} {conn : VcConn} {m : VMsg} (dc : Nat)
    (hsp : 32 ∉ avail.map (·.pfx))
    (h : VInv a cm avail k st d) (hc : st.conn = some conn)
    (hor : Orderly cm (avail.map (·.pfx)) k d m) (hs : vcServer cm avail st conn m dc = some st') :
    VInv a cm avail k st' (readMsg cm (avail.map (·.pfx)) k d m) := by
  unfold vcServer at hs
  split at hs
  · rename_i hm; cases hs; exact vc_nick h hc hm hor
  split at hs
  · rename_i hm
    obtain ⟨hsrc, name, rest, hp, hcomma⟩ := hor.join hm
    obtain ⟨s, c, ps⟩ := m
    dsimp only at hm hp hsrc hs
    subst hm hp
    dsimp only at hs
    cases hs
    rw [splitByte_free 44 name hcomma]
    exact vc_join h hc hsrc
  split at hs
  · rename_i hm
    obtain ⟨name, rest, hp, hcomma⟩ := hor.part hm
    obtain ⟨s, c, ps⟩ := m
    dsimp only at hm hp hs
    subst hm hp
    dsimp only at hs
    cases hs
    rw [splitByte_free 44 name hcomma]
    exact vc_part h hc
  split at hs
  · rename_i hm; cases hs; exact vc_kick h hc hm
  split at hs
  · rename_i hm; cases hs; exact vc_quit h hc hm hor
  split at hs
  · rename_i hm; cases hs; exact vc_topicReply dc h hc hm hor
  split at hs
  · rename_i hm; cases hs; exact vc_topic h hc hm
  split at hs
  · rename_i hm; exact vc_namReply dc h hc hm hor hs
  split at hs
  · rename_i hm; cases hs; exact vc_endOfNames dc hsp h hc hm
  · cases hs
    have : readMsg cm (avail.map (·.pfx)) k d m = d := by
      have h1 := hor.welcome
      unfold readMsg
      dsimp only
      repeat' split
      all_goals first | rfl | contradiction | (exfalso; simp_all; done)
    rw [this]; exact h

end Verif.Proof
