import Verif.Proof.NetView

/-! C76: a client that asked for notifications knows the networks of the user. -/

namespace Verif.Props
open Verif.Model Verif.Spec Verif.Proof

/-- The networks the loop starts with have identifiers of their own. -/
def FreshIds (recs : List NetRec) (next : Nat) : Prop :=
  (recs.map (·.id)).Nodup ∧ ∀ r ∈ recs, r.id < next

/-- The attributes that are sent are those the network has. -/
theorem attrs_iff (lib : UrlLib) (u : NvUser) (n : NvNet) (k v : Str) :
    (k, v) ∈ getNetworkAttrs lib u n ↔ AttrOf lib u n k v := by
  have hnick : nvNick u n.rec' = firstOf [n.rec'.nick, u.nick, u.username] := by
    simp only [nvNick, firstOf]
    by_cases h3 : n.rec'.nick = [] <;> by_cases h4 : u.nick = [] <;> by_cases h5 : u.username = [] <;>
      simp [h3, h4, h5]
  have hreal : nvRealname u n.rec' =
      firstOf [n.rec'.realname, u.realname, n.rec'.nick, u.nick, u.username] := by
    simp only [nvRealname, nvNick, firstOf]
    by_cases h1 : n.rec'.realname = [] <;> by_cases h2 : u.realname = [] <;>
      by_cases h3 : n.rec'.nick = [] <;> by_cases h4 : u.nick = [] <;> by_cases h5 : u.username = [] <;>
      simp [h1, h2, h3, h4, h5]
  have hname : n.rec'.getName = firstOf [n.rec'.name, n.rec'.addr] := by
    simp only [NetRec.getName, firstOf]
    by_cases h3 : n.rec'.name = [] <;> by_cases h4 : n.rec'.addr = [] <;> simp [h3, h4]
  constructor
  · intro h
    simp only [getNetworkAttrs, List.mem_append, List.mem_cons, List.not_mem_nil, or_false, Prod.mk.injEq,
      List.mem_map, Option.mem_toList] at h
    rcases h with (((((((⟨rfl, rfl⟩ | ⟨rfl, rfl⟩ | ⟨rfl, rfl⟩) | h) | h) | h) | h) | h) | h)
    · rw [hname]; exact .name
    · by_cases hc : n.conn = true
      · rw [if_pos hc]; exact .connected hc
      · rw [if_neg hc]; exact .disconnected (by simpa using hc)
    · rw [hnick]; exact .nickname
    · split at h
      · next hu => simp only [List.mem_singleton, Prod.mk.injEq] at h; rw [h.1, h.2]; exact .username hu
      · cases h
    · split at h
      · next hu =>
        simp only [List.mem_singleton, Prod.mk.injEq] at h
        rw [h.1]
        exact .realname _ (by rw [h.2, hreal]) (by rw [h.2]; exact hu)
      · cases h
    · obtain ⟨e, he, rfl, rfl⟩ := h
      exact .error _ he
    all_goals
      obtain ⟨e, he, rfl, rfl⟩ := h
      revert he
      unfold fillNetworkAddrAttrs
      split
      · intro he; cases he
      · next url hurl =>
        split
        · next hsch =>
          dsimp only
          split
          · next hh pp hsp =>
            intro he
            simp only [Option.some.injEq] at he
            subst he
            first
              | exact .host url _ _ hurl (by simpa using hsch) hsp
              | exact .port url _ _ hurl (by simpa using hsch) hsp
              | (split
                 · next h1 => exact .tls url hurl h1
                 · next h1 => exact .noTls url hurl (hsch.resolve_left h1))
          · next hsp =>
            intro he
            first
              | (simp only [Option.some.injEq] at he
                 subst he
                 first
                   | exact .bareHost url hurl (by simpa using hsch) hsp
                   | (split
                      · next h1 => exact .tls url hurl h1
                      · next h1 => exact .noTls url hurl (hsch.resolve_left h1)))
              | cases he
        · intro he; cases he
  · intro h
    have hsc : ∀ url, netUrl lib n.rec'.addr = some url → url.scheme = b!"ircs" ∨ url.scheme = b!"irc+insecure" →
        (fillNetworkAddrAttrs lib n.rec'.addr).tls = some (if url.scheme = b!"ircs" then b!"1" else b!"0") := by
      intro url hurl hs
      unfold fillNetworkAddrAttrs
      rw [hurl]
      dsimp only
      rw [if_pos hs]
      split <;> rfl
    cases h with
    | name => rw [← hname]; simp [getNetworkAttrs]
    | connected hc => simp [getNetworkAttrs, hc]
    | disconnected hc => simp [getNetworkAttrs, hc]
    | nickname => rw [← hnick]; simp [getNetworkAttrs]
    | username hu => simp [getNetworkAttrs, hu]
    | realname v hv hne =>
      rw [← hreal] at hv
      subst hv
      simp [getNetworkAttrs, hne]
    | error e he => simp [getNetworkAttrs, he]
    | tls url hurl hs =>
      have := hsc url hurl (.inl hs)
      rw [if_pos hs] at this
      simp [getNetworkAttrs, this]
    | noTls url hurl hs =>
      have := hsc url hurl (.inr hs)
      rw [if_neg (by rw [hs]; decide)] at this
      simp [getNetworkAttrs, this]
    | host url hh pp hurl hs hsp =>
      have : (fillNetworkAddrAttrs lib n.rec'.addr).host = some v := by
        unfold fillNetworkAddrAttrs
        rw [hurl]
        dsimp only
        rw [if_pos (by simpa using hs), hsp]
      simp [getNetworkAttrs, this]
    | port url hh pp hurl hs hsp =>
      have : (fillNetworkAddrAttrs lib n.rec'.addr).port = some v := by
        unfold fillNetworkAddrAttrs
        rw [hurl]
        dsimp only
        rw [if_pos (by simpa using hs), hsp]
      simp [getNetworkAttrs, this]
    | bareHost url hurl hs hsp =>
      have : (fillNetworkAddrAttrs lib n.rec'.addr).host = some url.host := by
        unfold fillNetworkAddrAttrs
        rw [hurl]
        dsimp only
        rw [if_pos (by simpa using hs), hsp]
      simp [getNetworkAttrs, this]

/-- C76: whatever happens, a client that asked for notifications when it logged in knows exactly which
networks there are. -/
theorem C76_networks (lib : UrlLib) (u : NvUser) (recs : List NetRec) (next : Nat) (hf : FreshIds recs next)
    (ops : List NvOp) (c : NvClient) (hc : c ∈ (nvRun lib (nvInit u recs next) ops).clients)
    (hn : c.notify = true) (hcap : ∀ on, NvOp.capReq c.num on ∉ ops) (id : Nat) :
    (netsView c.out id).isSome = true ↔ ∃ n ∈ (nvRun lib (nvInit u recs next) ops).networks, n.rec'.id = id := by
  have h := nvRun_inv (nvInit_inv lib [] (fun i => i = c.num) u recs next hf.1 hf.2) ops
    (fun pre op post e => ⟨by cases op <;> simp [Silent], fun h => absurd h (by decide), ?_⟩)
  · have := (h.2 c hc rfl hn).1 id
    rw [this, any_id, List.mem_map]
  · rintro num on rfl rfl
    exact hcap on (by rw [e]; simp)

/-- C76: it knows every attribute that a network has, as it is now. For the nick and the real name this
needs that nobody changed them without a reconnection (`C76_nick_violated`); for the state and the error,
that no goroutine of a network that was replaced has spoken up (`C76_stale_state_violated`). Partial: the
client may also know attributes that the network no longer has (`C76_removed_violated`). -/
theorem C76_attributes_partial (lib : UrlLib) (u : NvUser) (recs : List NetRec) (next : Nat)
    (hf : FreshIds recs next) (ops : List NvOp) (k : Str) (hs : ∀ op ∈ ops, ¬ Silent k op)
    (hst : k = b!"state" ∨ k = b!"error" → NoneStale lib (nvInit u recs next) ops)
    (c : NvClient) (hc : c ∈ (nvRun lib (nvInit u recs next) ops).clients) (hn : c.notify = true)
    (hcap : ∀ on, NvOp.capReq c.num on ∉ ops) :
    ∀ n ∈ (nvRun lib (nvInit u recs next) ops).networks,
      ∀ v, AttrOf lib (nvRun lib (nvInit u recs next) ops).user n k v →
        ∃ f, netsView c.out n.rec'.id = some f ∧ f k = v := by
  have h := nvRun_inv (nvInit_inv lib k (fun i => i = c.num) u recs next hf.1 hf.2) ops
    (fun pre op post e => ⟨hs op (by rw [e]; simp), fun hk => hst hk pre op post e, ?_⟩)
  · intro n hm v hv
    obtain ⟨h1, h2⟩ := h.2 c hc rfl hn
    have h1 := h1 n.rec'.id
    rw [any_id.mpr (List.mem_map.mpr ⟨n, hm, rfl⟩)] at h1
    obtain ⟨f, hf⟩ := Option.isSome_iff_exists.mp h1
    have h2 := h2 n hm v ((attrs_iff ..).mpr hv)
    rw [hf] at h2
    exact ⟨f, hf, h2⟩
  · rintro num on rfl rfl
    exact hcap on (by rw [e]; simp)

/-- C76: in particular it always knows the names. -/
theorem C76_names (lib : UrlLib) (u : NvUser) (recs : List NetRec) (next : Nat)
    (hf : FreshIds recs next) (ops : List NvOp) (c : NvClient)
    (hc : c ∈ (nvRun lib (nvInit u recs next) ops).clients) (hn : c.notify = true)
    (hcap : ∀ on, NvOp.capReq c.num on ∉ ops) :
    ∀ n ∈ (nvRun lib (nvInit u recs next) ops).networks,
      ∃ f, netsView c.out n.rec'.id = some f ∧
        f b!"name" = firstOf [n.rec'.name, n.rec'.addr] := by
  intro n hm
  refine C76_attributes_partial lib u recs next hf ops b!"name" (fun op _ => ?_) (fun h => absurd h (by decide)) c hc hn hcap n hm _
    .name
  cases op <;> simp only [Silent] <;> decide

/-- C76: and, in histories in which no replaced network speaks up, which networks are connected. -/
theorem C76_state_partial (lib : UrlLib) (u : NvUser) (recs : List NetRec) (next : Nat)
    (hf : FreshIds recs next) (ops : List NvOp) (hst : NoneStale lib (nvInit u recs next) ops) (c : NvClient)
    (hc : c ∈ (nvRun lib (nvInit u recs next) ops).clients) (hn : c.notify = true)
    (hcap : ∀ on, NvOp.capReq c.num on ∉ ops) :
    ∀ n ∈ (nvRun lib (nvInit u recs next) ops).networks,
      ∃ f, netsView c.out n.rec'.id = some f ∧
        f b!"state" = (if n.conn then b!"connected" else b!"disconnected") := by
  intro n hm
  refine C76_attributes_partial lib u recs next hf ops b!"state" (fun op _ => ?_) (fun _ => hst) c hc hn hcap n hm _
    (by split
        · next h => exact .connected h
        · next h => exact .disconnected (by simpa using h))
  cases op <;> simp only [Silent] <;> decide

/-- C76: a client that has just logged in knows exactly the attributes, no more and no fewer. -/
theorem C76_login (lib : UrlLib) (u : NvUser) (recs : List NetRec) (next : Nat) (hf : FreshIds recs next)
    (ops : List NvOp) (num : Nat) :
    ∃ c, (nvRun lib (nvInit u recs next) (ops ++ [.login num true])).clients.getLast? = some c ∧
      ∀ n ∈ (nvRun lib (nvInit u recs next) ops).networks, ∃ f, netsView c.out n.rec'.id = some f ∧
        ∀ k, (∀ v, AttrOf lib (nvRun lib (nvInit u recs next) ops).user n k v → f k = v) ∧
          ((∀ v, ¬ AttrOf lib (nvRun lib (nvInit u recs next) ops).user n k v) → f k = []) := by
  have h := nvRun_inv (good := fun _ => False) (nvInit_inv lib [] (fun _ => False) u recs next hf.1 hf.2) ops
    (fun pre op post e => ⟨by cases op <;> simp [Silent], fun h => absurd h (by decide), fun _ _ _ => id⟩)
  generalize hs : nvRun lib (nvInit u recs next) ops = st at h
  refine ⟨⟨num, true, nvBatch lib st⟩, ?_, fun n hn => ?_⟩
  · rw [nvRun_snoc, hs]
    simp [nvStep]
  · obtain ⟨-, h2⟩ := batch_view lib st.user st.networks (netsView []) h.1.ids
    refine ⟨_, h2 n hn, fun k => ⟨fun v hv => overwrite_mem _ _ (attrs_nodup lib st.user n) ((attrs_iff ..).mpr hv), fun hv => ?_⟩⟩
    rw [overwrite_not_mem]
    · rfl
    · intro hm
      obtain ⟨⟨k', v⟩, hm', rfl⟩ := List.mem_map.mp hm
      exact hv v ((attrs_iff ..).mp hm')

/-- C76: after an update the network has the settings that were asked for: a nick or a real name that is the one of the
user is stored as none at all, which means the same. -/
theorem C76_updated (lib : UrlLib) (st : NvState) (r : NetRec) (h : ∃ n ∈ st.networks, n.rec'.id = r.id) :
    ∃ n ∈ (nvStep lib st (.update r)).networks, n.rec'.id = r.id ∧ n.conn = false ∧ n.err = none ∧
      nvNick st.user n.rec' = firstOf [r.nick, st.user.nick, st.user.username] ∧
      nvRealname st.user n.rec' = firstOf [r.realname, st.user.realname, r.nick, st.user.nick, st.user.username] ∧
      { n.rec' with nick := r.nick, realname := r.realname } = r := by
  cases hf : st.networks.find? (fun n => n.rec'.id = r.id) with
  | none =>
    obtain ⟨n, hn, hi⟩ := h
    exact absurd hi (by simpa using List.find?_eq_none.1 hf n hn)
  | some net =>
    have hmem := List.mem_of_find?_eq_some hf
    have hN : ∀ (s : NvState) id a, (nvNotify s id a).networks = s.networks := by
      intro s id a; unfold nvNotify; split <;> rfl
    have hD : ∃ m ∈ (if net.conn then nvDisconnected st net.obj else st).networks, m.obj = net.obj := by
      split
      · unfold nvDisconnected
        dsimp only
        split
        · exact ⟨_, List.mem_map.2 ⟨net, hmem, rfl⟩, by rw [if_pos rfl]⟩
        · rw [hN]
          exact ⟨_, List.mem_map.2 ⟨net, hmem, rfl⟩, by rw [if_pos rfl]⟩
      · exact ⟨net, hmem, rfl⟩
    obtain ⟨m, hm, hmo⟩ := hD
    refine ⟨⟨st.nextObj, nvWipe st.user r, false, none⟩, ?_, rfl, rfl, rfl, ?_, ?_, rfl⟩
    · unfold nvStep
      dsimp only
      rw [hf]
      dsimp only
      rw [hN]
      exact List.mem_map.2 ⟨m, hm, by rw [if_pos hmo]⟩
    · unfold nvNick nvWipe firstOf firstOf firstOf firstOf
      by_cases h1 : r.nick = st.user.nick <;> by_cases h2 : st.user.nick = [] <;> by_cases h3 : r.nick = [] <;>
        by_cases h4 : st.user.username = [] <;> simp_all
    · unfold nvRealname nvNick nvWipe firstOf firstOf firstOf firstOf firstOf firstOf
      by_cases h1 : r.nick = st.user.nick <;> by_cases h2 : st.user.nick = [] <;> by_cases h3 : r.nick = [] <;>
        by_cases h4 : st.user.username = [] <;> by_cases h5 : r.realname = st.user.realname <;>
        by_cases h6 : r.realname = [] <;> by_cases h7 : st.user.realname = [] <;> simp_all

/-- C76: a client that did not ask for notifications is told of networks only when it asks. -/
theorem C76_unasked (lib : UrlLib) (u : NvUser) (recs : List NetRec) (next : Nat) (ops : List NvOp) (c : NvClient)
    (hc : c ∈ (nvRun lib (nvInit u recs next) ops).clients) (hn : c.notify = false)
    (hcap : ∀ on, NvOp.capReq c.num on ∉ ops) (hl : NvOp.list c.num ∉ ops) : c.out = [] := by
  have key : ∀ ops : List NvOp, (∀ on, NvOp.capReq c.num on ∉ ops) → NvOp.list c.num ∉ ops →
      ∀ d ∈ (nvRun lib (nvInit u recs next) ops).clients, d.num = c.num → d.notify = false → d.out = [] := by
    intro ops
    induction ops using snocInd with
    | nil => intro _ _ d hd; cases hd
    | snoc ops op ih =>
      intro h1 h2
      have ih := ih (fun on h => h1 on (by simp [h])) (fun h => h2 (by simp [h]))
      rw [nvRun_snoc]
      generalize nvRun lib (nvInit u recs next) ops = st at ih
      have hsend : ∀ (m : NvMsg), ∀ d ∈ st.clients.map (nvSend m), d.num = c.num → d.notify = false → d.out = [] := by
        intro m d hd hnum hno
        obtain ⟨d0, hd0, rfl⟩ := List.mem_map.mp hd
        unfold nvSend at hnum hno ⊢
        by_cases hb : d0.notify = true
        · rw [if_pos hb] at hno; rw [show d0.notify = false from hno] at hb; cases hb
        · rw [if_neg hb] at hnum hno ⊢; exact ih d0 hd0 hnum hno
      have hnot : ∀ (s : NvState) id a, (s.clients = st.clients ∨ ∃ m, s.clients = st.clients.map (nvSend m)) →
          ∀ d ∈ (nvNotify s id a).clients, d.num = c.num → d.notify = false → d.out = [] := by
        intro s id a hs d hd hnum hno
        unfold nvNotify at hd
        split at hd
        · dsimp only at hd
          rcases hs with hs | ⟨m, hs⟩
          · rw [hs] at hd; exact hsend _ d hd hnum hno
          · rw [hs] at hd
            obtain ⟨d0, hd0, rfl⟩ := List.mem_map.mp hd
            unfold nvSend at hnum hno ⊢
            by_cases hb : d0.notify = true
            · rw [if_pos hb] at hno; rw [show d0.notify = false from hno] at hb; cases hb
            · rw [if_neg hb] at hnum hno ⊢; exact hsend m d0 hd0 hnum hno
        · rcases hs with hs | ⟨m, hs⟩
          · rw [hs] at hd; exact ih d hd hnum hno
          · rw [hs] at hd; exact hsend m d hd hnum hno
      have hdisc : ∀ obj, (nvDisconnected st obj).clients = st.clients ∨
          ∃ m, (nvDisconnected st obj).clients = st.clients.map (nvSend m) := by
        intro obj
        unfold nvDisconnected
        dsimp only
        split
        · exact .inl rfl
        · unfold nvNotify
          split
          · exact .inr ⟨_, rfl⟩
          · exact .inl rfl
      cases op with
      | create r => exact hnot _ _ _ (.inl rfl)
      | update r =>
        rw [nvStep]
        split
        · exact ih
        · dsimp only
          refine hnot _ _ _ ?_
          dsimp only
          split
          · exact hdisc _
          · exact .inl rfl
      | delete id =>
        rw [nvStep]
        split
        · exact ih
        · exact hsend _
      | connected obj =>
        rw [nvStep]
        split
        · exact ih
        · exact hnot _ _ _ (.inl rfl)
      | disconnected obj =>
        rw [nvStep]
        intro d hd hnum hno
        rcases hdisc obj with h | ⟨m, h⟩
        · rw [h] at hd; exact ih d hd hnum hno
        · rw [h] at hd; exact hsend m d hd hnum hno
      | error obj t =>
        rw [nvStep]
        split
        · exact ih
        · exact hnot _ _ _ (.inl rfl)
      | userNick n => exact ih
      | userRealname n => exact ih
      | netNick i n => exact ih
      | login num notify =>
        intro d hd hnum hno
        rcases List.mem_append.mp hd with hd | hd
        · exact ih d hd hnum hno
        · rw [List.mem_singleton.mp hd] at hno ⊢
          dsimp only at hno ⊢
          rw [if_neg (by rw [hno]; decide)]
      | logout num => exact fun d hd => ih d (List.mem_filter.mp hd).1
      | capReq num on =>
        intro d hd hnum hno
        obtain ⟨d0, hd0, rfl⟩ := List.mem_map.mp hd
        by_cases hb : d0.num = num
        · rw [if_pos hb] at hnum
          exact absurd (by rw [← hnum, ← hb]; simp) (h1 on)
        · rw [if_neg hb] at hnum hno ⊢; exact ih d0 hd0 hnum hno
      | list num =>
        intro d hd hnum hno
        obtain ⟨d0, hd0, rfl⟩ := List.mem_map.mp hd
        by_cases hb : d0.num = num
        · rw [if_pos hb] at hnum
          exact absurd (by rw [← hnum, ← hb]; simp) h2
        · rw [if_neg hb] at hnum hno ⊢; exact ih d0 hd0 hnum hno
  exact key ops hcap hl c hc rfl hn

/-! A history in which the hypotheses are met: two networks to start with, one of them renamed while
connected, one created and one removed, with clients coming and going. -/

def nvLib : UrlLib := ⟨fun h => some h, fun _ => true⟩
def nvUser : NvUser := ⟨b!"u", b!"nick", []⟩
def nvRecs : List NetRec :=
  [{ id := 1, name := b!"libera", addr := b!"irc.libera.chat" },
   { id := 2, addr := b!"irc+insecure://localhost:6667", username := b!"me" }]
def nvHistory : List NvOp :=
  [.login 1 true, .connected 0, .login 2 true, .login 3 false, .connected 1, .create { addr := b!"irc.oftc.net" },
   .error 2 b!"refused", .update { id := 1, name := b!"Libera", addr := b!"irc.libera.chat:6697" },
   .disconnected 0, .connected 3, .disconnected 1, .delete 2, .logout 2]

/-- Whether an event is not stale. -/
def freshB (st : NvState) : NvOp → Bool
  | .connected obj => st.networks.any (fun n => n.obj = obj)
  | .error obj _ => st.networks.any (fun n => n.obj = obj)
  | _ => true

/-- Whether no event of a history is stale. -/
def noneStaleB (lib : UrlLib) : NvState → List NvOp → Bool
  | _, [] => true
  | st, op :: ops => freshB st op && noneStaleB lib (nvStep lib st op) ops

theorem noneStale_of_check {lib : UrlLib} {ops : List NvOp} :
    ∀ {st : NvState}, noneStaleB lib st ops = true → NoneStale lib st ops := by
  induction ops with
  | nil => intro st _ pre op post e; cases pre <;> cases e
  | cons o ops ih =>
    intro st h pre op post e
    rw [noneStaleB, Bool.and_eq_true] at h
    cases pre with
    | nil =>
      obtain ⟨rfl, rfl⟩ := List.cons.inj e
      intro hs
      have h1 := h.1
      cases o with
      | connected obj =>
        obtain ⟨n, hn, he⟩ := List.any_eq_true.mp h1
        exact hs n hn (by simpa using he)
      | error obj t =>
        obtain ⟨n, hn, he⟩ := List.any_eq_true.mp h1
        exact hs n hn (by simpa using he)
      | _ => exact hs
    | cons p pre =>
      obtain ⟨rfl, rfl⟩ := List.cons.inj e
      exact ih h.2 pre op post rfl

/-- What the first client knows. -/
def nvKnown (ops : List NvOp) (id : Nat) (k : Str) : Option (Option Str) :=
  (nvRun nvLib (nvInit nvUser nvRecs 3) ops).clients.head?.map (fun c => (netsView c.out id).map (fun f => f k))

example : FreshIds nvRecs 3 ∧ NoneStale nvLib (nvInit nvUser nvRecs 3) nvHistory ∧
    (∀ op ∈ nvHistory, ∀ k, ¬ Silent k op) ∧ (∀ num on, NvOp.capReq num on ∉ nvHistory) ∧
    nvKnown nvHistory 1 b!"name" = some (some b!"Libera") ∧ nvKnown nvHistory 1 b!"state" = some (some b!"connected") ∧
    nvKnown nvHistory 1 b!"port" = some (some b!"6697") ∧ nvKnown nvHistory 2 b!"name" = some none ∧
    nvKnown nvHistory 3 b!"error" = some (some b!"refused") := by
  refine ⟨⟨by decide, by decide⟩, noneStale_of_check (by decide +kernel), fun op h k => ?_, fun num on h => ?_, ?_⟩
  · simp only [nvHistory, List.mem_cons, List.not_mem_nil, or_false] at h
    rcases h with rfl | rfl | rfl | rfl | rfl | rfl | rfl | rfl | rfl | rfl | rfl | rfl | rfl <;> exact fun h => h
  · simp [nvHistory] at h
  · decide +kernel

/-- Disagreement with doc/ext/bouncer-networks.md ("MUST broadcast a BOUNCER NETWORK message with the updated
attributes"): when a client changes its nick on a network, clients that asked for notifications are not told. -/
theorem C76_nick_violated : ∃ ops : List NvOp, nvKnown ops 1 b!"nickname" = some (some b!"nick") ∧
    (nvRun nvLib (nvInit nvUser nvRecs 3) ops).networks.head?.map (fun n => nvNick nvUser n.rec') = some b!"other" :=
  ⟨[.login 1 true, .connected 0, .netNick 1 b!"other"], by decide +kernel⟩

/-- Disagreement: the goroutine of a network that an update replaced may still report that it connected;
the clients are then told that the new network is connected, and not that it isn't when that connection
is closed. -/
theorem C76_stale_state_violated : ∃ ops : List NvOp, nvKnown ops 1 b!"state" = some (some b!"connected") ∧
    (nvRun nvLib (nvInit nvUser nvRecs 3) ops).networks.head?.map (·.conn) = some false :=
  ⟨[.login 1 true, .update { id := 1, addr := b!"a" }, .connected 0, .disconnected 0], by decide +kernel⟩

/-- Disagreement: likewise for an error. -/
theorem C76_stale_error_violated : ∃ ops : List NvOp, nvKnown ops 1 b!"error" = some (some b!"refused") ∧
    (nvRun nvLib (nvInit nvUser nvRecs 3) ops).networks.head?.map (·.err) = some none :=
  ⟨[.login 1 true, .update { id := 1, addr := b!"a" }, .error 0 b!"refused"], by decide +kernel⟩

/-- Disagreement: an attribute that an update removes is not announced as removed ("An attribute without a
value means that the attribute has been removed"): here the port and the user name remain. -/
theorem C76_removed_violated : ∃ ops : List NvOp, nvKnown ops 2 b!"port" = some (some b!"6667") ∧
    nvKnown ops 2 b!"username" = some (some b!"me") ∧
    ∃ n ∈ (nvRun nvLib (nvInit nvUser nvRecs 3) ops).networks, n.rec'.id = 2 ∧
      ∀ v, ¬ AttrOf nvLib nvUser n b!"port" v ∧ ¬ AttrOf nvLib nvUser n b!"username" v := by
  refine ⟨[.login 1 true, .update { id := 2, addr := b!"irc+insecure://localhost" }], by decide +kernel,
    by decide +kernel, ⟨2, { id := 2, addr := b!"irc+insecure://localhost" }, false, none⟩, by decide +kernel, rfl,
    fun v => ?_⟩
  have e : getNetworkAttrs nvLib nvUser ⟨2, { id := 2, addr := b!"irc+insecure://localhost" }, false, none⟩ =
      [(b!"name", b!"irc+insecure://localhost"), (b!"state", b!"disconnected"), (b!"nickname", b!"nick"),
       (b!"realname", b!"nick"), (b!"tls", b!"0"), (b!"host", b!"localhost")] := by decide +kernel
  rw [← attrs_iff, ← attrs_iff, e]
  simp

/-- Disagreement ("MUST send an initial batch"): a client that enables the capability once it is registered
is not told which networks there are. -/
theorem C76_late_violated : ∃ ops : List NvOp, nvKnown ops 1 b!"name" = some none ∧
    (nvRun nvLib (nvInit nvUser nvRecs 3) ops).clients.head?.map (·.notify) = some true ∧
    (nvRun nvLib (nvInit nvUser nvRecs 3) ops).networks.head?.map (·.rec'.id) = some 1 :=
  ⟨[.login 1 false, .capReq 1 true], by decide +kernel⟩

end Verif.Props
