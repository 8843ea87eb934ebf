import Verif.Model.Reports
import Verif.Proof.Casemap
import Verif.Proof.GoStr
import Mathlib.Data.List.Forall2

/-! # C93: what the service reports is true -/

namespace Verif.Props
open Verif.Model Verif.Spec Verif.Proof

/-! ## Specification -/

/-- Whether the user is in a channel. -/
inductive InChannel | joined | parted | disconnected
deriving DecidableEq

/-- What a line of `channel status` says. -/
structure ChanFact where
  chan : Str
  network : Str
  state : InChannel
  detached : Bool
deriving DecidableEq

/-- The word for a state. -/
def InChannel.word : InChannel → Str
  | .joined => b!"joined"
  | .parted => b!"parted"
  | .disconnected => b!"disconnected"

/-- The line that says so.  The network is left out if one network was asked for. -/
def sayChan (all : Bool) (f : ChanFact) : Str :=
  f.chan ++ (if all then 47 :: f.network else []) ++ b!" [" ++ f.state.word ++
    (if f.detached then b!", detached]" else b!"]")

/-- The name a user knows a network by: its address if it has no name. -/
def CalledBy (n : RpNet) (s : Str) : Prop := (n.name ≠ [] ∧ s = n.name) ∨ (n.name = [] ∧ s = n.addr)

/-- The server knows the user to be in the channel. -/
def UserIsIn (uc : RpConn) (chan : Str) : Prop :=
  ∃ k ∈ uc.channels.forEach.map (·.1), SameName (sysOf uc.channels.cm) k chan

/-- A state is the actual one. -/
def ChanIs (net : RpNet) (chan : Str) : InChannel → Prop
  | .joined => ∃ uc, net.conn = some uc ∧ UserIsIn uc chan
  | .parted => ∃ uc, net.conn = some uc ∧ ¬ UserIsIn uc chan
  | .disconnected => net.conn = none

/-- What a line says is true of a channel of a network. -/
def FactOf (p : RpNet × RpChan) (f : ChanFact) : Prop :=
  f.chan = p.2.name ∧ CalledBy p.1 f.network ∧ f.detached = p.2.detached ∧ ChanIs p.1 p.2.name f.state

/-- The saved channels of networks. -/
def savedChannels (nets : List RpNet) : List (RpNet × RpChan) :=
  nets.flatMap (fun n => n.channels.forEach.map (fun e => (n, e.2)))

/-- The name of a channel without its `#`. -/
def nameSansHash (s : Str) : Str := s.filter (fun c => decide (c ≠ 35))

/-- `sort.Slice`: it reorders, and it sorts if the order is one. -/
def SliceOK {α : Type} (sort : (α → α → Bool) → List α → List α) : Prop :=
  ∀ less l, (sort less l).Perm l ∧
    ((∀ a b c, less a b = false → less b c = false → less a c = false) → (∀ a b, less a b = true → less b a = false) →
      (sort less l).Pairwise (fun a b => less b a = false))

/-- A network goes by a name: its own or its address. -/
def GoesBy (n : RpNet) (s : Str) : Prop := n.addr = s ∨ (n.name ≠ [] ∧ n.name = s)

/-- No other network goes by this name. -/
def OnlyOne (nets : List RpNet) (n : RpNet) (s : Str) : Prop := n ∈ nets ∧ GoesBy n s ∧ ∀ m ∈ nets, GoesBy m s → m = n

/-- The networks a user asks about with `channel status`. -/
inductive AsksAbout (nets : List RpNet) : Option RpNet → List Str → List RpNet → Bool → Prop
  | all : AsksAbout nets none [] nets true
  | every (c : Option RpNet) : AsksAbout nets c [b!"-network", []] nets true
  | current {n : RpNet} {s : Str} : CalledBy n s → s ≠ [] → OnlyOne nets n s → AsksAbout nets (some n) [] [n] false
  | named {n : RpNet} {s : Str} (c : Option RpNet) : s ≠ [] → OnlyOne nets n s →
      AsksAbout nets c [b!"-network", s] [n] false

/-! ## Channels -/

private theorem strLt_iff : ∀ (a b : Str), strLt a b = true ↔ a < b
  | _, [] => by simp [strLt]
  | [], _ :: _ => by simp [strLt]
  | a :: s, b :: t => by
    rw [strLt, List.cons_lt_cons_iff]
    by_cases h1 : a < b
    · simp [h1]
    · by_cases h2 : b < a
      · have : a ≠ b := by omega
        simp [h1, h2, this]
      · have : a = b := by omega
        subst this
        simp [strLt_iff s t]

private theorem chanLess_iff (a b : RpChan) : chanLess a b = true ↔ nameSansHash a.name < nameSansHash b.name := strLt_iff _ _

private theorem chanLess_false (a b : RpChan) : chanLess a b = false ↔ nameSansHash b.name ≤ nameSansHash a.name := by
  rw [← List.not_lt, ← chanLess_iff]; simp

private theorem getName_called (n : RpNet) : CalledBy n n.getName := by
  unfold CalledBy RpNet.getName
  by_cases h : n.name = [] <;> simp [h]

private theorem called_eq {n : RpNet} {s : Str} (h : CalledBy n s) : s = n.getName := by
  unfold RpNet.getName
  rcases h with ⟨h1, h2⟩ | ⟨h1, h2⟩ <;> simp [h1, h2]

private theorem has_on {uc : RpConn} (h : CMInv uc.channels) (chan : Str) :
    (uc.channels.get chan).isSome = true ↔ UserIsIn uc chan := by
  unfold UserIsIn CMMap.get
  rw [Option.isSome_map, Option.isSome_iff_exists]
  constructor
  · rintro ⟨e, he⟩
    have hm := mget_some_mem he
    refine ⟨e.originalKey, List.mem_map.2 ⟨(e.originalKey, e.value), List.mem_map.2 ⟨_, hm, rfl⟩, rfl⟩, ?_⟩
    rw [← casemap_eq_iff]
    exact (h.2 _ hm).symm
  · rintro ⟨k, hk, hs⟩
    obtain ⟨x, hx, rfl⟩ := List.mem_map.1 hk
    obtain ⟨p, hp, rfl⟩ := List.mem_map.1 hx
    have hk := h.2 p hp
    refine ⟨p.2, ?_⟩
    have := mget_of_mem (k := p.1) h.1 (show (p.1, p.2) ∈ uc.channels.m from hp)
    rw [hk, (casemap_eq_iff _ _ _).2 hs] at this
    exact this

/-- The connections of networks are what the bouncer makes of them. -/
def ConnsOK (nets : List RpNet) : Prop := ∀ n ∈ nets, ∀ uc, n.conn = some uc → CMMap.Reach uc.channels

private theorem line_fact {n : RpNet} (hn : ∀ uc, n.conn = some uc → CMMap.Reach uc.channels) (ch : RpChan) :
    ∃ f, FactOf (n, ch) f ∧ ∀ all, chanLine all n ch = sayChan all f := by
  cases hc : n.conn with
  | none =>
    refine ⟨⟨ch.name, n.getName, .disconnected, ch.detached⟩, ⟨rfl, getName_called n, rfl, hc⟩, ?_⟩
    intro all
    cases all <;> cases hd : ch.detached <;> simp [chanLine, sayChan, hc, hd, InChannel.word]
  | some uc =>
    have hi := cmInv_reach (hn uc hc)
    by_cases ho : UserIsIn uc ch.name
    · refine ⟨⟨ch.name, n.getName, .joined, ch.detached⟩, ⟨rfl, getName_called n, rfl, uc, hc, ho⟩, ?_⟩
      rw [← has_on hi] at ho
      intro all
      cases all <;> cases hd : ch.detached <;> simp [chanLine, sayChan, hc, hd, ho, InChannel.word]
    · refine ⟨⟨ch.name, n.getName, .parted, ch.detached⟩, ⟨rfl, getName_called n, rfl, uc, hc, ho⟩, ?_⟩
      rw [← has_on hi] at ho
      intro all
      cases all <;> cases hd : ch.detached <;> simp [chanLine, sayChan, hc, hd, ho, InChannel.word]

/-- Lines that report on channels, one by one. -/
private theorem lines_facts {all : Bool} : ∀ (l : List (RpNet × RpChan)),
    (∀ p ∈ l, ∀ uc, p.1.conn = some uc → CMMap.Reach uc.channels) →
    ∃ facts, List.Forall₂ FactOf l facts ∧ l.map (fun p => chanLine all p.1 p.2) = facts.map (sayChan all)
  | [], _ => ⟨[], .nil, rfl⟩
  | p :: l, h => by
    obtain ⟨f, hf, hl⟩ := line_fact (h p (by simp)) p.2
    obtain ⟨fs, h1, h2⟩ := lines_facts (all := all) l (fun q hq => h q (by simp [hq]))
    exact ⟨f :: fs, .cons hf h1, by simp [h2, hl]⟩

/-- The channels of a network, sorted. -/
private def inOrder (sort : (RpChan → RpChan → Bool) → List RpChan → List RpChan) (n : RpNet) : List (RpNet × RpChan) :=
  (sort chanLess (n.channels.forEach.map (·.2))).map (fun c => (n, c))

private theorem inOrder_perm {sort} (hs : SliceOK sort) (n : RpNet) :
    (inOrder sort n).Perm (n.channels.forEach.map (fun e => (n, e.2))) := by
  unfold inOrder
  have := ((hs chanLess (n.channels.forEach.map (·.2))).1).map (fun c => (n, c))
  rwa [List.map_map] at this

private theorem inOrder_sorted {sort} (hs : SliceOK sort) (n : RpNet) :
    (inOrder sort n).Pairwise (fun a b => nameSansHash a.2.name ≤ nameSansHash b.2.name) := by
  unfold inOrder
  rw [List.pairwise_map]
  refine List.Pairwise.imp ?_ ((hs chanLess (n.channels.forEach.map (·.2))).2 ?_ ?_)
  · intro a b h; exact (chanLess_false _ _).1 h
  · intro a b c h1 h2
    rw [chanLess_false] at *
    exact List.le_trans h2 h1
  · intro a b h
    rw [chanLess_iff] at h
    rw [chanLess_false]
    exact List.le_of_lt h

/-- A report on the channels of networks: network by network, the channels of each sorted by name, one line for each,
which says what is true of it. -/
def ReportsChannels (nets : List RpNet) (all : Bool) (lines : List Str) : Prop :=
  ∃ (order : List (List (RpNet × RpChan))) (facts : List ChanFact),
    List.Forall₂ (fun n l => l.Perm (savedChannels [n]) ∧
      l.Pairwise (fun a b => nameSansHash a.2.name ≤ nameSansHash b.2.name)) nets order ∧
    List.Forall₂ FactOf order.flatten facts ∧
    lines = if facts = [] then [b!"No channel configured."] else facts.map (sayChan all)

private theorem reports {sort} (hs : SliceOK sort) (nets : List RpNet) (hc : ConnsOK nets) (all : Bool) :
    ReportsChannels nets all (if (nets.flatMap (chanLines sort all)).length = 0 then [b!"No channel configured."]
      else nets.flatMap (chanLines sort all)) := by
  have hl : nets.flatMap (chanLines sort all) =
      (nets.map (inOrder sort)).flatten.map (fun p => chanLine all p.1 p.2) := by
    rw [← List.flatMap_def, List.map_flatMap]
    congr 1
    funext n
    simp [chanLines, inOrder, Function.comp_def]
  obtain ⟨facts, h1, h2⟩ := lines_facts (all := all) (nets.map (inOrder sort)).flatten (by
    intro p hp uc hu
    obtain ⟨l, hl, hp⟩ := List.mem_flatten.1 hp
    obtain ⟨n, hn, rfl⟩ := List.mem_map.1 hl
    obtain ⟨c, -, rfl⟩ := List.mem_map.1 hp
    exact hc n hn uc hu)
  refine ⟨nets.map (inOrder sort), facts, ?_, h1, ?_⟩
  · rw [List.forall₂_map_right_iff]
    refine List.forall₂_same.2 (fun n _ => ⟨?_, inOrder_sorted hs n⟩)
    simpa [savedChannels] using inOrder_perm hs n
  · rw [hl, h2]
    cases facts <;> simp

private theorem parse_none (d : Str) : parseFlags statusFormal [] d = some (d, []) := rfl

private theorem parse_network (d s : Str) : parseFlags statusFormal [b!"-network", s] d = some (s, []) := by
  simp [parseFlags, flagNameValue, statusFormal, hasPrefix,
    show cutStr [61] [101, 116, 119, 111, 114, 107] = none by decide]

private theorem get_only {nets : List RpNet} {n : RpNet} {s : Str} (h : OnlyOne nets n s) :
    rpGetNetwork nets s = some n := by
  obtain ⟨h1, h2, h3⟩ := h
  unfold rpGetNetwork
  have hp : ∀ m : RpNet, (decide (m.addr = s) || (decide (m.name ≠ []) && decide (m.name = s))) = true ↔ GoesBy m s := by
    intro m; simp [GoesBy]
  cases hf : nets.find? (fun m => decide (m.addr = s) || (decide (m.name ≠ []) && decide (m.name = s))) with
  | none =>
    have := List.find?_eq_none.1 hf n h1
    exact absurd ((hp n).2 h2) this
  | some m =>
    have hm := List.find?_some hf
    rw [h3 m (List.mem_of_find?_eq_some hf) ((hp m).1 hm)]

/-- C93 (channels): `channel status` lists the saved channels of the networks it is asked about, each once, network by
network and sorted by name, and says of each truly whether the user is in it and whether it is detached.  Missing:
a client of a network whose name another network has for an address (`C93_channels_violated`). -/
theorem C93_channels_partial {sort} (hs : SliceOK sort) (nets sel : List RpNet) (hc : ConnsOK nets)
    (current : Option RpNet) (params : List Str) (all : Bool) (ha : AsksAbout nets current params sel all) :
    ∃ lines, channelStatus sort nets current params = some lines ∧ ReportsChannels sel all lines := by
  cases ha with
  | all => exact ⟨_, rfl, reports hs nets hc true⟩
  | every c =>
    refine ⟨_, ?_, reports hs nets hc true⟩
    unfold channelStatus
    rw [parse_network]
    rfl
  | @current n s h1 h2 h3 =>
    have hr := reports hs [n] (fun m hm => by
      rw [List.mem_singleton] at hm; subst hm; exact hc m h3.1) false
    rw [called_eq h1] at h2 h3
    refine ⟨_, ?_, hr⟩
    unfold channelStatus
    rw [parse_none]
    simp only [Option.map_some, Option.getD_some, if_neg h2, get_only h3, List.length_nil, List.flatMap_cons,
      List.flatMap_nil, List.append_nil]
    rfl
  | @named n s c h2 h3 =>
    have hr := reports hs [n] (fun m hm => by
      rw [List.mem_singleton] at hm; subst hm; exact hc m h3.1) false
    refine ⟨_, ?_, hr⟩
    unfold channelStatus
    rw [parse_network]
    simp only [if_neg h2, get_only h3, List.length_nil, List.flatMap_cons, List.flatMap_nil, List.append_nil]
    rfl

/-- C93 (channels): a network that is not there is an error, not an empty list. -/
theorem C93_unknown {sort} (nets : List RpNet) (current : Option RpNet) (s : Str) (hs : s ≠ [])
    (h : ∀ n ∈ nets, ¬ GoesBy n s) : channelStatus sort nets current [b!"-network", s] = none := by
  unfold channelStatus
  rw [parse_network]
  have : rpGetNetwork nets s = none := by
    unfold rpGetNetwork
    rw [List.find?_eq_none]
    intro m hm
    simpa [GoesBy] using h m hm
  simp only [if_neg hs, this, List.length_nil]
  rfl

private theorem cut_unique {x : Byte} {a b c d : Str} (ha : x ∉ a) (hc : x ∉ c) (h : a ++ x :: b = c ++ x :: d) :
    a = c ∧ b = d := by
  have h1 := cutStr_byte x a b ha
  have h2 := cutStr_byte x c d hc
  rw [h, h2] at h1
  simp only [Option.some.injEq, Prod.mk.injEq] at h1
  exact ⟨h1.1.symm, h1.2.symm⟩

private theorem last_cut {x : Byte} {a b c d : Str} (hb : x ∉ b) (hd : x ∉ d) (h : a ++ x :: b = c ++ x :: d) :
    a = c ∧ b = d := by
  have hr := congrArg List.reverse h
  simp only [List.reverse_append, List.reverse_cons, List.append_assoc, List.singleton_append] at hr
  obtain ⟨h1, h2⟩ := cut_unique (by simpa using hb) (by simpa using hd) hr
  exact ⟨List.reverse_inj.1 h2, List.reverse_inj.1 h1⟩

/-- C93 (channels): a line can be read in one way only, unless names have characters that channels (the space) or
networks (the slash) do not have in practice. -/
theorem C93_readable (all : Bool) (f g : ChanFact) (hf : 32 ∉ f.chan) (hg : 32 ∉ g.chan) (hf1 : 32 ∉ f.network)
    (hg1 : 32 ∉ g.network) (hf2 : 47 ∉ f.network) (hg2 : 47 ∉ g.network) (h : sayChan all f = sayChan all g) :
    f.chan = g.chan ∧ (all = true → f.network = g.network) ∧ f.state = g.state ∧ f.detached = g.detached := by
  obtain ⟨c, n, st, d⟩ := f
  obtain ⟨c', n', st', d'⟩ := g
  simp only at hf hg hf1 hg1 hf2 hg2 ⊢
  have key : c ++ (if all then 47 :: n else []) = c' ++ (if all then 47 :: n' else []) ∧
      (91 :: (InChannel.word st ++ (if d then b!", detached]" else b!"]"))) =
      (91 :: (InChannel.word st' ++ (if d' then b!", detached]" else b!"]"))) := by
    refine cut_unique (x := 32) ?_ ?_ ?_
    · cases all <;> simp [hf, hf1]
    · cases all <;> simp [hg, hg1]
    · simpa [sayChan] using h
  have hw : st = st' ∧ d = d' := by
    have := key.2
    revert this
    cases st <;> cases st' <;> cases d <;> cases d' <;> simp [InChannel.word]
  refine ⟨?_, ?_, hw.1, hw.2⟩
  · cases all with
    | false => simpa using key.1
    | true => exact (last_cut hf2 hg2 (by simpa using key.1)).1
  · rintro rfl
    exact (last_cut hf2 hg2 (by simpa using key.1)).2

/-! ## Networks -/

/-- Whether the bouncer is connected to a network. -/
inductive NetState
  /-- connected, with this nick if it is not that of the client, in a number of channels -/
  | connected (nick : Option Str) (channels : Nat)
  | disabled
  /-- not connected: the last error, if there is any -/
  | disconnected (error : Option Str)
deriving DecidableEq

/-- A state is the actual one; `nick` is the nick of the client. -/
def NetIs (net : RpNet) (nick : Str) : NetState → Prop
  | .connected as n => ∃ uc, net.conn = some uc ∧ n = uc.channels.forEach.length ∧
      (∀ x, as = some x ↔ x = uc.nick ∧ nick ≠ [] ∧ nick ≠ x)
  | .disabled => net.conn = none ∧ net.enabled = false
  | .disconnected e => net.conn = none ∧ net.enabled = true ∧ ∀ x, e = some x ↔ net.lastError = some x ∧ x ≠ []

/-- What follows the name in a line of `network status`. -/
def sayNet (current : Bool) : NetState → Str
  | .connected none n => b!" [connected" ++ (if current then b!", current" else []) ++ b!"]: " ++ itoa n ++ b!" channels"
  | .connected (some x) n =>
    b!" [connected as " ++ x ++ (if current then b!", current" else []) ++ b!"]: " ++ itoa n ++ b!" channels"
  | .disabled => b!" [disabled" ++ (if current then b!", current" else []) ++ b!"]"
  | .disconnected none => b!" [disconnected" ++ (if current then b!", current" else []) ++ b!"]"
  | .disconnected (some e) => b!" [disconnected" ++ (if current then b!", current" else []) ++ b!"]: " ++ e

/-- A line of `network status` that is true of a network: its name, its address if that is not the name, and its
state. -/
def NetLineOf (nick : Str) (current : Option Nat) (net : RpNet) (line : Str) : Prop :=
  ∃ st, NetIs net nick st ∧ ∃ called, CalledBy net called ∧
    ((called = net.addr ∧ line = called ++ sayNet (decide (current = some net.id)) st) ∨
     (called ≠ net.addr ∧ line = called ++ b!" (" ++ net.addr ++ b!")" ++ sayNet (decide (current = some net.id)) st))

private theorem netLine_of (nick : Str) (current : Option Nat) (net : RpNet) :
    NetLineOf nick current net (netLine nick current net) := by
  have hst : ∃ st, NetIs net nick st ∧ netLine nick current net =
      (if net.getName ≠ net.addr then net.getName ++ b!" (" ++ net.addr ++ b!")" else net.getName) ++
        sayNet (decide (current = some net.id)) st := by
    cases hc : net.conn with
    | some uc =>
      by_cases hn : nick ≠ [] ∧ nick ≠ uc.nick
      · refine ⟨.connected (some uc.nick) uc.channels.forEach.length, ⟨uc, hc, rfl, ?_⟩, ?_⟩
        · intro x
          simp only [Option.some.injEq]
          constructor
          · rintro rfl; exact ⟨rfl, hn⟩
          · rintro ⟨rfl, -⟩; rfl
        · have hlen : uc.channels.forEach.length = uc.channels.len := by simp [CMMap.forEach, CMMap.len]
          by_cases hk : current = some net.id <;>
            simp [netLine, sayNet, hc, hn, hk, joinStr, hlen]
      · refine ⟨.connected none uc.channels.forEach.length, ⟨uc, hc, rfl, ?_⟩, ?_⟩
        · intro x
          simp only [reduceCtorEq, false_iff]
          rintro ⟨rfl, h⟩; exact hn h
        · have hlen : uc.channels.forEach.length = uc.channels.len := by simp [CMMap.forEach, CMMap.len]
          by_cases hk : current = some net.id <;>
            simp [netLine, sayNet, hc, hn, hk, joinStr, hlen]
    | none =>
      cases he : net.enabled with
      | false =>
        refine ⟨.disabled, ⟨hc, he⟩, ?_⟩
        by_cases hk : current = some net.id <;> simp [netLine, sayNet, hc, he, hk, joinStr]
      | true =>
        by_cases hl : net.lastError.getD [] = []
        · refine ⟨.disconnected none, ⟨hc, he, ?_⟩, ?_⟩
          · intro x
            simp only [reduceCtorEq, false_iff]
            rintro ⟨h, hx⟩
            rw [h] at hl; exact hx hl
          · by_cases hk : current = some net.id <;> simp [netLine, sayNet, hc, he, hk, hl, joinStr]
        · obtain ⟨e, hle⟩ : ∃ e, net.lastError = some e := by
            cases h : net.lastError with
            | none => simp [h] at hl
            | some e => exact ⟨e, rfl⟩
          rw [hle] at hl
          simp only [Option.getD_some] at hl
          refine ⟨.disconnected (some e), ⟨hc, he, ?_⟩, ?_⟩
          · intro x
            simp only [Option.some.injEq, hle]
            constructor
            · rintro rfl; exact ⟨rfl, hl⟩
            · exact fun h => h.1
          · by_cases hk : current = some net.id <;> simp [netLine, sayNet, hc, he, hk, hl, hle, joinStr]
  obtain ⟨st, h1, h2⟩ := hst
  refine ⟨st, h1, net.getName, getName_called net, ?_⟩
  by_cases hn : net.getName = net.addr
  · exact Or.inl ⟨hn, by rw [h2]; simp [hn]⟩
  · exact Or.inr ⟨hn, by rw [h2]; simp [hn]⟩

/-- C93 (networks): `network status` has one line for each network, in their order, which says what is true of it. -/
theorem C93_networks (nets : List RpNet) (nick : Str) (current : Option Nat) (h : nets ≠ []) :
    ∃ lines, networkStatus nets nick current [] = some lines ∧
      List.Forall₂ (NetLineOf nick current) nets lines := by
  refine ⟨nets.map (netLine nick current), ?_, ?_⟩
  · unfold networkStatus
    simp [h]
  · rw [List.forall₂_map_right_iff]
    exact List.forall₂_same.2 (fun n _ => netLine_of nick current n)

/-! ## Users -/

/-- The line of `user status` for a user with this number of networks. -/
def sayUser (u : RpUser) (networks : Nat) : Str :=
  u.username ++
    (match u.admin, u.enabled with
      | true, true => b!" (admin)"
      | true, false => b!" (admin, disabled)"
      | false, true => []
      | false, false => b!" (disabled)") ++
    b!": " ++ itoa networks ++ b!" networks" ++
    (if u.maxNetworks < 0 then [] else b!" (" ++ itoa u.maxNetworks.toNat ++ b!" max)")

private theorem userLine_say (u : RpUser) (n : Nat) : userLine u n = sayUser u n := by
  unfold userLine sayUser
  have hm : itoaInt u.maxNetworks = if u.maxNetworks < 0 then 45 :: itoa u.maxNetworks.natAbs else itoa u.maxNetworks.toNat := by
    unfold itoaInt
    split
    · rfl
    · congr 1; omega
  by_cases h : u.maxNetworks < 0
  · have h' : ¬ u.maxNetworks ≥ 0 := by omega
    cases ha : u.admin <;> cases he : u.enabled <;> simp [h, joinStr]
  · have h' : u.maxNetworks ≥ 0 := by omega
    cases ha : u.admin <;> cases he : u.enabled <;> simp [hm, h, h', joinStr]

private theorem userLines_ok {count : Str → Option Nat} {n : Str → Nat} : ∀ (us : List RpUser),
    (∀ u ∈ us, count u.username = some (n u.username)) →
    userLines count us = (us.map (fun u => sayUser u (n u.username)), true)
  | [], _ => rfl
  | u :: us, h => by
    rw [userLines, h u (by simp)]
    simp only [userLines_ok us (fun v hv => h v (by simp [hv])), List.map_cons, userLine_say]

/-- C93 (users): `user status` has a true line for each of the first fifty users, and says how many it has left
out. -/
theorem C93_users (count : Str → Option Nat) (n : Str → Nat) (users : List RpUser)
    (h : ∀ u ∈ users, count u.username = some (n u.username)) :
    ∃ shown hidden, users = shown ++ hidden ∧ shown.length ≤ 50 ∧ (hidden ≠ [] → shown.length = 50) ∧
      userStatus count users [] = (shown.map (fun u => sayUser u (n u.username)) ++
        (if hidden = [] then [] else [b!"(" ++ itoa hidden.length ++ b!" more users omitted)"]), true) := by
  refine ⟨users.take 50, users.drop 50, (List.take_append_drop 50 users).symm, by simp; omega, ?_, ?_⟩
  · intro hd
    have : 50 < users.length := by
      apply Nat.lt_of_not_le
      intro hle
      exact hd (List.drop_eq_nil_of_le hle)
    simp; omega
  · unfold userStatus
    simp only [userLines_ok (users.take 50) (fun u hu => h u (List.mem_of_mem_take hu))]
    by_cases hd : users.length ≤ 50
    · rw [if_neg (by simp; omega), if_pos (List.drop_eq_nil_of_le hd)]
      simp
    · have hne : users.drop 50 ≠ [] := by
        intro e
        have := congrArg List.length e
        simp at this; omega
      rw [if_pos ⟨trivial, by simp; omega⟩, if_neg hne]
      have : users.length - (users.take 50).length = (users.drop 50).length := by simp; omega
      rw [this]

/-- C93 (users): asked about one user it has the line of this user; a user that is not there is an error. -/
theorem C93_user (count : Str → Option Nat) (n : Str → Nat) (users : List RpUser)
    (h : ∀ u ∈ users, count u.username = some (n u.username)) (hu : (users.map (·.username)).Nodup) (name : Str) :
    (∀ u ∈ users, u.username = name → userStatus count users [name] = ([sayUser u (n name)], true)) ∧
    ((∀ u ∈ users, u.username ≠ name) → userStatus count users [name] = ([], false)) := by
  constructor
  · rintro u hm rfl
    have hf : users.find? (fun v => decide (v.username = u.username)) = some u := by
      clear h
      induction users with
      | nil => simp at hm
      | cons v vs ih =>
        rw [List.map_cons, List.nodup_cons] at hu
        rw [List.find?_cons]
        rcases List.mem_cons.1 hm with rfl | hm'
        · simp
        · have : v.username ≠ u.username := fun e => hu.1 (e ▸ List.mem_map_of_mem hm')
          simp only [this, decide_false]
          exact ih hu.2 hm'
    unfold userStatus
    simp only [hf]
    rw [userLines_ok [u] (fun v hv => by rw [List.mem_singleton] at hv; subst hv; exact h v hm)]
    rfl
  · intro hn
    have hf : users.find? (fun v => decide (v.username = name)) = none := by
      rw [List.find?_eq_none]; intro v hv; simpa using hn v hv
    unfold userStatus
    simp only [hf]

/-- C93: a report is refused, and says nothing, if it is asked for with words it has no use for. -/
theorem C93_extra_words {sort} (nets : List RpNet) (nick : Str) (current : Option RpNet) (cur : Option Nat)
    (count : Str → Option Nat) (users : List RpUser) (word : Str) (hw : word.head? ≠ some 45) (rest : List Str) :
    channelStatus sort nets current (word :: rest) = none ∧
    (∀ s, channelStatus sort nets current (b!"-network" :: s :: word :: rest) = none) ∧
    networkStatus nets nick cur (word :: rest) = none ∧
    (rest ≠ [] → userStatus count users (word :: rest) = ([], false)) := by
  have h : ∀ d, parseFlags statusFormal (word :: rest) d = some (d, word :: rest) := by
    intro d; simp [parseFlags, hw]
  refine ⟨?_, ?_, by simp [networkStatus], ?_⟩
  · unfold channelStatus; rw [h]; simp
  · intro s
    have : ∀ d, parseFlags statusFormal (b!"-network" :: s :: word :: rest) d = some (s, word :: rest) := by
      intro d
      simp [parseFlags, flagNameValue, statusFormal, hasPrefix, hw,
        show cutStr [61] [101, 116, 119, 111, 114, 107] = none by decide]
    unfold channelStatus; rw [this]; simp
  · intro hr
    cases rest with
    | nil => exact absurd rfl hr
    | cons _ _ => rfl

/-- C93: if the database fails at a user, the users before them are told, then the command reports an error. -/
theorem C93_users_failed (count : Str → Option Nat) (n : Str → Nat) (before after : List RpUser) (u : RpUser)
    (h : ∀ v ∈ before, count v.username = some (n v.username)) (hu : count u.username = none) (hl : before.length < 50) :
    userStatus count (before ++ u :: after) [] = (before.map (fun v => sayUser v (n v.username)), false) := by
  have key : ∀ (l : List RpUser) (r : List RpUser), (∀ v ∈ l, count v.username = some (n v.username)) →
      userLines count (l ++ u :: r) = (l.map (fun v => sayUser v (n v.username)), false) := by
    intro l r hl
    induction l with
    | nil => simp [userLines, hu]
    | cons v l ih =>
      have h1 := userLines_ok [v] (count := count) (n := n) (fun w hw => by
        rw [List.mem_singleton] at hw; subst hw; exact hl w (by simp))
      have h2 := ih (fun w hw => hl w (by simp [hw]))
      simp only [userLines, hl v (by simp)] at h1
      simp only [List.cons_append, userLines, hl v (by simp), h2, List.map_cons, Prod.mk.injEq, and_true]
      have := congrArg (fun p => p.1.head?) h1
      simp at this
      rw [this]
  have ht : ∃ r, (before ++ u :: after).take 50 = before ++ u :: r := by
    refine ⟨after.take (49 - before.length), ?_⟩
    rw [List.take_append, List.take_of_length_le (by omega)]
    have : 50 - before.length = (49 - before.length) + 1 := by omega
    rw [this, List.take_succ_cons]
  obtain ⟨r, hr⟩ := ht
  unfold userStatus
  simp only [hr, key before r h]
  simp

example : userStatus (fun s => if s = b!"bob" then none else some 1)
    [⟨b!"ann", true, true, -1⟩, ⟨b!"bob", false, true, -1⟩, ⟨b!"cid", false, true, -1⟩] [] =
    ([sayUser ⟨b!"ann", true, true, -1⟩ 1], false) := by decide

/-! ## Notices -/

/-- The answer that says that a notice was sent to some of the connections. -/
def saySent (sent total : Nat) : Str := b!"sent to " ++ itoa sent ++ b!"/" ++ itoa total ++ b!" downstream connections"

/-- C93 (notices): a notice of the server reaches each client of each user whose event loop was reached, once, and the
answer tells how many, if each user has one client.  Missing: users with another number of clients
(`C93_notice_violated`). -/
theorem C93_notice_partial (loops : List RpLoop) :
    (∀ c, (serverNotice loops).1.count c = ((loops.filter (·.reached)).map (fun l => l.clients.count c)).sum) ∧
    ((∀ l ∈ loops, l.clients.length = 1) →
      (serverNotice loops).2 = saySent (serverNotice loops).1.length (loops.flatMap (·.clients)).length) := by
  constructor
  · intro c
    simp only [serverNotice, List.count_flatMap]
    rfl
  · intro h
    have hl : ∀ (ls : List RpLoop), (∀ l ∈ ls, l.clients.length = 1) → (ls.flatMap (·.clients)).length = ls.length := by
      intro ls h
      induction ls with
      | nil => rfl
      | cons a ls ih =>
        rw [List.flatMap_cons, List.length_append, h a (by simp), ih (fun l hl => h l (by simp [hl])), List.length_cons]
        omega
    simp only [serverNotice, saySent]
    rw [hl loops h, hl _ (fun l hm => h l (List.mem_of_mem_filter hm))]

/-- C93 does not hold for the answer to `server notice`: it counts users and says that it counts connections. -/
theorem C93_notice_violated :
    ¬ ∀ loops, (serverNotice loops).2 = saySent (serverNotice loops).1.length (loops.flatMap (·.clients)).length := by
  intro h
  exact absurd (h [⟨[1, 2], true⟩, ⟨[], true⟩, ⟨[], true⟩]) (by decide)

/-! ## Cases that meet the hypotheses, and the disagreement -/

private def putChan (less : RpChan → RpChan → Bool) (a : RpChan) : List RpChan → List RpChan
  | [] => [a]
  | b :: l => if less b a then b :: putChan less a l else a :: b :: l

private def sortChans (less : RpChan → RpChan → Bool) (l : List RpChan) : List RpChan := l.foldr (putChan less) []

private theorem putChan_perm (less) (a : RpChan) : ∀ l, (putChan less a l).Perm (a :: l)
  | [] => List.Perm.refl _
  | b :: l => by
    rw [putChan]
    split
    · exact ((putChan_perm less a l).cons b).trans (List.Perm.swap _ _ _)
    · exact List.Perm.refl _

private theorem sortChans_ok : SliceOK sortChans := by
  intro less l
  induction l with
  | nil => exact ⟨List.Perm.refl _, fun _ _ => List.Pairwise.nil⟩
  | cons a l ih =>
    refine ⟨(putChan_perm less a _).trans (ih.1.cons a), fun ht ha => ?_⟩
    have hs := ih.2 ht ha
    show (putChan less a (sortChans less l)).Pairwise _
    generalize sortChans less l = m at hs
    induction m with
    | nil => simp [putChan]
    | cons b m ihm =>
      rw [List.pairwise_cons] at hs
      rw [putChan]
      split
      · rename_i hb
        rw [List.pairwise_cons]
        refine ⟨?_, ihm hs.2⟩
        intro x hx
        rcases List.mem_cons.1 ((putChan_perm less a m).mem_iff.1 hx) with rfl | hx
        · exact ha _ _ hb
        · exact hs.1 x hx
      · rename_i hb
        have hb : less b a = false := by simpa using hb
        rw [List.pairwise_cons]
        refine ⟨?_, List.pairwise_cons.2 hs⟩
        intro x hx
        rcases List.mem_cons.1 hx with rfl | hx
        · exact hb
        · exact ht _ _ _ (hs.1 x hx) hb

private def netA : RpNet :=
  { id := 1, name := b!"work", addr := b!"irc.example.org", enabled := true
    channels := ((CMMap.new .ascii).set b!"#b" ⟨b!"#b", true⟩).set b!"##A" ⟨b!"##A", false⟩
    conn := some ⟨b!"al", (CMMap.new .rfc1459).set b!"##a" ()⟩, lastError := none }

private def netB : RpNet :=
  { id := 2, name := b!"irc.example.org", addr := b!"irc.other.org", enabled := true
    channels := (CMMap.new .ascii).set b!"#c" ⟨b!"#c", false⟩
    conn := none, lastError := some b!"timeout" }

example : channelStatus sortChans [netA, netB] none [] =
    some [b!"##A/work [joined]", b!"#b/work [parted, detached]", b!"#c/irc.example.org [disconnected]"] := by decide

example : SliceOK sortChans ∧ ConnsOK [netA] ∧ AsksAbout [netA] (some netA) [] [netA] false := by
  refine ⟨sortChans_ok, ?_, .current (s := b!"work") (Or.inl ⟨by decide, rfl⟩) (by decide)
    ⟨by simp, Or.inr ⟨by decide, rfl⟩, by simp⟩⟩
  intro n hn uc hu
  rw [List.mem_singleton] at hn
  subst hn
  simp only [netA, Option.some.injEq] at hu
  subst hu
  exact .set _ _ (.new _)

example : networkStatus [netA, netB] b!"alice" (some 1) [] =
    some [b!"work (irc.example.org) [connected as al, current]: 1 channels",
      b!"irc.example.org (irc.other.org) [disconnected]: timeout"] := by decide

example : userStatus (fun _ => some 2) [⟨b!"al", true, true, -1⟩, ⟨b!"bo", false, false, 5⟩] [] =
    ([b!"al (admin): 2 networks", b!"bo (disabled): 2 networks (5 max)"], true) := by decide

/-- C93 does not hold for a client of a network whose name is the address of another network: `channel status`
lists the channels of the other, although the names of all networks are distinct. -/
theorem C93_channels_violated :
    ¬ ∀ (sort : (RpChan → RpChan → Bool) → List RpChan → List RpChan) (nets : List RpNet) (n : RpNet), SliceOK sort →
      ConnsOK nets → n ∈ nets → (nets.map RpNet.getName).Nodup →
      ∃ lines, channelStatus sort nets (some n) [] = some lines ∧ ReportsChannels [n] false lines := by
  intro h
  obtain ⟨lines, h1, order, facts, h2, h3, h4⟩ := h sortChans [netA, netB] netB sortChans_ok (by
    intro n hn uc hu
    simp only [List.mem_cons, List.not_mem_nil, or_false] at hn
    rcases hn with rfl | rfl
    · simp only [netA, Option.some.injEq] at hu
      subst hu
      exact .set _ _ (.new _)
    · simp [netB] at hu) (by simp) (by decide)
  rw [show channelStatus sortChans [netA, netB] (some netB) [] =
    some [b!"##A [joined]", b!"#b [parted, detached]"] by decide] at h1
  simp only [Option.some.injEq] at h1
  cases h2 with
  | @cons _ l _ _ hl ht =>
    cases ht
    have hlen := h3.length_eq
    have hp := hl.1.length_eq
    have : (savedChannels [netB]).length = 1 := by decide
    have hf : facts.length = 1 := by rw [← hlen]; simp; omega
    have : facts ≠ [] := by intro e; simp [e] at hf
    rw [if_neg this] at h4
    have := congrArg List.length (h1.trans h4)
    simp [hf] at this

end Verif.Props
