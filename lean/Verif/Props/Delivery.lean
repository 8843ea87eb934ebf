import Verif.Model.Delivery
import Verif.Proof.GoStr
import Verif.Props.Labels
import Verif.Props.ZncLog

/-! # C19: messages reach exactly the right clients.  C20: what is logged -/

namespace Verif.Props
open Verif.Model Verif.Proof

/-- How many copies of the message a client connection is sent. -/
def copies (reached : List (Nat × Bool)) (id : Nat) : Nat := reached.countP (fun p => decide (p = (id, true)))

/-- Client connections have distinct IDs (server.go:478, an atomic counter). -/
def DistinctIDs (clients : List DClient) : Prop := (clients.map (·.id)).Nodup

private theorem copies_produceTo {clients : List DClient} (hd : DistinctIDs clients) (net : Nat)
    (detached fromUs : Bool) (origin : Nat) (d : DClient) (h : d ∈ clients) :
    copies (produceTo clients net detached fromUs origin) d.id
      = if d.network = some net ∧ detached = false ∧ (¬ (d.id = origin ∧ fromUs = true) ∨ d.echo = true)
        then 1 else 0 := by
  have aux : ∀ (f : DClient → Bool) (cs : List DClient), (cs.map (·.id)).Nodup →
      copies ((cs.filter (fun d => decide (d.network = some net))).map (fun d => (d.id, f d))) d.id
      = if d ∈ cs ∧ d.network = some net ∧ f d = true then 1
        else copies (((cs.filter (fun e => decide (e.id = d.id ∧ e ≠ d))).filter
          (fun d => decide (d.network = some net))).map (fun d => (d.id, f d))) d.id := by
    intro f cs
    induction cs with
    | nil => intro _; simp [copies]
    | cons e cs ih =>
      intro hnd
      simp only [List.map_cons, List.nodup_cons] at hnd
      have ih := ih hnd.2
      by_cases he : e = d
      · subst he
        have hno : ∀ x ∈ cs, ¬ x.id = e.id := by
          intro x hx hxe; exact hnd.1 (hxe ▸ List.mem_map_of_mem hx)
        have h0 : ∀ g : DClient → Bool, copies (((cs.filter g)).map (fun d => (d.id, f d))) e.id = 0 := by
          intro g
          unfold copies
          rw [List.countP_eq_zero]
          intro p hp
          obtain ⟨x, hx, rfl⟩ := List.mem_map.1 hp
          have := hno x (List.mem_filter.1 hx).1
          simp [this]
        have hfil : cs.filter (fun x => decide (x.id = e.id ∧ x ≠ e)) = [] := by
          rw [List.filter_eq_nil_iff]; intro x hx; simp [hno x hx]
        have hfil' : (e :: cs).filter (fun x => decide (x.id = e.id ∧ x ≠ e)) = [] := by
          simp
          intro x hx h; exact absurd h (hno x hx)
        rw [hfil']
        by_cases hn : e.network = some net
        · rw [List.filter_cons_of_pos (by simpa using hn), List.map_cons]
          have := h0 (fun d => decide (d.network = some net))
          unfold copies at this ⊢
          rw [List.countP_cons, this]
          by_cases hf : f e = true <;> simp [hf, hn]
        · rw [List.filter_cons_of_neg (by simpa using hn), h0]
          simp [hn, copies]
      · have hmem : (d ∈ e :: cs) ↔ d ∈ cs := by simp [Ne.symm he]
        by_cases hid : e.id = d.id
        · have hdn : d ∉ cs := by
            intro hm; exact hnd.1 (hid ▸ List.mem_map_of_mem hm)
          rw [if_neg (by rw [hmem]; simp [hdn])]
          rw [if_neg (by simp [hdn])] at ih
          rw [List.filter_cons_of_pos (p := fun x => decide (x.id = d.id ∧ x ≠ d)) (by simp [hid, he])]
          by_cases hn : e.network = some net
          · rw [List.filter_cons_of_pos (by simpa using hn), List.filter_cons_of_pos (by simpa using hn)]
            unfold copies at ih ⊢
            simp only [List.map_cons, List.countP_cons, ih]
          · rw [List.filter_cons_of_neg (by simpa using hn), List.filter_cons_of_neg (by simpa using hn)]
            exact ih
        · rw [List.filter_cons_of_neg (p := fun x => decide (x.id = d.id ∧ x ≠ d)) (by simp [hid])]
          have : copies (((e :: cs).filter (fun d => decide (d.network = some net))).map (fun d => (d.id, f d))) d.id
              = copies ((cs.filter (fun d => decide (d.network = some net))).map (fun d => (d.id, f d))) d.id := by
            by_cases hn : e.network = some net
            · rw [List.filter_cons_of_pos (by simpa using hn)]
              unfold copies; simp [hid]
            · rw [List.filter_cons_of_neg (by simpa using hn)]
          rw [this, ih]
          simp only [hmem]
  have := aux (fun d => !detached && (!(decide (d.id = origin) && fromUs) || d.echo)) clients hd
  unfold produceTo
  simp only
  rw [this]
  have hemp : clients.filter (fun e => decide (e.id = d.id ∧ e ≠ d)) = [] := by
    rw [List.filter_eq_nil_iff]
    intro x hx
    simp only [decide_eq_true_eq, not_and, Classical.not_not]
    exact fun hid => eq_of_nodup_map hd hx h hid
  rw [hemp]
  simp only [h, true_and]
  cases detached <;> cases fromUs <;> by_cases ho : d.id = origin <;> simp [ho, copies]

/-- The client connection is of another network, or of none. -/
private theorem not_reached {clients : List DClient} (net : Nat) (detached fromUs : Bool) (origin : Nat) :
    ∀ p ∈ produceTo clients net detached fromUs origin, ∃ d ∈ clients, d.id = p.1 ∧ d.network = some net := by
  intro p hp
  unfold produceTo at hp
  obtain ⟨d, hd, rfl⟩ := List.mem_map.1 hp
  obtain ⟨h1, h2⟩ := List.mem_filter.1 hd
  exact ⟨d, h1, rfl, by simpa using h2⟩

/-- C19: a message from somebody else on a network reaches each connected client of that network exactly
once and no client of another network, unless it belongs to a detached channel or comes from or is addressed
to a user named like the bouncer's own service. -/
theorem C19_forwarded (env : UpEnv) (hasStore : Bool) (clients : List DClient) (net : Nat) (m : ChatMsg)
    (downstreamID : Nat) (hd : DistinctIDs clients) (hother : env.same m.sender env.nick = false)
    (hserv : routeMessage env m ≠ .skip)
    (hdet : ∀ name direct, routeMessage env m = .buffer name direct → casemap env.cm name ∉ env.detached)
    (hnames : casemap env.cm [] ∉ env.detached) :
    (∀ d ∈ clients, copies (receiveMessage env hasStore clients net m downstreamID).2 d.id
      = if d.network = some net then 1 else 0) ∧
    (∀ p ∈ (receiveMessage env hasStore clients net m downstreamID).2, ∃ d ∈ clients, d.id = p.1 ∧ d.network = some net) := by
  unfold receiveMessage
  cases hr : routeMessage env m with
  | skip => exact absurd hr hserv
  | server =>
    simp only [produce]
    refine ⟨fun d h => ?_, not_reached _ _ _ _⟩
    rw [copies_produceTo hd _ _ _ _ d h, hother]
    simp [hnames]
  | buffer name direct =>
    simp only [produce]
    refine ⟨fun d h => ?_, not_reached _ _ _ _⟩
    rw [copies_produceTo hd _ _ _ _ d h, hother]
    simp [hdet name direct hr]

/-- The server's copy of a message the user sent: with echo-message it comes back from the user's nick, to
the same target, with the label it was sent with. -/
def serverEcho (env : UpEnv) (caps : UpCaps) (hasStore : Bool) (clients : List DClient) (net : Nat)
    (name command text : Str) (tags : List Str) (label : Option Str) : List (Nat × Bool) :=
  if caps.echoMessage then
    match messageDownstream [] label none with
    | none => []
    | some id => (receiveMessage env hasStore clients net ⟨env.nick, command, name, text, tags, none⟩ id).2
  else []

/-- C19: whether or not the server echoes messages, a message a client sends to a target reaches each other
client of that network exactly once, the sender exactly once if it enabled echo-message and not at all
otherwise, and no client of another network.

Partial: if the server echoes messages, it must also support labels and message tags
(see `C19_unlabelled_echo_violated`), and the target must not start with a status prefix of the network. -/
theorem C19_echo_partial (env : UpEnv) (caps : UpCaps) (hasStore : Bool) (clients : List DClient) (net : Nat)
    (sender : DClient) (name command text : Str) (tags : List Str) (nextLabelID : Nat)
    (hd : DistinctIDs clients) (hs : sender ∈ clients) (hsn : sender.network = some net)
    (hid : 0 < sender.id ∧ sender.id < 2 ^ 64) (hl : nextLabelID < 2 ^ 64)
    (hcaps : caps.echoMessage = true → caps.labeledResponse = true ∧ caps.messageTags = true)
    (hreg : env.registered = true) (hns : env.same env.nick env.serverName = false)
    (hnick : env.same env.nick b!"BouncerServ" = false) (htarget : env.same name b!"BouncerServ" = false)
    (hstatus : ∀ c, name.head? = some c → c ∉ env.statusMsg ∧ c ≠ 36) (hstar : name ≠ b!"*")
    (hself : env.same name env.nick = false)
    (hdet : casemap env.cm name ∉ env.detached) :
    let r := sendMessage env caps hasStore clients net sender name command tags nextLabelID
    let e := serverEcho env caps hasStore clients net name command text tags r.1
    ∀ d ∈ clients, copies r.2.2 d.id + copies e d.id
      = if d.network = some net ∧ (d.id ≠ sender.id ∨ sender.echo = true) then 1 else 0 := by
  intro r e d hdm
  have hours : env.same env.nick env.nick = true := by simp [UpEnv.same]
  have hdid : d.id = sender.id → d = sender := by
    intro h
    exact eq_of_nodup_map hd hdm hs h
  have hfin : (if d.network = some net ∧ (decide (casemap env.cm name ∈ env.detached)) = false ∧
        (¬ (d.id = sender.id ∧ env.same env.nick env.nick = true) ∨ d.echo = true) then 1 else 0)
      = if d.network = some net ∧ (d.id ≠ sender.id ∨ sender.echo = true) then 1 else 0 := by
    by_cases hds : d.id = sender.id
    · have := hdid hds; subst this; simp [hdet, hours]
    · simp [hdet, hds]
  cases hc : caps.echoMessage with
  | false =>
    have hr : r.2.2 = produceTo clients net (decide (casemap env.cm name ∈ env.detached))
        (env.same env.nick env.nick) sender.id := by
      simp [r, sendMessage, hc, produce]
    have he : e = [] := by simp [e, serverEcho, hc]
    rw [hr, he, copies_produceTo hd _ _ _ _ d hdm, hfin]
    simp [copies]
  | true =>
    obtain ⟨c1, c2⟩ := hcaps hc
    have hr : r.2.2 = [] := by simp [r, sendMessage, hc]
    have hlab : r.1 = some (labelOf sender.id nextLabelID) := by simp [r, sendMessage, wireLabel, c1, c2]
    have hne : labelOf sender.id nextLabelID ≠ [] := by simp [labelOf]
    have hdown : messageDownstream [] r.1 none = some sender.id := by
      rw [hlab]
      simp [messageDownstream, messageLabel, hne, C18_label_roundtrip sender.id nextLabelID hid.2 hl]
    have hstrip : stripStatusMsg env.statusMsg name = name := by
      unfold stripStatusMsg trimLeft
      cases name with
      | nil => rfl
      | cons c rest => simp [(hstatus c rfl).1]
    have hdollar : hasPrefix b!"$" name = false := by
      cases name with
      | nil => rfl
      | cons c rest => have := (hstatus c rfl).2; simp [hasPrefix, List.isPrefixOf, Ne.symm this]
    have hroute : routeMessage env ⟨env.nick, command, name, text, tags, none⟩ = .buffer name false := by
      unfold routeMessage
      simp [hstrip, hnick, htarget, hreg, hns, hdollar, hself, hstar]
    have he : e = produceTo clients net (decide (casemap env.cm name ∈ env.detached))
        (env.same env.nick env.nick) sender.id := by
      simp only [e, serverEcho, hc, if_true, hdown, receiveMessage, hroute, produce]
    rw [hr, he, copies_produceTo hd _ _ _ _ d hdm, hfin]
    simp [copies]

/-- C19 fails if the server echoes messages but does not support message tags (so that no label comes
back): a client that did not enable echo-message gets its own message. -/
theorem C19_unlabelled_echo_violated : ∃ (env : UpEnv) (caps : UpCaps) (sender : DClient),
    sender.echo = false ∧
    let r := sendMessage env caps true [sender] 1 sender b!"#soju" b!"PRIVMSG" [] 0
    copies (serverEcho env caps true [sender] 1 b!"#soju" b!"PRIVMSG" b!"hi" [] r.1) sender.id = 1 := by
  refine ⟨⟨.rfc1459, b!"me", b!"irc.example.org", true, b!"@+", [], []⟩, ⟨true, true, false⟩,
    ⟨1, some 1, [], false, false⟩, rfl, ?_⟩
  decide

example :
    let env : UpEnv := ⟨.rfc1459, b!"me", b!"irc.example.org", true, b!"@+", [], [b!"#quiet"]⟩
    let c1 : DClient := ⟨1, some 1, [], false, false⟩
    let c2 : DClient := ⟨2, some 1, [], true, false⟩
    let c3 : DClient := ⟨3, some 2, [], true, false⟩
    DistinctIDs [c1, c2, c3] ∧
    receiveMessage env true [c1, c2, c3] 1 ⟨b!"alice", b!"PRIVMSG", b!"@#Soju", b!"hi", [], none⟩ 0
      = (some b!"#soju", [(1, true), (2, true)]) ∧
    sendMessage env ⟨false, false, false⟩ true [c1, c2, c3] 1 c1 b!"Alice" b!"PRIVMSG" [] 0
      = (none, (some b!"alice", [(1, false), (2, true)])) := by
  unfold DistinctIDs; decide

/-! ## C20 -/

/-- C20: a message received from NickServ, or sent to it (and echoed), is not logged; nor is one whose target
is a server mask.  (`hctx`: it does not claim to belong to a channel the bouncer has joined.)  The same
goes for what a client sends. -/
theorem C20_services_not_logged (env : UpEnv) (caps : UpCaps) (hasStore : Bool) (clients : List DClient)
    (net id : Nat) (m : ChatMsg) (sender : DClient) (name command : Str) (tags : List Str) (n : Nat)
    (hnick : casemap env.cm env.nick ≠ b!"nickserv") (hctx : m.context = none) :
    ((casemap env.cm m.sender = b!"nickserv" ∧
        casemap env.cm (stripStatusMsg env.statusMsg m.target) = casemap env.cm env.nick) ∨
      casemap env.cm (stripStatusMsg env.statusMsg m.target) = b!"nickserv" ∨
      (stripStatusMsg env.statusMsg m.target).head? = some 36 →
      (receiveMessage env hasStore clients net m id).1 = none) ∧
    (casemap env.cm name = b!"nickserv" ∨ name.head? = some 36 →
      (sendMessage env caps hasStore clients net sender name command tags n).2.1 = none) := by
  have hdollar : ∀ s : Str, s.head? = some 36 → hasPrefix b!"$" s = true := by
    intro s hs
    cases s with
    | nil => simp at hs
    | cons c r => simp at hs; subst hs; simp [hasPrefix]
  have hlog : ∀ (e c : Str) (ts : List Str), casemap env.cm e = b!"nickserv" ∨ e.head? = some 36 →
      logTarget env.cm hasStore e c ts = none := by
    intro e c ts h
    unfold logTarget
    rcases h with h | h
    · split; rfl
      split; rfl
      split; rfl
      rfl
    · split; rfl
      split; rfl
      rw [if_pos (hdollar e h)]
  constructor
  · intro hm
    unfold receiveMessage
    cases hr : routeMessage env m with
    | skip => rfl
    | server => rfl
    | buffer b dir =>
      simp only [produce]
      split
      · rfl
      · apply hlog
        unfold routeMessage at hr
        rw [hctx] at hr
        simp only at hr
        split at hr; · simp at hr
        split at hr; · simp at hr
        split at hr; · simp at hr
        rename_i hsrv
        simp only [Route.buffer.injEq] at hr
        obtain ⟨rfl, _⟩ := hr
        rcases hm with ⟨h1, h3⟩ | h1 | h1
        · left; rw [if_pos (by simp [UpEnv.same, h3])]; exact h1
        · left; rw [if_neg (by simp [UpEnv.same, h1]; exact Ne.symm hnick)]; exact h1
        · rw [hdollar _ h1] at hsrv; simp at hsrv
  · intro hn
    unfold sendMessage
    simp only
    split
    · rfl
    · simp only [produce]
      split
      · rfl
      · exact hlog _ _ _ hn

/-- C20: a received private message is logged under the (folded) nick of its sender, a channel message under
the (folded) channel without status prefixes, whatever the spelling. -/
theorem C20_received_logged (env : UpEnv) (clients : List DClient) (net id : Nat) (m : ChatMsg)
    (sigils target : Str) (ht : m.target = sigils ++ target) (hsig : ∀ c ∈ sigils, c ∈ env.statusMsg)
    (hcmd : m.command = b!"PRIVMSG" ∨ m.command = b!"NOTICE" ∨
      (m.command = b!"TAGMSG" ∧ (b!"+draft/react" ∈ m.tags ∨ b!"+react" ∈ m.tags)))
    (hreg : env.registered = true) (hctx : m.context = none)
    (hfrom : env.same m.sender b!"BouncerServ" = false ∧ env.same m.sender env.serverName = false)
    (hto : env.same target b!"BouncerServ" = false ∧ target ≠ b!"*")
    (hhead : ∃ c, target.head? = some c ∧ c ∉ env.statusMsg ∧ c ≠ 36) :
    let entity := if casemap env.cm target = casemap env.cm env.nick then m.sender else target
    entity ≠ [] → entity.head? ≠ some 36 → casemap env.cm entity ≠ b!"nickserv" →
    (receiveMessage env true clients net m id).1 = some (casemap env.cm entity) := by
  intro entity hne h36 hserv
  obtain ⟨c, hc, hcs, hc36⟩ := hhead
  have hstrip : stripStatusMsg env.statusMsg m.target = target := by
    rw [ht]
    unfold stripStatusMsg trimLeft
    clear ht
    induction sigils with
    | nil =>
      cases target with
      | nil => rfl
      | cons a t => simp at hc; subst hc; simp [hcs]
    | cons a s ih =>
      rw [List.cons_append, List.dropWhile_cons_of_pos (by simpa using hsig a (by simp))]
      exact ih (fun x hx => hsig x (by simp [hx]))
  have hdollar : ∀ s : Str, s.head? ≠ some 36 → hasPrefix b!"$" s = false := by
    intro s hs
    cases s with
    | nil => rfl
    | cons c r => simp at hs; simp [hasPrefix, List.isPrefixOf, Ne.symm hs]
  have hroute : routeMessage env m = .buffer entity (env.same target env.nick) := by
    unfold routeMessage
    simp only [hstrip, hctx, hfrom, hto, hreg, hdollar target (by rw [hc]; simp [hc36])]
    simp [entity, UpEnv.same]
  unfold receiveMessage
  rw [hroute]
  simp only [produce, if_neg hne, logTarget]
  have htag : ¬ (m.command = b!"TAGMSG" ∧ ¬ (m.tags.any (fun t => decide (t ∈ storableMessageTags))) = true) := by
    rintro ⟨h1, h2⟩
    rcases hcmd with h | h | ⟨_, h⟩
    · rw [h1] at h; simp at h
    · rw [h1] at h; simp at h
    · apply h2
      rw [List.any_eq_true]
      rcases h with h | h
      · exact ⟨_, h, by decide⟩
      · exact ⟨_, h, by decide⟩
  rw [if_neg (by decide), if_neg htag, hdollar entity h36]
  simp [hserv]

/-- C20: a message sent by a client to a server that does not echo messages is logged under the target as
the client gave it, folded.  Partial: that is not the channel if the client added a status prefix, see
`C20_status_prefix_violated`. -/
theorem C20_sent_logged_partial (env : UpEnv) (caps : UpCaps) (clients : List DClient) (net : Nat)
    (sender : DClient) (name command : Str) (tags : List Str) (n : Nat) (hecho : caps.echoMessage = false)
    (hcmd : command = b!"PRIVMSG" ∨ command = b!"NOTICE") (hne : name ≠ [])
    (h36 : name.head? ≠ some 36) (hserv : casemap env.cm name ≠ b!"nickserv") :
    (sendMessage env caps true clients net sender name command tags n).2.1 = some (casemap env.cm name) := by
  have hdollar : hasPrefix b!"$" name = false := by
    cases name with
    | nil => rfl
    | cons c r => simp at h36; simp [hasPrefix, List.isPrefixOf, Ne.symm h36]
  have htag : ¬ (command = b!"TAGMSG" ∧ ¬ (tags.any (fun t => decide (t ∈ storableMessageTags))) = true) := by
    rintro ⟨h1, _⟩
    rcases hcmd with h | h <;> rw [h1] at h <;> simp at h
  simp only [sendMessage, hecho, Bool.false_eq_true, if_false, produce, if_neg hne, logTarget]
  rw [if_neg (by decide), if_neg htag, hdollar]
  simp [hserv]

/-- C20: tag-only messages that are not reactions, and messages of the server, are not logged. -/
theorem C20_not_logged (env : UpEnv) (hasStore : Bool) (clients : List DClient) (net id : Nat) (m : ChatMsg)
    (h : (m.command = b!"TAGMSG" ∧ b!"+draft/react" ∉ m.tags ∧ b!"+react" ∉ m.tags) ∨
      env.registered = false ∨ casemap env.cm m.sender = casemap env.cm env.serverName) :
    (receiveMessage env hasStore clients net m id).1 = none := by
  unfold receiveMessage
  cases hr : routeMessage env m with
  | skip => rfl
  | server => rfl
  | buffer b dir =>
    simp only [produce]
    split
    · rfl
    · rcases h with ⟨h1, h2, h3⟩ | h | h
      · unfold logTarget
        split; rfl
        rw [if_pos]
        refine ⟨h1, ?_⟩
        rw [List.any_eq_true]
        rintro ⟨t, ht, ht2⟩
        simp only [storableMessageTags, List.mem_cons, List.not_mem_nil, or_false, decide_eq_true_eq] at ht2
        rcases ht2 with rfl | rfl
        · exact h2 ht
        · exact h3 ht
      · unfold routeMessage at hr
        simp only [h] at hr
        split at hr; · simp at hr
        split at hr; · simp at hr
        simp at hr
      · unfold routeMessage at hr
        have : env.same m.sender env.serverName = true := by simp [UpEnv.same, h]
        simp only [this] at hr
        split at hr; · simp at hr
        split at hr; · simp at hr
        simp at hr

/-- C20 (disagreement): a client's own message to the operators of a channel is logged under the prefixed
name, whereas the same message from somebody else is logged under the channel. -/
theorem C20_status_prefix_violated : ∃ (env : UpEnv) (sender : DClient),
    (sendMessage env ⟨false, false, false⟩ true [sender] 1 sender b!"@#soju" b!"PRIVMSG" [] 0).2.1 = some b!"@#soju" ∧
    (receiveMessage env true [sender] 1 ⟨b!"alice", b!"PRIVMSG", b!"@#soju", b!"hi", [], none⟩ 0).1 = some b!"#soju" := by
  refine ⟨⟨.rfc1459, b!"me", b!"irc.example.org", true, b!"@+", [], []⟩, ⟨1, some 1, [], false, false⟩, ?_⟩
  decide

/-- C20 (disagreement): a message to the services bot given with its server is logged, password included. -/
theorem C20_service_host_violated : ∃ (env : UpEnv) (sender : DClient),
    (sendMessage env ⟨false, false, false⟩ true [sender] 1 sender b!"NickServ@services.libera.chat"
      b!"PRIVMSG" [] 0).2.1 = some b!"nickserv@services.libera.chat" := by
  refine ⟨⟨.rfc1459, b!"me", b!"irc.example.org", true, b!"@+", [], []⟩, ⟨1, some 1, [], false, false⟩, ?_⟩
  decide

end Verif.Props
