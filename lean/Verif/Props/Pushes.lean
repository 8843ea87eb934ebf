import Verif.Model.Pushes
import Verif.Proof.GoMap
import Verif.Props.Highlight

/-! # C98: push messages -/

namespace Verif.Props
open Verif.Model Verif.Proof

/-! ## Specification -/

/-- The two names are the same to the server. -/
def SameToServer (env : UpEnv) (a b : Str) : Prop := casemap env.cm a = casemap env.cm b

/-- The message is one that the bouncer treats as coming from a person: not from or to its own service, not from the
server, not to everyone. `target` is the target without the sigils of STATUSMSG. -/
structure FromPerson (env : UpEnv) (m : ChatMsg) (target : Str) : Prop where
  registered : env.registered = true
  service : ¬ SameToServer env m.sender b!"BouncerServ" ∧ ¬ SameToServer env target b!"BouncerServ"
  server : ¬ SameToServer env m.sender env.serverName
  everyone : target ≠ b!"*" ∧ ¬ (∃ rest, target = b!"$" ++ rest)

/-- A channel for which nothing is to be relayed. -/
def Silenced (c : PuChan) (mentioned : Bool) : Prop :=
  c.detached = true ∧ c.relay = .none ∧ c.reattach ≠ .message ∧ ¬ (c.reattach = .highlight ∧ mentioned = true)

/-- Times of the messages received. -/
def recvTimes : List PuOp → List Int
  | [] => []
  | .recv _ t :: ops => t :: recvTimes ops
  | _ :: ops => recvTimes ops

/-- Nothing that makes the bouncer forget what it has pushed. -/
def NoForgetting (ops : List PuOp) : Prop := ∀ op ∈ ops, op ≠ .restart ∧ ∀ name, op ≠ .part name

/-! ## Lemmas -/

private theorem same_iff (env : UpEnv) (a b : Str) : env.same a b = true ↔ SameToServer env a b := by
  unfold UpEnv.same SameToServer; simp

private theorem same_false (env : UpEnv) (a b : Str) : env.same a b = false ↔ ¬ SameToServer env a b := by
  unfold UpEnv.same SameToServer; simp

private theorem route_person {env : UpEnv} {m : ChatMsg} (h : FromPerson env m (stripStatusMsg env.statusMsg m.target))
    (hctx : m.context = none) :
    routeMessage env m = .buffer (if env.same (stripStatusMsg env.statusMsg m.target) env.nick then m.sender
        else stripStatusMsg env.statusMsg m.target) (env.same (stripStatusMsg env.statusMsg m.target) env.nick) := by
  unfold routeMessage
  dsimp only
  rw [(same_false ..).2 h.service.1, (same_false ..).2 h.service.2, (same_false ..).2 h.server, h.registered, hctx]
  have h1 : decide (stripStatusMsg env.statusMsg m.target = b!"*") = false := by simpa using h.everyone.1
  have h2 : hasPrefix b!"$" (stripStatusMsg env.statusMsg m.target) = false := by
    cases hp : hasPrefix b!"$" (stripStatusMsg env.statusMsg m.target) with
    | false => rfl
    | true =>
      exfalso
      apply h.everyone.2
      cases hs : stripStatusMsg env.statusMsg m.target with
      | nil => rw [hs] at hp; simp [hasPrefix] at hp
      | cons c rest =>
        rw [hs] at hp
        simp [hasPrefix] at hp
        exact ⟨rest, by rw [← hp]; rfl⟩
  rw [h1, h2]
  simp

private theorem route_buffer {env : UpEnv} {m : ChatMsg} {name : Str} {direct : Bool}
    (h : routeMessage env m = .buffer name direct) :
    (direct = true → SameToServer env (stripStatusMsg env.statusMsg m.target) env.nick ∧ name = m.sender) ∧
    (name = m.sender ∧ direct = true ∨ name = stripStatusMsg env.statusMsg m.target ∨
      ∃ t members, m.context = some t ∧ GoMap.get env.joined (casemap env.cm t) = some (name, members)) := by
  unfold routeMessage at h
  dsimp only at h
  split at h
  · cases h
  split at h
  · cases h
  split at h
  · cases h
  have base : ∀ {n : Str} {d : Bool}, Route.buffer (if env.same (stripStatusMsg env.statusMsg m.target) env.nick = true
      then m.sender else stripStatusMsg env.statusMsg m.target) (env.same (stripStatusMsg env.statusMsg m.target) env.nick) =
      .buffer n d → (d = true → SameToServer env (stripStatusMsg env.statusMsg m.target) env.nick ∧ n = m.sender) ∧
        (n = m.sender ∧ d = true ∨ n = stripStatusMsg env.statusMsg m.target ∨
          ∃ t members, m.context = some t ∧ GoMap.get env.joined (casemap env.cm t) = some (n, members)) := by
    intro n d h
    injection h with h1 h2
    by_cases hs : env.same (stripStatusMsg env.statusMsg m.target) env.nick = true
    · rw [if_pos hs] at h1
      exact ⟨fun _ => ⟨(same_iff ..).1 hs, h1.symm⟩, Or.inl ⟨h1.symm, by rw [← h2, hs]⟩⟩
    · rw [if_neg hs] at h1
      exact ⟨fun hd => absurd (h2.trans hd) hs, Or.inr (Or.inl h1.symm)⟩
  split at h
  · exact base h
  · rename_i t ht
    split at h
    · rename_i name' members hg
      split at h
      · injection h with h1 h2
        subst h1 h2
        exact ⟨fun hd => absurd hd (by decide), Or.inr (Or.inr ⟨t, members, ht, hg⟩)⟩
      · exact base h
    · exact base h

private theorem silenced_iff (c : PuChan) (hl : Bool) :
    ((puReattach c hl).detached && decide ((puReattach c hl).relay = .none)) = true ↔ Silenced c hl := by
  obtain ⟨d, rl, ra⟩ := c
  unfold puReattach Silenced
  cases d <;> cases rl <;> cases ra <;> cases hl <;> simp

/-! ## C98: which messages are pushed -/

/-- C98: a private message of somebody else is pushed, whatever its text. -/
theorem C98_private (lib : RuneLib) (st : PuState) (m : ChatMsg) (time : Int)
    (hp : FromPerson st.env m (stripStatusMsg st.env.statusMsg m.target))
    (hme : SameToServer st.env (stripStatusMsg st.env.statusMsg m.target) st.env.nick)
    (hself : ¬ SameToServer st.env m.sender st.env.nick) (hctx : m.context = none)
    (hsaved : GoMap.get st.saved (casemap st.env.cm m.sender) = none) :
    (puStep lib st (.recv m time)).2 = [.chat m (toMillis time) (casemap st.env.cm m.sender)] := by
  unfold puStep puRecv
  dsimp only
  rw [route_person hp hctx]
  dsimp only
  unfold puConsider
  rw [(same_iff ..).2 hme, if_pos rfl, hsaved, (same_false ..).2 hself]
  rfl

/-- C98: a message that mentions the user in a saved channel is pushed, unless the channel is detached, set to relay
nothing, and not set to attach on such a message. -/
theorem C98_mention (lib : RuneLib) (st : PuState) (m : ChatMsg) (time : Int) (c : PuChan)
    (hp : FromPerson st.env m (stripStatusMsg st.env.statusMsg m.target))
    (hself : ¬ SameToServer st.env m.sender st.env.nick) (hcmd : m.command = b!"PRIVMSG" ∨ m.command = b!"NOTICE")
    (hctx : m.context = none)
    (hsaved : GoMap.get st.saved (casemap st.env.cm (stripStatusMsg st.env.statusMsg m.target)) = some c)
    (hnick : ¬ SameToServer st.env (stripStatusMsg st.env.statusMsg m.target) st.env.nick)
    (hhl : isHighlight lib m.text st.env.nick = some true) :
    (puStep lib st (.recv m time)).2 = [.chat m (toMillis time) (casemap st.env.cm (stripStatusMsg st.env.statusMsg m.target))] ↔
      ¬ Silenced c true := by
  have hh : puHighlight lib st.env m = true := by
    unfold puHighlight networkIsHighlight
    rw [if_neg (by rintro ⟨h1, h2⟩; rcases hcmd with h | h; exact h1 h; exact h2 h),
      if_neg (by intro h; exact hself (by unfold SameToServer; rw [h]))]
    simpa using hhl
  have htag : m.command ≠ b!"TAGMSG" := by rcases hcmd with h | h <;> rw [h] <;> decide
  have hcons : puConsider lib st m (casemap st.env.cm (stripStatusMsg st.env.statusMsg m.target)) false =
      ({ st with saved := GoMap.set st.saved (casemap st.env.cm (stripStatusMsg st.env.statusMsg m.target)) (puReattach c true) },
        true, !((puReattach c true).detached && decide ((puReattach c true).relay = .none))) := by
    unfold puConsider
    rw [hsaved]
    dsimp only
    rw [if_pos (And.intro htag (rfl : false = false)), hh]
  unfold puStep puRecv
  dsimp only
  rw [route_person hp hctx]
  dsimp only
  rw [(same_false ..).2 hnick]
  simp only [Bool.false_eq_true, if_false]
  rw [(same_false ..).2 hself, hcons, ← silenced_iff c true]
  cases hs : ((puReattach c true).detached && decide ((puReattach c true).relay = .none)) <;> simp

/-- C98: no other message is pushed. What is pushed is not from the user, and it is private, or it mentions the user in a
saved channel that is not silenced; a message marked as belonging to a channel is one of that channel. -/
theorem C98_only (lib : RuneLib) (st : PuState) (m : ChatMsg) (time : Int) (p : PushMsg)
    (h : p ∈ (puStep lib st (.recv m time)).2) :
    ¬ SameToServer st.env m.sender st.env.nick ∧ ∃ name, p = .chat m (toMillis time) (casemap st.env.cm name) ∧
    ((name = m.sender ∧ SameToServer st.env (stripStatusMsg st.env.statusMsg m.target) st.env.nick) ∨
     ((m.command = b!"PRIVMSG" ∨ m.command = b!"NOTICE") ∧ isHighlight lib m.text st.env.nick = some true ∧
      (name = stripStatusMsg st.env.statusMsg m.target ∨
        ∃ t members, m.context = some t ∧ GoMap.get st.env.joined (casemap st.env.cm t) = some (name, members)) ∧
      ∃ c, GoMap.get st.saved (casemap st.env.cm name) = some c ∧ ¬ Silenced c true)) := by
  unfold puStep puRecv at h
  dsimp only at h
  cases hr : routeMessage st.env m with
  | skip => rw [hr] at h; cases h
  | server => rw [hr] at h; cases h
  | buffer name direct =>
    rw [hr] at h
    dsimp only at h
    obtain ⟨hdir, hname⟩ := route_buffer hr
    by_cases hself : st.env.same m.sender st.env.nick = true
    · rw [hself] at h
      simp at h
    · have hself' : st.env.same m.sender st.env.nick = false := by simpa using hself
      refine ⟨(same_false ..).1 hself', name, ?_⟩
      rw [hself'] at h
      split at h
      · rename_i hcond
        have hp := List.mem_singleton.1 h
        refine ⟨hp, ?_⟩
        cases direct with
        | true => exact Or.inl ⟨(hdir rfl).2, (hdir rfl).1⟩
        | false =>
          right
          simp only [Bool.not_false, Bool.true_and, Bool.or_false, Bool.and_eq_true] at hcond
          obtain ⟨hlet, hhl⟩ := hcond
          unfold puConsider at hlet hhl
          cases hg : GoMap.get st.saved (casemap st.env.cm name) with
          | none => rw [hg] at hhl; cases hhl
          | some c =>
            rw [hg] at hlet hhl
            dsimp only at hlet hhl
            by_cases htag : m.command ≠ b!"TAGMSG"
            · rw [if_pos (And.intro htag (rfl : false = false))] at hlet hhl
              dsimp only at hlet hhl
              rw [hhl] at hlet
              have hsil : ¬ Silenced c true := fun hs => by
                rw [(silenced_iff c true).2 hs] at hlet; cases hlet
              unfold puHighlight networkIsHighlight at hhl
              by_cases hc : m.command ≠ b!"PRIVMSG" ∧ m.command ≠ b!"NOTICE"
              · rw [if_pos hc] at hhl; simp at hhl
              · rw [if_neg hc] at hhl
                by_cases hs : m.sender = st.env.nick
                · rw [if_pos hs] at hhl; simp at hhl
                · rw [if_neg hs] at hhl
                  refine ⟨?_, by simpa using hhl, ?_, c, rfl, hsil⟩
                  · by_cases h1 : m.command = b!"PRIVMSG"
                    · exact Or.inl h1
                    · exact Or.inr (Classical.not_not.1 (fun h2 => hc ⟨h1, h2⟩))
                  · rcases hname with h | h | h
                    · exact absurd h.2 (by decide)
                    · exact Or.inl h
                    · exact Or.inr h
            · rw [if_neg (fun hc => htag hc.1)] at hhl
              cases hhl
      · cases h

/-- C98: an invitation is pushed exactly if the user is the one invited and it is not answered by the bouncer, which
joins a saved channel it is not in. -/
theorem C98_invite (lib : RuneLib) (st : PuState) (nick channel : Str) :
    (puStep lib st (.invite nick channel)).2 = [.invite nick channel] ↔
      SameToServer st.env nick st.env.nick ∧
        ((GoMap.get st.env.joined (casemap st.env.cm channel)).isSome = true ∨
          GoMap.get st.saved (casemap st.env.cm channel) = none) := by
  unfold puStep puInvite
  dsimp only
  by_cases h : st.env.same nick st.env.nick = true
  · rw [if_pos h]
    cases h1 : GoMap.get st.env.joined (casemap st.env.cm channel) <;>
      cases h2 : GoMap.get st.saved (casemap st.env.cm channel) <;> simp [(same_iff ..).1 h]
  · rw [if_neg h]
    simp [mt (same_iff ..).2 h]

/-! ## C98: messages that were read elsewhere -/

private theorem puRun_snoc (lib : RuneLib) (st : PuState) (ops : List PuOp) (op : PuOp) :
    puRun lib st (ops ++ [op]) = ((puStep lib (puRun lib st ops).1 op).1,
      (puRun lib st ops).2 ++ (puStep lib (puRun lib st ops).1 op).2) := by
  unfold puRun
  rw [List.foldl_append]
  rfl

private theorem toMillis_le (t : Int) : toMillis t ≤ t := by unfold toMillis; omega
private theorem toMillis_mono {a b : Int} (h : a ≤ b) : toMillis a ≤ toMillis b := by unfold toMillis; omega
private theorem toMillis_idem (a : Int) : toMillis (toMillis a) = toMillis a := by unfold toMillis; omega

/-- What a message of the server does to the rest. -/
private theorem recv_shape (lib : RuneLib) (st : PuState) (m : ChatMsg) (time : Int) :
    (puRecv lib st m time).1.env = st.env ∧ (puRecv lib st m time).1.net = st.net ∧
    (puRecv lib st m time).1.receipts = st.receipts ∧
    ((puRecv lib st m time).2 = [] ∧ (puRecv lib st m time).1.targets = st.targets ∨
     ∃ key, (puRecv lib st m time).2 = [.chat m (toMillis time) key] ∧
       (puRecv lib st m time).1.targets = GoMap.set st.targets key (toMillis time)) := by
  unfold puRecv
  cases routeMessage st.env m with
  | skip => exact ⟨rfl, rfl, rfl, Or.inl ⟨rfl, rfl⟩⟩
  | server => exact ⟨rfl, rfl, rfl, Or.inl ⟨rfl, rfl⟩⟩
  | buffer name direct =>
    dsimp only
    generalize hr : puConsider lib st m (casemap st.env.cm name) (st.env.same m.sender st.env.nick) = r
    have hr' : r.1.env = st.env ∧ r.1.net = st.net ∧ r.1.receipts = st.receipts ∧ r.1.targets = st.targets := by
      rw [← hr]
      unfold puConsider
      split
      · exact ⟨rfl, rfl, rfl, rfl⟩
      · split
        · exact ⟨rfl, rfl, rfl, rfl⟩
        · exact ⟨rfl, rfl, rfl, rfl⟩
    obtain ⟨h1, h2, h3, h4⟩ := hr'
    split
    · exact ⟨h1, h2, h3, Or.inr ⟨_, rfl, by rw [h4]⟩⟩
    · exact ⟨h1, h2, h3, Or.inl ⟨rfl, h4⟩⟩

private theorem mark_shape (st : PuState) (q : MarkRead) :
    (puMark st q).1.env = st.env ∧ (puMark st q).1.net = st.net ∧ (puMark st q).1.saved = st.saved := by
  unfold puMark
  dsimp only
  split
  · exact ⟨rfl, rfl, rfl⟩
  · split
    · split <;> exact ⟨rfl, rfl, rfl⟩
    · exact ⟨rfl, rfl, rfl⟩

private theorem mark_cases (st : PuState) (q : MarkRead) :
    (puMark st q = (st, [])) ∨
    (q.client.network = some st.net ∧
     ((∃ t, getReceipt st.receipts st.net (casemap st.env.cm q.target) < t ∧
        (puMark st q).1.receipts = GoMap.set st.receipts (st.net, casemap st.env.cm q.target) (toMillis t) ∧
        ((∃ p, GoMap.get st.targets (casemap st.env.cm q.target) = some p ∧
          (puMark st q).2 = [.marker q.target (if t = 0 then none else some (toMillis t))] ∧
          (puMark st q).1.targets = if t < p then st.targets else GoMap.del st.targets (casemap st.env.cm q.target)) ∨
         (GoMap.get st.targets (casemap st.env.cm q.target) = none ∧ (puMark st q).2 = [] ∧
          (puMark st q).1.targets = st.targets))) ∨
      ((puMark st q).1.receipts = st.receipts ∧ (puMark st q).2 = [] ∧ (puMark st q).1.targets = st.targets))) := by
  by_cases h0 : casemap st.env.cm q.target = serviceNickCM ∨ q.client.network ≠ some st.net
  · left
    unfold puMark
    dsimp only
    rw [if_pos h0]
  · right
    have hs : casemap st.env.cm q.target ≠ serviceNickCM := fun h => h0 (Or.inl h)
    have hn : q.client.network = some st.net := Classical.not_not.1 (fun h => h0 (Or.inr h))
    refine ⟨hn, ?_⟩
    have hmr : (markRead st.env.cm [] st.receipts q).1 =
        match markCriteria (getReceipt st.receipts st.net (casemap st.env.cm q.target)) q with
        | none => st.receipts
        | some (t, broadcast) => if broadcast then
            GoMap.set st.receipts (st.net, casemap st.env.cm q.target) (toMillis t) else st.receipts := by
      unfold markRead
      rw [if_neg hs, hn]
      dsimp only
      split <;> rename_i h <;> rw [h]
    unfold puMark
    dsimp only
    rw [if_neg h0, hmr]
    cases hc : markCriteria (getReceipt st.receipts st.net (casemap st.env.cm q.target)) q with
    | none => exact Or.inr ⟨rfl, rfl, rfl⟩
    | some tb =>
      obtain ⟨t, b⟩ := tb
      cases b with
      | false => exact Or.inr ⟨rfl, rfl, rfl⟩
      | true =>
        left
        have hlt : getReceipt st.receipts st.net (casemap st.env.cm q.target) < t := by
          generalize getReceipt st.receipts st.net (casemap st.env.cm q.target) = r at hc
          unfold markCriteria at hc
          split at hc
          · simp at hc
          · cases hc
          · cases hc
          · rename_i u _
            dsimp only at hc
            generalize (if u > q.now then q.now else u) = v at hc
            by_cases hlt : r < v
            · rw [if_pos hlt] at hc
              by_cases hd : q.dbFails = true
              · rw [if_pos hd] at hc; cases hc
              · rw [if_neg hd] at hc
                cases hc
                exact hlt
            · rw [if_neg hlt] at hc
              simp at hc
        refine ⟨t, hlt, ?_⟩
        cases hg : GoMap.get st.targets (casemap st.env.cm q.target) with
        | some p => exact ⟨rfl, Or.inl ⟨p, rfl, rfl, rfl⟩⟩
        | none => exact ⟨rfl, Or.inr ⟨rfl, rfl, rfl⟩⟩

private theorem getReceipt_set (tbl : ReceiptTable) (net : Nat) (k k' : Str) (t : Int) :
    getReceipt (GoMap.set tbl (net, k) t) net k' = if k = k' then t else getReceipt tbl net k' := by
  unfold getReceipt
  rw [mget_mset]
  by_cases h : k = k'
  · simp [h]
  · rw [if_neg (fun e => h (Prod.mk.inj e).2), if_neg h]

/-- What is pushed and not read is remembered. -/
private def Remembered (last : Int) (s : PuState × List PushMsg) : Prop :=
  ∀ m t b, PushMsg.chat m t b ∈ s.2 → (t ≤ last ∧ toMillis t = t) ∧ (t ≤ getReceipt s.1.receipts s.1.net b ∨
    ∃ p, GoMap.get s.1.targets b = some p ∧ t ≤ p)

private theorem remembered_step (lib : RuneLib) (s : PuState × List PushMsg) (op : PuOp) (last : Int)
    (h : Remembered last s) (hf : op ≠ .restart ∧ ∀ name, op ≠ .part name) (last' : Int) (hl : last ≤ last')
    (ht : ∀ m t, op = .recv m t → last ≤ toMillis t ∧ toMillis t ≤ last') :
    Remembered last' ((puStep lib s.1 op).1, s.2 ++ (puStep lib s.1 op).2) := by
  cases op with
  | recv m time =>
    obtain ⟨h1, h2, h3, h4⟩ := recv_shape lib s.1 m time
    obtain ⟨t1, t2⟩ := ht m time rfl
    intro m' t b hm
    dsimp only [puStep] at hm ⊢
    rw [h2, h3]
    rcases h4 with ⟨h4, h5⟩ | ⟨key, h4, h5⟩
    · rw [h4, List.append_nil] at hm
      rw [h5]
      exact ⟨⟨Int.le_trans (h m' t b hm).1.1 hl, (h m' t b hm).1.2⟩, (h m' t b hm).2⟩
    · rw [h4] at hm
      rw [h5, mget_mset]
      rcases List.mem_append.1 hm with hm | hm
      · obtain ⟨a1, a2⟩ := h m' t b hm
        refine ⟨⟨Int.le_trans a1.1 hl, a1.2⟩, ?_⟩
        rcases a2 with a2 | ⟨p, hp, hle⟩
        · exact Or.inl a2
        · right
          by_cases hk : key = b
          · exact ⟨toMillis time, by rw [if_pos hk], Int.le_trans a1.1 t1⟩
          · exact ⟨p, by rw [if_neg hk]; exact hp, hle⟩
      · simp only [List.mem_singleton, PushMsg.chat.injEq] at hm
        obtain ⟨-, e2, e3⟩ := hm
        subst e2 e3
        exact ⟨⟨t2, toMillis_idem _⟩, Or.inr ⟨_, if_pos rfl, Int.le_refl _⟩⟩
  | invite nick channel =>
    intro m' t b hm
    dsimp only [puStep] at hm ⊢
    rcases List.mem_append.1 hm with hm | hm
    · exact ⟨⟨Int.le_trans (h m' t b hm).1.1 hl, (h m' t b hm).1.2⟩, (h m' t b hm).2⟩
    · unfold puInvite at hm
      dsimp only at hm
      split at hm
      · split at hm
        · cases hm
        · simp at hm
      · cases hm
  | mark q =>
    intro m' t b hm
    dsimp only [puStep] at hm ⊢
    have hold : PushMsg.chat m' t b ∈ s.2 := by
      rcases List.mem_append.1 hm with hm | hm
      · exact hm
      · exfalso
        rcases mark_cases s.1 q with he | ⟨-, ⟨t', -, -, (⟨p, -, hp, -⟩ | ⟨-, hp, -⟩)⟩ | ⟨-, hp, -⟩⟩
        · rw [he] at hm; cases hm
        · rw [hp] at hm; simp at hm
        · rw [hp] at hm; cases hm
        · rw [hp] at hm; cases hm
    obtain ⟨⟨a1, a3⟩, a2⟩ := h m' t b hold
    refine ⟨⟨Int.le_trans a1 hl, a3⟩, ?_⟩
    rw [(mark_shape s.1 q).2.1]
    rcases mark_cases s.1 q with he | ⟨-, ⟨t', hlt, hrec, hc⟩ | ⟨hrec, -, htar⟩⟩
    · rw [he]; exact a2
    · rw [hrec, getReceipt_set]
      by_cases hk : casemap s.1.env.cm q.target = b
      · rw [if_pos hk]
        subst hk
        rcases hc with ⟨p, hg, -, htar⟩ | ⟨hg, -, -⟩
        · rcases a2 with a2 | ⟨p', hp', hle⟩
          · left
            rw [← a3]; exact toMillis_mono (by omega)
          · rw [hg] at hp'
            cases hp'
            by_cases hpt : t' < p
            · right
              exact ⟨p, by rw [htar, if_pos hpt]; exact hg, hle⟩
            · left
              rw [← a3]; exact toMillis_mono (by omega)
        · rcases a2 with a2 | ⟨p', hp', hle⟩
          · left
            rw [← a3]; exact toMillis_mono (by omega)
          · rw [hg] at hp'; cases hp'
      · rw [if_neg hk]
        rcases a2 with a2 | ⟨p', hp', hle⟩
        · exact Or.inl a2
        · right
          refine ⟨p', ?_, hle⟩
          rcases hc with ⟨p, hg, -, htar⟩ | ⟨hg, -, htar⟩
          · rw [htar]
            split
            · exact hp'
            · rw [mget_mdel, if_neg hk]; exact hp'
          · rw [htar]; exact hp'
    · rw [hrec, htar]; exact a2
  | part name => exact absurd rfl (hf.2 name)
  | server nick registered joined =>
    intro m' t b hm
    dsimp only [puStep] at hm ⊢
    rw [List.append_nil] at hm
    exact ⟨⟨Int.le_trans (h m' t b hm).1.1 hl, (h m' t b hm).1.2⟩, (h m' t b hm).2⟩
  | channels saved =>
    intro m' t b hm
    dsimp only [puStep] at hm ⊢
    rw [List.append_nil] at hm
    exact ⟨⟨Int.le_trans (h m' t b hm).1.1 hl, (h m' t b hm).1.2⟩, (h m' t b hm).2⟩
  | restart => exact absurd rfl hf.1

private theorem recvTimes_snoc (ops : List PuOp) (op : PuOp) :
    recvTimes (ops ++ [op]) = recvTimes ops ++ recvTimes [op] := by
  induction ops with
  | nil => rfl
  | cons o ops ih => cases o <;> simp [recvTimes, ih]

private theorem remembered_run (lib : RuneLib) (st : PuState) (ops : List PuOp) (hf : NoForgetting ops)
    (ht : (recvTimes ops).Pairwise (· ≤ ·)) (last : Int) (hl : ∀ t ∈ recvTimes ops, toMillis t ≤ last) :
    Remembered last (puRun lib st ops) := by
  induction ops using snocInd generalizing last with
  | nil => intro m t b h; cases h
  | snoc ops op ih =>
    rw [puRun_snoc]
    rw [recvTimes_snoc] at ht hl
    have hf' : NoForgetting ops := fun o ho => hf o (List.mem_append_left _ ho)
    have hop := hf op (List.mem_append_right _ (List.mem_singleton.2 rfl))
    have hsame : (∀ m t, op ≠ .recv m t) → Remembered last ((puStep lib (puRun lib st ops).1 op).1,
        (puRun lib st ops).2 ++ (puStep lib (puRun lib st ops).1 op).2) := by
      intro hno
      exact remembered_step lib _ op last (ih hf' (List.pairwise_append.1 ht).1 last
        (fun t h => hl t (List.mem_append_left _ h))) hop last (Int.le_refl _) (fun m t e => absurd e (hno m t))
    cases op with
    | recv m t =>
      have h1 := ih hf' (List.pairwise_append.1 ht).1 (toMillis t) (fun t' h =>
        toMillis_mono ((List.pairwise_append.1 ht).2.2 t' h t (List.mem_singleton.2 rfl)))
      have h2 : toMillis t ≤ last := hl t (List.mem_append_right _ (List.mem_singleton.2 rfl))
      exact remembered_step lib _ _ (toMillis t) h1 hop last h2 (fun m' t' e => by cases e; exact ⟨Int.le_refl _, h2⟩)
    | invite _ _ => exact hsame (fun _ _ e => by cases e)
    | mark _ => exact hsame (fun _ _ e => by cases e)
    | part _ => exact hsame (fun _ _ e => by cases e)
    | server _ _ _ => exact hsame (fun _ _ e => by cases e)
    | channels _ => exact hsame (fun _ _ e => by cases e)
    | restart => exact hsame (fun _ _ e => by cases e)

private theorem bounded_times : ∀ l : List Int, ∃ b, ∀ t ∈ l, toMillis t ≤ b
  | [] => ⟨0, fun _ h => nomatch h⟩
  | t :: l => by
    obtain ⟨b, hb⟩ := bounded_times l
    refine ⟨max b (toMillis t), fun t' h => ?_⟩
    rcases List.mem_cons.1 h with rfl | h
    · exact Int.le_max_right ..
    · exact Int.le_trans (hb t' h) (Int.le_max_left ..)

/-- C98: a message that was pushed is dismissed when it is read elsewhere: when the read marker of its conversation moves
to its time or beyond, that is pushed too. This needs that the server sends messages in the order of their times, that
the conversation is not left and that neither the bouncer nor the network is restarted
(`C98_forgotten_violated`, `C98_order_violated`). -/
theorem C98_dismissed_partial (lib : RuneLib) (st : PuState) (ops : List PuOp) (hf : NoForgetting ops)
    (ht : (recvTimes ops).Pairwise (· ≤ ·)) (m : ChatMsg) (t : Int) (b : Str)
    (hp : PushMsg.chat m t b ∈ (puRun lib st ops).2) (hpos : 0 < t) (q : MarkRead)
    (hb : casemap (puRun lib st ops).1.env.cm q.target = b)
    (hunread : getReceipt (puRun lib st ops).1.receipts (puRun lib st ops).1.net b < t)
    (hread : t ≤ getReceipt (puStep lib (puRun lib st ops).1 (.mark q)).1.receipts (puRun lib st ops).1.net b) :
    (puStep lib (puRun lib st ops).1 (.mark q)).2 = [.marker q.target
      (some (getReceipt (puStep lib (puRun lib st ops).1 (.mark q)).1.receipts (puRun lib st ops).1.net b))] := by
  obtain ⟨last, hl⟩ := bounded_times (recvTimes ops)
  have hrem := remembered_run lib st ops hf ht last hl
  generalize puRun lib st ops = s at *
  obtain ⟨-, h2⟩ := hrem m t b hp
  rcases h2 with h2 | ⟨p, hg, hle⟩
  · omega
  · dsimp only [puStep] at hread ⊢
    subst hb
    rcases mark_cases s.1 q with he | ⟨-, ⟨t', hlt, hrec, hc⟩ | ⟨hrec, -, -⟩⟩
    · rw [he] at hread
      exfalso; dsimp only at hread; omega
    · rw [hrec, getReceipt_set, if_pos rfl] at hread ⊢
      rcases hc with ⟨p', -, ho, -⟩ | ⟨hn, -, -⟩
      · rw [ho]
        have : t' ≠ 0 := by
          have := toMillis_le t'
          omega
        rw [if_neg this]
      · rw [hn] at hg; cases hg
    · rw [hrec] at hread
      exfalso; omega

/-- C98: read markers are pushed only for conversations of which a message was pushed before, and with a marker that
moved. -/
theorem C98_marker_only (lib : RuneLib) (st : PuState) (hst : st.targets = []) (ops : List PuOp) (q : MarkRead) (p : PushMsg)
    (hp : p ∈ (puStep lib (puRun lib st ops).1 (.mark q)).2) :
    (∃ ts, p = .marker q.target ts) ∧
    (∃ m t, PushMsg.chat m t (casemap (puRun lib st ops).1.env.cm q.target) ∈ (puRun lib st ops).2) := by
  have key : ∀ b x, GoMap.get (puRun lib st ops).1.targets b = some x → ∃ m t, PushMsg.chat m t b ∈ (puRun lib st ops).2 := by
    clear hp
    induction ops using snocInd with
    | nil => intro b x h; unfold puRun at h; dsimp only [List.foldl_nil] at h; rw [hst] at h; cases h
    | snoc ops op ih =>
      rw [puRun_snoc]
      generalize puRun lib st ops = s at ih
      intro b x h
      dsimp only at h ⊢
      have hold : GoMap.get s.1.targets b = some x → ∃ m t, PushMsg.chat m t b ∈ s.2 ++ (puStep lib s.1 op).2 := fun h => by
        obtain ⟨m, t, hm⟩ := ih b x h
        exact ⟨m, t, List.mem_append_left _ hm⟩
      cases op with
      | recv m time =>
        dsimp only [puStep] at h hold ⊢
        obtain ⟨-, -, -, h4⟩ := recv_shape lib s.1 m time
        rcases h4 with ⟨-, h5⟩ | ⟨key, h4, h5⟩
        · rw [h5] at h; exact hold h
        · rw [h5, mget_mset] at h
          by_cases hk : key = b
          · subst hk
            exact ⟨m, _, List.mem_append_right _ (by rw [h4]; exact List.mem_singleton.2 rfl)⟩
          · rw [if_neg hk] at h; exact hold h
      | invite nick channel => exact hold h
      | mark q =>
        dsimp only [puStep] at h hold ⊢
        rcases mark_cases s.1 q with he | ⟨-, ⟨t', -, -, (⟨p, -, -, ht⟩ | ⟨-, -, ht⟩)⟩ | ⟨-, -, ht⟩⟩
        · rw [he] at h; exact hold h
        · rw [ht] at h
          split at h
          · exact hold h
          · rw [mget_mdel] at h
            split at h
            · cases h
            · exact hold h
        · rw [ht] at h; exact hold h
        · rw [ht] at h; exact hold h
      | part name =>
        dsimp only [puStep] at h hold ⊢
        rw [mget_mdel] at h
        split at h
        · cases h
        · exact hold h
      | server nick registered joined => exact hold h
      | channels saved => exact hold h
      | restart => cases h
  generalize puRun lib st ops = s at hp key
  dsimp only [puStep] at hp
  rcases mark_cases s.1 q with he | ⟨-, ⟨t', -, -, (⟨x, hx, ho, -⟩ | ⟨-, ho, -⟩)⟩ | ⟨-, ho, -⟩⟩
  · rw [he] at hp; cases hp
  · rw [ho] at hp
    exact ⟨⟨_, List.mem_singleton.1 hp⟩, key _ x hx⟩
  · rw [ho] at hp; cases hp
  · rw [ho] at hp; cases hp

/-! ### Examples -/

/-- A network with a channel. -/
def puEx : PuState :=
  { env := ⟨.ascii, b!"me", b!"irc.example", true, b!"@", [(b!"#soju", (b!"#soju", [b!"me", b!"bob"]))], []⟩, net := 1,
    saved := [(b!"#soju", ⟨false, .default, .default⟩)], targets := [], receipts := [] }

/-- A message of bob. -/
def puFrom (target text : Str) : ChatMsg := ⟨b!"bob", b!"PRIVMSG", target, text, [], none⟩

/-- A read marker. -/
def puRead (target : Str) (t : Int) : PuOp :=
  .mark ⟨⟨1, some 1, true⟩, b!"MARKREAD", target, .timestamp t, 10 ^ 12, false⟩

/-- A private message, one in the channel, a mention, an invitation; then they are read. -/
def puHistory : List PuOp :=
  [.recv (puFrom b!"me" b!"hi") 3000000, .recv (puFrom b!"#soju" b!"hello") 4000000,
   .recv (puFrom b!"#soju" b!"me: hello") 5000000, .invite b!"me" b!"#other", puRead b!"bob" 3000000,
   puRead b!"#soju" 4000000, puRead b!"#soju" 5500000, puRead b!"#soju" 7000000]

example : (puRun runeLibEx puEx puHistory).2 =
    [.chat (puFrom b!"me" b!"hi") 3000000 b!"bob", .chat (puFrom b!"#soju" b!"me: hello") 5000000 b!"#soju",
     .invite b!"me" b!"#other", .marker b!"bob" (some 3000000), .marker b!"#soju" (some 4000000),
     .marker b!"#soju" (some 5000000)] := by decide +kernel

example : NoForgetting (puHistory.take 4) ∧ (recvTimes (puHistory.take 4)).Pairwise (· ≤ ·) ∧
    PushMsg.chat (puFrom b!"me" b!"hi") 3000000 b!"bob" ∈ (puRun runeLibEx puEx (puHistory.take 4)).2 ∧
    getReceipt (puRun runeLibEx puEx (puHistory.take 4)).1.receipts 1 b!"bob" < 3000000 ∧
    3000000 ≤ getReceipt (puStep runeLibEx (puRun runeLibEx puEx (puHistory.take 4)).1 (puRead b!"bob" 3000000)).1.receipts 1
      b!"bob" := by
  refine ⟨?_, by decide, by decide +kernel, by decide +kernel, by decide +kernel⟩
  unfold NoForgetting puHistory
  simp

example : FromPerson puEx.env (puFrom b!"me" b!"hi") (stripStatusMsg puEx.env.statusMsg b!"me") ∧
    ¬ Silenced ⟨true, .none, .highlight⟩ true ∧ Silenced ⟨true, .none, .default⟩ true := by
  refine ⟨⟨rfl, ⟨by unfold SameToServer; decide, by unfold SameToServer; decide⟩, by unfold SameToServer; decide, by decide, ?_⟩, ?_, ?_⟩
  · rintro ⟨rest, h⟩
    have : stripStatusMsg puEx.env.statusMsg b!"me" = b!"me" := by decide
    rw [this] at h
    cases h
  · unfold Silenced; simp
  · unfold Silenced; simp

/-- C98, violated: when the settings of the network are changed, or the bouncer restarts, or the user leaves the channel,
between the push message and the read marker, the marker is not pushed. -/
theorem C98_forgotten_violated :
    (puRun runeLibEx puEx [.recv (puFrom b!"me" b!"hi") 3000000, .restart, puRead b!"bob" 3000000]).2 =
      [.chat (puFrom b!"me" b!"hi") 3000000 b!"bob"] ∧
    (puRun runeLibEx puEx [.recv (puFrom b!"#soju" b!"me: hi") 3000000, .part b!"#soju", puRead b!"#soju" 3000000]).2 =
      [.chat (puFrom b!"#soju" b!"me: hi") 3000000 b!"#soju"] := by decide +kernel

/-- C98, violated: when the server sends an older message after a newer one, the read marker that covers the newer one
may not be pushed. -/
theorem C98_order_violated :
    (puRun runeLibEx puEx [.recv (puFrom b!"me" b!"new") 9000000, .recv (puFrom b!"me" b!"old") 3000000,
      puRead b!"bob" 3000000, puRead b!"bob" 9000000]).2 =
      [.chat (puFrom b!"me" b!"new") 9000000 b!"bob", .chat (puFrom b!"me" b!"old") 3000000 b!"bob",
       .marker b!"bob" (some 3000000)] := by decide +kernel

/-- C98, violated: a mention in a channel that is not saved, such as one the server made the user join, is not pushed. -/
theorem C98_unsaved_violated :
    (puRun runeLibEx { puEx with saved := [] } [.recv (puFrom b!"#soju" b!"me: hello") 5000000]).2 = [] ∧
    isHighlight runeLibEx b!"me: hello" b!"me" = some true := by decide +kernel

/-! ## C98: to whom and how -/

/-- C98: a push message goes to each subscription of the user for the network, made with the key of the bouncer, once,
and to no other; with its own keys. -/
theorem C98_sent (keys : VapidKeys) (tbl : List PushSub) (u n : Nat) (msg : PushMsg) (http : PushReq → Option Nat) :
    (broadcastReqs keys tbl u n msg http).map (fun r => (r.endpoint, r.auth, r.p256)) =
      (tbl.filter (fun s => decide (s.user = u ∧ s.net = n ∧ s.vapid = keys.pub))).map (fun s => (s.endpoint, s.auth, s.p256)) ∧
    ∀ r ∈ broadcastReqs keys tbl u n msg http, r.keys = keys ∧ r.payload = msg ∧ r.ttl = 604800 ∧
      (r.high = true ↔ (∃ m t b, msg = .chat m t b ∧ (m.command = b!"PRIVMSG" ∨ m.command = b!"NOTICE" ∨ m.command = b!"INVITE")) ∨
        ∃ nick ch, msg = .invite nick ch) := by
  have hreq : ∀ s : PushSub, (sendWebPush keys s msg http).1 = if s.vapid = keys.pub then
      some ⟨s.endpoint, s.auth, s.p256, keys, pushHigh msg.command, 604800, msg⟩ else none := by
    intro s
    unfold sendWebPush
    dsimp only
    by_cases h : s.vapid = keys.pub
    · rw [if_neg (fun hn => hn h), if_pos h]
      split
      · rfl
      · split
        · rfl
        · split <;> rfl
    · rw [if_pos h, if_neg h]
  unfold broadcastReqs listSubs
  constructor
  · induction tbl with
    | nil => rfl
    | cons s tbl ih =>
      rw [List.filter_cons, List.filter_cons]
      by_cases h1 : s.user = u ∧ s.net = n
      · by_cases h2 : s.vapid = keys.pub
        · rw [if_pos (by simpa using h1), if_pos (by simpa using ⟨h1.1, h1.2, h2⟩), List.filterMap_cons, hreq, if_pos h2,
            List.map_cons, List.map_cons, ih]
        · rw [if_pos (by simpa using h1), if_neg (by simpa using fun _ _ => h2), List.filterMap_cons, hreq, if_neg h2, ih]
      · rw [if_neg (by simpa using h1), if_neg (by simp only [decide_eq_true_eq]; exact fun h => h1 ⟨h.1, h.2.1⟩), ih]
  · intro r hr
    obtain ⟨s, -, hs⟩ := List.mem_filterMap.1 hr
    rw [hreq] at hs
    split at hs
    · cases hs
      refine ⟨rfl, rfl, rfl, ?_⟩
      dsimp only
      unfold pushHigh PushMsg.command
      cases msg with
      | chat m t b => simp
      | invite nick ch => simp
      | marker t ts => simp
    · cases hs

/-- C98: a subscription is given up as expired exactly if the push server says that it does not exist, and a push message
is delivered exactly if it says so. -/
theorem C98_result (keys : VapidKeys) (sub : PushSub) (msg : PushMsg) (http : PushReq → Option Nat) :
    ((sendWebPush keys sub msg http).2 = .expired ↔ ∃ r, (sendWebPush keys sub msg http).1 = some r ∧ http r = some 404) ∧
    ((sendWebPush keys sub msg http).2 = .ok ↔
      ∃ r status, (sendWebPush keys sub msg http).1 = some r ∧ http r = some status ∧ 200 ≤ status ∧ status < 300) := by
  unfold sendWebPush
  dsimp only
  by_cases h : sub.vapid = keys.pub
  · rw [if_neg (fun hn => hn h)]
    generalize (⟨sub.endpoint, sub.auth, sub.p256, keys, pushHigh msg.command, 7 * 24 * 60 * 60, msg⟩ : PushReq) = req
    cases hh : http req with
    | none => simp [hh]
    | some status =>
      dsimp only
      by_cases h1 : status = 404
      · rw [if_pos h1]; simp [hh, h1]
      · rw [if_neg h1]
        by_cases h2 : status / 100 ≠ 2
        · rw [if_pos h2]
          simp [hh, h1]
          omega
        · rw [if_neg h2]
          simp [hh, h1]
          omega
  · rw [if_pos h]
    simp

/-! ## C98: the keys -/

/-- C98: the keys are made once. Over any number of starts and stops, with whatever failures, all subscriptions are for
the key in use. -/
theorem C98_key (ops : List VkOp) (k : VapidKeys) (hk : (ops.foldl vkStep {}).running = some k) :
    ∀ v ∈ (ops.foldl vkStep {}).subs, v = k.pub := by
  let Inv : VkState → Prop := fun st => (∀ k, st.running = some k → st.db = [k]) ∧ (st.db = [] → st.subs = []) ∧
    (∀ v ∈ st.subs, st.db.map (·.pub) = [v])
  have step : ∀ st op, Inv st → Inv (vkStep st op) := by
    rintro st op ⟨h1, h2, h3⟩
    cases op with
    | start listOk gen storeOk =>
      unfold vkStep
      dsimp only
      cases hr : st.running with
      | some k => exact ⟨h1, h2, h3⟩
      | none =>
        dsimp only
        cases hl : loadWebPushConfig st.db listOk gen storeOk with
        | none => exact ⟨h1, h2, h3⟩
        | some kd =>
          obtain ⟨k, db⟩ := kd
          dsimp only
          unfold loadWebPushConfig at hl
          cases listOk with
          | false => cases hl
          | true =>
            simp only [Bool.not_true, Bool.false_eq_true, if_false] at hl
            split at hl
            · cases hl
            · rename_i k' hdb
              cases hl
              exact ⟨fun k e => (by cases e; rfl), fun e => (by cases e), fun v hv => by rw [← hdb]; exact h3 v hv⟩
            · rename_i hdb
              split at hl
              · cases hl
              · split at hl
                · cases hl
                  refine ⟨fun k e => (by cases e; rfl), fun e => (by cases e), fun v hv => ?_⟩
                  have : st.subs = [] := h2 hdb
                  dsimp only at hv
                  rw [this] at hv
                  cases hv
                · cases hl
    | stop => exact ⟨fun k e => (by cases e), h2, h3⟩
    | subscribe =>
      unfold vkStep
      dsimp only
      cases hr : st.running with
      | none => exact ⟨h1, h2, h3⟩
      | some k =>
        have hdb := h1 k hr
        refine ⟨fun k' e => (by have e' : some k = some k' := e; rw [← hr] at e'; exact h1 k' e'), fun e => ?_, fun v hv => ?_⟩
        · dsimp only at e; rw [hdb] at e; cases e
        · dsimp only at hv ⊢
          rcases List.mem_append.1 hv with hv | hv
          · exact h3 v hv
          · rw [hdb, List.mem_singleton.1 hv]; rfl
    | unsubscribe i =>
      refine ⟨h1, fun e => ?_, fun v hv => h3 v (List.mem_of_mem_eraseIdx hv)⟩
      show st.subs.eraseIdx i = []
      rw [h2 e]; rfl
  have inv : ∀ (ops : List VkOp) (st : VkState), Inv st → Inv (ops.foldl vkStep st) := by
    intro ops
    induction ops with
    | nil => intro st h; exact h
    | cons op ops ih => intro st h; exact ih _ (step st op h)
  obtain ⟨h1, -, h2⟩ := inv ops {} ⟨fun k h => (by cases h), fun _ => rfl, fun v h => by cases h⟩
  intro v hv
  have := h2 v hv
  rw [h1 k hk] at this
  simpa using this.symm

/-- C98: so a push message to any of them is not refused for its key. -/
theorem C98_key_accepted (ops : List VkOp) (k : VapidKeys) (hk : (ops.foldl vkStep {}).running = some k) (sub : PushSub)
    (hs : sub.vapid ∈ (ops.foldl vkStep {}).subs) (msg : PushMsg) (http : PushReq → Option Nat) :
    ∃ r, (sendWebPush k sub msg http).1 = some r := by
  unfold sendWebPush
  dsimp only
  rw [if_neg (fun hn => hn (C98_key ops k hk _ hs))]
  split
  · exact ⟨_, rfl⟩
  · split
    · exact ⟨_, rfl⟩
    · split <;> exact ⟨_, rfl⟩

example : let k : VapidKeys := ⟨b!"pub", b!"priv"⟩
    let st := [VkOp.start true (some k) false, .start true (some k) true, .subscribe, .stop, .start false none true,
      .start true (some ⟨b!"other", b!"x"⟩) true, .subscribe].foldl vkStep {}
    st.running = some k ∧ st.subs = [b!"pub", b!"pub"] := by decide

/-- C98, violated: when two bouncers are started at once on a new database (for example by a supervisor that starts a
second one before the first has stopped), each sees no keys and makes its own; from then on neither starts again. -/
theorem C98_two_violated (k k' : VapidKeys) :
    ∃ db1 db2, loadWebPushConfig [] true (some k) true = some (k, db1) ∧
      loadWebPushConfig [] true (some k') true = some (k', db2) ∧
      ∀ listOk gen storeOk, loadWebPushConfig (db1 ++ db2) listOk gen storeOk = none := by
  refine ⟨[k], [k'], rfl, rfl, fun listOk gen storeOk => ?_⟩
  cases listOk <;> rfl

/-- C57, violated: "It has a case-insensitive subcommand" (doc/ext/webpush.md), but only upper case is understood. -/
theorem C57_subcommand_violated :
    webPushSubcommand b!"REGISTER" = some true ∧ webPushSubcommand b!"UNREGISTER" = some false ∧
    webPushSubcommand b!"register" = none ∧ webPushSubcommand b!"Unregister" = none := by decide

end Verif.Props
