import Verif.Spec.Passing
import Verif.Proof.Util

namespace Verif.Proof
open Verif.Model Verif.Spec
open Classical in
/-- What a client has heard after a message. -/
noncomputable def psTell (past : List PsOp) (env : PsEnv) (lbl : Nat) (m : Msg) (c : PsClient) : PsClient :=
  if IsDue past env lbl m c.id c.inviteNotify then { c with heard := c.heard ++ [m] } else c

/-- The state of the connection, in terms of the past. -/
structure PsInv (past : List PsOp) (st : PsState) : Prop where
  motd : st.gotMotd = true ↔ GreetingOver past
  welcome : st.registered = true ↔ WelcomeIn past

theorem psTell_quiet {past env lbl m} (cs : List PsClient) (h : ∀ id n, ¬IsDue past env lbl m id n) :
    cs = cs.map (psTell past env lbl m) := by
  have : psTell past env lbl m = id := by
    funext c; simp [psTell, h]
  rw [this, List.map_id]

theorem psTell_forward {past env lbl m} (st : PsState) (h : ∀ id n, IsDue past env lbl m id n ↔ (lbl = 0 ∨ lbl = id)) :
    (psForward st lbl m).clients = st.clients.map (psTell past env lbl m) := by
  unfold psForward
  apply List.map_congr_left
  intro c _
  simp only [psTell, h]
  by_cases h1 : lbl = 0
  · simp [h1]
  · by_cases h2 : lbl = c.id <;> simp [h1, h2]

theorem psTell_all {past env lbl m} (st : PsState) (h : ∀ id n, IsDue past env lbl m id n) :
    (psForward st 0 m).clients = st.clients.map (psTell past env lbl m) := by
  unfold psForward
  apply List.map_congr_left
  intro c _
  simp [psTell, h]

theorem ps_topics : ∀ x, x ∈ psElsewhere ↔ x ∈ otherTopics := by
  intro x
  constructor
  · have : ∀ x ∈ psElsewhere, x ∈ otherTopics := by decide +kernel
    exact this x
  · have : ∀ x ∈ otherTopics, x ∈ psElsewhere := by decide +kernel
    exact this x

theorem ps_burst : ∀ x, x ∈ psBurst ↔ x ∈ greetingLines := by
  intro x
  constructor
  · have : ∀ x ∈ psBurst, x ∈ greetingLines := by decide +kernel
    exact this x
  · have : ∀ x ∈ greetingLines, x ∈ psBurst := by decide +kernel
    exact this x

theorem ps_refusals : ∀ x, x ∈ [b!"464", b!"432", b!"436", b!"437", b!"463", b!"465"] ↔ x ∈ loginRefusals := by
  intro x
  constructor
  · have : ∀ x ∈ [b!"464", b!"432", b!"436", b!"437", b!"463", b!"465"], x ∈ loginRefusals := by decide +kernel
    exact this x
  · have : ∀ x ∈ loginRefusals, x ∈ [b!"464", b!"432", b!"436", b!"437", b!"463", b!"465"] := by decide +kernel
    exact this x

/-- The classes of commands do not overlap. -/
theorem ps_apart1 : ∀ x ∈ otherTopics, x ∉ greetingLines ∧ x ∉ greetingEnds ∧ x ∉ loginRefusals ∧
    x ∉ [b!"341", b!"AWAY", b!"ACCOUNT", b!"INVITE", b!"ERROR", b!"001"] := by decide +kernel

theorem ps_apart2 : ∀ x ∈ greetingLines ++ greetingEnds, x ∉ otherTopics ∧ x ∉ loginRefusals ∧ x ∉ ownReplies ∧
    x ∉ [b!"341", b!"AWAY", b!"ACCOUNT", b!"INVITE", b!"ERROR", b!"001"] := by decide +kernel

theorem ps_apart3 : ∀ x ∈ loginRefusals, x ∉ otherTopics ∧ x ∉ greetingLines ∧ x ∉ greetingEnds ∧ x ∉ ownReplies ∧
    x ∉ [b!"341", b!"AWAY", b!"ACCOUNT", b!"INVITE", b!"ERROR", b!"001"] := by decide +kernel

theorem ps_apart4 : ∀ x ∈ ownReplies, x ∉ otherTopics ∧ x ∉ greetingLines ∧ x ∉ greetingEnds ∧ x ∉ loginRefusals ∧
    x ∉ [b!"341", b!"AWAY", b!"ACCOUNT", b!"INVITE", b!"ERROR"] := by decide +kernel

theorem ps_apart5 : ∀ x ∈ [b!"341", b!"AWAY", b!"ACCOUNT", b!"INVITE", b!"ERROR"],
    x ∉ otherTopics ∧ x ∉ greetingLines ∧ x ∉ greetingEnds ∧ x ∉ loginRefusals ∧ x ∉ ownReplies := by decide +kernel

/-- What is due, by the command. -/
theorem isDue_topic {past env lbl m} (h : m.command ∈ otherTopics) (id n) : ¬IsDue past env lbl m id n := by
  obtain ⟨a, b, c, d⟩ := ps_apart1 _ h
  simp only [List.mem_cons, List.not_mem_nil, or_false, not_or] at d
  intro hd
  cases hd with
  | greeting h1 => exact h1.elim a b
  | refusal h1 => exact c h1
  | inviting h1 => exact d.1 h1
  | away h1 => exact d.2.1 h1
  | account h1 => exact d.2.2.1 h1
  | invited h1 => exact d.2.2.2.1 h1.1
  | invitation h1 => exact d.2.2.2.1 h1.1
  | rest h1 => exact h1 (by simp [h])

theorem isDue_greeting {past env lbl m} (h : m.command ∈ greetingLines ++ greetingEnds) (id n) :
    IsDue past env lbl m id n ↔ GreetingOver past ∧ (lbl = 0 ∨ lbl = id) := by
  obtain ⟨a, b, c, d⟩ := ps_apart2 _ h
  simp only [List.mem_cons, List.not_mem_nil, or_false, not_or] at d
  constructor
  · intro hd
    cases hd with
    | greeting _ h2 h3 => exact ⟨h2, h3⟩
    | refusal h1 => exact absurd h1 b
    | inviting h1 => exact absurd h1 d.1
    | away h1 => exact absurd h1 d.2.1
    | account h1 => exact absurd h1 d.2.2.1
    | invited h1 => exact absurd h1.1 d.2.2.2.1
    | invitation h1 => exact absurd h1.1 d.2.2.2.1
    | rest h1 =>
      rcases List.mem_append.1 h with h | h <;> exact absurd (by simp [h]) h1
  · rintro ⟨h2, h3⟩
    exact .greeting (List.mem_append.1 h) h2 h3

theorem isDue_refusal {past env lbl m} (h : m.command ∈ loginRefusals) (id n) :
    IsDue past env lbl m id n ↔ WelcomeIn past ∧ (lbl = 0 ∨ lbl = id) := by
  obtain ⟨a, b, c, e, d⟩ := ps_apart3 _ h
  simp only [List.mem_cons, List.not_mem_nil, or_false, not_or] at d
  constructor
  · intro hd
    cases hd with
    | greeting h1 => exact h1.elim (fun h => absurd h b) (fun h => absurd h c)
    | refusal _ h2 h3 => exact ⟨h2, h3⟩
    | inviting h1 => exact absurd h1 d.1
    | away h1 => exact absurd h1 d.2.1
    | account h1 => exact absurd h1 d.2.2.1
    | invited h1 => exact absurd h1.1 d.2.2.2.1
    | invitation h1 => exact absurd h1.1 d.2.2.2.1
    | rest h1 => exact absurd (by simp [h]) h1
  · rintro ⟨h2, h3⟩
    exact .refusal h h2 h3

theorem isDue_own {past env lbl m} (h : m.command ∈ ownReplies) (id n) : ¬IsDue past env lbl m id n := by
  obtain ⟨a, b, c, e, d⟩ := ps_apart4 _ h
  simp only [List.mem_cons, List.not_mem_nil, or_false, not_or] at d
  intro hd
  cases hd with
  | greeting h1 => exact h1.elim b c
  | refusal h1 => exact e h1
  | inviting h1 => exact d.1 h1
  | away h1 => exact d.2.1 h1
  | account h1 => exact d.2.2.1 h1
  | invited h1 => exact d.2.2.2.1 h1.1
  | invitation h1 => exact d.2.2.2.1 h1.1
  | rest h1 => exact h1 (by simp [h])

/-- The commands with rules of their own. -/
theorem isDue_five {past env lbl m} (h : m.command ∈ [b!"341", b!"AWAY", b!"ACCOUNT", b!"INVITE", b!"ERROR"]) (id n) :
    IsDue past env lbl m id n ↔
      (m.command = b!"341" ∧ 3 ≤ m.params.length ∧ (lbl = 0 ∨ lbl = id)) ∨ m.command = b!"AWAY" ∨
      (m.command = b!"ACCOUNT" ∧ m.params ≠ []) ∨ (Invites env m ∧ ¬CallsBack env m) ∨ (InvitesOther env m ∧ n = true) := by
  obtain ⟨a, b, c, d, e⟩ := ps_apart5 _ h
  constructor
  · intro hd
    cases hd with
    | greeting h1 => exact h1.elim (fun h => absurd h b) (fun h => absurd h c)
    | refusal h1 => exact absurd h1 d
    | inviting h1 h2 h3 => exact .inl ⟨h1, h2, h3⟩
    | away h1 => exact .inr (.inl h1)
    | account h1 h2 => exact .inr (.inr (.inl ⟨h1, h2⟩))
    | invited h1 h2 => exact .inr (.inr (.inr (.inl ⟨h1, h2⟩)))
    | invitation h1 h2 => exact .inr (.inr (.inr (.inr ⟨h1, h2⟩)))
    | rest h1 h2 => exact absurd h h2
  · rintro (⟨h1, h2, h3⟩ | h1 | ⟨h1, h2⟩ | ⟨h1, h2⟩ | ⟨h1, h2⟩)
    · exact .inviting h1 h2 h3
    · exact .away h1
    · exact .account h1 h2
    · exact .invited h1 h2
    · exact .invitation h1 h2

theorem isDue_rest {past env lbl m}
    (h1 : m.command ∉ otherTopics ++ greetingLines ++ greetingEnds ++ loginRefusals ++ ownReplies)
    (h2 : m.command ∉ [b!"341", b!"AWAY", b!"ACCOUNT", b!"INVITE", b!"ERROR"]) (id n) :
    IsDue past env lbl m id n ↔ (lbl = 0 ∨ lbl = id) := by
  have h1' := h1
  have h2' := h2
  simp only [List.mem_append, not_or] at h1'
  simp only [List.mem_cons, List.not_mem_nil, or_false, not_or] at h2'
  obtain ⟨⟨⟨⟨a, b⟩, c⟩, d⟩, e⟩ := h1'
  constructor
  · intro hd
    cases hd with
    | greeting h1 => exact h1.elim (fun h => absurd h b) (fun h => absurd h c)
    | refusal h1 => exact absurd h1 d
    | inviting h1 => exact absurd h1 h2'.1
    | away h1 => exact absurd h1 h2'.2.1
    | account h1 => exact absurd h1 h2'.2.2.1
    | invited h1 => exact absurd h1.1 h2'.2.2.2.1
    | invitation h1 => exact absurd h1.1 h2'.2.2.2.1
    | rest _ _ h3 => exact h3
  · exact .rest h1 h2

theorem joinLine_eq (name key : Str) (hn : name ≠ []) : generateJoin [(name, key)] = [joinLine name key] := by
  have h1 : 0 < name.length := List.length_pos_iff.2 hn
  by_cases hk : key = []
  · simp [generateJoin, joinStep, joinFlush, joinLine, hk, h1]
  · have h2 : 0 < key.length := List.length_pos_iff.2 hk
    simp [generateJoin, joinStep, joinFlush, joinLine, hk, h1, h2]

theorem psJoined_iff (env : PsEnv) (channel : Str) :
    env.joined.any (fun c => casemap env.cm c = casemap env.cm channel) = false ↔ ∀ c ∈ env.joined, ¬SameTo env.cm c channel := by
  simp [SameTo, ← casemap_eq_iff]

theorem psSaved_some (env : PsEnv) (channel : Str) :
    (env.saved.find? (fun c => casemap env.cm c.1 = casemap env.cm channel)).isSome = true ↔ ∃ c ∈ env.saved, SameTo env.cm c.1 channel := by
  simp [SameTo, ← casemap_eq_iff, List.find?_isSome]

/-- INVITE, as the specification tells it. -/
theorem psInvite_eq (env : PsEnv) (st : PsState) (m : Msg) (past lbl) (hc : m.command = b!"INVITE") (hl : ¬m.params.length < 2) :
    (psInvite env st m).1.clients = st.clients.map (psTell past env lbl m) ∧
    (psInvite env st m).1.gotMotd = st.gotMotd ∧ (psInvite env st m).1.registered = st.registered ∧
    (psInvite env st m).2.fatal = false ∧
    ((Invites env m ∧ ¬CallsBack env m) → (psInvite env st m).2.push = [m]) ∧
    (¬(Invites env m ∧ ¬CallsBack env m) → (psInvite env st m).2.push = []) ∧
    (¬CallsBack env m → (psInvite env st m).2.server = []) ∧
    (CallsBack env m → ∃ c ∈ env.saved, (psInvite env st m).2.server = generateJoin [c] ∧
      ∀ channel, m.params[1]? = some channel → SameTo env.cm c.1 channel) := by
  have hfive : m.command ∈ [b!"341", b!"AWAY", b!"ACCOUNT", b!"INVITE", b!"ERROR"] := by rw [hc]; decide
  have hdue : ∀ id n, IsDue past env lbl m id n ↔ (Invites env m ∧ ¬CallsBack env m) ∨ (InvitesOther env m ∧ n = true) := by
    intro id n
    rw [isDue_five hfive]
    have e1 : m.command ≠ b!"341" := by rw [hc]; decide
    have e2 : m.command ≠ b!"AWAY" := by rw [hc]; decide
    have e3 : m.command ≠ b!"ACCOUNT" := by rw [hc]; decide
    simp [e1, e2, e3]
  obtain ⟨cmd, params⟩ := m
  match params, hl with
  | nick :: channel :: l, _ =>
    simp only at hc
    subst hc
    have hI : Invites env ⟨b!"INVITE", nick :: channel :: l⟩ ↔ casemap env.cm env.nick = casemap env.cm nick := by
      rw [casemap_eq_iff]
      constructor
      · rintro ⟨_, n, c, l', h, h2⟩
        simp only [List.cons.injEq] at h
        rw [h.1]; exact h2
      · intro h; exact ⟨rfl, nick, channel, l, rfl, h⟩
    have hO : InvitesOther env ⟨b!"INVITE", nick :: channel :: l⟩ ↔ ¬casemap env.cm env.nick = casemap env.cm nick := by
      rw [casemap_eq_iff]
      constructor
      · rintro ⟨_, n, c, l', h, h2⟩
        simp only [List.cons.injEq] at h
        rw [h.1]; exact h2
      · intro h; exact ⟨rfl, nick, channel, l, rfl, h⟩
    have hC : CallsBack env ⟨b!"INVITE", nick :: channel :: l⟩ ↔
        (casemap env.cm env.nick = casemap env.cm nick ∧
          env.joined.any (fun c => casemap env.cm c = casemap env.cm channel) = false) ∧
        (env.saved.find? (fun c => casemap env.cm c.1 = casemap env.cm channel)).isSome = true := by
      rw [psJoined_iff, psSaved_some, casemap_eq_iff]
      constructor
      · rintro ⟨_, n, c, l', h, h2, h3, h4⟩
        simp only [List.cons.injEq] at h
        obtain ⟨rfl, rfl, rfl⟩ := h
        exact ⟨⟨h2, h3⟩, h4⟩
      · rintro ⟨⟨h2, h3⟩, h4⟩; exact ⟨rfl, nick, channel, l, rfl, h2, h3, h4⟩
    have hpass : ¬CallsBack env ⟨b!"INVITE", nick :: channel :: l⟩ →
        st.clients.map (fun c => if ¬casemap env.cm env.nick = casemap env.cm nick ∧ c.inviteNotify = false then c
          else { c with heard := c.heard ++ [⟨b!"INVITE", nick :: channel :: l⟩] }) =
        st.clients.map (psTell past env lbl ⟨b!"INVITE", nick :: channel :: l⟩) := by
      intro hn
      apply List.map_congr_left
      intro c _
      have hd := hdue c.id c.inviteNotify
      rw [hI, hO] at hd
      simp only [psTell]
      by_cases hu : casemap env.cm env.nick = casemap env.cm nick
      · rw [if_neg (fun h => h.1 hu), if_pos (hd.2 (.inl ⟨hu, hn⟩))]
      · by_cases hi : c.inviteNotify = true
        · rw [if_neg (fun h => by rw [hi] at h; cases h.2), if_pos (hd.2 (.inr ⟨hu, hi⟩))]
        · rw [if_pos ⟨hu, by simpa using hi⟩, if_neg (fun h => (hd.1 h).elim (fun h => hu h.1) (fun h => hi h.2))]
    unfold psInvite
    simp only
    by_cases hb : casemap env.cm env.nick = casemap env.cm nick ∧
        env.joined.any (fun c => casemap env.cm c = casemap env.cm channel) = false
    · rw [if_pos hb]
      cases hf : env.saved.find? (fun c => casemap env.cm c.1 = casemap env.cm channel) with
      | none =>
        have hn : ¬CallsBack env ⟨b!"INVITE", nick :: channel :: l⟩ := by rw [hC, hf]; simp
        refine ⟨hpass hn, rfl, rfl, rfl, ?_, ?_, fun _ => rfl, fun h => absurd h hn⟩
        · rintro _; simp [hb.1]
        · intro h; exact absurd ⟨hI.2 hb.1, hn⟩ h
      | some c =>
        have hy : CallsBack env ⟨b!"INVITE", nick :: channel :: l⟩ := by rw [hC, hf]; exact ⟨hb, rfl⟩
        refine ⟨?_, rfl, rfl, rfl, fun h => absurd hy h.2, fun _ => rfl, fun h => absurd hy h, fun _ => ?_⟩
        · refine psTell_quiet _ ?_
          intro id n
          rw [hdue]
          rintro (h | h)
          · exact h.2 hy
          · exact hO.1 h.1 hb.1
        · refine ⟨c, List.mem_of_find?_eq_some hf, rfl, ?_⟩
          intro ch hch
          simp only [List.getElem?_cons_succ, List.getElem?_cons_zero, Option.some.injEq] at hch
          subst hch
          have := List.find?_some hf
          simp only [decide_eq_true_eq] at this
          exact (casemap_eq_iff _ _ _).1 this
    · rw [if_neg hb]
      have hn : ¬CallsBack env ⟨b!"INVITE", nick :: channel :: l⟩ := by rw [hC]; exact fun h => hb h.1
      refine ⟨hpass hn, rfl, rfl, rfl, ?_, ?_, fun _ => rfl, fun h => absurd h hn⟩
      · rintro ⟨h, _⟩; simp [hI.1 h]
      · intro h
        have : ¬casemap env.cm env.nick = casemap env.cm nick := fun hu => h ⟨hI.2 hu, hn⟩
        simp [this]
  | [_], h => exact absurd (by simp) h
  | [], h => exact absurd (by simp) h

/-- One message: who hears it, and what else is done. -/
theorem psStep_msg {past : List PsOp} {st : PsState} (inv : PsInv past st) (env : PsEnv) (lbl : Nat) (m : Msg) :
    (psStep st (.msg env lbl m)).1.clients = st.clients.map (psTell past env lbl m) ∧
    PsInv (past ++ [.msg env lbl m]) (psStep st (.msg env lbl m)).1 ∧
    ((Invites env m ∧ ¬CallsBack env m) → (psStep st (.msg env lbl m)).2.push = [m]) ∧
    (¬(Invites env m ∧ ¬CallsBack env m) → (psStep st (.msg env lbl m)).2.push = []) ∧
    (¬CallsBack env m → (psStep st (.msg env lbl m)).2.server = []) ∧
    (CallsBack env m → ∃ c ∈ env.saved, (psStep st (.msg env lbl m)).2.server = generateJoin [c] ∧
      ∀ channel, m.params[1]? = some channel → SameTo env.cm c.1 channel) := by
  have hG : GreetingOver (past ++ [.msg env lbl m]) ↔ GreetingOver past ∨ m.command ∈ greetingEnds := by
    unfold GreetingOver
    constructor
    · rintro ⟨e, l, x, h, h2⟩
      rcases List.mem_append.1 h with h | h
      · exact .inl ⟨e, l, x, h, h2⟩
      · simp only [List.mem_singleton, PsOp.msg.injEq] at h
        obtain ⟨_, _, rfl⟩ := h
        exact .inr h2
    · rintro (⟨e, l, x, h, h2⟩ | h)
      · exact ⟨e, l, x, by simp [h], h2⟩
      · exact ⟨env, lbl, m, by simp, h⟩
  have hW : WelcomeIn (past ++ [.msg env lbl m]) ↔ WelcomeIn past ∨ (m.command = b!"001" ∧ m.params ≠ []) := by
    unfold WelcomeIn
    constructor
    · rintro ⟨e, l, x, h, h2⟩
      rcases List.mem_append.1 h with h | h
      · exact .inl ⟨e, l, x, h, h2⟩
      · simp only [List.mem_singleton, PsOp.msg.injEq] at h
        obtain ⟨_, _, rfl⟩ := h
        exact .inr h2
    · rintro (⟨e, l, x, h, h2⟩ | h)
      · exact ⟨e, l, x, by simp [h], h2⟩
      · exact ⟨env, lbl, m, by simp, h⟩
  -- the flags stay as they are
  have same : ∀ st' : PsState, st'.gotMotd = st.gotMotd → st'.registered = st.registered → m.command ∉ greetingEnds →
      ¬(m.command = b!"001" ∧ m.params ≠ []) → PsInv (past ++ [.msg env lbl m]) st' := by
    intro st' h1 h2 h3 h4
    exact ⟨by rw [hG, h1, inv.motd]; simp [h3], by rw [hW, h2, inv.welcome]; simp [h4]⟩
  -- nothing is said but to clients
  have none_else : ∀ o : PsState × PsOut, psHandle env st lbl m = some o → o.2.push = [] → o.2.server = [] →
      m.command ≠ b!"INVITE" → o.1.clients = st.clients.map (psTell past env lbl m) →
      PsInv (past ++ [.msg env lbl m]) o.1 → _ := fun o h1 h2 h3 h4 h5 h6 =>
    show (psStep st (.msg env lbl m)).1.clients = st.clients.map (psTell past env lbl m) ∧
      PsInv (past ++ [.msg env lbl m]) (psStep st (.msg env lbl m)).1 ∧
      ((Invites env m ∧ ¬CallsBack env m) → (psStep st (.msg env lbl m)).2.push = [m]) ∧
      (¬(Invites env m ∧ ¬CallsBack env m) → (psStep st (.msg env lbl m)).2.push = []) ∧
      (¬CallsBack env m → (psStep st (.msg env lbl m)).2.server = []) ∧
      (CallsBack env m → ∃ c ∈ env.saved, (psStep st (.msg env lbl m)).2.server = generateJoin [c] ∧
        ∀ channel, m.params[1]? = some channel → SameTo env.cm c.1 channel) by
      simp only [psStep, h1, Option.getD_some]
      exact ⟨h5, h6, fun h => absurd h.1.1 h4, fun _ => h2, fun _ => h3, fun h => absurd h.1 h4⟩
  by_cases c1 : m.command ∈ psElsewhere
  · have ht := (ps_topics _).1 c1
    obtain ⟨a, b, c, d⟩ := ps_apart1 _ ht
    simp only [List.mem_cons, List.not_mem_nil, or_false, not_or] at d
    have : psHandle env st lbl m = none := by simp only [psHandle, if_pos c1]
    simp only [psStep, this, Option.getD_none]
    refine ⟨psTell_quiet _ (isDue_topic ht), same st rfl rfl b (fun h => d.2.2.2.2.2 h.1), fun h => absurd h.1.1 d.2.2.2.1,
      fun _ => rfl, fun _ => rfl, fun h => absurd h.1 d.2.2.2.1⟩
  have t1 : m.command ∉ otherTopics := fun h => c1 ((ps_topics _).2 h)
  by_cases c2 : m.command = b!"001"
  · have hown : m.command ∈ ownReplies := by rw [c2]; decide
    have hne : m.command ∉ greetingEnds := by rw [c2]; decide
    have hni : m.command ≠ b!"INVITE" := by rw [c2]; decide
    by_cases hp : m.params = []
    · refine none_else (st, ⟨[], [], !st.registered⟩) (by simp only [psHandle, if_neg c1, if_pos c2, if_pos hp]) rfl rfl hni
        (psTell_quiet _ (isDue_own hown)) (same st rfl rfl hne (fun h => h.2 hp))
    · refine none_else ({ st with registered := true }, .none) (by simp only [psHandle, if_neg c1, if_pos c2, if_neg hp]) rfl rfl hni
        (psTell_quiet _ (isDue_own hown)) ⟨by rw [hG]; simp [inv.motd, hne], by rw [hW]; simp [c2, hp]⟩
  by_cases c3 : m.command = b!"422" ∨ m.command = b!"376"
  · have hge : m.command ∈ greetingEnds := by rcases c3 with h | h <;> rw [h] <;> decide
    have hni : m.command ≠ b!"INVITE" := by rcases c3 with h | h <;> rw [h] <;> decide
    have hg : m.command ∈ greetingLines ++ greetingEnds := List.mem_append.2 (.inr hge)
    by_cases hm : st.gotMotd = false
    · have hno : ¬GreetingOver past := fun h => by rw [inv.motd.2 h] at hm; cases hm
      refine none_else ({ st with gotMotd := true }, .none) (by simp only [psHandle, if_neg c1, if_neg c2, if_pos c3, if_pos hm]) rfl rfl hni
        (psTell_quiet _ (fun id n h => hno ((isDue_greeting hg id n).1 h).1))
        ⟨by rw [hG]; simp [hge], by rw [hW]; simp [c2, inv.welcome]⟩
    · have hyes : GreetingOver past := inv.motd.1 (by simpa using hm)
      refine none_else (psForward st lbl m, .none) (by simp only [psHandle, if_neg c1, if_neg c2, if_pos c3, if_neg hm]) rfl rfl hni
        (psTell_forward st (fun id n => by rw [isDue_greeting hg]; simp [hyes]))
        ⟨by rw [hG]; simp [hge, psForward]; simpa using hm, by rw [hW]; simp [c2, psForward, inv.welcome]⟩
  have t3 : m.command ∉ greetingEnds := by
    intro h; simp only [greetingEnds, List.mem_cons, List.not_mem_nil, or_false] at h; exact c3 h.symm
  have keep : ¬(m.command = b!"001" ∧ m.params ≠ []) := fun h => c2 h.1
  by_cases c4 : m.command = b!"INVITE"
  · by_cases hl : m.params.length < 2
    · have hnI : ¬Invites env m := by
        rintro ⟨_, n, c, l, h, _⟩; rw [h] at hl; simp only [List.length_cons] at hl; omega
      have hnC : ¬CallsBack env m := by
        rintro ⟨_, n, c, l, h, _⟩; rw [h] at hl; simp only [List.length_cons] at hl; omega
      have hnO : ¬InvitesOther env m := by
        rintro ⟨_, n, c, l, h, _⟩; rw [h] at hl; simp only [List.length_cons] at hl; omega
      have hh : psHandle env st lbl m = some (st, ⟨[], [], !st.registered⟩) := by
        simp only [psHandle, if_neg c1, if_neg c2, if_neg c3, if_pos c4, if_pos hl]
      simp only [psStep, hh, Option.getD_some]
      refine ⟨psTell_quiet _ ?_, same st rfl rfl t3 keep, fun h => absurd h.1 hnI, by simp, by simp, fun h => absurd h hnC⟩
      intro id n
      rw [isDue_five (by rw [c4]; decide)]
      have e1 : m.command ≠ b!"341" := by rw [c4]; decide
      have e2 : m.command ≠ b!"AWAY" := by rw [c4]; decide
      have e3 : m.command ≠ b!"ACCOUNT" := by rw [c4]; decide
      simp [e1, e2, e3, hnI, hnO]
    · have hh : psHandle env st lbl m = some (psInvite env st m) := by
        simp only [psHandle, if_neg c1, if_neg c2, if_neg c3, if_pos c4, if_neg hl]
      obtain ⟨p1, p2, p3, _, p4, p5, p6, p7⟩ := psInvite_eq env st m past lbl c4 hl
      simp only [psStep, hh, Option.getD_some]
      exact ⟨p1, same _ p2 p3 t3 keep, p4, p5, p6, p7⟩
  by_cases c5 : m.command = b!"341"
  · have hf : m.command ∈ [b!"341", b!"AWAY", b!"ACCOUNT", b!"INVITE", b!"ERROR"] := by rw [c5]; decide
    have e2 : m.command ≠ b!"AWAY" := by rw [c5]; decide
    have e3 : m.command ≠ b!"ACCOUNT" := by rw [c5]; decide
    by_cases hl : m.params.length < 3
    · refine none_else (st, ⟨[], [], !st.registered⟩) (by simp only [psHandle, if_neg c1, if_neg c2, if_neg c3, if_neg c4, if_pos c5, if_pos hl])
        rfl rfl c4 (psTell_quiet _ (fun id n => ?_)) (same _ rfl rfl t3 keep)
      rw [isDue_five hf]
      rintro (h | h | h | h | h)
      · exact absurd h.2.1 (by omega)
      · exact e2 h
      · exact e3 h.1
      · exact c4 h.1.1
      · exact c4 h.1.1
    · refine none_else (psForward st lbl m, .none) (by simp only [psHandle, if_neg c1, if_neg c2, if_neg c3, if_neg c4, if_pos c5, if_neg hl])
        rfl rfl c4 (psTell_forward st (fun id n => ?_)) (same _ rfl rfl t3 keep)
      rw [isDue_five hf]
      have : 3 ≤ m.params.length := by omega
      simp [Invites, InvitesOther, c4, c5, e2, e3, this]
  by_cases c6 : m.command = b!"AWAY"
  · exact none_else (psForward st 0 m, .none) (by simp only [psHandle, if_neg c1, if_neg c2, if_neg c3, if_neg c4, if_neg c5, if_pos c6])
      rfl rfl c4 (psTell_all st (fun id n => .away c6)) (same _ rfl rfl t3 keep)
  by_cases c7 : m.command = b!"ACCOUNT"
  · have hf : m.command ∈ [b!"341", b!"AWAY", b!"ACCOUNT", b!"INVITE", b!"ERROR"] := by rw [c7]; decide
    by_cases hp : m.params = []
    · refine none_else (st, ⟨[], [], !st.registered⟩) (by simp only [psHandle, if_neg c1, if_neg c2, if_neg c3, if_neg c4, if_neg c5, if_neg c6, if_pos c7, if_pos hp])
        rfl rfl c4 (psTell_quiet _ (fun id n => ?_)) (same _ rfl rfl t3 keep)
      rw [isDue_five hf]
      simp [Invites, InvitesOther, c4, c5, c6, hp]
    · exact none_else (psForward st 0 m, .none) (by simp only [psHandle, if_neg c1, if_neg c2, if_neg c3, if_neg c4, if_neg c5, if_neg c6, if_pos c7, if_neg hp])
        rfl rfl c4 (psTell_all st (fun id n => .account c7 hp)) (same _ rfl rfl t3 keep)
  by_cases c8 : m.command ∈ [b!"ACK", b!"306", b!"305", b!"002", b!"003"]
  · have ho : m.command ∈ ownReplies := by
      have : ∀ x ∈ [b!"ACK", b!"306", b!"305", b!"002", b!"003"], x ∈ ownReplies := by decide +kernel
      exact this _ c8
    exact none_else (st, .none) (by simp only [psHandle, if_neg c1, if_neg c2, if_neg c3, if_neg c4, if_neg c5, if_neg c6, if_neg c7, if_pos c8])
      rfl rfl c4 (psTell_quiet _ (isDue_own ho)) (same _ rfl rfl t3 keep)
  have t8 : m.command ∉ ownReplies := by
    intro h
    have : ∀ x ∈ ownReplies, x = b!"001" ∨ x ∈ [b!"ACK", b!"306", b!"305", b!"002", b!"003"] := by decide +kernel
    exact (this _ h).elim c2 c8
  by_cases c9 : m.command ∈ psBurst
  · have hg : m.command ∈ greetingLines ++ greetingEnds := List.mem_append.2 (.inl ((ps_burst _).1 c9))
    by_cases hm : st.gotMotd = false
    · have hno : ¬GreetingOver past := fun h => by rw [inv.motd.2 h] at hm; cases hm
      exact none_else (st, .none) (by simp only [psHandle, if_neg c1, if_neg c2, if_neg c3, if_neg c4, if_neg c5, if_neg c6, if_neg c7, if_neg c8, if_pos c9, if_pos hm])
        rfl rfl c4 (psTell_quiet _ (fun id n h => hno ((isDue_greeting hg id n).1 h).1)) (same _ rfl rfl t3 keep)
    · have hyes : GreetingOver past := inv.motd.1 (by simpa using hm)
      exact none_else (psForward st lbl m, .none) (by simp only [psHandle, if_neg c1, if_neg c2, if_neg c3, if_neg c4, if_neg c5, if_neg c6, if_neg c7, if_neg c8, if_pos c9, if_neg hm])
        rfl rfl c4 (psTell_forward st (fun id n => by rw [isDue_greeting hg]; simp [hyes])) (same _ rfl rfl t3 keep)
  have t9 : m.command ∉ greetingLines := fun h => c9 ((ps_burst _).2 h)
  by_cases c10 : m.command = b!"ERROR"
  · refine none_else (st, ⟨[], [], !st.registered⟩) (by simp only [psHandle, if_neg c1, if_neg c2, if_neg c3, if_neg c4, if_neg c5, if_neg c6, if_neg c7, if_neg c8, if_neg c9, if_pos c10])
      rfl rfl c4 (psTell_quiet _ (fun id n => ?_)) (same _ rfl rfl t3 keep)
    rw [isDue_five (by rw [c10]; decide)]
    simp [Invites, InvitesOther, c4, c5, c6, c7]
  by_cases c11 : m.command ∈ [b!"464", b!"432", b!"436", b!"437", b!"463", b!"465"]
  · have hr := (ps_refusals _).1 c11
    by_cases hm : st.registered = false
    · have hno : ¬WelcomeIn past := fun h => by rw [inv.welcome.2 h] at hm; cases hm
      exact none_else (st, ⟨[], [], !st.registered⟩) (by simp only [psHandle, if_neg c1, if_neg c2, if_neg c3, if_neg c4, if_neg c5, if_neg c6, if_neg c7, if_neg c8, if_neg c9, if_neg c10, if_pos c11, if_pos hm])
        rfl rfl c4 (psTell_quiet _ (fun id n h => hno ((isDue_refusal hr id n).1 h).1)) (same _ rfl rfl t3 keep)
    · have hyes : WelcomeIn past := inv.welcome.1 (by simpa using hm)
      exact none_else (psForward st lbl m, .none) (by simp only [psHandle, if_neg c1, if_neg c2, if_neg c3, if_neg c4, if_neg c5, if_neg c6, if_neg c7, if_neg c8, if_neg c9, if_neg c10, if_pos c11, if_neg hm])
        rfl rfl c4 (psTell_forward st (fun id n => by rw [isDue_refusal hr]; simp [hyes])) (same _ rfl rfl t3 keep)
  have t11 : m.command ∉ loginRefusals := fun h => c11 ((ps_refusals _).2 h)
  have h1 : m.command ∉ otherTopics ++ greetingLines ++ greetingEnds ++ loginRefusals ++ ownReplies := by
    simp only [List.mem_append, not_or]; exact ⟨⟨⟨⟨t1, t9⟩, t3⟩, t11⟩, t8⟩
  have h2 : m.command ∉ [b!"341", b!"AWAY", b!"ACCOUNT", b!"INVITE", b!"ERROR"] := by
    simp only [List.mem_cons, List.not_mem_nil, or_false, not_or]; exact ⟨c5, c6, c7, c4, c10⟩
  exact none_else (psForward st lbl m, .none) (by simp only [psHandle, if_neg c1, if_neg c2, if_neg c3, if_neg c4, if_neg c5, if_neg c6, if_neg c7, if_neg c8, if_neg c9, if_neg c10, if_neg c11])
    rfl rfl c4 (psTell_forward st (isDue_rest h1 h2)) (same _ rfl rfl t3 keep)

/-- The state of the connection agrees with the history. -/
theorem psInv_run (clients : List PsClient) (ops : List PsOp) : PsInv ops (psRun clients ops) := by
  induction ops using snocInd with
  | nil => exact ⟨by simp [psRun, GreetingOver], by simp [psRun, WelcomeIn]⟩
  | snoc l op ih =>
    have hr : psRun clients (l ++ [op]) = (psStep (psRun clients l) op).1 := by simp [psRun]
    rw [hr]
    cases op with
    | msg env lbl m => exact (psStep_msg ih env lbl m).2.1
    | login i n => exact ⟨by simp [psStep, ih.motd, GreetingOver], by simp [psStep, ih.welcome, WelcomeIn]⟩
    | gone i => exact ⟨by simp [psStep, ih.motd, GreetingOver], by simp [psStep, ih.welcome, WelcomeIn]⟩

end Verif.Proof
