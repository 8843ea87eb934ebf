import Verif.Proof.Route
import Verif.Props.Whox

/-! # C117: what becomes of the commands of a client -/

namespace Verif.Props
open Verif.Model Verif.Spec Verif.Proof

/-- A bouncer, for the examples. -/
def rtExEnv : RtEnv := ⟨b!"bnc", b!"joe", false, fun _ => b!"host"⟩
/-- A server, for the examples: the bouncer is in one channel. -/
def rtExFacts : RtFacts :=
  ⟨true, true, false, .ascii, b!"#", none, b!"i",
   fun n => if n = b!"#in" then some ⟨[⟨b!"353", [b!"a"]⟩], [⟨b!"331", [b!"a"]⟩], some [⟨b!"324", [b!"a"]⟩]⟩ else none, fun _ _ _ => none⟩
/-- Clients 1 and 2 are on network 7, which is connected, client 3 on network 8, which is not, client 4 on none. -/
def rtExOps : List RtOp :=
  [.connected 7 rtExFacts, .login ⟨1, some 7, b!"a", b!"A", false, [], false⟩, .login ⟨2, some 7, b!"a", b!"A", false, [], false⟩,
   .login ⟨3, some 8, b!"a", b!"A", false, [], false⟩, .login ⟨4, none, b!"joe", b!"J", false, [], false⟩]
def rtExState : RtState := rtRun rtExEnv (fun _ => .ascii) rtStart rtExOps

/-- A command that means nothing to the bouncer is passed on to the server of the client's network, once and as it was
given, if there is a connection with it.  The client, the others and the other servers are sent nothing. -/
theorem C117_passed_on (env : RtEnv) (cms : Nat → CaseMapping) (st : RtState) (id n : Nat) (c : RtClient) (uc : RtConn) (m : TMsg)
    (hc : rtClient st id = some c) (hn : c.net = some n) (hu : st.conns n = some uc) (hm : m.command ∉ bouncerCommands) :
    let st' := rtStep env cms st (.command id m)
    (∃ m', rtSent st' n = rtSent st n ++ [m'] ∧ AsGiven uc.facts.messageTags uc.facts.labeled m m') ∧
      rtQueued st' n = rtQueued st n ∧ (∀ k, k ≠ n → st'.conns k = st.conns k) ∧ (∀ i, rtHeard st' i = rtHeard st i) := by
  intro st'
  have hq : m.command ≠ b!"QUIT" := fun h => hm (by rw [h]; decide)
  have he : rtHandle env (cms n) c (some uc) m = ⟨[], [m], []⟩ := by
    rw [rtHandle_plain hm]
    split
    · rfl
    · split
      · unfold rtInfo; rw [hn]
      · unfold rtDefault; rw [hn]
  have hcn := rtConn_command (env := env) (cms := cms) hc hq hn hu
  have hup : rtUpstream st c = some uc := by unfold rtUpstream; rw [hn]; exact hu
  rw [he] at hcn
  obtain ⟨ys, h1, h2⟩ := rtSend_sent id uc [m]
  cases h2 with
  | cons h3 h4 =>
    cases h4
    refine ⟨⟨_, ?_, h3⟩, ?_, ?_, ?_⟩
    · unfold rtSent
      rw [show st'.conns n = _ from hcn, hu]
      exact h1
    · unfold rtQueued
      rw [show st'.conns n = _ from hcn, hu]
      simp [rtApply, rtSend]
    · intro k hk
      show (rtStep env cms st (.command id m)).conns k = _
      rw [rtStep_command hc hq]
      dsimp only
      rw [if_neg (fun h => hk (by rw [hn] at h; exact (Option.some.inj h).symm))]
    · intro i
      show rtHeard (rtStep env cms st (.command id m)) i = _
      rw [rtStep_command hc hq, hup, show c.net.getD 0 = n by rw [hn]; rfl, he]
      unfold rtHeard rtClient
      dsimp only
      rw [rtFind_map _ _ _ (fun c => by split <;> rfl)]
      cases st.clients.find? (fun c => c.id = i) with
      | none => rfl
      | some d => simp only [Option.map_some]; split <;> simp

example : (rtClient rtExState 1).isSome = true ∧ (rtExState.conns 7).isSome = true ∧ b!"WALLOPS" ∉ bouncerCommands ∧
    rtSent (rtStep rtExEnv (fun _ => .ascii) rtExState (.command 1 ⟨[(b!"+x", b!"y")], none, b!"WALLOPS", [b!"hi"]⟩)) 7 =
      [⟨[(b!"+x", b!"y"), (b!"label", b!"sd-1-0")], none, b!"WALLOPS", [b!"hi"]⟩] := by decide +kernel

/-- Whatever happens: what the server of a network has been sent for clients on a connection was asked for by a client
of this network during this connection, as a command of the same name. -/
theorem C117_origin (env : RtEnv) (cms : Nat → CaseMapping) (ops : List RtOp) (n : Nat) :
    ∀ m' ∈ rtSent (rtRun env cms rtStart ops) n, ∃ pre id m post c,
      ops = pre ++ .command id m :: post ∧
      rtClient (rtRun env cms rtStart pre) id = some c ∧ c.net = some n ∧ PartOf m m' ∧
      (∀ f, RtOp.connected n f ∉ post) ∧ RtOp.disconnected n ∉ post := by
  induction ops using snocInd with
  | nil => intro m' h; cases h
  | snoc ops op ih =>
    intro m' h
    rw [rtRun, List.foldl_append, List.foldl_cons, List.foldl_nil] at h
    change m' ∈ rtSent (rtStep env cms (rtRun env cms rtStart ops) op) n at h
    generalize hst : rtRun env cms rtStart ops = st at *
    have keep : m' ∈ rtSent st n → (∀ f, op ≠ .connected n f) → op ≠ .disconnected n → ∃ pre id m post c,
        ops ++ [op] = pre ++ .command id m :: post ∧
        rtClient (rtRun env cms rtStart pre) id = some c ∧ c.net = some n ∧ PartOf m m' ∧
        (∀ f, RtOp.connected n f ∉ post) ∧ RtOp.disconnected n ∉ post := by
      intro hm h1 h2
      obtain ⟨pre, id, m, post, c, rfl, a, b, c', d, e⟩ := ih m' hm
      exact ⟨pre, id, m, post ++ [op], c, by simp, a, b, c',
        fun f hf => by
          rcases List.mem_append.1 hf with hf | hf
          · exact d f hf
          · exact h1 f (List.mem_singleton.1 hf).symm,
        fun hf => by
          rcases List.mem_append.1 hf with hf | hf
          · exact e hf
          · exact h2 (List.mem_singleton.1 hf).symm⟩
    cases op with
    | connected k f =>
      by_cases hk : n = k
      · subst hk
        simp [rtSent, rtStep] at h
      · refine keep ?_ (fun f' hf => hk (by cases hf; rfl)) (fun hf => by cases hf)
        simpa [rtSent, rtStep, hk] using h
    | disconnected k =>
      by_cases hk : n = k
      · subst hk
        simp [rtSent, rtStep] at h
      · refine keep ?_ (fun f' hf => by cases hf) (fun hf => hk (by cases hf; rfl))
        simpa [rtSent, rtStep, hk] using h
    | learns k f =>
      refine keep ?_ (fun f' hf => by cases hf) (fun hf => by cases hf)
      unfold rtSent rtStep at h
      dsimp only at h
      unfold rtSent
      by_cases hk : n = k
      · rw [if_pos hk] at h
        cases hs : st.conns n with
        | none => rw [hs] at h; exact h
        | some uc => rw [hs] at h; exact h
      · rw [if_neg hk] at h
        exact h
    | login c =>
      refine keep ?_ (fun f' hf => by cases hf) (fun hf => by cases hf)
      unfold rtStep at h
      dsimp only at h
      split at h <;> exact h
    | logout i => exact keep h (fun f' hf => by cases hf) (fun hf => by cases hf)
    | command id m =>
      cases hc : rtClient st id with
      | none =>
        refine keep ?_ (fun f' hf => by cases hf) (fun hf => by cases hf)
        unfold rtStep at h
        dsimp only at h
        rw [show st.clients.find? (fun c => c.id = id) = none from hc] at h
        exact h
      | some c =>
        by_cases hq : m.command = b!"QUIT"
        · refine keep ?_ (fun f' hf => by cases hf) (fun hf => by cases hf)
          unfold rtStep at h
          dsimp only at h
          rw [show st.clients.find? (fun c => c.id = id) = some c from hc] at h
          dsimp only at h
          rw [if_pos hq] at h
          exact h
        · by_cases hn : c.net = some n
          · cases hu : st.conns n with
            | none =>
              rw [rtStep_command hc hq] at h
              unfold rtSent at h
              dsimp only at h
              rw [if_pos hn, hu] at h
              cases h
            | some uc =>
              have hcn := rtConn_command (env := env) (cms := cms) hc hq hn hu
              obtain ⟨ys, h1, h2⟩ := rtSend_sent id uc (rtHandle env (cms n) c (some uc) m).send
              unfold rtSent at h
              rw [hcn] at h
              have h' : m' ∈ uc.sent ++ ys := by rw [← h1]; exact h
              rcases List.mem_append.1 h' with h' | hy
              · refine keep ?_ (fun f' hf => by cases hf) (fun hf => by cases hf)
                unfold rtSent
                rw [hu]
                exact h'
              · refine ⟨ops, id, m, [], c, by simp, by rw [hst]; exact hc, hn, ?_, by simp, by simp⟩
                obtain ⟨x, hx, hxy⟩ : ∃ x ∈ (rtHandle env (cms n) c (some uc) m).send,
                    AsGiven uc.facts.messageTags uc.facts.labeled x m' := by
                  clear h1 h hcn h'
                  generalize (rtHandle env (cms n) c (some uc) m).send = xs at *
                  induction h2 with
                  | nil => cases hy
                  | cons hab _ ih2 =>
                    rcases List.mem_cons.1 hy with rfl | hy
                    · exact ⟨_, List.mem_cons_self, hab⟩
                    · obtain ⟨x, hx, hxy⟩ := ih2 hy
                      exact ⟨x, List.mem_cons_of_mem _ hx, hxy⟩
                have hp := rtHandle_part env (cms n) c (some uc) m x hx
                unfold PartOf at hp ⊢
                rw [hxy.command, hxy.params]
                exact hp
          · refine keep ?_ (fun f' hf => by cases hf) (fun hf => by cases hf)
            rw [rtStep_command hc hq] at h
            unfold rtSent at h ⊢
            dsimp only at h
            rw [if_neg hn] at h
            exact h

example : (rtSent (rtRun rtExEnv (fun _ => .ascii) rtStart (rtExOps ++
    [.command 1 ⟨[], none, b!"NAMES", [b!"#in,#out"]⟩, .command 2 ⟨[], none, b!"TOPIC", [b!"#in", b!"new", b!"x"]⟩])) 7).map (·.params) =
      [[b!"#out"], [b!"#in", b!"new"]] := by decide +kernel

/-- Each command of a client of a connected network, other than NAMES, PONG and QUIT, and those which other properties
are about, is answered by the bouncer, or passed on, or put into the queue for the server — once, and only one of the
three.  (If it asks for the modes of a channel, the bouncer must have them: while it waits for them it does nothing, and
tells them when they come, see C108.) -/
theorem C117_once (env : RtEnv) (cms : Nat → CaseMapping) (st : RtState) (id n : Nat) (c : RtClient) (uc : RtConn) (m : TMsg)
    (hc : rtClient st id = some c) (hcl : c.closing = false) (hn : c.net = some n) (hu : st.conns n = some uc)
    (ha : HasAnswers uc.facts) (hk : m.command = b!"MODE" → ∀ ch, uc.facts.chan (m.params.headD []) = some ch → ch.modes ≠ none)
    (h1 : m.command ≠ b!"NAMES") (h2 : m.command ≠ b!"PONG") (h3 : m.command ≠ b!"QUIT") (ho : m.command ∉ otherProperties) :
    let st' := rtStep env cms st (.command id m)
    Answered st st' id n ∨ PassedOn st st' id n m ∨ PutOff st st' id n m := by
  intro st'
  have hcn := rtConn_command (env := env) (cms := cms) hc h3 hn hu
  have hhe := rtHeard_command (env := env) (cms := cms) hc h3 hcl
  have hup : rtUpstream st c = some uc := by unfold rtUpstream; rw [hn]; exact hu
  rw [hup, show c.net.getD 0 = n by rw [hn]; rfl] at hhe
  have hs : RtSingle m (rtHandle env (cms n) c (some uc) m) :=
    rtHandle_single (fun u hu' => by cases hu'; exact ha)
      (fun hm u ch hu' h => by cases hu'; exact hk hm ch h) h2 h1 ho
  generalize rtHandle env (cms n) c (some uc) m = e at *
  cases hs with
  | reply l h =>
    refine Or.inl ⟨⟨l, h, hhe⟩, ?_, ?_⟩
    · unfold rtSent; rw [show st'.conns n = _ from hcn, hu]; rfl
    · unfold rtQueued; rw [show st'.conns n = _ from hcn, hu]; simp [rtApply]
  | send m' h =>
    refine Or.inr (Or.inl ⟨by rw [show rtHeard st' id = _ from hhe]; simp, ?_, ?_⟩)
    · obtain ⟨ys, g1, g2⟩ := rtSend_sent id uc [m']
      cases g2 with
      | cons g3 g4 =>
        cases g4
        refine ⟨_, ?_, by unfold rtSent; rw [show st'.conns n = _ from hcn, hu]; exact g1⟩
        unfold PartOf at h ⊢
        rw [g3.command, g3.params]
        exact h
    · unfold rtQueued; rw [show st'.conns n = _ from hcn, hu]; simp [rtApply, rtSend]
  | queue =>
    refine Or.inr (Or.inr ⟨by rw [show rtHeard st' id = _ from hhe]; simp, ?_, ?_⟩)
    · unfold rtSent; rw [show st'.conns n = _ from hcn, hu]; rfl
    · unfold rtQueued; rw [show st'.conns n = _ from hcn, hu]; simp [rtApply]

example : (rtStep rtExEnv (fun _ => .ascii) rtExState (.command 1 ⟨[], none, b!"TOPIC", [b!"#in"]⟩)).clients.map (·.out) =
      [[⟨b!"331", [b!"a"]⟩], [], [], []] ∧
    rtQueued (rtStep rtExEnv (fun _ => .ascii) rtExState (.command 2 ⟨[], none, b!"LIST", []⟩)) 7 = [(2, ⟨[], none, b!"LIST", []⟩)] := by
  decide +kernel

/-- NAMES: for each channel of the list, in this order, the client gets the members, if the bouncer is in the channel;
otherwise the server is asked, for each once. -/
theorem C117_names (env : RtEnv) (cms : Nat → CaseMapping) (st : RtState) (id n : Nat) (c : RtClient) (uc : RtConn)
    (tags : GoMap Str Str) (source : Option Prefix) (list : Str) (rest : List Str)
    (hc : rtClient st id = some c) (hcl : c.closing = false) (hn : c.net = some n) (hu : st.conns n = some uc) :
    let st' := rtStep env cms st (.command id ⟨tags, source, b!"NAMES", list :: rest⟩)
    rtHeard st' id = rtHeard st id ++ ((splitByte 44 list).filterMap uc.facts.chan).flatMap (·.names) ∧
    (rtSent st' n).map (fun m => (m.command, m.params)) = (rtSent st n).map (fun m => (m.command, m.params)) ++
      ((splitByte 44 list).filter (fun name => (uc.facts.chan name).isNone)).map (fun name => (b!"NAMES", [name])) := by
  intro st'
  have hq : (⟨tags, source, b!"NAMES", list :: rest⟩ : TMsg).command ≠ b!"QUIT" := by simp
  have hcn := rtConn_command (env := env) (cms := cms) hc hq hn hu
  have hhe := rtHeard_command (env := env) (cms := cms) hc hq hcl
  have hup : rtUpstream st c = some uc := by unfold rtUpstream; rw [hn]; exact hu
  rw [hup, show c.net.getD 0 = n by rw [hn]; rfl] at hhe
  have he : rtHandle env (cms n) c (some uc) ⟨tags, source, b!"NAMES", list :: rest⟩ =
      (splitByte 44 list).foldl (rtNamesOne uc.facts) ⟨[], [], []⟩ := rfl
  rw [he, rtNames_fold] at hcn hhe
  refine ⟨hhe, ?_⟩
  unfold rtSent
  rw [show st'.conns n = _ from hcn, hu]
  unfold rtApply
  dsimp only
  obtain ⟨ys, g1, g2⟩ := rtSend_sent id uc
    ([] ++ ((splitByte 44 list).filter (fun name => (uc.facts.chan name).isNone)).map (fun name => ⟨[], none, b!"NAMES", [name]⟩))
  rw [g1, List.map_append]
  congr 1
  rw [List.nil_append] at g2
  clear g1 he hcn hhe
  generalize (splitByte 44 list).filter (fun name => (uc.facts.chan name).isNone) = l at g2
  induction l generalizing ys with
  | nil => cases g2; rfl
  | cons a l ih =>
    cases g2 with
    | cons h1 h2 =>
      rw [List.map_cons, ih _ h2, h1.command, h1.params, List.map_cons]

example : ((rtStep rtExEnv (fun _ => .ascii) rtExState (.command 1 ⟨[], none, b!"NAMES", [b!"#a,#in,#b"]⟩)).clients.map (·.out)).head? =
    some [⟨b!"353", [b!"a"]⟩] := by decide +kernel

/-- A command of one client is answered to this client only, and reaches no other server than that of its network. -/
theorem C117_others (env : RtEnv) (cms : Nat → CaseMapping) (st : RtState) (id : Nat) (m : TMsg) :
    let st' := rtStep env cms st (.command id m)
    (∀ i, i ≠ id → rtHeard st' i = rtHeard st i) ∧
      ∀ n, (∀ c, rtClient st id = some c → c.net ≠ some n) → st'.conns n = st.conns n := by
  intro st'
  cases hc : rtClient st id with
  | none =>
    have : st' = st := by
      show rtStep env cms st (.command id m) = st
      unfold rtStep
      dsimp only
      rw [show st.clients.find? (fun c => c.id = id) = none from hc]
    rw [this]
    exact ⟨fun _ _ => rfl, fun _ _ => rfl⟩
  | some c =>
    by_cases hq : m.command = b!"QUIT"
    · have : st' = { st with clients := st.clients.map (fun d => if d.id = id then { d with closing := true } else d) } := by
        show rtStep env cms st (.command id m) = _
        unfold rtStep
        dsimp only
        rw [show st.clients.find? (fun c => c.id = id) = some c from hc]
        dsimp only
        rw [if_pos hq]
      rw [this]
      refine ⟨fun i _ => ?_, fun _ _ => rfl⟩
      unfold rtHeard rtClient
      dsimp only
      rw [rtFind_map _ _ _ (fun c => by split <;> rfl)]
      cases st.clients.find? (fun c => c.id = i) with
      | none => rfl
      | some d => simp only [Option.map_some]; split <;> rfl
    · have hst : st' = _ := rtStep_command hc hq
      rw [hst]
      refine ⟨fun i hi => ?_, fun n hn => ?_⟩
      · unfold rtHeard rtClient
        dsimp only
        rw [rtFind_map _ _ _ (fun c => by split <;> rfl)]
        cases hf : st.clients.find? (fun c => c.id = i) with
        | none => rfl
        | some d =>
          have hd : d.id = i := by simpa using List.find?_some hf
          simp only [Option.map_some]
          rw [if_neg (by rw [hd]; exact hi)]
      · dsimp only
        rw [if_neg (hn c rfl)]

example : (rtClient rtExState 2).map (·.net) = some (some 7) ∧ (rtClient rtExState 4).map (·.net) = some none := by decide +kernel

/-- A client that is not bound to a network gets an answer to every command (except PONG, QUIT and those which other
properties are about), and a command that means nothing to the bouncer is refused by name. -/
theorem C117_bouncer (env : RtEnv) (cms : Nat → CaseMapping) (st : RtState) (id : Nat) (c : RtClient) (m : TMsg)
    (hc : rtClient st id = some c) (hcl : c.closing = false) (hn : c.net = none)
    (h2 : m.command ≠ b!"PONG") (h3 : m.command ≠ b!"QUIT") (ho : m.command ∉ otherProperties) :
    let st' := rtStep env cms st (.command id m)
    st'.conns = st.conns ∧ ∃ l, rtHeard st' id = rtHeard st id ++ l ∧ l ≠ [] ∧
      (m.command ∉ bouncerCommands → m.command ≠ b!"INFO" → ∃ num text, l = [⟨num, [b!"*", m.command, text]⟩] ∧ num ∈ [b!"400", b!"421"]) := by
  intro st'
  have hhe := rtHeard_command (env := env) (cms := cms) hc h3 hcl
  have hup : rtUpstream st c = none := by unfold rtUpstream; rw [hn]
  rw [hup] at hhe
  refine ⟨?_, _, hhe, ?_, ?_⟩
  · show (rtStep env cms st (.command id m)).conns = _
    rw [rtStep_command hc h3, hn]
    rfl
  · by_cases hnames : m.command = b!"NAMES"
    · have : rtHandle env (cms (c.net.getD 0)) c none m = rtNames c none m := by
        unfold rtHandle
        rw [hnames]
        rfl
      rw [this]
      simp [rtNames, rtReply]
    · have hs := rtHandle_single (env := env) (cm := cms (c.net.getD 0)) (c := c) (uc := none) (m := m)
        (fun u hu => by cases hu) (fun _ u _ hu _ => by cases hu) h2 hnames ho
      have hsend : (rtHandle env (cms (c.net.getD 0)) c none m).out ≠ [] := by
        have key : ∀ e, RtSingle m e → e.send = [] → e.queue = [] → e.out ≠ [] := by
          intro e he h1 h2
          cases he with
          | reply l h => exact h
          | send m' h => cases h1
          | queue => cases h2
        refine key _ hs ?_ ?_
        · exact (rtHandle_none ..).1
        · exact (rtHandle_none ..).2
      exact hsend
  · intro hm hi
    rw [rtHandle_plain hm, if_neg hi]
    split
    · exact ⟨_, _, by unfold rtReply rtNoUpstream; rw [hn]; rfl, by simp⟩
    · exact ⟨_, _, by unfold rtDefault; rw [hn]; rfl, by simp⟩

example : ((rtStep rtExEnv (fun _ => .ascii) rtExState (.command 4 ⟨[], none, b!"WALLOPS", []⟩)).clients.map (·.out)).getLast? =
    some [⟨b!"421", [b!"*", b!"WALLOPS", b!"Unknown command"]⟩] := by decide +kernel

/-- While the server of its network is not connected, a client that sends a command that means nothing to the bouncer,
or LIST or NAMES, is told so, once and with the name of the command, and nothing is kept of it. -/
theorem C117_disconnected (env : RtEnv) (cms : Nat → CaseMapping) (st : RtState) (id n : Nat) (c : RtClient) (m : TMsg)
    (hc : rtClient st id = some c) (hcl : c.closing = false) (hn : c.net = some n) (hu : st.conns n = none)
    (hm : m.command ∉ bouncerCommands ∨ m.command = b!"LIST" ∨ m.command = b!"NAMES") :
    let st' := rtStep env cms st (.command id m)
    st'.conns = st.conns ∧ ∃ num addressee,
      rtHeard st' id = rtHeard st id ++ [⟨num, [addressee, m.command, b!"Disconnected from upstream network"]⟩] ∧ num ∈ [b!"400", b!"421"] := by
  intro st'
  have hq : m.command ≠ b!"QUIT" := by
    rcases hm with hm | hm | hm
    · exact fun h => hm (by rw [h]; decide)
    · rw [hm]; decide
    · rw [hm]; decide
  have hhe := rtHeard_command (env := env) (cms := cms) hc hq hcl
  have hup : rtUpstream st c = none := by unfold rtUpstream; rw [hn]; exact hu
  rw [hup] at hhe
  refine ⟨?_, ?_⟩
  · show (rtStep env cms st (.command id m)).conns = _
    rw [rtStep_command hc hq]
    funext k
    dsimp only
    split
    · rename_i h
      rw [hn] at h
      cases h
      rw [hu]
      rfl
    · rfl
  · rcases hm with hm | hm
    · rw [rtHandle_plain hm] at hhe
      split at hhe
      · exact ⟨b!"400", b!"*", by rw [show rtHeard st' id = _ from hhe]; unfold rtReply rtNoUpstream; rw [hn]; rfl, by simp⟩
      · split at hhe
        · exact ⟨b!"421", c.nick, by rw [show rtHeard st' id = _ from hhe]; unfold rtInfo; rw [hn]; rfl, by simp⟩
        · exact ⟨b!"421", b!"*", by rw [show rtHeard st' id = _ from hhe]; unfold rtDefault; rw [hn]; rfl, by simp⟩
    · refine ⟨b!"400", b!"*", ?_, by simp⟩
      rw [show rtHeard st' id = _ from hhe]
      congr 1
      have key : rtHandle env (cms (c.net.getD 0)) c none m = rtReply [rtNoUpstream c m.command] := by
        unfold rtHandle
        rcases hm with hm | hm
        · rw [hm]; rfl
        · rw [hm]; change rtNames c none m = _; unfold rtNames; rw [hm]
      rw [key]
      unfold rtReply rtNoUpstream
      rw [hn]
      rfl

example : ((rtStep rtExEnv (fun _ => .ascii) rtExState (.command 3 ⟨[], none, b!"LIST", []⟩)).clients.map (·.out)) =
    [[], [], [⟨b!"400", [b!"*", b!"LIST", b!"Disconnected from upstream network"]⟩], []] := by decide +kernel

/-- PING is answered with PONG and the same token, whatever the network. -/
theorem C117_ping (env : RtEnv) (cms : Nat → CaseMapping) (st : RtState) (id : Nat) (c : RtClient)
    (tags : GoMap Str Str) (source : Option Prefix) (token : Str) (rest : List Str)
    (hc : rtClient st id = some c) (hcl : c.closing = false) (hr : ∀ d, rest.head? = some d → d = [] ∨ d = env.hostname) :
    rtHeard (rtStep env cms st (.command id ⟨tags, source, b!"PING", token :: rest⟩)) id =
      rtHeard st id ++ [⟨b!"PONG", [env.hostname, token]⟩] := by
  rw [rtHeard_command hc (by simp) hcl]
  congr 1
  have key : ∀ uc, rtHandle env (cms (c.net.getD 0)) c uc ⟨tags, source, b!"PING", token :: rest⟩ =
      rtPing env c ⟨tags, source, b!"PING", token :: rest⟩ := fun _ => rfl
  rw [key]
  unfold rtPing
  dsimp only
  rw [if_neg ?_]
  · rfl
  · rintro ⟨h1, h2⟩
    cases rest with
    | nil => exact h1 rfl
    | cons d t =>
      rcases hr d rfl with h | h
      · exact h1 h
      · exact h2 h

example : ((rtStep rtExEnv (fun _ => .ascii) rtExState (.command 3 ⟨[], none, b!"PING", [b!"x y"]⟩)).clients.map (·.out)) =
    [[], [], [⟨b!"PONG", [b!"bnc", b!"x y"]⟩], []] := by decide +kernel

/-- A client that asks for the modes of its own nick, in whatever case, gets those the server has set, or none if there
is no connection. -/
theorem C117_own_modes (env : RtEnv) (cms : Nat → CaseMapping) (st : RtState) (id : Nat) (c : RtClient)
    (tags : GoMap Str Str) (source : Option Prefix) (name : Str)
    (hc : rtClient st id = some c) (hcl : c.closing = false)
    (hn : match c.net with
      | some n => casemap (cms n) name = casemap (cms n) c.nick
      | none => casemap .ascii name = casemap .ascii c.nick) :
    rtHeard (rtStep env cms st (.command id ⟨tags, source, b!"MODE", [name]⟩)) id = rtHeard st id ++
      [⟨b!"221", [c.nick, b!"+" ++ match c.net.bind st.conns with
        | some uc => uc.facts.modes
        | none => []]⟩] := by
  rw [rtHeard_command hc (by simp) hcl]
  congr 1
  have key : ∀ uc, rtHandle env (cms (c.net.getD 0)) c uc ⟨tags, source, b!"MODE", [name]⟩ =
      rtMode (cms (c.net.getD 0)) c uc ⟨tags, source, b!"MODE", [name]⟩ := fun _ => rfl
  rw [key]
  unfold rtMode rtUpstream rtCm
  dsimp only
  cases h : c.net with
  | none =>
    rw [h] at hn
    dsimp only at hn
    simp [hn, rtReply]
  | some n =>
    rw [h] at hn
    dsimp only at hn
    cases hu : st.conns n <;> simp [hn, rtReply, hu]

example : ((rtStep rtExEnv (fun _ => .ascii) rtExState (.command 1 ⟨[], none, b!"MODE", [b!"A"]⟩)).clients.map (·.out)) =
    [[⟨b!"221", [b!"a", b!"+i"]⟩], [], [], []] := by decide +kernel

/-- MODE of a name which is neither the client's nick nor that of a channel, the empty one included, is refused: the
client is told so, and the server is not asked. -/
theorem C117_mode_refused (env : RtEnv) (cms : Nat → CaseMapping) (st : RtState) (id n : Nat) (c : RtClient) (uc : RtConn)
    (tags : GoMap Str Str) (source : Option Prefix) (name : Str) (rest : List Str)
    (hc : rtClient st id = some c) (hcl : c.closing = false) (hn : c.net = some n) (hu : st.conns n = some uc)
    (hnick : casemap (cms n) name ≠ casemap (cms n) c.nick) (hch : ∀ b, name.head? = some b → b ∉ uc.facts.chanTypes) :
    let st' := rtStep env cms st (.command id ⟨tags, source, b!"MODE", name :: rest⟩)
    rtHeard st' id = rtHeard st id ++ [⟨b!"502", [c.nick, b!"Cannot change mode for other users"]⟩] ∧
      rtSent st' n = rtSent st n ∧ rtQueued st' n = rtQueued st n := by
  intro st'
  have he : rtHandle env (cms n) c (some uc) ⟨tags, source, b!"MODE", name :: rest⟩ =
      rtReply [⟨b!"502", [c.nick, b!"Cannot change mode for other users"]⟩] := by
    show rtMode (cms n) c (some uc) ⟨tags, source, b!"MODE", name :: rest⟩ = _
    unfold rtMode rtCm
    have hf : rtIsChannel uc.facts name = false := by
      unfold rtIsChannel
      cases name with
      | nil => rfl
      | cons b t => simpa using hch b rfl
    simp [hn, hnick, hf]
  have hup : rtUpstream st c = some uc := by unfold rtUpstream; rw [hn]; exact hu
  have hcn := rtConn_command (env := env) (cms := cms) (m := ⟨tags, source, b!"MODE", name :: rest⟩) hc (by simp) hn hu
  rw [he] at hcn
  refine ⟨?_, ?_, ?_⟩
  · show rtHeard (rtStep _ _ _ _) id = _
    rw [rtHeard_command hc (by simp) hcl, hup, show c.net.getD 0 = n by rw [hn]; rfl, he]
    rfl
  · unfold rtSent
    rw [show st'.conns n = _ from hcn, hu]
    rfl
  · unfold rtQueued
    rw [show st'.conns n = _ from hcn, hu]
    simp [rtApply, rtReply]

example : ((rtStep rtExEnv (fun _ => .ascii) rtExState (.command 1 ⟨[], none, b!"MODE", [[], b!"+i"]⟩)).clients.map (·.out)) =
    [[⟨b!"502", [b!"a", b!"Cannot change mode for other users"]⟩], [], [], []] := by decide +kernel

/-- A client that changes the modes of its own nick or of a channel is not answered by the bouncer: the server gets the
change, once and with all its parameters. -/
theorem C117_mode_change (env : RtEnv) (cms : Nat → CaseMapping) (st : RtState) (id n : Nat) (c : RtClient) (uc : RtConn)
    (tags : GoMap Str Str) (source : Option Prefix) (name change : Str) (rest : List Str)
    (hc : rtClient st id = some c) (hcl : c.closing = false) (hn : c.net = some n) (hu : st.conns n = some uc)
    (hname : casemap (cms n) name = casemap (cms n) c.nick ∨ ∃ b ∈ uc.facts.chanTypes, name.head? = some b)
    (hch : change ≠ []) :
    let st' := rtStep env cms st (.command id ⟨tags, source, b!"MODE", name :: change :: rest⟩)
    rtHeard st' id = rtHeard st id ∧ rtQueued st' n = rtQueued st n ∧
      ∃ m', m'.command = b!"MODE" ∧ m'.params = name :: change :: rest ∧ rtSent st' n = rtSent st n ++ [m'] := by
  intro st'
  have he : ∃ m', m'.command = b!"MODE" ∧ m'.params = name :: change :: rest ∧
      rtHandle env (cms n) c (some uc) ⟨tags, source, b!"MODE", name :: change :: rest⟩ = ⟨[], [m'], []⟩ := by
    show ∃ m', _ ∧ _ ∧ rtMode (cms n) c (some uc) ⟨tags, source, b!"MODE", name :: change :: rest⟩ = _
    unfold rtMode rtCm
    by_cases h : casemap (cms n) name = casemap (cms n) c.nick
    · exact ⟨⟨tags, source, b!"MODE", name :: change :: rest⟩, rfl, rfl, by simp [hn, h, hch]⟩
    · obtain ⟨b, hb, hh⟩ := hname.resolve_left h
      have hf : rtIsChannel uc.facts name = true := by
        unfold rtIsChannel
        cases name with
        | nil => cases hh
        | cons a t => cases hh; simpa using hb
      exact ⟨⟨[], none, b!"MODE", name :: change :: rest⟩, rfl, rfl, by simp [hn, h, hch, hf]⟩
  obtain ⟨m', h1, h2, he⟩ := he
  have hup : rtUpstream st c = some uc := by unfold rtUpstream; rw [hn]; exact hu
  have hcn := rtConn_command (env := env) (cms := cms) (m := ⟨tags, source, b!"MODE", name :: change :: rest⟩) hc (by simp) hn hu
  rw [he] at hcn
  refine ⟨?_, ?_, ?_⟩
  · show rtHeard (rtStep _ _ _ _) id = _
    rw [rtHeard_command hc (by simp) hcl, hup, show c.net.getD 0 = n by rw [hn]; rfl, he]
    simp
  · unfold rtQueued
    rw [show st'.conns n = _ from hcn, hu]
    simp [rtApply, rtSend]
  · refine ⟨{ m' with tags := if uc.facts.messageTags then
        (if uc.facts.labeled then GoMap.set m'.tags b!"label" (mintLabel uc.nextLabel id).1 else m'.tags) else [] }, h1, h2, ?_⟩
    unfold rtSent
    rw [show st'.conns n = _ from hcn, hu]
    rfl

example : (rtSent (rtStep rtExEnv (fun _ => .ascii) rtExState (.command 1 ⟨[], none, b!"MODE", [b!"#x", b!"+ov", b!"b", b!"c"]⟩)) 7).map
    (fun m => (m.command, m.params)) = [(b!"MODE", [b!"#x", b!"+ov", b!"b", b!"c"])] := by decide +kernel

/-- A command with too few parameters is refused by the bouncer with the numeric for this, which names the command. -/
theorem C117_short (env : RtEnv) (cms : Nat → CaseMapping) (st : RtState) (id : Nat) (c : RtClient) (m : TMsg)
    (hc : rtClient st id = some c) (hcl : c.closing = false)
    (hm : (m.command ∈ [b!"PING", b!"PONG", b!"MODE", b!"TOPIC"] ∧ m.params.length < 1) ∨
      (m.command = b!"VERIFY" ∧ m.params.length < 2) ∨ (m.command = b!"REGISTER" ∧ m.params.length < 3)) :
    rtHeard (rtStep env cms st (.command id m)) id =
      rtHeard st id ++ [⟨b!"461", [b!"*", m.command, b!"Not enough parameters"]⟩] := by
  obtain ⟨tags, source, cmd, ps⟩ := m
  dsimp only at hm
  have hq : cmd ≠ b!"QUIT" := by
    rintro rfl
    revert hm
    simp
  rw [rtHeard_command hc hq hcl]
  congr 1
  rcases hm with ⟨h, hp⟩ | ⟨rfl, hp⟩ | ⟨rfl, hp⟩
  · have hp : ps = [] := List.length_eq_zero_iff.1 (by omega)
    subst hp
    simp only [List.mem_cons, List.not_mem_nil, or_false] at h
    rcases h with rfl | rfl | rfl | rfl <;> rfl
  · show (rtRegister _ _).out = _
    unfold rtRegister
    rw [if_pos (Or.inr ⟨rfl, hp⟩)]
    rfl
  · show (rtRegister _ _).out = _
    unfold rtRegister
    rw [if_pos (Or.inl ⟨rfl, hp⟩)]
    rfl

example : ((rtStep rtExEnv (fun _ => .ascii) rtExState (.command 4 ⟨[], none, b!"VERIFY", [b!"x"]⟩)).clients.map (·.out)) =
    [[], [], [], [⟨b!"461", [b!"*", b!"VERIFY", b!"Not enough parameters"]⟩]] := by decide +kernel

/-- What a client is told that registers again, asks for nobody, asks for the members of no channel in particular, or
pings another server. -/
theorem C117_told (env : RtEnv) (cms : Nat → CaseMapping) (st : RtState) (id : Nat) (c : RtClient)
    (tags : GoMap Str Str) (source : Option Prefix) (hc : rtClient st id = some c) (hcl : c.closing = false) :
    (∀ ps, rtHeard (rtStep env cms st (.command id ⟨tags, source, b!"USER", ps⟩)) id =
      rtHeard st id ++ [⟨b!"462", [c.nick, b!"You may not reregister"]⟩]) ∧
    rtHeard (rtStep env cms st (.command id ⟨tags, source, b!"WHOIS", []⟩)) id =
      rtHeard st id ++ [⟨b!"431", [c.nick, b!"No nickname given"]⟩] ∧
    rtHeard (rtStep env cms st (.command id ⟨tags, source, b!"WHO", []⟩)) id =
      rtHeard st id ++ [⟨b!"315", [b!"*", b!"*", b!"End of /WHO list"]⟩] ∧
    (∀ n uc, c.net = some n → st.conns n = some uc →
      rtHeard (rtStep env cms st (.command id ⟨tags, source, b!"NAMES", []⟩)) id =
        rtHeard st id ++ [⟨b!"366", [c.nick, b!"*", b!"End of /NAMES list"]⟩]) ∧
    (∀ token server rest, server ≠ [] → server ≠ env.hostname →
      rtHeard (rtStep env cms st (.command id ⟨tags, source, b!"PING", token :: server :: rest⟩)) id =
        rtHeard st id ++ [⟨b!"402", [c.nick, server, b!"No such server"]⟩]) := by
  refine ⟨fun ps => ?_, ?_, ?_, fun n uc hn hu => ?_, fun token server rest h1 h2 => ?_⟩
  · rw [rtHeard_command hc (by simp) hcl]; rfl
  · rw [rtHeard_command hc (by simp) hcl]; rfl
  · rw [rtHeard_command hc (by simp) hcl]; rfl
  · have hup : rtUpstream st c = some uc := by unfold rtUpstream; rw [hn]; exact hu
    rw [rtHeard_command hc (by simp) hcl, hup]; rfl
  · rw [rtHeard_command hc (by simp) hcl]
    congr 1
    show (rtPing env c ⟨tags, source, b!"PING", token :: server :: rest⟩).out = _
    unfold rtPing
    dsimp only
    rw [if_pos ⟨h1, h2⟩]
    rfl

example : ((rtStep rtExEnv (fun _ => .ascii) rtExState (.command 4 ⟨[], none, b!"PING", [b!"x", b!"other"]⟩)).clients.map (·.out)) =
    [[], [], [], [⟨b!"402", [b!"joe", b!"other", b!"No such server"]⟩]] := by decide +kernel

/-- WHO with options, of somebody on a connected network other than the service: if the bouncer knows the answer for
these fields and this token the client gets it, and the end of the list; if not, the command goes to the queue. -/
theorem C117_who_known (env : RtEnv) (cms : Nat → CaseMapping) (st : RtState) (id n : Nat) (c : RtClient) (uc : RtConn)
    (tags : GoMap Str Str) (source : Option Prefix) (mask flags fields token : Str)
    (hc : rtClient st id = some c) (hcl : c.closing = false) (hn : c.net = some n) (hu : st.conns n = some uc)
    (hs : casemap (cms n) mask ≠ b!"bouncerserv")
    (h1 : 37 ∉ flags) (h3 : ∀ x ∈ fields, 97 ≤ x ∧ x ≤ 122) (h4 : 116 ∈ fields) :
    let m : TMsg := ⟨tags, source, b!"WHO", [mask, flags ++ b!"%" ++ fields ++ b!"," ++ token]⟩
    let st' := rtStep env cms st (.command id m)
    (∀ l, uc.facts.who mask fields token = some l →
      rtHeard st' id = rtHeard st id ++ (l ++ [⟨b!"315", [b!"*", mask, b!"End of /WHO list"]⟩]) ∧ rtQueued st' n = rtQueued st n) ∧
    (uc.facts.who mask fields token = none →
      rtHeard st' id = rtHeard st id ∧ rtQueued st' n = rtQueued st n ++ [(id, m)]) := by
  intro m st'
  have ho := (C10_whox_options flags fields token h1 (fun h => by have := h3 44 h; omega) h3).1
  rw [if_pos h4] at ho
  have he : rtHandle env (cms n) c (some uc) m = match uc.facts.who mask fields token with
      | some l => rtReply (l ++ [⟨b!"315", [b!"*", mask, b!"End of /WHO list"]⟩])
      | none => ⟨[], [], [m]⟩ := by
    show rtWho env (cms n) c (some uc) m = _
    unfold rtWho rtCm
    simp only [m, List.headD_cons, ho, hn, hs, Option.isSome_some, if_true, if_false, reduceCtorEq, false_and]
    rfl
  have hup : rtUpstream st c = some uc := by unfold rtUpstream; rw [hn]; exact hu
  have hq : m.command ≠ b!"QUIT" := by simp [m]
  have hcn := rtConn_command (env := env) (cms := cms) (m := m) hc hq hn hu
  have hh := rtHeard_command (env := env) (cms := cms) (m := m) hc hq hcl
  rw [hup, show c.net.getD 0 = n by rw [hn]; rfl, he] at hh
  rw [he] at hcn
  refine ⟨fun l hl => ⟨?_, ?_⟩, fun hl => ⟨?_, ?_⟩⟩
  · rw [hl] at hh; exact hh
  · unfold rtQueued
    rw [show st'.conns n = _ from hcn, hu, hl]
    simp [rtApply, rtReply]
  · rw [hl] at hh; rw [show st' = _ from rfl, hh]; simp
  · unfold rtQueued
    rw [show st'.conns n = _ from hcn, hu, hl]
    simp [rtApply]

example : 37 ∉ b!"o" ∧ (∀ x ∈ b!"tn", 97 ≤ x ∧ x ≤ 122) ∧ 116 ∈ b!"tn" ∧ casemap .ascii b!"bob" ≠ b!"bouncerserv" ∧
    rtQueued (rtStep rtExEnv (fun _ => .ascii) rtExState (.command 1 ⟨[], none, b!"WHO", [b!"bob", b!"o%tn,7"]⟩)) 7 =
      [(1, ⟨[], none, b!"WHO", [b!"bob", b!"o%tn,7"]⟩)] := by decide +kernel

/-- WHO of the service: the service is here, an operator, and a bot if there is a flag for this, which is the one letter
the server of the network has announced, or B on the bouncer. -/
theorem C117_who_service (env : RtEnv) (cms : Nat → CaseMapping) (st : RtState) (id : Nat) (c : RtClient)
    (tags : GoMap Str Str) (source : Option Prefix) (hc : rtClient st id = some c) (hcl : c.closing = false)
    (hme : c.net = none → casemap .ascii b!"BouncerServ" ≠ casemap .ascii c.nick) :
    ∃ bot, rtHeard (rtStep env cms st (.command id ⟨tags, source, b!"WHO", [b!"BouncerServ"]⟩)) id = rtHeard st id ++
      [⟨b!"352", [b!"*", b!"*", b!"BouncerServ", b!"BouncerServ", env.hostname, b!"BouncerServ", b!"H*" ++ bot,
        b!"0 soju bouncer service"]⟩, ⟨b!"315", [b!"*", b!"BouncerServ", b!"End of /WHO list"]⟩] ∧
      (c.net = none → bot = b!"B") ∧
      (∀ n, c.net = some n → st.conns n = none → bot = []) ∧
      (∀ n uc, c.net = some n → st.conns n = some uc → uc.facts.bot = none → bot = []) ∧
      (∀ n uc v, c.net = some n → st.conns n = some uc → uc.facts.bot = some v → bot = if v.length = 1 then v else []) := by
  have hcm : ∀ cm : CaseMapping, casemap cm b!"BouncerServ" = b!"bouncerserv" := by intro cm; cases cm <;> decide
  have key : ∀ uc, rtHandle env (cms (c.net.getD 0)) c uc ⟨tags, source, b!"WHO", [b!"BouncerServ"]⟩ =
      rtWho env (cms (c.net.getD 0)) c uc ⟨tags, source, b!"WHO", [b!"BouncerServ"]⟩ := fun _ => rfl
  rw [rtHeard_command hc (by simp) hcl, key]
  unfold rtWho
  dsimp only
  rw [if_neg ?_, if_pos (hcm _)]
  · refine ⟨_, rfl, ?_, ?_, ?_, ?_⟩
    · intro h; simp [h]
    · intro n h h'; simp [h, h', rtUpstream]
    · intro n uc h h' h''; simp [h, h', h'', rtUpstream]
    · intro n uc v h h' h''; simp [h, h', h'', rtUpstream]
  · rintro ⟨h1, h2⟩
    refine hme h1 ?_
    unfold rtCm at h2
    rw [h1] at h2
    exact h2

example : ((rtStep rtExEnv (fun _ => .ascii) rtExState (.command 4 ⟨[], none, b!"WHO", [b!"BouncerServ"]⟩)).clients.map (·.out)) =
    [[], [], [], [⟨b!"352", [b!"*", b!"*", b!"BouncerServ", b!"BouncerServ", b!"bnc", b!"BouncerServ", b!"H*B",
      b!"0 soju bouncer service"]⟩, ⟨b!"315", [b!"*", b!"BouncerServ", b!"End of /WHO list"]⟩]] := by decide +kernel

/-- On the bouncer a client that asks with WHO for itself is shown with its user name, host and real name, whether it is
away, and a star if the user is an administrator. -/
theorem C117_who_self (env : RtEnv) (cms : Nat → CaseMapping) (st : RtState) (id : Nat) (c : RtClient)
    (tags : GoMap Str Str) (source : Option Prefix) (hc : rtClient st id = some c) (hcl : c.closing = false)
    (hn : c.net = none) (hh : (env.host c.id).head? ≠ some 58) :
    rtHeard (rtStep env cms st (.command id ⟨tags, source, b!"WHO", [c.nick]⟩)) id = rtHeard st id ++
      [⟨b!"352", [b!"*", b!"*", env.username, env.host c.id, env.hostname, c.nick,
        (if c.away then b!"G" else b!"H") ++ (if env.admin then b!"*" else []), b!"0 " ++ c.realname]⟩,
       ⟨b!"315", [b!"*", c.nick, b!"End of /WHO list"]⟩] := by
  have key : ∀ uc, rtHandle env (cms (c.net.getD 0)) c uc ⟨tags, source, b!"WHO", [c.nick]⟩ =
      rtWho env (cms (c.net.getD 0)) c uc ⟨tags, source, b!"WHO", [c.nick]⟩ := fun _ => rfl
  rw [rtHeard_command hc (by simp) hcl, key]
  congr 1
  unfold rtWho
  dsimp only
  rw [if_pos ⟨hn, rfl⟩]
  simp [rtReply, rtEndOfWho, generateWHOXReply, parseWHOXOptions, cut, whoxHostname, whoxChannel, hh]

example : ((rtStep rtExEnv (fun _ => .ascii) rtExState (.command 4 ⟨[], none, b!"WHO", [b!"joe"]⟩)).clients.map (·.out)) =
    [[], [], [], [⟨b!"352", [b!"*", b!"*", b!"joe", b!"host", b!"bnc", b!"joe", b!"H", b!"0 J"]⟩,
      ⟨b!"315", [b!"*", b!"joe", b!"End of /WHO list"]⟩]] := by decide +kernel

/-- REGISTER and VERIFY with enough parameters go to the queue of a server that has registration of accounts.  Without
one, the client is told that this is unavailable, in the form the specification of this extension asks for. -/
theorem C117_register (env : RtEnv) (cms : Nat → CaseMapping) (st : RtState) (id : Nat) (c : RtClient) (m : TMsg)
    (hc : rtClient st id = some c) (hcl : c.closing = false)
    (hm : (m.command = b!"VERIFY" ∧ 2 ≤ m.params.length) ∨ (m.command = b!"REGISTER" ∧ 3 ≤ m.params.length)) :
    let st' := rtStep env cms st (.command id m)
    (∀ n uc, c.net = some n → st.conns n = some uc → uc.facts.accountReg = true →
      rtHeard st' id = rtHeard st id ∧ rtQueued st' n = rtQueued st n ++ [(id, m)]) ∧
    ((∀ n uc, c.net = some n → st.conns n = some uc → uc.facts.accountReg = false) →
      rtHeard st' id = rtHeard st id ++ [⟨b!"FAIL", [m.command, b!"TEMPORARILY_UNAVAILABLE", b!"*",
        b!"Upstream network account registration not supported"]⟩] ∧
      ∀ n, rtQueued st' n = rtQueued st n) := by
  intro st'
  have hq : m.command ≠ b!"QUIT" := by rcases hm with ⟨h, _⟩ | ⟨h, _⟩ <;> rw [h] <;> simp
  have hr : ∀ uc, rtHandle env (cms (c.net.getD 0)) c uc m = rtRegister uc m := by
    intro uc
    obtain ⟨tags, source, cmd, ps⟩ := m
    dsimp only at hm
    rcases hm with ⟨rfl, _⟩ | ⟨rfl, _⟩ <;> rfl
  have hl : ¬((m.command = b!"REGISTER" ∧ m.params.length < 3) ∨ (m.command = b!"VERIFY" ∧ m.params.length < 2)) := by
    rcases hm with ⟨h, h'⟩ | ⟨h, h'⟩ <;> rw [h]
    · rintro (⟨h1, _⟩ | ⟨_, h2⟩)
      · revert h1; decide
      · omega
    · rintro (⟨_, h2⟩ | ⟨h1, _⟩)
      · omega
      · revert h1; decide
  have hh := rtHeard_command (env := env) (cms := cms) (m := m) hc hq hcl
  rw [hr] at hh
  refine ⟨fun n uc hn hu ha => ?_, fun ha => ?_⟩
  · have hup : rtUpstream st c = some uc := by unfold rtUpstream; rw [hn]; exact hu
    have he : rtRegister (some uc) m = ⟨[], [], [m]⟩ := by
      unfold rtRegister
      rw [if_neg hl]
      dsimp only
      rw [if_pos ha]
    have hcn := rtConn_command (env := env) (cms := cms) (m := m) hc hq hn hu
    rw [show cms n = cms (c.net.getD 0) by rw [hn]; rfl, hr, he] at hcn
    rw [hup, he] at hh
    refine ⟨by rw [show st' = _ from rfl, hh]; simp, ?_⟩
    unfold rtQueued
    rw [show st'.conns n = _ from hcn, hu]
    simp [rtApply]
  · have he : rtRegister (rtUpstream st c) m = rtReply [⟨b!"FAIL", [m.command, b!"TEMPORARILY_UNAVAILABLE", b!"*",
        b!"Upstream network account registration not supported"]⟩] := by
      unfold rtRegister
      rw [if_neg hl]
      cases hup : rtUpstream st c with
      | none => rfl
      | some uc =>
        unfold rtUpstream at hup
        cases hn : c.net with
        | none => rw [hn] at hup; cases hup
        | some n =>
          rw [hn] at hup
          dsimp only at hup ⊢
          rw [ha n uc hn hup]
          rfl
    refine ⟨by rw [show st' = _ from rfl, hh, he]; rfl, fun n => ?_⟩
    show rtQueued (rtStep env cms st (.command id m)) n = _
    rw [rtStep_command hc hq, hr, he]
    unfold rtQueued
    dsimp only
    by_cases hn : c.net = some n
    · rw [if_pos hn]
      cases st.conns n with
      | none => rfl
      | some uc => simp [rtApply, rtReply]
    · rw [if_neg hn]

example : ((rtStep rtExEnv (fun _ => .ascii) rtExState (.command 1 ⟨[], none, b!"VERIFY", [b!"x", b!"7"]⟩)).clients.map (·.out)) =
    [[⟨b!"FAIL", [b!"VERIFY", b!"TEMPORARILY_UNAVAILABLE", b!"*", b!"Upstream network account registration not supported"]⟩],
     [], [], []] := by decide +kernel
example : rtQueued (rtStep rtExEnv (fun _ => .ascii) (rtStep rtExEnv (fun _ => .ascii) rtExState
      (.learns 7 { rtExFacts with accountReg := true })) (.command 1 ⟨[], none, b!"VERIFY", [b!"x", b!"7"]⟩)) 7 =
    [(1, ⟨[], none, b!"VERIFY", [b!"x", b!"7"]⟩)] := by decide +kernel

/-- WHOIS of the service is answered by the bouncer on every network and on none, connected or not: every line names
the client and the service, the last one ends the list, and no server is asked. -/
theorem C117_whois_service (env : RtEnv) (cms : Nat → CaseMapping) (st : RtState) (id : Nat) (c : RtClient)
    (tags : GoMap Str Str) (source : Option Prefix) (nick : Str)
    (hc : rtClient st id = some c) (hcl : c.closing = false)
    (hs : nick.map (fun b => if 65 ≤ b ∧ b ≤ 90 then b + 32 else b) = b!"bouncerserv")
    (hme : c.net = none → casemap .ascii nick ≠ casemap .ascii c.nick) :
    let st' := rtStep env cms st (.command id ⟨tags, source, b!"WHOIS", [nick]⟩)
    (∃ l, rtHeard st' id = rtHeard st id ++ (l ++ [⟨b!"318", [c.nick, b!"BouncerServ", b!"End of /WHOIS list"]⟩]) ∧
      (∀ x ∈ l, x.params.take 2 = [c.nick, b!"BouncerServ"]) ∧ b!"311" ∈ l.map (·.command)) ∧
    ∀ n, rtSent st' n = rtSent st n ∧ rtQueued st' n = rtQueued st n := by
  intro st'
  -- the nick has letters only, so every mapping folds it in the same way
  have hlen : ∀ b ∈ nick, (65 ≤ b ∧ b ≤ 90) ∨ (97 ≤ b ∧ b ≤ 122) := by
    intro b hb
    have h := List.mem_map_of_mem (f := fun b => if 65 ≤ b ∧ b ≤ 90 then b + 32 else b) hb
    rw [hs] at h
    by_cases hr : 65 ≤ b ∧ b ≤ 90
    · exact Or.inl hr
    · rw [if_neg hr] at h
      simp only [List.mem_cons, List.not_mem_nil, or_false] at h
      omega
  have hfold : ∀ cm, casemap cm nick = b!"bouncerserv" := by
    intro cm
    rw [← hs]
    cases cm <;>
      (refine List.map_congr_left (fun b hb => ?_)
       have := hlen b hb
       simp only [casemapASCIIByte, casemapRFC1459Byte, casemapRFC1459StrictByte]
       repeat' split
       all_goals omega)
  have hcut : rtWhoisMask [nick] = nick := by
    have h44 : 44 ∉ nick := fun h => by have := hlen 44 h; omega
    unfold rtWhoisMask
    exact cut_free h44
  have key : ∀ uc, rtHandle env (cms (c.net.getD 0)) c uc ⟨tags, source, b!"WHOIS", [nick]⟩ =
      rtWhois env (cms (c.net.getD 0)) c uc ⟨tags, source, b!"WHOIS", [nick]⟩ := fun _ => rfl
  have hq : (⟨tags, source, b!"WHOIS", [nick]⟩ : TMsg).command ≠ b!"QUIT" := by simp
  have hw : ∀ uc, rtWhois env (cms (c.net.getD 0)) c uc ⟨tags, source, b!"WHOIS", [nick]⟩ = rtReply
      [⟨b!"311", [c.nick, b!"BouncerServ", b!"BouncerServ", b!"BouncerServ", b!"*", b!"soju bouncer service"]⟩,
        ⟨b!"312", [c.nick, b!"BouncerServ", env.hostname, b!"soju"]⟩,
        ⟨b!"313", [c.nick, b!"BouncerServ", b!"is the bouncer service"]⟩,
        ⟨b!"330", [c.nick, b!"BouncerServ", b!"BouncerServ", b!"is logged in as"]⟩,
        ⟨b!"335", [c.nick, b!"BouncerServ", b!"is a bot"]⟩,
        ⟨b!"318", [c.nick, b!"BouncerServ", b!"End of /WHOIS list"]⟩] := by
    intro uc
    unfold rtWhois
    rw [if_neg (by simp)]
    rw [hcut, if_neg, if_pos (hfold _)]
    rintro ⟨h1, h2⟩
    refine hme h1 ?_
    unfold rtCm at h2
    rw [h1] at h2
    exact h2
  refine ⟨⟨[⟨b!"311", [c.nick, b!"BouncerServ", b!"BouncerServ", b!"BouncerServ", b!"*", b!"soju bouncer service"]⟩,
        ⟨b!"312", [c.nick, b!"BouncerServ", env.hostname, b!"soju"]⟩,
        ⟨b!"313", [c.nick, b!"BouncerServ", b!"is the bouncer service"]⟩,
        ⟨b!"330", [c.nick, b!"BouncerServ", b!"BouncerServ", b!"is logged in as"]⟩,
        ⟨b!"335", [c.nick, b!"BouncerServ", b!"is a bot"]⟩], ?_, ?_, ?_⟩, ?_⟩
  · show rtHeard (rtStep env cms st (.command id _)) id = _
    rw [rtHeard_command hc hq hcl, key, hw]
    rfl
  · intro x hx
    simp only [List.mem_cons, List.not_mem_nil, or_false] at hx
    rcases hx with rfl | rfl | rfl | rfl | rfl <;> rfl
  · simp
  · intro n
    have hcs : st'.conns n = if c.net = some n then (st.conns n).map (rtApply id (rtHandle env (cms (c.net.getD 0)) c (rtUpstream st c)
        ⟨tags, source, b!"WHOIS", [nick]⟩)) else st.conns n := by
      show (rtStep env cms st (.command id _)).conns n = _
      rw [rtStep_command hc hq]
    unfold rtSent rtQueued
    rw [hcs, key, hw]
    by_cases hn : c.net = some n
    · rw [if_pos hn]
      cases st.conns n with
      | none => exact ⟨rfl, rfl⟩
      | some uc => exact ⟨rfl, by simp [rtApply, rtReply]⟩
    · rw [if_neg hn]
      exact ⟨rfl, rfl⟩

example : b!"BOUNCERserv".map (fun b => if 65 ≤ b ∧ b ≤ 90 then b + 32 else b) = b!"bouncerserv" ∧
    casemap .ascii b!"BOUNCERserv" ≠ casemap .ascii b!"joe" := by decide +kernel

/-- WHOIS may name several nicks, but if the first one is that of the service the others are not asked for: nothing is
sent to the server, and the client is told nothing of them. -/
theorem C117_whois_violated : ∃ m : TMsg, m.command = b!"WHOIS" ∧ m.params = [b!"BouncerServ,bob"] ∧
    let st' := rtStep rtExEnv (fun _ => .ascii) rtExState (.command 1 m)
    rtSent st' 7 = [] ∧ rtQueued st' 7 = [] ∧ ∀ x ∈ rtHeard st' 1, b!"bob" ∉ x.params :=
  ⟨⟨[], none, b!"WHOIS", [b!"BouncerServ,bob"]⟩, rfl, rfl, by decide +kernel⟩

/-- What a client sends after QUIT is still carried out: a KICK reaches the server. -/
theorem C117_quit_violated : ∃ ops : List RtOp, ops = rtExOps ++
      [.command 1 ⟨[], none, b!"QUIT", []⟩, .command 1 ⟨[], none, b!"KICK", [b!"#in", b!"bob"]⟩] ∧
    (rtSent (rtRun rtExEnv (fun _ => .ascii) rtStart ops) 7).map (·.params) = [[b!"#in", b!"bob"]] :=
  ⟨_, rfl, by decide +kernel⟩

/-- The numerics with which the bouncer refuses a command, or ends a list, need not name the client they are for, as
numerics do: in its place there is a star. -/
theorem C117_addressed_violated :
    (∃ c, rtClient rtExState 3 = some c ∧ c.nick = b!"a") ∧
    rtHeard (rtStep rtExEnv (fun _ => .ascii) rtExState (.command 3 ⟨[], none, b!"KICK", [b!"#in", b!"bob"]⟩)) 3 =
      [⟨b!"400", [b!"*", b!"KICK", b!"Disconnected from upstream network"]⟩] ∧
    rtHeard (rtStep rtExEnv (fun _ => .ascii) rtExState (.command 4 ⟨[], none, b!"WHO", [b!"bob"]⟩)) 4 =
      [⟨b!"315", [b!"*", b!"bob", b!"End of /WHO list"]⟩] :=
  ⟨⟨_, rfl, rfl⟩, by decide +kernel, by decide +kernel⟩

end Verif.Props
